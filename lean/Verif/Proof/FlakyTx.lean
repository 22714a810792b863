import Verif.Spec.DeviceTx
import Verif.Proof.DeviceTx
import Verif.Proof.Flaky
import Verif.Proof.FlakyComplete
import Verif.Proof.LabelFree
import Verif.Proof.Transaction
import Verif.Props.Transaction
import Verif.Props.Extrinsic
/-! Transactions, extrinsics and storage entries on unsteady memory. -/
namespace Verif
open Spec

variable {σ α β ε ME : Type} {D : Device σ} {R : Registry} {b : Buf}

/-- In every state: a value with the property, or an error; or, if `pan`, a panic. -/
def SatO (pan : Prop) (x : DevO σ ε α) (P : α → Prop) : Prop :=
  ∀ s, (∃ a, (x s).1 = .ok a ∧ P a) ∨ (∃ e, (x s).1 = .error (.err e)) ∨ (pan ∧ (x s).1 = .error .panic)

variable {pan : Prop}

theorem SatO.ok {a : α} {P : α → Prop} (h : P a) : SatO (σ := σ) (ε := ε) pan (DevO.of (.ok a)) P :=
  fun _ => .inl ⟨a, rfl, h⟩

theorem SatO.err {e : ε} {P : α → Prop} : SatO (σ := σ) pan (DevO.of (.error (.err e))) P :=
  fun _ => .inr (.inl ⟨e, rfl⟩)

theorem SatO.panic {P : α → Prop} (h : pan) : SatO (σ := σ) (ε := ε) pan (DevO.of (.error .panic)) P :=
  fun _ => .inr (.inr ⟨h, rfl⟩)

theorem SatO.of {r : Except (Out ε) α} {P : α → Prop} (hc : Calm r) (h : ∀ a, r = .ok a → P a) :
    SatO (σ := σ) pan (DevO.of r) P := by
  rcases hc with ⟨a, rfl⟩ | ⟨e, rfl⟩
  · exact .ok (h a rfl)
  · exact .err

theorem SatO.bind {x : DevO σ ε α} {k : α → DevO σ ε β} {P : α → Prop} {Q : β → Prop} (hx : SatO pan x P)
    (hk : ∀ a, P a → SatO pan (k a) Q) : SatO pan (x >>= k) Q := by
  intro s
  show (∃ a, (DevO.bind x k s).1 = .ok a ∧ Q a) ∨ (∃ e, (DevO.bind x k s).1 = .error (.err e)) ∨
    (pan ∧ (DevO.bind x k s).1 = .error .panic)
  have h := hx s
  unfold DevO.bind
  rcases hxs : x s with ⟨o, s'⟩
  rw [hxs] at h
  rcases h with ⟨a, h, ha⟩ | ⟨e, h⟩ | ⟨hp, h⟩
  · dsimp only at h; subst h; exact hk a ha s'
  · dsimp only at h; subst h; exact .inr (.inl ⟨e, rfl⟩)
  · dsimp only at h; subst h; exact .inr (.inr ⟨hp, rfl⟩)

theorem SatO.mono {x : DevO σ ε α} {P Q : α → Prop} (hx : SatO pan x P) (h : ∀ a, P a → Q a) : SatO pan x Q := by
  intro s
  rcases hx s with ⟨a, h1, h2⟩ | h1
  · exact .inl ⟨a, h1, h a h2⟩
  · exact .inr h1

theorem SatO.allow {x : DevO σ ε α} {P : α → Prop} {pan' : Prop} (hx : SatO pan x P) (h : pan → pan') : SatO pan' x P := by
  intro s
  rcases hx s with h1 | h1 | ⟨h1, h2⟩
  · exact .inl h1
  · exact .inr (.inl h1)
  · exact .inr (.inr ⟨h h1, h2⟩)

theorem Sat.mapErr {x : Dev σ α} {P : α → Prop} (h : Sat x P) (f : PErr → ε) : SatO pan (x.mapErr f) P := by
  intro s
  unfold Dev.mapErr
  rcases h s with ⟨a, h1, h2⟩ | ⟨e, h1⟩
  · left; rw [h1]; exact ⟨a, rfl, h2⟩
  · right; left; rw [h1]; exact ⟨_, rfl⟩

theorem SatO.arith {r : Res Nat} {n : Nat} (h : r = .ok n) {k : Nat → DevO σ ε α} {P : α → Prop}
    (hk : SatO pan (k n) P) : SatO pan (Device.arith r >>= k) P := by
  subst h; exact hk

/-- A failing memory access may be the reason of the outcome. -/
theorem SatO.expect {x : Dev σ α} {P : α → Prop} (h : Sat x P) (hp : pan) : SatO (ε := ε) pan (expectD x) P := by
  intro s
  unfold expectD
  have h := h s
  rcases hx : x s with ⟨o, s'⟩
  rw [hx] at h
  rcases h with ⟨a, h1, h2⟩ | ⟨e, h1⟩
  · dsimp only at h1; subst h1; exact .inl ⟨a, rfl, h2⟩
  · dsimp only at h1; subst h1; exact .inr (.inr ⟨hp, rfl⟩)

/-! ### Calls -/

/-- Inside a compact there is no call. -/
theorem encLoose_compact_pallet {c : Bool} {id : Nat} {v : Value} {bs : Bytes} (h : EncLoose R c id v bs) :
    c = true → ∀ item p n fs, v ≠ .pallet item p n fs := by
  induction h with
  | newtype _ _ _ _ ih => exact ih
  | primitive _ _ _ h => intro _ item p n fs hv; subst hv; cases h
  | perCompact | unit | tuple => intro _ item p n fs hv; cases hv
  | _ => intro h; cases h

/-- A struct is decoded into a struct. -/
theorem decodeD_composite (H : HonestD External D R b) {id pos : Nat} {p : Propagated} {t : Typ} {fields : List Field}
    (hr : R.resolve id = .ok t) (hs : Structural t.path) (hd : t.typeDef = .composite fields) (s : σ) {a : ED × Nat}
    (ho : (decodeD D (.symbol id) pos p s).1 = .ok a) : ∃ fds, a.1.data = .composite fds := by
  have bind_inv : ∀ {α β : Type} {x : Dev σ α} {k : α → Dev σ β} {s : σ} {r : β}, ((x >>= k) s).1 = .ok r →
      ∃ y s', (x s).1 = .ok y ∧ (k y s').1 = .ok r := by
    intro α β x k s r h
    have h : (Dev.bind x k s).1 = .ok r := h
    unfold Dev.bind at h
    rcases hx : x s with ⟨o, s'⟩
    rw [hx] at h
    cases o with
    | error e => cases h
    | ok y => exact ⟨y, s', rfl, h⟩
  unfold decodeD at ho
  rw [show (D.len - pos) * (D.size + 1) + D.size + 2 = ((D.len - pos) * (D.size + 1) + D.size + 1) + 1 from rfl] at ho
  generalize (D.len - pos) * (D.size + 1) + D.size + 1 = n at ho
  unfold decodeFD decodeStepD at ho
  obtain ⟨t', s1, h1, ho⟩ := bind_inv ho
  have ht : t' = (t, id) := by
    rcases resolveD_follows H (.symbol id) s with ⟨e, _, h2⟩ | h2
    · rw [h1] at h2; cases h2
    · rw [h1] at h2
      have h2 : (Except.ok t' : Res (Typ × Nat)) = (R.get id >>= fun ty => .ok (ty, id)) := h2
      rw [get_ok.2 hr] at h2
      cases h2
      rfl
  subst ht
  obtain ⟨r, s2, h2, ho⟩ := bind_inv ho
  have hrec : Recog R b t pos r := by
    rcases fromTypeD_sat H t pos s1 with ⟨r', h3, h4⟩ | ⟨e, h3⟩
    · dsimp only at h2; rw [h2] at h3; cases h3; exact h4
    · dsimp only at h2; rw [h2] at h3; cases h3
  unfold Structural at hs
  cases hrec with
  | plain _ =>
    dsimp only at ho
    unfold decodeCheckedD decodeTypeDefD at ho
    rw [hd] at ho
    obtain ⟨l, s3, _, ho⟩ := bind_inv ho
    cases ho
    exact ⟨_, rfl⟩
  | fixed h1 => rw [h1] at hs; exact hs.elim
  | era h1 => rw [h1] at hs; exact hs.elim
  | h256 h1 => rw [h1] at hs; exact hs.elim
  | per h1 => rw [h1] at hs; exact hs.elim
  | signature _ h1 => obtain ⟨_, vs, _, _, hd', _⟩ := h1; rw [hd] at hd'; cases hd'
  | pallet _ h1 => obtain ⟨_, vs, _, _, _, hd', _⟩ := h1; rw [hd] at hd'; cases hd'

/-- What is decoded as a call is one. -/
theorem decodeD_call (H : HonestD External D R b) (id pos : Nat) : Sat (decodeD D (.symbol id) pos Propagated.new)
    (fun r => ∀ c, r.1.data.asCall = some c → Took b pos r.2 (IsCallLoose R id c)) := by
  intro s
  rcases decodeD_symbol H id pos Propagated.new s with ⟨r, h1, h2⟩ | h
  · refine .inl ⟨r, h1, fun c hc => ?_⟩
    obtain ⟨bs, k1, k2, k3⟩ := h2
    refine ⟨bs, k1, k2, ?_⟩
    rw [asCall_some] at hc
    have hv : edValue r.1 = .pallet .call c.palletName c.variantName (fdsValue c.fields) := by
      obtain ⟨⟨d, i⟩, q⟩ := r
      dsimp only at hc
      subst hc
      rfl
    rw [hv] at k3
    change EncLoose R false id _ bs at k3
    generalize hw : Value.pallet .call c.palletName c.variantName (fdsValue c.fields) = w at k3
    cases k3 with
    | newtype hr hs hd _ =>
      obtain ⟨fds, h⟩ := decodeD_composite H hr hs hd s h1
      rw [h] at hc; cases hc
    | @pallet _ _ inner v i j item name ps hr hp hsel hl hps =>
      simp only [Value.pallet.injEq] at hw
      obtain ⟨rfl, rfl, h5, h6⟩ := hw
      exact ⟨_, i, j, inner, v, ps, hr, hp, hsel, h5, hl, hps, h6, rfl⟩
    | primitive _ _ _ h => subst hw; cases h
    | compact _ _ _ h => exact absurd hw.symm (encLoose_compact_pallet h rfl _ _ _ _)
    | _ => cases hw
  · exact .inr h

/-- No panic in the metadata. -/
theorem calm_ok {M : Except (Out ε) α} (h : Calm M) {ε' : Type} (f : ε → ε') :
    SatO (σ := σ) pan (DevO.of (mapOut f M)) (fun a => M = .ok a) :=
  SatO.of (h.mapOut f) (fun _ h => mapOut_ok.1 h)

variable {M : Metadata ME}

theorem decodeAsCallUnmarkedD_satO (H : HonestD External D M.types b) (hM : CalmMetadata M) (pos : Nat) :
    SatO pan (decodeAsCallUnmarkedD D M pos) (fun r => ∃ id, M.callTy = .ok id ∧ Took b pos r.2 (IsCallLoose M.types id r.1)) := by
  refine SatO.bind (calm_ok hM.callTy _) (fun id hid => SatO.bind ((decodeD_call H id pos).mapErr _) (fun r hr => ?_))
  cases hc : r.1.data.asCall with
  | none => exact .err
  | some c => exact .ok ⟨id, hid, hr c hc⟩

theorem between_limited {n p q : Nat} (hq : q ≤ n) :
    between { b with bytes := b.bytes.take n } p q = between b p q := by
  unfold between
  rw [List.drop_take, List.take_take, Nat.min_eq_left (by omega)]

theorem decodeAsCallD_satO (H : HonestD External D M.types b) (hM : CalmMetadata M) {m : Marks}
    (hm : m.callStart ≤ m.extensionsStart ∧ m.extensionsStart ≤ b.len) :
    SatO pan (decodeAsCallD D M m) (fun c => ∃ id, M.callTy = .ok id ∧
      IsCallLoose M.types id c (between b m.callStart m.extensionsStart)) := by
  obtain ⟨D', h1, h2, _⟩ := limitLength_honest H hm.2
  unfold decodeAsCallD
  rw [h1]
  dsimp only
  refine SatO.bind (decodeAsCallUnmarkedD_satO h2 hM _) (fun r hr => ?_)
  split
  · exact .err
  · rename_i hq
    obtain ⟨id, g1, bs, g2, g3, g4⟩ := hr
    refine .ok ⟨id, g1, ?_⟩
    have h5 := has_between g2
    have hq : r.2 = m.extensionsStart := by simpa using hq
    rw [← g3, hq, between_limited (Nat.le_refl _)] at h5
    rw [h5]
    exact g4

/-! ### Marks -/

theorem markD_satO (H : HonestD External D R b) (hp : ¬ pan → D.word.wraps = true ∨ ¬ PrefixOverflows D.word b.bytes) :
    SatO pan (markD (ME := ME) D) (fun m => ∃ callBytes extBytes : Bytes,
      b.bytes = compactEncode callBytes.length ++ callBytes ++ extBytes ∧
      m.callStart = (compactEncode callBytes.length).length ∧ m.extensionsStart = m.callStart + callBytes.length) := by
  refine SatO.bind ((Follows.sat (getCompactD_follows H (compactUInt .u32) 0) (getCompact_fine _ _ _)
    (P := fun r => getCompact (compactUInt .u32) b 0 = .ok r) (fun a h => h)).mapErr _) (fun c hc => ?_)
  obtain ⟨n, q⟩ := c
  have hov := getCompact_overflows (w := D.word) hc
  have hst := getCompact_start hc
  obtain ⟨g1, g2, rfl⟩ := getCompact_sound hc
  dsimp only
  rw [u32_word H hst.1]
  have hroom := H.word.room
  have key : ∀ e, (0 + (compactEncode n).length + n < D.word.cap → e = 0 + (compactEncode n).length + n) →
      SatO (σ := σ) (ε := SErr ME) pan ((D.read (0 + (compactEncode n).length) n).mapErr (fun _ => SErr.cutSignable) >>= fun _ =>
        DevO.of (.ok (Marks.mk (0 + (compactEncode n).length) e)))
        (fun m => ∃ callBytes extBytes : Bytes, b.bytes = compactEncode callBytes.length ++ callBytes ++ extBytes ∧
          m.callStart = (compactEncode callBytes.length).length ∧ m.extensionsStart = m.callStart + callBytes.length) := by
    intro e he
    refine SatO.bind ((Follows.sat (H.read _ n) (readSlice_fine _ _ _)
      (P := fun x => b.readSlice (0 + (compactEncode n).length) n = .ok x) (fun a h => h)).mapErr _) (fun x hx => ?_)
    have hle := readSlice_le hx
    obtain ⟨⟨pre, post, k1, k2⟩, k3⟩ := readSlice_ok hx
    obtain ⟨pre', post', k4, k5⟩ := g2
    rw [List.length_eq_zero_iff.1 k5, List.nil_append] at k4
    refine .ok ⟨x, post, ?_, ?_, ?_⟩
    · rw [k3]
      have : pre = compactEncode n := by
        have h1 := congrArg (List.take (compactEncode n).length) (k1.symm.trans k4)
        rw [List.append_assoc, List.take_left' (by omega), List.take_left' rfl] at h1
        exact h1
      rw [← this]
      exact k1
    · rw [k3]; simp
    · rw [k3]; exact he (by omega)
  by_cases hlt : 0 + (compactEncode n).length + n < D.word.cap
  · exact SatO.arith (word_add hlt) (key _ (fun _ => rfl))
  · have hw := word_add_prefix (len := b.len) hst.2 hst.1 H.word (Nat.le_of_not_lt hlt)
    by_cases hwr : D.word.wraps = true
    · rw [if_pos hwr] at hw
      exact SatO.arith hw (key _ (fun h => absurd h hlt))
    · rw [if_neg hwr] at hw
      rw [hw]
      by_cases hpan : pan
      · exact SatO.bind (P := fun _ => False) (fun _ => .inr (.inr ⟨hpan, rfl⟩)) (fun _ h => h.elim)
      · rcases hp hpan with h | h
        · exact absurd h hwr
        · exact absurd (hov (Nat.le_of_not_lt hlt)) h

/-! ### Extensions -/

/-- An item is decoded. -/
def ItemLoose (R : Registry) (name : String) (id : Nat) (d : ED) (bs : Bytes) : Prop :=
  EncLoose R false id (edValue d) bs ∧
    (LabelFree R id → Enc R false id (edValue d) bs ∧ Shown R (extLabel name) [] id d)

theorem decodeD_item (H : HonestD External D R b) (name : String) (id pos : Nat) :
    Sat (decodeD D (.symbol id) pos (.fromExtMeta name)) (fun r => Took b pos r.2 (ItemLoose R name id r.1)) := by
  intro s
  rcases decodeD_symbol H id pos (.fromExtMeta name) s with ⟨r, h1, bs, k1, k2, k3⟩ | h
  · refine .inl ⟨r, h1, bs, k1, k2, k3, fun hl => ?_⟩
    rcases decodeD_labelFree H hl pos (.fromExtMeta name) s with ⟨e, _, h2⟩ | h2
    · rw [h1] at h2; cases h2
    · rw [h1] at h2
      obtain ⟨d, q⟩ := r
      have hs := decode_shown h2.symm
      obtain ⟨bs', g1, g2, g3⟩ := (decode_parses R b _ _).sound h2.symm
      have g4 := run_sound.symbol g3
      have : bs' = bs := by
        dsimp only at k2
        have hlen : bs'.length = bs.length := by omega
        rcases k1 with rfl | k1
        · exact List.eq_nil_of_length_eq_zero hlen
        · rcases g1 with rfl | g1
          · exact (List.eq_nil_of_length_eq_zero hlen.symm).symm
          · exact g1.unique k1 hlen
      subst this
      refine ⟨g4, ?_⟩
      simpa [Propagated.fromExtMeta, extLabel_eq] using hs
  · exact .inr h

theorem Spec.ItemsLoose.append {R : Registry} {l l' : List (String × Nat)} {ds ds' : List ED} {bs bs' : Bytes}
    (h : ItemsLoose R l ds bs) (h' : ItemsLoose R l' ds' bs') : ItemsLoose R (l ++ l') (ds ++ ds') (bs ++ bs') := by
  obtain ⟨c, rfl, h2, h3, h4⟩ := h
  obtain ⟨c', rfl, h2', h3', h4'⟩ := h'
  refine ⟨c ++ c', by simp, by simp [h2, h2'], by simp [h3, h3'], ?_⟩
  intro x hx
  rw [List.zip_append (by omega), List.zip_append (by rw [List.length_zip]; omega)] at hx
  rcases List.mem_append.1 hx with hx | hx
  · exact h4 x hx
  · exact h4' x hx

theorem extensionsLoopD_satO (H : HonestD External D R b) (sel : SignedExt → Nat) (es : List SignedExt) : ∀ pos,
    SatO pan (extensionsLoopD (ME := ME) D sel es pos) (fun r => Took b pos r.2
      (ItemsLoose R (es.map fun e => (e.identifier, sel e)) r.1)) := by
  induction es with
  | nil => intro pos; exact .ok (Took.nil ⟨[], rfl, rfl, rfl, by simp⟩)
  | cons e es ih =>
    intro pos
    refine SatO.bind ((decodeD_item H e.identifier (sel e) pos).mapErr _) (fun d hd => ?_)
    refine SatO.bind (ih d.2) (fun r hr => ?_)
    refine .ok (hd.append hr ?_)
    rintro x y hx hy
    have h1 : ItemsLoose R [(e.identifier, sel e)] [d.1] x :=
      ⟨[x], by simp, rfl, rfl, by intro z hz; simp only [List.zip_cons_cons, List.zip_nil_right, List.mem_singleton] at hz; subst hz; exact hx⟩
    exact h1.append hy

theorem decodeExtensionsUnmarkedD_satO (H : HonestD External D M.types b) (hM : CalmMetadata M) (pos : Nat) (hpos : pos ≤ b.len)
    (expected : Option Bytes) : SatO pan (decodeExtensionsUnmarkedD D M pos expected) (fun exts =>
      ∃ signed spec, M.signedExtensions = .ok signed ∧ M.specNameVersion = .ok spec ∧
        ItemsLoose M.types (extItems signed) exts (b.bytes.drop pos) ∧
        Accepted exts spec.printedSpecVersion expected) := by
  refine SatO.bind (calm_ok hM.signedExtensions _) (fun signed hsg => ?_)
  refine SatO.bind (extensionsLoopD_satO H _ signed pos) (fun r hr => ?_)
  refine SatO.bind (extensionsLoopD_satO H _ signed r.2) (fun r' hr' => ?_)
  split
  · exact .err
  · rename_i hq
    refine SatO.bind (calm_ok hM.specNameVersion _) (fun spec hsp => ?_)
    refine SatO.bind (SatO.of (P := fun u => checkExtensions (ME := ME) (r.1 ++ r'.1) spec.printedSpecVersion expected = .ok u)
      ?_ (fun a h => h)) (fun u hu => ?_)
    · exact checkExtensions_calm
    · refine .ok ⟨signed, spec, hsg, hsp, ?_, checkExtensions_iff'.1 hu⟩
      obtain ⟨x, h1, h2, h3⟩ := hr
      obtain ⟨y, h4, h5, h6⟩ := hr'
      have hq : r'.2 = b.len := by rw [H.len] at hq; simpa using hq
      rw [h2] at h4
      have hall := (h1.append h4).at (by simpa [Buf.len] using hpos)
      have hbs : b.bytes.drop pos = x ++ y := by
        have := (at_iff.1 hall).2
        rw [← this, List.take_of_length_le]
        unfold Buf.len at hq
        simp; omega
      rw [hbs]
      exact h3.append h6

/-! ### Whole transactions -/

theorem keepErr_satO {x : DevO σ (SErr ME) α} {P : α → Prop} (h : SatO pan x P) :
    SatO pan (keepErr x) (fun r => ∀ a, r = .ok a → P a) := by
  intro s
  have h := h s
  unfold keepErr
  rcases hx : x s with ⟨o, s'⟩
  rw [hx] at h
  rcases h with ⟨a, h1, h2⟩ | ⟨e, h1⟩ | ⟨hp, h1⟩
  · dsimp only at h1; subst h1; exact .inl ⟨_, rfl, fun a' h => by cases h; exact h2⟩
  · dsimp only at h1; subst h1; exact .inl ⟨_, rfl, fun a' h => by cases h⟩
  · dsimp only at h1; subst h1; exact .inr (.inr ⟨hp, rfl⟩)

theorem parseTransactionD_satO (H : HonestD External D M.types b) (hM : CalmMetadata M)
    (hp : ¬ pan → D.word.wraps = true ∨ ¬ PrefixOverflows D.word b.bytes) (expected : Option Bytes) :
    SatO pan (parseTransactionD D M expected) (fun r => ∃ signed spec, ∃ callBytes extBytes : Bytes,
      M.signedExtensions = .ok signed ∧ M.specNameVersion = .ok spec ∧
      b.bytes = compactEncode callBytes.length ++ callBytes ++ extBytes ∧
      ItemsLoose M.types (extItems signed) r.extensions extBytes ∧
      Accepted r.extensions spec.printedSpecVersion expected ∧
      ∀ c, r.callResult = .ok c → ∃ id, M.callTy = .ok id ∧ IsCallLoose M.types id c callBytes) := by
  refine SatO.bind (markD_satO H hp) (fun m hm => ?_)
  obtain ⟨cb, eb, hb, h1, h2⟩ := hm
  have hlen : b.len = (compactEncode cb.length).length + cb.length + eb.length := by
    unfold Buf.len; rw [hb]; simp; omega
  refine SatO.bind (decodeExtensionsUnmarkedD_satO H hM _ (by omega) expected) (fun exts hx => ?_)
  refine SatO.bind (keepErr_satO (decodeAsCallD_satO H hM ⟨by omega, by omega⟩)) (fun c hc => ?_)
  obtain ⟨signed, spec, g1, g2, g3, g4⟩ := hx
  have e2 : b.bytes.drop m.extensionsStart = eb := by
    rw [h2, h1, hb, List.drop_left' (by simp)]
  have e1 : between b m.callStart m.extensionsStart = cb := by
    unfold between
    rw [h2, h1, hb, List.append_assoc, List.drop_left' rfl, show ∀ a b : Nat, a + b - a = b by omega,
      List.take_left' rfl]
  rw [e2] at g3
  rw [e1] at hc
  exact .ok ⟨signed, spec, cb, eb, g1, g2, hb, g3, g4, hc⟩

theorem parseTransactionUnmarkedD_satO (H : HonestD External D M.types b) (hM : CalmMetadata M) (expected : Option Bytes) :
    SatO pan (parseTransactionUnmarkedD D M expected) (fun r => ∃ id signed spec, ∃ callBytes extBytes : Bytes,
      M.callTy = .ok id ∧ M.signedExtensions = .ok signed ∧ M.specNameVersion = .ok spec ∧
      b.bytes = callBytes ++ extBytes ∧ IsCallLoose M.types id r.call callBytes ∧
      ItemsLoose M.types (extItems signed) r.extensions extBytes ∧
      Accepted r.extensions spec.printedSpecVersion expected) := by
  refine SatO.bind (decodeAsCallUnmarkedD_satO H hM 0) (fun c hc => ?_)
  obtain ⟨id, g0, bs, k1, k2, k3⟩ := hc
  have k1 := k1.at (Nat.zero_le _)
  have hle := k1.le
  refine SatO.bind (decodeExtensionsUnmarkedD_satO H hM _ (by unfold Buf.len; omega) expected) (fun exts hx => ?_)
  obtain ⟨signed, spec, g1, g2, g3, g4⟩ := hx
  refine .ok ⟨id, signed, spec, bs, b.bytes.drop c.2, g0, g1, g2, ?_, k3, g3, g4⟩
  obtain ⟨pre, post, k4, k5⟩ := k1
  rw [List.length_eq_zero_iff.1 k5, List.nil_append] at k4
  rw [k2, k4, List.drop_left' (by omega)]

/-! ### Unchecked extrinsics -/

theorem extrinsicPartD_satO (H : HonestD External D R b) (id pos : Nat) :
    SatO pan (extrinsicPartD (ME := ME) D id pos) (fun r => Took b pos r.2 (EncLoose R false id (edValue r.1))) :=
  (decodeD_symbol H id pos Propagated.new).mapErr _

theorem extrinsicCallD_satO (H : HonestD External D R b) (id pos : Nat) :
    SatO pan (extrinsicCallD (ME := ME) D id pos) (fun c => ∃ pos', Took b pos pos' (IsCallLoose R id c)) := by
  refine SatO.bind ((decodeD_call H id pos).mapErr _) (fun r hr => ?_)
  cases hc : r.1.data.asCall with
  | none => exact .err
  | some c => exact .ok ⟨r.2, hr c hc⟩

/-- Bytes taken, and the rest. -/
theorem Took.drop {pos pos' : Nat} {Q : Bytes → Prop} (h : Took b pos pos' Q) (hp : pos ≤ b.len) :
    ∃ bs, Q bs ∧ b.bytes.drop pos = bs ++ b.bytes.drop pos' ∧ pos' ≤ b.len := by
  obtain ⟨bs, h1, rfl, h3⟩ := h
  have h1 := h1.at (by simpa [Buf.len] using hp)
  have hle := h1.le
  refine ⟨bs, h3, ?_, by unfold Buf.len; omega⟩
  obtain ⟨pre, post, h4, rfl⟩ := h1
  rw [h4, List.append_assoc, List.drop_left' rfl, ← List.append_assoc, List.drop_left' (by simp)]

theorem extrinsicContentD_satO (H : HonestD External D R b) (params : ExtrinsicParams) (vb v : UInt8) (pos : Nat)
    (hp : pos ≤ b.len) : SatO pan (extrinsicContentD (ME := ME) D params vb v pos) (fun u =>
      vb.toNat % 128 = v.toNat ∧ ∃ tail, ExtrinsicPartsLoose R params (decide (128 ≤ vb.toNat)) u (b.bytes.drop pos) tail) := by
  unfold extrinsicContentD
  split
  · exact .err
  · rename_i hv
    have hv : vb.toNat % 128 = v.toNat := by
      rw [version_bits] at hv; omega
    split
    · rename_i hs
      rw [sign_bit] at hs
      refine SatO.bind (extrinsicCallD_satO H _ _) (fun c hc => ?_)
      obtain ⟨q, hc⟩ := hc
      obtain ⟨cb, k1, k2, _⟩ := hc.drop hp
      refine .ok ⟨hv, b.bytes.drop q, ?_⟩
      exact ⟨by simp; omega, cb, k1, k2⟩
    · rename_i hs
      rw [sign_bit] at hs
      refine SatO.bind (extrinsicPartD_satO H _ _) (fun a ha => ?_)
      obtain ⟨ab, a1, a2, a3⟩ := ha.drop hp
      refine SatO.bind (extrinsicPartD_satO H _ _) (fun g hg => ?_)
      obtain ⟨gb, g1, g2, g3⟩ := hg.drop a3
      refine SatO.bind (extrinsicPartD_satO H _ _) (fun x hx => ?_)
      obtain ⟨xb, x1, x2, x3⟩ := hx.drop g3
      refine SatO.bind (extrinsicCallD_satO H _ _) (fun c hc => ?_)
      obtain ⟨q, hc⟩ := hc
      obtain ⟨cb, k1, k2, _⟩ := hc.drop x3
      refine .ok ⟨hv, b.bytes.drop q, ?_⟩
      refine ⟨by simp; omega, ab, gb, xb, cb, a1, g1, x1, k1, ?_⟩
      rw [a2, g2, x2, k2]
      simp

variable {MC : CompleteMetadata ME}

theorem decodeUncheckedExtrinsicD_satO (H : HonestD External D MC.types b) (h1 : Calm MC.extrinsicTypeParams)
    (h2 : Calm MC.extrinsicVersion) (hp : ¬ pan → D.word.wraps = true ∨ ¬ PrefixOverflows D.word b.bytes) :
    SatO pan (decodeUncheckedExtrinsicD D MC) (fun u =>
      ∃ params version, ∃ (vb : UInt8) (body tail : Bytes), MC.extrinsicTypeParams = .ok params ∧
        MC.extrinsicVersion = .ok version ∧ body.length + 1 < 2 ^ 32 ∧
        b.bytes = compactEncode (body.length + 1) ++ vb :: body ∧ vb.toNat % 128 = version.toNat ∧
        ExtrinsicPartsLoose MC.types params (decide (128 ≤ vb.toNat)) u body tail) := by
  refine SatO.bind (calm_ok h1 _) (fun params hpar => ?_)
  refine SatO.bind ((Follows.sat (getCompactD_follows H (compactUInt .u32) 0) (getCompact_fine _ _ _)
    (P := fun r => getCompact (compactUInt .u32) b 0 = .ok r) (fun a h => h)).mapErr _) (fun c hc => ?_)
  obtain ⟨n, q⟩ := c
  have hov := getCompact_overflows (w := D.word) hc
  have hst := getCompact_start hc
  obtain ⟨g1, g2, hq⟩ := getCompact_sound hc
  rw [Nat.zero_add] at hq
  dsimp only
  rw [u32_word H hst.1]
  have hroom := H.word.room
  unfold extrinsicFrameD
  by_cases hlt : q + n < D.word.cap
  · refine SatO.arith (word_add hlt) ?_
    rw [H.len]
    split
    · rename_i h; exact SatO.arith (word_sub (Nat.le_of_lt h)) .err
    · split
      · exact .err
      · have hn : q + n = b.len := by omega
        refine SatO.bind ((Follows.sat (readByteD_follows H q) (readByte_fine _ _)
          (P := fun x => b.readByte q = .ok x) (fun a h => h)).mapErr _) (fun vb hvb => ?_)
        have hat := readByte_ok hvb
        have hle := hat.le
        simp only [List.length_singleton] at hle
        refine SatO.arith (word_add (by unfold Buf.len at hroom; omega)) ?_
        refine SatO.bind (calm_ok h2 _) (fun version hver => ?_)
        refine (extrinsicContentD_satO H params vb version (q + 1) (by unfold Buf.len; omega)).mono ?_
        rintro u ⟨hv, tail, ht⟩
        have hb : b.bytes = compactEncode n ++ vb :: b.bytes.drop (q + 1) := by
          obtain ⟨pre, post, k1, k2⟩ := g2
          rw [List.length_eq_zero_iff.1 k2, List.nil_append] at k1
          obtain ⟨pre', post', k3, k4⟩ := hat
          have e1 : pre' = compactEncode n := by
            have h := congrArg (List.take q) (k3.symm.trans k1)
            rw [List.append_assoc, List.take_left' (by omega), List.take_left' (by omega)] at h
            exact h
          subst e1
          conv => lhs; rw [k3]
          rw [k3, List.drop_left' (by simp; omega)]
          simp
        have hlen : (b.bytes.drop (q + 1)).length + 1 = n := by
          rw [List.length_drop]; unfold Buf.len at hn; omega
        refine ⟨params, version, vb, b.bytes.drop (q + 1), tail, hpar, hver, ?_, ?_, hv, ht⟩
        · rw [hlen]; exact hst.1
        · rw [hlen]; exact hb
  · have hw := word_add_prefix (len := b.len) hst.2 hst.1 H.word (Nat.le_of_not_lt hlt)
    by_cases hwr : D.word.wraps = true
    · rw [if_pos hwr] at hw
      refine SatO.arith hw ?_
      have := H.word.words
      rw [H.len, if_neg (by omega), if_pos (by omega)]
      exact .err
    · rw [if_neg hwr] at hw
      rw [hw]
      by_cases hpan : pan
      · exact SatO.bind (P := fun _ => False) (fun _ => .inr (.inr ⟨hpan, rfl⟩)) (fun _ h => h.elim)
      · rcases hp hpan with h | h
        · exact absurd h hwr
        · exact absurd (hov (Nat.le_of_not_lt hlt)) h

/-! ### Storage entries -/

theorem cutHashD_satO (H : HonestD External D R b) (kind : HashKind) (ty pos : Nat) : SatO pan (cutHashD D kind ty pos)
    (fun r => Took b pos r.2 (fun bs => bs.length = kind.len ∧ r.1 = .hash kind bs ty)) := by
  refine SatO.bind ((Follows.sat (H.read pos kind.len) (readSlice_fine _ _ _)
    (P := fun x => b.readSlice pos kind.len = .ok x) (fun a h => h)).mapErr _) (fun x hx => ?_)
  have hle := readSlice_le hx
  obtain ⟨g1, g2⟩ := readSlice_ok hx
  rw [if_neg (by simp [g2])]
  refine SatO.arith (word_add (by have := H.word.room; omega)) ?_
  exact .ok ⟨x, .inr g1, by rw [g2], g2, rfl⟩

theorem checkHashD_satO (H : HonestD External D R b) (hp : pan) (n : Nat) (f : Bytes → Bytes) (ty pos : Nat) :
    SatO pan (checkHashD D n f ty pos) (fun r => Took b pos r.2 (fun bs => ∃ d k, r.1 = .parsed d ∧
      EncLoose R false ty (edValue d) k ∧ (f k).length = n ∧ bs = f k ++ k)) := by
  refine SatO.bind ((Follows.sat (H.read pos n) (readSlice_fine _ _ _)
    (P := fun x => b.readSlice pos n = .ok x) (fun a h => h)).mapErr _) (fun x hx => ?_)
  have hle := readSlice_le hx
  obtain ⟨g1, g2⟩ := readSlice_ok hx
  rw [if_neg (by simp [g2])]
  refine SatO.arith (word_add (by have := H.word.room; omega)) ?_
  refine SatO.bind ((decodeD_symbol H ty (pos + n) Propagated.new).mapErr _) (fun d hd => ?_)
  obtain ⟨k, k1, k2, k3⟩ := hd
  refine SatO.arith (word_sub (by omega)) ?_
  refine SatO.bind (SatO.expect (Follows.sat (H.read (pos + n) (d.2 - (pos + n))) (readSlice_fine _ _ _)
    (P := fun y => b.readSlice (pos + n) (d.2 - (pos + n)) = .ok y) (fun a h => h)) hp) (fun y hy => ?_)
  obtain ⟨m1, m2⟩ := readSlice_ok hy
  have hat := k1.at (by have := m1.le; omega)
  have : y = k := m1.unique hat (by omega)
  subst this
  split
  · exact .err
  · rename_i he
    have he : x = f y := by simpa using he
    subst he
    refine .ok ⟨f y ++ y, .inr (at_append.2 ⟨g1, by rw [g2]; exact hat⟩), ?_, d.1, y, rfl, k3, g2, rfl⟩
    rw [k2, List.length_append, g2]; omega

variable {HF : HashFns}

theorem processHasherD_satO (H : HonestD External D R b) (h : Hasher) (hp : Concat h → pan) (ty pos : Nat) :
    SatO pan (processHasherD D HF h ty pos) (fun r => Took b pos r.2 (KeyPartLoose HF R h ty r.1)) := by
  have cut : ∀ kind, (∀ bs, bs.length = kind.len → KeyPartLoose HF R h ty (.hash kind bs ty) bs) →
      SatO pan (cutHashD D kind ty pos) (fun r => Took b pos r.2 (KeyPartLoose HF R h ty r.1)) := by
    intro kind hk
    refine (cutHashD_satO H kind ty pos).mono (fun r hr => hr.mono ?_)
    rintro bs ⟨h1, h2⟩
    rw [h2]; exact hk bs h1
  cases h with
  | blake2_128 => exact cut _ (fun bs h => .blake2_128 h)
  | blake2_256 => exact cut _ (fun bs h => .blake2_256 h)
  | twox128 => exact cut _ (fun bs h => .twox128 h)
  | twox256 => exact cut _ (fun bs h => .twox256 h)
  | blake2_128Concat =>
    refine (checkHashD_satO H (hp (.inl rfl)) 16 HF.blake2_128 ty pos).mono (fun r hr => hr.mono ?_)
    rintro bs ⟨d, k, h1, h2, h3, rfl⟩
    rw [h1]; exact .blake2_128Concat h2 h3
  | twox64Concat =>
    refine (checkHashD_satO H (hp (.inr rfl)) 8 HF.twox64 ty pos).mono (fun r hr => hr.mono ?_)
    rintro bs ⟨d, k, h1, h2, h3, rfl⟩
    rw [h1]; exact .twox64Concat h2 h3
  | identity =>
    refine SatO.bind ((decodeD_symbol H ty pos Propagated.new).mapErr _) (fun d hd => .ok (hd.mono ?_))
    intro bs h
    exact .identity h

theorem hashersLoopD_satO (H : HonestD External D R b) : ∀ (hs : List Hasher) (tys : List Nat) (pos : Nat),
    tys.length = hs.length → (∀ h ∈ hs, Concat h → pan) →
    SatO pan (hashersLoopD D HF hs tys pos) (fun r => Took b pos r.2 (KeyPartsLoose HF R hs tys r.1)) := by
  intro hs
  induction hs with
  | nil =>
    intro tys pos hl _
    cases tys with
    | nil => exact .ok (Took.nil .nil)
    | cons => simp at hl
  | cons h hs ih =>
    intro tys pos hl hp
    cases tys with
    | nil => simp at hl
    | cons ty tys =>
      refine SatO.bind (processHasherD_satO H h (hp h (by simp)) ty pos) (fun part hpart => ?_)
      refine SatO.bind (ih tys part.2 (by simpa using hl) (fun h' hm => hp h' (by simp [hm]))) (fun rest hrest => ?_)
      exact .ok (hpart.append hrest (fun x y => .cons))

theorem Follows.satOk {x : Dev σ α} {r : Res α} (h : Follows External x r) (hf : Fine r) : Sat x (fun a => r = .ok a) :=
  h.sat hf (fun _ h => h)

theorem keyDataD_satO (H : HonestD External D R b) (hashers : List Hasher) (hp : ∀ h ∈ hashers, Concat h → pan) (keyTy pos : Nat) :
    SatO pan (keyDataD D HF hashers keyTy pos) (fun r => Took b pos r.2 (KeyLoose HF R hashers keyTy r.1)) := by
  have many : hashers.length ≠ 1 → SatO pan (do
      let ty ← (D.get keyTy).mapErr .parsingKey
      match ty.typeDef with
      | .tuple elems =>
        if elems.length ≠ hashers.length then DevO.of (.error (.err .multipleHashesNumberMismatch))
        else do
          let c ← hashersLoopD D HF hashers elems pos
          DevO.of (.ok (KeyData.tupleHash c.1 (Info.fromTy ty), c.2))
      | _ => DevO.of (.error (.err .multipleHashesNotATuple)))
      (fun r => Took b pos r.2 (KeyLoose HF R hashers keyTy r.1)) := by
    intro hne
    refine SatO.bind (((H.get keyTy).satOk (R.get_fine keyTy)).mapErr _) (fun ty hty => ?_)
    have hr := get_ok.1 hty
    cases hd : ty.typeDef with
    | tuple elems =>
      dsimp only
      split
      · exact .err
      · rename_i hl
        refine SatO.bind (hashersLoopD_satO H hashers elems pos (by omega) hp) (fun c hc => ?_)
        exact .ok (hc.mono (fun bs h => ⟨hne, ty, elems, hr, hd, rfl, h⟩))
    | _ => exact .err
  unfold keyDataD
  match hashers, hp, many with
  | [h], hp, _ =>
    exact SatO.bind (processHasherD_satO H h (hp h (by simp)) keyTy pos) (fun c hc =>
      .ok (hc.mono (fun bs hb => ⟨h, rfl, hb⟩)))
  | [], _, many => exact many (by simp)
  | _ :: _ :: _, _, many => exact many (by simp)

theorem processKeyMappedD_satO (H : HonestD External D R b) (hashers : List Hasher) (hp : ∀ h ∈ hashers, Concat h → pan)
    (keyTy pos : Nat) (hpos : pos ≤ b.len) : SatO pan (processKeyMappedD D HF hashers keyTy pos)
      (fun k => KeyLoose HF R hashers keyTy k (b.bytes.drop pos)) := by
  refine SatO.bind (keyDataD_satO H hashers hp keyTy pos) (fun r hr => ?_)
  split
  · rename_i hq
    rw [H.len] at hq
    obtain ⟨bs, h1, h2, _⟩ := hr.drop hpos
    rw [hq] at h2
    have : b.bytes.drop b.len = [] := by unfold Buf.len; simp
    rw [this, List.append_nil] at h2
    rw [h2]
    exact .ok h1
  · exact .err

theorem decodeAll_sat (H : HonestD External D R b) (id : Nat) : Sat (decodeAllAsTypeD D id)
    (fun d => EncLoose R false id (edValue d) b.bytes) := by
  refine Sat.bind (decodeD_symbol H id 0 Propagated.new) (fun r hr => ?_)
  split
  · exact Sat.of (Fine.err _) (by intro a h; cases h)
  · rename_i hq
    have hq : r.2 = b.len := by rw [H.len] at hq; simpa using hq
    obtain ⟨bs, h1, h2, _⟩ := hr.drop (Nat.zero_le _)
    rw [hq, List.drop_zero] at h2
    have : b.bytes.drop b.len = [] := by unfold Buf.len; simp
    rw [this, List.append_nil] at h2
    rw [h2]
    exact Sat.ok h1

theorem decodeStorageEntryD_satO {DK DV : Device σ} {k v : Buf} (HK : HonestD External DK R k) (HV : HonestD External DV R v)
    (entry : Entry) : SatO (UsesConcat entry) (decodeStorageEntryD HF DK DV entry)
      (StorageLoose HF R entry k.bytes v.bytes) := by
  unfold decodeStorageEntryD
  dsimp only
  rw [HK.len]
  split
  · exact .err
  · rename_i h32
    unfold StorageLoose
    cases he : entry.ty with
    | plain valueTy =>
      dsimp only
      split
      · exact .err
      · rename_i hl
        refine SatO.bind ((decodeAll_sat HV valueTy).mapErr _) (fun d hd => ?_)
        exact .ok ⟨rfl, by unfold Buf.len at hl; omega, rfl, hd⟩
    | map hashers keyTy valueTy =>
      dsimp only
      refine SatO.bind (processKeyMappedD_satO HK hashers ?_ keyTy 32 (by omega)) (fun key hkey => ?_)
      · intro h hm hc
        unfold UsesConcat
        rw [he]
        exact ⟨h, hm, hc⟩
      · refine SatO.bind ((decodeAll_sat HV valueTy).mapErr _) (fun d hd => ?_)
        exact .ok ⟨rfl, k.bytes.take 32, k.bytes.drop 32, (List.take_append_drop _ _).symm, by
          unfold Buf.len at h32; simp; omega, hkey, hd⟩

end Verif
