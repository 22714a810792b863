import Verif.Spec.Hostile
import Verif.Proof.HostileValues
/-! Transactions, extrinsics and storage entries, whatever the memory answers. -/
namespace Verif
open Spec

variable {σ α β ε ME : Type} {D : Device σ} {R : Registry} {b : Buf} {pan : Prop}

theorem Sat.with {x : Dev σ α} {P Q : α → Prop} {T : Prop} (h : Sat x P) (h' : T → Post x Q) : Sat x (fun a => P a ∧ (T → Q a)) := by
  intro s
  rcases h s with ⟨a, h1, h2⟩ | h1
  · exact .inl ⟨a, h1, h2, fun t => h' t s a h1⟩
  · exact .inr h1

theorem Spec.Untrusted.hostile (h : Untrusted D) (hs : D.size = R.size) (hl : D.len = b.len) : HostileD D R b where
  len := hl
  size := hs
  word := by rw [← hl]; exact h.word
  read := fun pos n s => by
    rcases h.read pos n s with ⟨bs, h1, h2, h3⟩ | h
    · exact .inl ⟨bs, h1, h2, by omega⟩
    · exact .inr h
  get := fun id s => by
    unfold Device.get
    have hr := h.resolve id s
    rcases hx : D.resolve id s with ⟨o, s'⟩
    rw [hx] at hr
    cases o with
    | ok t => exact .inl ⟨t, rfl, by rw [← hs]; exact hr t rfl⟩
    | error e => exact .inr ⟨_, rfl⟩

theorem Spec.TellsTypes.true (h : TellsTypes D R) : TrueTypes D R := by
  intro id s t ht
  unfold Device.get at ht
  have hr := h.resolve id s
  rcases hx : D.resolve id s with ⟨o, s'⟩
  rw [hx] at hr ht
  cases o with
  | ok t' => cases ht; exact get_ok.2 (hr _ rfl)
  | error e => cases ht

/-! ### Calls -/

theorem decodeD_composite_any (H : HostileD D R b) (T : TrueTypes D R) {id pos : Nat} {p : Propagated} {t : Typ} {fields : List Field}
    (hr : R.resolve id = .ok t) (hs : Structural t.path) (hd : t.typeDef = .composite fields) :
    Post (decodeD D (.symbol id) pos p) (fun a => ∃ fds, a.1.data = .composite fds) := by
  unfold decodeD
  rw [show (D.len - pos) * (D.size + 1) + D.size + 2 = ((D.len - pos) * (D.size + 1) + D.size + 1) + 1 from rfl]
  generalize (D.len - pos) * (D.size + 1) + D.size + 1 = n
  unfold decodeFD decodeStepD
  refine Post.bind (P := fun r : Typ × Nat => r = (t, id)) (Post.bind (T id) (fun t' ht => Post.ok ?_)) (fun r hrt => ?_)
  · rw [get_ok.2 hr] at ht; cases ht; rfl
  subst hrt
  refine Post.bind (fromTypeD_post T H.size t pos) (fun r hrec => ?_)
  obtain ⟨r, q⟩ := r
  unfold Structural at hs
  dsimp only at hrec ⊢
  cases hrec with
  | plain _ =>
    unfold decodeCheckedD decodeTypeDefD
    rw [hd]
    exact Post.bind (Post.trivially _) (fun l _ => Post.ok ⟨_, rfl⟩)
  | fixed h1 => rw [h1] at hs; exact hs.elim
  | era h1 => rw [h1] at hs; exact hs.elim
  | h256 h1 => rw [h1] at hs; exact hs.elim
  | per h1 => rw [h1] at hs; exact hs.elim
  | signature h1 => obtain ⟨_, vs, _, _, hd', _⟩ := h1; rw [hd] at hd'; cases hd'
  | pallet h1 => obtain ⟨_, vs, _, _, _, hd', _⟩ := h1; rw [hd] at hd'; cases hd'

theorem decodeD_call_any (H : HostileD D R b) (T : TrueTypes D R) (id pos : Nat) :
    Post (decodeD D (.symbol id) pos Propagated.new) (fun r => ∀ c, r.1.data.asCall = some c → CallAs R id c) := by
  intro s r h1 c hc
  obtain ⟨bs, k3⟩ := decodeD_post H T id pos Propagated.new s r h1
  rw [asCall_some] at hc
  have hv : edValue r.1 = .pallet .call c.palletName c.variantName (fdsValue c.fields) := by
    obtain ⟨⟨d, i⟩, q⟩ := r
    dsimp only at hc
    subst hc
    rfl
  rw [hv] at k3
  change EncLoose R false id _ bs at k3
  refine ⟨bs, ?_⟩
  generalize hw : Value.pallet .call c.palletName c.variantName (fdsValue c.fields) = w at k3
  cases k3 with
  | newtype hr hs hd _ =>
    obtain ⟨fds, h⟩ := decodeD_composite_any H T hr hs hd s _ h1
    rw [h] at hc; cases hc
  | @pallet _ _ inner v i j item name ps hr hp hsel hl hps =>
    simp only [Value.pallet.injEq] at hw
    obtain ⟨rfl, rfl, h5, h6⟩ := hw
    exact ⟨_, i, j, inner, v, ps, hr, hp, hsel, h5, hl, hps, h6, rfl⟩
  | primitive _ _ _ h => subst hw; cases h
  | compact _ _ _ h => exact absurd hw.symm (encLoose_compact_pallet h rfl _ _ _ _)
  | _ => cases hw

variable {M : Metadata ME}

theorem decodeAsCallUnmarkedD_any (H : HostileD D R b) (hM : CalmMetadata M) (pos : Nat) :
    SatO pan (decodeAsCallUnmarkedD D M pos) (fun r => Fwd b pos r.2 ∧
      (TrueTypes D R → ∃ id, M.callTy = .ok id ∧ CallAs R id r.1)) := by
  refine SatO.bind (calm_ok hM.callTy _) (fun id hid =>
    SatO.bind ((Sat.with (decodeD_safe H id pos Propagated.new) (fun T => decodeD_call_any H T id pos)).mapErr _) (fun r hr => ?_))
  cases hc : r.1.data.asCall with
  | none => exact .err
  | some c => exact .ok ⟨hr.1, fun T => ⟨id, hid, hr.2 T c hc⟩⟩

theorem limitLength_hostile (H : HostileD D R b) {n : Nat} (hn : n ≤ b.len) :
    ∃ D', D.limitLength n = some D' ∧ HostileD D' R { b with bytes := b.bytes.take n } ∧ (TrueTypes D R → TrueTypes D' R) := by
  have hlen : ({ b with bytes := b.bytes.take n } : Buf).len = n := by
    simp only [Buf.len, List.length_take] at hn ⊢; omega
  have hlim : D.limitLength n = some { D with
      len := n
      read := fun pos k =>
        if n < pos then Dev.of (.error (.err (.buffer (.outOfRange pos n))))
        else if n < pos + k then Dev.of (.error (.err (.buffer (.dataTooShort pos k))))
        else D.read pos k } := by
    unfold Device.limitLength; rw [H.len, if_neg (by omega)]
  refine ⟨_, hlim, ⟨?_, H.size, ?_, ?_, H.get⟩, fun T => T⟩
  · exact hlen.symm
  · rw [hlen]; exact ⟨H.word.words, by have := H.word.room; show n + 2 ^ 30 ≤ D.word.cap; omega⟩
  · intro pos k
    dsimp only
    rw [hlen]
    split
    · exact Sat.err
    · split
      · exact Sat.err
      · exact (H.read pos k).mono (fun bs h => ⟨h.1, by omega⟩)

theorem decodeAsCallD_any (H : HostileD D R b) (hM : CalmMetadata M) {m : Marks} (hm : m.extensionsStart ≤ b.len) :
    SatO pan (decodeAsCallD D M m) (fun c => TrueTypes D R → ∃ id, M.callTy = .ok id ∧ CallAs R id c) := by
  obtain ⟨D', h1, h2, h3⟩ := limitLength_hostile H hm
  unfold decodeAsCallD
  rw [h1]
  dsimp only
  refine SatO.bind (decodeAsCallUnmarkedD_any h2 hM _) (fun r hr => ?_)
  split
  · exact .err
  · exact .ok (fun T => hr.2 (h3 T))

theorem compactU32_lt {n : Nat} (h : ∃ h, compactUInt .u32 h = some n) : n < 2 ^ 32 := by
  obtain ⟨x, h⟩ := h
  exact compactUInt_lt h

theorem markD_any (H : HostileD D R b) (hp : PrefixFits D) :
    SatO pan (markD (ME := ME) D) (fun m => m.callStart ≤ m.extensionsStart ∧ m.extensionsStart ≤ b.len) := by
  refine SatO.bind ((getCompactD_safe H (compactUInt .u32) 0).mapErr _) (fun c hc => ?_)
  obtain ⟨n, q⟩ := c
  obtain ⟨_, hq, hn⟩ := hc
  have hn := compactU32_lt hn
  dsimp only at hq hn ⊢
  rw [H.u32 hn]
  have hroom := H.word.room
  have key : ∀ e, (q + n ≤ b.len → e = q + n) →
      SatO (σ := σ) (ε := SErr ME) pan ((D.read q n).mapErr (fun _ => SErr.cutSignable) >>= fun _ => DevO.of (.ok (Marks.mk q e)))
        (fun m => m.callStart ≤ m.extensionsStart ∧ m.extensionsStart ≤ b.len) := by
    intro e he
    refine SatO.bind ((H.read q n).mapErr _) (fun x hx => .ok ?_)
    have := he hx.2
    dsimp only
    omega
  by_cases hlt : q + n < D.word.cap
  · exact SatO.arith (word_add hlt) (key _ (fun _ => rfl))
  · have hw := word_add_prefix (len := b.len) hq hn H.word (Nat.le_of_not_lt hlt)
    rcases hp with hp | hp
    · rw [if_pos hp] at hw
      exact SatO.arith hw (key _ (fun h => by omega))
    · rw [H.len] at hp; omega

/-! ### Extensions -/

theorem Spec.ItemsAs.append {l l' : List (String × Nat)} {ds ds' : List ED}
    (h : ItemsAs R l ds) (h' : ItemsAs R l' ds') : ItemsAs R (l ++ l') (ds ++ ds') := by
  refine ⟨by simp [h.1, h'.1], fun x hx => ?_⟩
  rw [List.zip_append h.1.symm] at hx
  rcases List.mem_append.1 hx with hx | hx
  · exact h.2 x hx
  · exact h'.2 x hx

theorem extensionsLoopD_any (H : HostileD D R b) (sel : SignedExt → Nat) (es : List SignedExt) : ∀ pos,
    SatO pan (extensionsLoopD (ME := ME) D sel es pos) (fun r =>
      TrueTypes D R → ItemsAs R (es.map fun e => (e.identifier, sel e)) r.1) := by
  induction es with
  | nil => intro pos; exact .ok (fun _ => ⟨rfl, by simp⟩)
  | cons e es ih =>
    intro pos
    refine SatO.bind ((Sat.with (decodeD_safe H (sel e) pos (.fromExtMeta e.identifier))
      (fun T => decodeD_post H T (sel e) pos (.fromExtMeta e.identifier))).mapErr _) (fun d hd => ?_)
    refine SatO.bind (ih d.2) (fun r hr => .ok (fun T => ?_))
    have h1 : ItemsAs R [(e.identifier, sel e)] [d.1] := ⟨rfl, by
      intro x hx
      simp only [List.zip_cons_cons, List.zip_nil_right, List.mem_singleton] at hx
      subst hx
      exact hd.2 T⟩
    exact h1.append (hr T)

theorem decodeExtensionsUnmarkedD_any (H : HostileD D R b) (hM : CalmMetadata M) (pos : Nat)
    (expected : Option Bytes) : SatO pan (decodeExtensionsUnmarkedD D M pos expected) (fun exts =>
      ∃ signed spec, M.signedExtensions = .ok signed ∧ M.specNameVersion = .ok spec ∧
        Accepted exts spec.printedSpecVersion expected ∧
        (TrueTypes D R → ItemsAs R (extItems signed) exts)) := by
  refine SatO.bind (calm_ok hM.signedExtensions _) (fun signed hsg => ?_)
  refine SatO.bind (extensionsLoopD_any H _ signed pos) (fun r hr => ?_)
  refine SatO.bind (extensionsLoopD_any H _ signed r.2) (fun r' hr' => ?_)
  split
  · exact .err
  · refine SatO.bind (calm_ok hM.specNameVersion _) (fun spec hsp => ?_)
    refine SatO.bind (SatO.of (P := fun u => checkExtensions (ME := ME) (r.1 ++ r'.1) spec.printedSpecVersion expected = .ok u)
      checkExtensions_calm (fun a h => h)) (fun u hu => ?_)
    exact .ok ⟨signed, spec, hsg, hsp, checkExtensions_iff'.1 hu, fun T => (hr T).append (hr' T)⟩

/-! ### Whole transactions -/

theorem parseTransactionD_any (H : HostileD D R b) (hM : CalmMetadata M) (hp : PrefixFits D) (expected : Option Bytes) :
    SatO pan (parseTransactionD D M expected) (fun r => ∃ signed spec,
      M.signedExtensions = .ok signed ∧ M.specNameVersion = .ok spec ∧
      Accepted r.extensions spec.printedSpecVersion expected ∧
      (TrueTypes D R → ItemsAs R (extItems signed) r.extensions ∧
        ∀ c, r.callResult = .ok c → ∃ id, M.callTy = .ok id ∧ CallAs R id c)) := by
  refine SatO.bind (markD_any H hp) (fun m hm => ?_)
  refine SatO.bind (decodeExtensionsUnmarkedD_any H hM _ expected) (fun exts hx => ?_)
  refine SatO.bind (keepErr_satO (decodeAsCallD_any H hM hm.2)) (fun c hc => ?_)
  obtain ⟨signed, spec, g1, g2, g3, g4⟩ := hx
  exact .ok ⟨signed, spec, g1, g2, g3, fun T => ⟨g4 T, fun c' h => hc c' h T⟩⟩

theorem parseTransactionUnmarkedD_any (H : HostileD D R b) (hM : CalmMetadata M) (expected : Option Bytes) :
    SatO pan (parseTransactionUnmarkedD D M expected) (fun r => ∃ signed spec,
      M.signedExtensions = .ok signed ∧ M.specNameVersion = .ok spec ∧
      Accepted r.extensions spec.printedSpecVersion expected ∧
      (TrueTypes D R → ItemsAs R (extItems signed) r.extensions ∧
        ∃ id, M.callTy = .ok id ∧ CallAs R id r.call)) := by
  refine SatO.bind (decodeAsCallUnmarkedD_any H hM 0) (fun c hc => ?_)
  refine SatO.bind (decodeExtensionsUnmarkedD_any H hM _ expected) (fun exts hx => ?_)
  obtain ⟨signed, spec, g1, g2, g3, g4⟩ := hx
  exact .ok ⟨signed, spec, g1, g2, g3, fun T => ⟨g4 T, hc.2 T⟩⟩

/-! ### Unchecked extrinsics -/

theorem extrinsicPartD_any (H : HostileD D R b) (id pos : Nat) :
    SatO pan (extrinsicPartD (ME := ME) D id pos) (fun r => TrueTypes D R → ValueAs R id (edValue r.1)) :=
  ((Sat.with (decodeD_safe H id pos Propagated.new) (fun T => decodeD_post H T id pos Propagated.new)).mapErr _).mono
    (fun _ h => h.2)

theorem extrinsicCallD_any (H : HostileD D R b) (id pos : Nat) :
    SatO pan (extrinsicCallD (ME := ME) D id pos) (fun c => TrueTypes D R → CallAs R id c) := by
  refine SatO.bind ((Sat.with (decodeD_safe H id pos Propagated.new) (fun T => decodeD_call_any H T id pos)).mapErr _)
    (fun r hr => ?_)
  cases hc : r.1.data.asCall with
  | none => exact .err
  | some c => exact .ok (fun T => hr.2 T c hc)

theorem extrinsicContentD_any (H : HostileD D R b) (params : ExtrinsicParams) (vb v : UInt8) (pos : Nat) :
    SatO pan (extrinsicContentD (ME := ME) D params vb v pos) (fun u => TrueTypes D R → ExtrinsicAs R params u) := by
  unfold extrinsicContentD
  split
  · exact .err
  · split
    · exact SatO.bind (extrinsicCallD_any H _ _) (fun c hc => .ok hc)
    · refine SatO.bind (extrinsicPartD_any H _ _) (fun a ha => ?_)
      refine SatO.bind (extrinsicPartD_any H _ _) (fun g hg => ?_)
      refine SatO.bind (extrinsicPartD_any H _ _) (fun x hx => ?_)
      exact SatO.bind (extrinsicCallD_any H _ _) (fun c hc => .ok (fun T => ⟨ha T, hg T, hx T, hc T⟩))

variable {MC : CompleteMetadata ME}

theorem decodeUncheckedExtrinsicD_any (H : HostileD D R b) (h1 : Calm MC.extrinsicTypeParams)
    (h2 : Calm MC.extrinsicVersion) (hp : PrefixFits D) :
    SatO pan (decodeUncheckedExtrinsicD D MC) (fun u => ∃ params, MC.extrinsicTypeParams = .ok params ∧
      (TrueTypes D R → ExtrinsicAs R params u)) := by
  refine SatO.bind (calm_ok h1 _) (fun params hpar => ?_)
  refine SatO.bind ((getCompactD_safe H (compactUInt .u32) 0).mapErr _) (fun c hc => ?_)
  obtain ⟨n, q⟩ := c
  obtain ⟨_, hq, hn⟩ := hc
  have hn := compactU32_lt hn
  dsimp only at hq hn ⊢
  rw [H.u32 hn]
  have hroom := H.word.room
  unfold extrinsicFrameD
  have key : ∀ sum, SatO (σ := σ) (ε := UErr ME) pan (if D.len < sum then do
        let minimalLength ← Device.arith (D.word.sub sum D.len)
        DevO.of (.error (.err (.parsing (.buffer (.dataTooShort D.len minimalLength)))))
      else if sum < D.len then DevO.of (.error (.err (.parsing (.someDataNotUsedBlob sum))))
      else do
        let versionByte ← (D.readByte q).mapErr .parsing
        let pos ← Device.arith (D.word.add q 1)
        let version ← DevO.of (mapOut .metaStructure MC.extrinsicVersion)
        extrinsicContentD D params versionByte version pos) (fun u => ∃ params, MC.extrinsicTypeParams = .ok params ∧
          (TrueTypes D R → ExtrinsicAs R params u)) := by
    intro sum
    split
    · rename_i h; exact SatO.arith (word_sub (Nat.le_of_lt h)) .err
    · split
      · exact .err
      · refine SatO.bind ((readByteD_safe H q).mapErr _) (fun vb hvb => ?_)
        refine SatO.arith (word_add (by omega)) ?_
        refine SatO.bind (calm_ok h2 _) (fun version hver => ?_)
        exact (extrinsicContentD_any H params vb version (q + 1)).mono (fun u hu => ⟨params, hpar, hu⟩)
  by_cases hlt : q + n < D.word.cap
  · exact SatO.arith (word_add hlt) (key _)
  · have hw := word_add_prefix (len := b.len) hq hn H.word (Nat.le_of_not_lt hlt)
    rcases hp with hp | hp
    · rw [if_pos hp] at hw
      exact SatO.arith hw (key _)
    · rw [H.len] at hp; omega

/-! ### Storage entries -/

theorem cutHashD_any (H : HostileD D R b) (kind : HashKind) (ty pos : Nat) : SatO pan (cutHashD D kind ty pos)
    (fun r => ∃ bs : Bytes, bs.length = kind.len ∧ r.1 = .hash kind bs ty) := by
  refine SatO.bind ((H.read pos kind.len).mapErr _) (fun x hx => ?_)
  rw [if_neg (by simp [hx.1])]
  refine SatO.arith (word_add (by have := H.word.room; omega)) ?_
  exact .ok ⟨x, hx.1, rfl⟩

theorem checkHashD_any (H : HostileD D R b) (hp : pan) (n : Nat) (f : Bytes → Bytes) (ty pos : Nat) :
    SatO pan (checkHashD D n f ty pos) (fun r => TrueTypes D R → ∃ d, r.1 = .parsed d ∧ ValueAs R ty (edValue d)) := by
  refine SatO.bind ((H.read pos n).mapErr _) (fun x hx => ?_)
  rw [if_neg (by simp [hx.1])]
  refine SatO.arith (word_add (by have := H.word.room; omega)) ?_
  refine SatO.bind ((Sat.with (decodeD_safe H ty (pos + n) Propagated.new)
    (fun T => decodeD_post H T ty (pos + n) Propagated.new)).mapErr _) (fun d hd => ?_)
  refine SatO.arith (word_sub hd.1.le) ?_
  refine SatO.bind (SatO.expect (H.read (pos + n) (d.2 - (pos + n))) hp) (fun y hy => ?_)
  split
  · exact .err
  · exact .ok (fun T => ⟨d.1, rfl, hd.2 T⟩)

variable {HF : HashFns}

theorem processHasherD_any (H : HostileD D R b) (h : Hasher) (hp : Concat h → pan) (ty pos : Nat) :
    SatO pan (processHasherD D HF h ty pos) (fun r => TrueTypes D R → KeyPartAs R h ty r.1) := by
  cases h with
  | blake2_128 => exact (cutHashD_any H _ ty pos).mono (fun r hr _ => hr)
  | blake2_256 => exact (cutHashD_any H _ ty pos).mono (fun r hr _ => hr)
  | twox128 => exact (cutHashD_any H _ ty pos).mono (fun r hr _ => hr)
  | twox256 => exact (cutHashD_any H _ ty pos).mono (fun r hr _ => hr)
  | blake2_128Concat => exact checkHashD_any H (hp (.inl rfl)) 16 HF.blake2_128 ty pos
  | twox64Concat => exact checkHashD_any H (hp (.inr rfl)) 8 HF.twox64 ty pos
  | identity =>
    exact SatO.bind ((Sat.with (decodeD_safe H ty pos Propagated.new)
      (fun T => decodeD_post H T ty pos Propagated.new)).mapErr _) (fun d hd => .ok (fun T => ⟨d.1, rfl, hd.2 T⟩))

theorem hashersLoopD_any (H : HostileD D R b) : ∀ (hs : List Hasher) (tys : List Nat) (pos : Nat),
    tys.length = hs.length → (∀ h ∈ hs, Concat h → pan) →
    SatO pan (hashersLoopD D HF hs tys pos) (fun r => TrueTypes D R →
      r.1.length = hs.length ∧ ∀ x ∈ hs.zip (tys.zip r.1), KeyPartAs R x.1 x.2.1 x.2.2) := by
  intro hs
  induction hs with
  | nil =>
    intro tys pos hl _
    cases tys with
    | nil => exact .ok (fun _ => ⟨rfl, by simp⟩)
    | cons => simp at hl
  | cons h hs ih =>
    intro tys pos hl hp
    cases tys with
    | nil => simp at hl
    | cons ty tys =>
      refine SatO.bind (processHasherD_any H h (hp h (by simp)) ty pos) (fun part hpart => ?_)
      refine SatO.bind (ih tys part.2 (by simpa using hl) (fun h' hm => hp h' (by simp [hm]))) (fun rest hrest => ?_)
      refine .ok (fun T => ⟨by simp [(hrest T).1], fun x hx => ?_⟩)
      simp only [List.zip_cons_cons, List.mem_cons] at hx
      rcases hx with rfl | hx
      · exact hpart T
      · exact (hrest T).2 x hx

theorem keyDataD_any (H : HostileD D R b) (hashers : List Hasher) (hp : ∀ h ∈ hashers, Concat h → pan) (keyTy pos : Nat) :
    SatO pan (keyDataD D HF hashers keyTy pos) (fun r => TrueTypes D R → KeyAs R hashers keyTy r.1) := by
  have many : hashers.length ≠ 1 → SatO pan (do
      let ty ← (D.get keyTy).mapErr .parsingKey
      match ty.typeDef with
      | .tuple elems =>
        if elems.length ≠ hashers.length then DevO.of (.error (.err .multipleHashesNumberMismatch))
        else do
          let c ← hashersLoopD D HF hashers elems pos
          DevO.of (.ok (KeyData.tupleHash c.1 (Info.fromTy ty), c.2))
      | _ => DevO.of (.error (.err .multipleHashesNotATuple)))
      (fun r => TrueTypes D R → KeyAs R hashers keyTy r.1) := by
    intro hne
    refine SatO.bind ((Sat.with (H.get keyTy) (fun T : TrueTypes D R => T keyTy)).mapErr _) (fun ty hty => ?_)
    cases hd : ty.typeDef with
    | tuple elems =>
      dsimp only
      split
      · exact .err
      · rename_i hl
        refine SatO.bind (hashersLoopD_any H hashers elems pos (by omega) hp) (fun c hc => ?_)
        exact .ok (fun T => ⟨hne, ty, elems, get_ok.1 (hty.2 T), hd, rfl, (hc T).1, by omega, (hc T).2⟩)
    | _ => exact .err
  unfold keyDataD
  match hashers, hp, many with
  | [h], hp, _ =>
    exact SatO.bind (processHasherD_any H h (hp h (by simp)) keyTy pos) (fun c hc => .ok (fun T => ⟨h, rfl, hc T⟩))
  | [], _, many => exact many (by simp)
  | _ :: _ :: _, _, many => exact many (by simp)

theorem processKeyMappedD_any (H : HostileD D R b) (hashers : List Hasher) (hp : ∀ h ∈ hashers, Concat h → pan)
    (keyTy pos : Nat) : SatO pan (processKeyMappedD D HF hashers keyTy pos)
      (fun k => TrueTypes D R → KeyAs R hashers keyTy k) := by
  refine SatO.bind (keyDataD_any H hashers hp keyTy pos) (fun r hr => ?_)
  split
  · exact .ok hr
  · exact .err

theorem decodeAll_any (H : HostileD D R b) (id : Nat) : Sat (decodeAllAsTypeD D id)
    (fun d => TrueTypes D R → ValueAs R id (edValue d)) := by
  refine Sat.bind (Sat.with (decodeD_safe H id 0 Propagated.new) (fun T => decodeD_post H T id 0 Propagated.new)) (fun r hr => ?_)
  split
  · exact Sat.err
  · exact Sat.ok hr.2

theorem decodeStorageEntryD_any {DK DV : Device σ} {R' : Registry} {k v : Buf} (HK : HostileD DK R k) (HV : HostileD DV R' v)
    (entry : Entry) : SatO (UsesConcat entry) (decodeStorageEntryD HF DK DV entry)
      (fun s => R = R' → TrueTypes DK R → TrueTypes DV R → StorageAs R entry s) := by
  unfold decodeStorageEntryD
  dsimp only
  split
  · exact .err
  · unfold StorageAs
    cases he : entry.ty with
    | plain valueTy =>
      dsimp only
      split
      · exact .err
      · refine SatO.bind ((decodeAll_any HV valueTy).mapErr _) (fun d hd => ?_)
        exact .ok (fun e _ T => by subst e; exact ⟨rfl, rfl, hd T⟩)
    | map hashers keyTy valueTy =>
      dsimp only
      refine SatO.bind (processKeyMappedD_any HK hashers ?_ keyTy 32) (fun key hkey => ?_)
      · intro h hm hc
        unfold UsesConcat
        rw [he]
        exact ⟨h, hm, hc⟩
      · refine SatO.bind ((decodeAll_any HV valueTy).mapErr _) (fun d hd => ?_)
        exact .ok (fun e T T' => by subst e; exact ⟨rfl, hkey T, hd T'⟩)

end Verif
