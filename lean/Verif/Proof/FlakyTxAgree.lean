import Verif.Proof.FlakyTx
import Verif.Props.Device
import Verif.Props.Extensions
/-! Transactions on unsteady memory compared with those on reliable memory. -/
namespace Verif
open Spec

variable {σ α β ε ME : Type} {D : Device σ} {R : Registry} {b : Buf} {data : Bytes}

theorem decodeD_converse (H : HonestD External D R (Buf.ofBytes data)) (hR : Regular R) {id pos pos' : Nat}
    (hp : pos ≤ data.length) {s : σ} {d' : ED} (hpn : ¬ TellsEmpty R (edValue d'))
    (ho : (decodeD D (.symbol id) pos Propagated.new s).1 = .ok (d', pos')) :
    ∃ d, decode R (Buf.ofBytes data) (.symbol id) pos Propagated.new = .ok (d, pos') ∧ SameButLabels (edValue d) (edValue d') := by
  rcases decodeD_symbol H id pos Propagated.new s with ⟨⟨d', q⟩, h1, h2⟩ | ⟨e, h1⟩
  · rw [ho] at h1
    cases h1
    obtain ⟨bs, h4, rfl, h5⟩ := h2
    obtain ⟨u, h6, h7⟩ := encLoose_plain hR.nameless hR.noCompactArray h5
    have hfit : Fits D.word data.length := H.word
    have hst : Steady (scripted D.word R data (fun _ => false)) R (Buf.ofBytes data) :=
      ⟨rfl, rfl, hfit, fun _ _ _ => rfl, fun _ _ => rfl⟩
    have hs := decodeD_steady hst (.symbol id) pos Propagated.new 0
    rcases decodeD_complete (scripted_flaky R hfit (fun _ => false)).honest (reliable_ofBytes data) hR.emptyArrays hR.nameless
      (not_tellsEmpty h7 hpn) h6 (p := Propagated.new) rfl rfl (h4.at hp) 0 with ⟨d, h8, h9⟩ | ⟨e, he, h8⟩
    · rw [hs] at h8
      exact ⟨d, h8, u, h9, h7⟩
    · exfalso
      rw [hs] at h8
      rcases he with rfl | rfl
      · cases decode_errors_true h8 with
        | memory _ hf => cases hf
      · cases decode_errors_true h8 with
        | registry ht => cases ht with
          | unresolved hr => exact hR.reliable _ hr
  · rw [ho] at h1
    cases h1

theorem decodeD_agrees (H : HonestD External D R (Buf.ofBytes data)) (hR : Regular R) {id pos pos' : Nat}
    (hp : pos ≤ data.length) {d : ED} (hpn : ¬ TellsEmpty R (edValue d)) (ho : decode R (Buf.ofBytes data) (.symbol id) pos Propagated.new = .ok (d, pos')) (s : σ) :
    (∃ e, MemoryError e ∧ (decodeD D (.symbol id) pos Propagated.new s).1 = .error e) ∨
      ∃ d', (decodeD D (.symbol id) pos Propagated.new s).1 = .ok (d', pos') ∧ SameButLabels (edValue d) (edValue d') := by
  obtain ⟨bs, h1, h2, h3⟩ := (decode_parses R (Buf.ofBytes data) (.symbol id) Propagated.new).sound ho
  subst h2
  have h4 : Enc R false id (edValue d) bs := run_sound.symbol h3
  obtain ⟨u, h6, h7⟩ := encLoose_plain hR.nameless hR.noCompactArray (enc_loose h4)
  rcases decodeD_complete H (reliable_ofBytes data) hR.emptyArrays hR.nameless (not_tellsEmpty h7 hpn) h6 (p := Propagated.new) rfl rfl (h1.at hp) s with
    ⟨d', h8, h9⟩ | ⟨e, he, h8⟩
  · exact .inr ⟨d', h8, u, h7, h9⟩
  · exact .inl ⟨e, he, h8⟩

/-! ### The same call -/

theorem sameButLabels_refl (v : Value) : SameButLabels v v := ⟨v, .same, .same⟩

theorem sameFields_refl (l : List (Option String × Value)) : SameFields l l := by
  refine ⟨rfl, fun x hx => ?_⟩
  obtain ⟨i, h1, rfl⟩ := List.mem_iff_getElem.1 hx
  simp only [List.getElem_zip]
  exact ⟨trivial, sameButLabels_refl _⟩

theorem labels_pallet {it : PalletItem} {p n : String} {fs : List (Option String × Value)} {w : Value}
    (h : Labels (.pallet it p n fs) w) : w = .pallet it p n fs := by
  cases h with
  | same => rfl

theorem sameButLabels_pallet {it it' : PalletItem} {p p' n n' : String} {fs fs' : List (Option String × Value)}
    (h : SameButLabels (.pallet it p n fs) (.pallet it' p' n' fs')) : p = p' ∧ n = n' ∧ SameFields fs fs' := by
  obtain ⟨u, h1, h2⟩ := h
  generalize hv : Value.pallet it p n fs = v at h1
  cases h1 with
  | same =>
    subst hv
    have := labels_pallet h2
    simp only [Value.pallet.injEq] at this
    obtain ⟨rfl, rfl, rfl, rfl⟩ := this
    exact ⟨rfl, rfl, sameFields_refl _⟩
  | @pallet _ q m o names us vs hl hz =>
    simp only [Value.pallet.injEq] at hv
    obtain ⟨rfl, rfl, rfl, rfl⟩ := hv
    generalize hu : Value.variant p [(o, .variant n (names.zip us))] = u at h2
    generalize hw : Value.pallet it' p' n' fs' = w at h2
    cases h2 with
    | @pallet _ q m o' names' us' vs' hl' hz' =>
      simp only [Value.pallet.injEq] at hw
      obtain ⟨rfl, rfl, rfl, rfl⟩ := hw
      simp only [Value.variant.injEq, List.cons.injEq, Prod.mk.injEq, and_true] at hu
      obtain ⟨rfl, rfl, rfl, hus⟩ := hu
      refine ⟨rfl, rfl, ?_, ?_⟩
      · have := congrArg List.length hus
        simp only [List.length_zip] at this ⊢
        omega
      · intro x hx
        obtain ⟨i, h1, rfl⟩ := List.mem_iff_getElem.1 hx
        simp only [List.length_zip] at h1
        have e := List.getElem_of_eq hus (i := i) (by simp only [List.length_zip]; omega)
        simp only [List.getElem_zip, Prod.mk.injEq] at e
        simp only [List.getElem_zip]
        refine ⟨e.1, us[i], hz (us[i], vs[i]) ?_, ?_⟩
        · rw [List.mem_iff_getElem]; exact ⟨i, by simp only [List.length_zip]; omega, by simp⟩
        · rw [e.2]
          exact hz' (us'[i], vs'[i]) (by rw [List.mem_iff_getElem]; exact ⟨i, by simp only [List.length_zip]; omega, by simp⟩)
    | _ => first | (subst hu; cases hw) | cases hw
  | _ => first | cases hv | (subst hv; cases h2)

theorem asCall_value {d : ED} {c : Call} (h : d.data.asCall = some c) :
    edValue d = .pallet .call c.palletName c.variantName (fdsValue c.fields) := by
  rw [asCall_some] at h
  obtain ⟨d, i⟩ := d
  dsimp only at h
  subst h
  rfl

theorem sameCall_of {d d' : ED} {c c' : Call} (h : d.data.asCall = some c) (h' : d'.data.asCall = some c')
    (hs : SameButLabels (edValue d) (edValue d')) : SameCall c c' := by
  rw [asCall_value h, asCall_value h'] at hs
  exact sameButLabels_pallet hs

theorem special_call_signature {t : Typ} {i : UInt8} {item : PalletItem} {p : String} {inner : List Variant} {k : FixedKind}
    (h : IsPallet R t i item p inner) (h' : IsSignature R t i k) : False := by
  have h1 := h.1
  have h2 := h'.1
  rw [h1] at h2
  cases h2

/-- Where there is a call, reliable memory shows a call. -/
theorem decode_isCall {id pos pos' : Nat} {d : ED} {c : Call} {bs : Bytes} (hc : IsCallLoose R id c bs) (hat : At b.bytes pos bs)
    (ho : decode R b (.symbol id) pos Propagated.new = .ok (d, pos')) (hp : pos' = pos + bs.length) :
    ∃ c', d.data.asCall = some c' := by
  obtain ⟨t, i, j, inner, v, ps, hr, hpal, hsel, _, _, _, _, rfl⟩ := hc
  obtain ⟨bs', g1, g2, g3⟩ := (decode_parses R b _ _).sound ho
  have hb : bs' = i :: j :: ps.bytes := by
    have hlen : bs'.length = (i :: j :: ps.bytes).length := by omega
    exact (g1.at (by have := hat.le; omega)).unique hat hlen
  subst hb
  have he : Enc R false id (edValue d) _ := run_sound.symbol g3
  have hv : ∃ p n fs, edValue d = .pallet .call p n fs := by
    have hpal' := hpal
    obtain ⟨hsp, vs, _, _, _, hd, _⟩ := hpal
    have hst : ∀ {t'}, R.resolve id = .ok t' → t' = t := by intro t' h; rw [hr] at h; cases h; rfl
    generalize hbs : (i :: j :: ps.bytes) = bs at he
    generalize edValue d = w at he
    cases he with
    | pallet h1 h2 =>
      cases hst h1
      have := h2.1
      rw [hsp] at this
      cases this
      exact ⟨_, _, _, rfl⟩
    | @variant _ t' vs' v' i' ps' h1 h2 h3 h4 h5 h6 =>
      cases hst h1
      rw [List.cons.injEq] at hbs
      obtain ⟨rfl, _⟩ := hbs
      exact absurd hpal' (h6 _ _ _)
    | signature h1 h2 =>
      cases hst h1
      have := h2.1
      rw [hsp] at this
      cases this
    | never h1 h2 h3 => cases hbs
    | fixed h1 h2 | hash h1 h2 | era h1 h2 | per h1 h2 =>
      cases hst h1; rw [hsp] at h2; cases h2
    | newtype h1 _ h2 | unit h1 _ h2 | record h1 _ h2 | sequence h1 _ h2 | array h1 _ h2 | tuple h1 _ h2
    | primitive h1 _ h2 | compact h1 _ h2 | bits h1 _ h2 =>
      cases hst h1; rw [hd] at h2; cases h2
  obtain ⟨p, n, fs, hv⟩ := hv
  obtain ⟨_, vs, _, _, _, hd, _⟩ := hpal
  obtain ⟨ty, id', k1, k2⟩ := run_iff.1 g3
  obtain ⟨t', ht, k1⟩ := bind_ok.1 k1
  cases k1
  rw [get_ok.1 ht] at hr; cases hr
  generalize i :: j :: ps.bytes = bs at k2
  cases k2 with
  | pallet _ _ _ _ _ _ =>
    simp only [edValue, pdValue, Value.pallet.injEq] at hv
    obtain ⟨rfl, _⟩ := hv
    exact ⟨_, rfl⟩
  | fixed | era | per | perCompact | signature => simp [edValue, pdValue] at hv
  | h256 => unfold h256Data at hv; split at hv <;> simp [edValue, pdValue] at hv
  | ofDef ho h =>
    cases h with
    | composite hd' _ | sequence hd' | array hd' | tuple hd' | primitive hd' | compact hd' | bits hd' =>
      rw [hd] at hd'; cases hd'
    | emptyEnum | enum => simp [edValue, pdValue] at hv

/-! ### Exactly the outcome on reliable memory, or an error that failures cause -/

/-- In every state: an error of that kind, or the outcome `r`. -/
def FollowsO (E : Out ε → Prop) (x : DevO σ ε α) (r : Except (Out ε) α) : Prop :=
  ∀ s, (∃ e, (x s).1 = .error e ∧ E e) ∨ (x s).1 = r

theorem FollowsO.of {E : Out ε → Prop} (r : Except (Out ε) α) : FollowsO (σ := σ) E (DevO.of r) r := fun _ => .inr rfl

theorem FollowsO.bind {E : Out ε → Prop} {x : DevO σ ε α} {r : Except (Out ε) α} {k : α → DevO σ ε β} {g : α → Except (Out ε) β}
    (hx : FollowsO E x r) (hk : ∀ a, r = .ok a → FollowsO E (k a) (g a)) : FollowsO E (x >>= k) (r >>= g) := by
  intro s
  show (∃ e, (DevO.bind x k s).1 = .error e ∧ E e) ∨ (DevO.bind x k s).1 = _
  have h := hx s
  unfold DevO.bind
  rcases hxs : x s with ⟨o, s'⟩
  rw [hxs] at h
  rcases h with ⟨e, h, he⟩ | h
  · dsimp only at h; subst h; exact .inl ⟨e, rfl, he⟩
  · dsimp only at h; subst h
    cases o with
    | error e => exact .inr rfl
    | ok a => exact hk a rfl s'

theorem Follows.mapErrO {E : Out ε → Prop} {x : Dev σ α} {r : Res α} (h : Follows External x r) (f : PErr → ε)
    (hf : ∀ e, External (.err e) → E (.err (f e))) : FollowsO E (x.mapErr f) (r.mapErr f) := by
  intro s
  unfold Dev.mapErr
  rcases h s with ⟨e, he, h⟩ | h
  · obtain ⟨pe, rfl⟩ := external_err e he
    left; rw [h]; exact ⟨_, rfl, hf pe he⟩
  · right; rw [h]

/-- An error of extensions that failures cause. -/
def CausedS (e : Out (SErr ME)) : Prop := ∃ se, MemoryErrorS se ∧ e = .err se

theorem extensionsLoopD_follows (H : HonestD External D R b) (sel : SignedExt → Nat) (es : List SignedExt)
    (hl : ∀ e ∈ es, LabelFree R (sel e)) : ∀ pos,
    FollowsO CausedS (extensionsLoopD (ME := ME) D sel es pos) (extensionsLoop R b sel es pos) := by
  induction es with
  | nil => intro pos; exact .of _
  | cons e es ih =>
    intro pos
    have h1 : Follows External _ _ := decodeD_labelFree H (hl e (by simp)) pos (.fromExtMeta e.identifier)
    refine (h1.mapErrO _ (fun pe h => ⟨_, ⟨pe, h, rfl⟩, rfl⟩)).bind (fun d _ => ?_)
    obtain ⟨d, q⟩ := d
    refine (ih (fun e' he => hl e' (by simp [he])) q).bind (fun r _ => ?_)
    obtain ⟨ds, q'⟩ := r
    exact .of _

variable {M : Metadata ME} {MC : CompleteMetadata ME}

theorem decodeExtensionsUnmarkedD_follows (H : HonestD External D M.types b) (hl : ExtensionsLabelFree M) (pos : Nat)
    (expected : Option Bytes) :
    FollowsO CausedS (decodeExtensionsUnmarkedD D M pos expected) (decodeExtensionsUnmarked M b pos expected) := by
  unfold decodeExtensionsUnmarkedD decodeExtensionsUnmarked
  refine (FollowsO.of _).bind (fun signed hsg => ?_)
  have hl := hl signed (mapOut_ok.1 hsg)
  refine (extensionsLoopD_follows H _ _ (fun e he => hl (e.identifier, e.ty) ?_) _).bind (fun r _ => ?_)
  · unfold extItems; exact List.mem_append_left _ (List.mem_map_of_mem he)
  obtain ⟨ds, q⟩ := r
  refine (extensionsLoopD_follows H _ _ (fun e he => hl (e.identifier, e.additionalSigned) ?_) _).bind (fun r _ => ?_)
  · unfold extItems
    exact List.mem_append_right _ (List.mem_map_of_mem (f := fun e : SignedExt => (e.identifier, e.additionalSigned)) he)
  obtain ⟨ds', q'⟩ := r
  dsimp only
  rw [H.len]
  split
  · exact .of _
  · exact (FollowsO.of _).bind (fun spec _ => (FollowsO.of _).bind (fun _ _ => .of _))

/-! ### The outcome on reliable memory but for labels -/

/-- As `AgreesBut`, for results of two types. -/
def AgreesW (E : Out ε → Prop) (P : α → β → Prop) (A : α → Prop) (B : β → Prop) (r : Except (Out ε) α) (o : Except (Out ε) β) : Prop :=
  (∃ e, o = .error e ∧ E e) ∨ (∃ a a', r = .ok a ∧ o = .ok a' ∧ P a a') ∨ (Void A r ∧ Void B o)

/-- In every state: the outcome agrees with `r`. -/
def AgreeO (E : Out ε → Prop) (x : DevO σ ε β) (r : Except (Out ε) α) (P : α → β → Prop) (A : α → Prop) (B : β → Prop) : Prop :=
  ∀ s, AgreesW E P A B r (x s).1

/-- In every state there is no valid data behind the outcome. -/
def VoidO (B : β → Prop) (x : DevO σ ε β) : Prop := ∀ s, Void B (x s).1

/-- Nothing. -/
abbrev NoneOf (α : Type) : α → Prop := fun _ => False

variable {γ δ : Type}

theorem Spec.Void.err {A : α → Prop} {e : ε} : Void A (.error e : Except ε α) := .inl ⟨e, rfl⟩

theorem Spec.Void.ok {A : α → Prop} {a : α} (h : A a) : Void A (.ok a : Except ε α) := .inr ⟨a, rfl, h⟩

theorem Spec.Void.after {A : β → Prop} {r : Except ε α} {g : α → Except ε β} (h : ∀ a, r = .ok a → Void A (g a)) : Void A (r >>= g) := by
  cases r with
  | ok a => exact h a rfl
  | error e => exact .err

theorem VoidO.of {B : β → Prop} {r : Except (Out ε) β} (h : Void B r) : VoidO (σ := σ) B (DevO.of r) := fun _ => h

theorem VoidO.err {B : β → Prop} {e : Out ε} : VoidO (σ := σ) B (DevO.of (.error e)) := .of .err

theorem VoidO.ok {B : β → Prop} {a : β} (h : B a) : VoidO (σ := σ) (ε := ε) B (DevO.of (.ok a)) := .of (.ok h)

theorem VoidO.after {B : β → Prop} {x : DevO σ ε α} {k : α → DevO σ ε β} (h : ∀ a, VoidO B (k a)) : VoidO B (x >>= k) := by
  intro s
  show Void B (DevO.bind x k s).1
  unfold DevO.bind
  rcases x s with ⟨o, s'⟩
  cases o with
  | error e => exact .err
  | ok a => exact h a s'

theorem AgreeO.ok {E : Out ε → Prop} {a : α} {a' : β} {P : α → β → Prop} {A : α → Prop} {B : β → Prop} (h : P a a') :
    AgreeO (σ := σ) E (DevO.of (.ok a')) (.ok a) P A B := fun _ => .inr (.inl ⟨a, a', rfl, rfl, h⟩)

theorem AgreeO.errs {E : Out ε → Prop} {e e' : Out ε} {P : α → β → Prop} {A : α → Prop} {B : β → Prop} :
    AgreeO (σ := σ) E (DevO.of (.error e')) (.error e) P A B := fun _ => .inr (.inr ⟨.err, .err⟩)

theorem AgreeO.caused {E : Out ε → Prop} {e : Out ε} {r : Except (Out ε) α} {P : α → β → Prop} {A : α → Prop} {B : β → Prop}
    (h : E e) : AgreeO (σ := σ) E (DevO.of (.error e)) r P A B := fun _ => .inl ⟨e, rfl, h⟩

theorem AgreeO.bindV {E : Out ε → Prop} {x : DevO σ ε β} {r : Except (Out ε) α} {k : β → DevO σ ε δ} {g : α → Except (Out ε) γ}
    {P : α → β → Prop} {Q : γ → δ → Prop} {A : α → Prop} {B : β → Prop} {A' : γ → Prop} {B' : δ → Prop}
    (hx : AgreeO E x r P A B) (hA : ∀ a, A a → Void A' (g a)) (hB : ∀ a', B a' → VoidO B' (k a'))
    (hk : ∀ a a', r = .ok a → P a a' → AgreeO E (k a') (g a) Q A' B') : AgreeO E (x >>= k) (r >>= g) Q A' B' := by
  intro s
  show AgreesW E Q A' B' _ (DevO.bind x k s).1
  have h := hx s
  unfold DevO.bind
  rcases hxs : x s with ⟨o, s'⟩
  rw [hxs] at h
  rcases h with ⟨e, h, he⟩ | ⟨a, a', h1, h2, h3⟩ | ⟨h1, h2⟩
  · dsimp only at h; subst h; exact .inl ⟨e, rfl, he⟩
  · dsimp only at h2; subst h1; subst h2; exact hk a a' rfl h3 s'
  · refine .inr (.inr ⟨?_, ?_⟩)
    · rcases h1 with ⟨e, rfl⟩ | ⟨a, rfl, h1⟩
      · exact .err
      · exact hA a h1
    · rcases h2 with ⟨e, h2⟩ | ⟨a', h2, h3⟩
      · dsimp only at h2; subst h2; exact .err
      · dsimp only at h2; subst h2; exact hB a' h3 s'

theorem AgreeO.bind {E : Out ε → Prop} {x : DevO σ ε β} {r : Except (Out ε) α} {k : β → DevO σ ε δ} {g : α → Except (Out ε) γ}
    {P : α → β → Prop} {Q : γ → δ → Prop} {A' : γ → Prop} {B' : δ → Prop}
    (hx : AgreeO E x r P (NoneOf α) (NoneOf β)) (hk : ∀ a a', r = .ok a → P a a' → AgreeO E (k a') (g a) Q A' B') :
    AgreeO E (x >>= k) (r >>= g) Q A' B' := hx.bindV nofun nofun hk

theorem FollowsO.agree {E : Out ε → Prop} {x : DevO σ ε α} {r : Except (Out ε) α} (h : FollowsO E x r) :
    AgreeO E x r (fun a a' => a = a') (NoneOf α) (NoneOf α) := by
  intro s
  rcases h s with h | h
  · exact .inl h
  · rw [h]
    cases r with
    | ok a => exact .inr (.inl ⟨a, a, rfl, rfl, rfl⟩)
    | error e => exact .inr (.inr ⟨.err, .err⟩)

theorem AgreeO.mono {E E' : Out ε → Prop} {x : DevO σ ε β} {r : Except (Out ε) α} {P Q : α → β → Prop} {A : α → Prop} {B : β → Prop}
    (hx : AgreeO E x r P A B) (he : ∀ e, E e → E' e) (h : ∀ a a', P a a' → Q a a') : AgreeO E' x r Q A B := by
  intro s
  rcases hx s with ⟨e, h1, h2⟩ | ⟨a, a', h1, h2, h3⟩ | h1
  · exact .inl ⟨e, h1, he e h2⟩
  · exact .inr (.inl ⟨a, a', h1, h2, h a a' h3⟩)
  · exact .inr (.inr h1)

/-- A step that the model on numbers does not make. -/
theorem AgreeO.arith {E : Out ε → Prop} {r : Res Nat} {n : Nat} (h : r = .ok n) {k : Nat → DevO σ ε β} {g : Except (Out ε) α}
    {P : α → β → Prop} {A : α → Prop} {B : β → Prop} (hk : AgreeO E (k n) g P A B) : AgreeO E (Device.arith r >>= k) g P A B := by
  subst h; exact hk

/-- An error on reliable memory, and nothing but errors otherwise. -/
theorem AgreeO.fails {E : Out ε → Prop} {x : DevO σ ε β} {e : Out ε} {P : α → β → Prop} {A : α → Prop} {B : β → Prop}
    (h : ∀ s, ∃ e', (x s).1 = .error e') : AgreeO E x (.error e) P A B := by
  intro s
  exact .inr (.inr ⟨.err, .inl (h s)⟩)

theorem failsO_bind {x : DevO σ ε α} {k : α → DevO σ ε β} (h : ∀ s, ∃ e', (x s).1 = .error e') :
    ∀ s, ∃ e', ((x >>= k) s).1 = .error e' := by
  intro s
  show ∃ e', (DevO.bind x k s).1 = .error e'
  obtain ⟨e', h⟩ := h s
  unfold DevO.bind
  rcases hxs : x s with ⟨o, s'⟩
  rw [hxs] at h
  dsimp only at h; subst h; exact ⟨e', rfl⟩

theorem failsO_arith {r : Res Nat} {k : Nat → DevO σ ε β} (h : ∀ n, r = .ok n → ∀ s, ∃ e', (k n s).1 = .error e') :
    ∀ s, ∃ e', ((Device.arith r >>= k) s).1 = .error e' := by
  intro s
  cases r with
  | error e => exact ⟨.panic, rfl⟩
  | ok n => exact h n rfl s

theorem mapErr_error (f : PErr → ε) (e : Fail) : ∃ o, Res.mapErr f (.error e : Res α) = .error o := by
  cases e <;> exact ⟨_, rfl⟩

/-- A type decoded without hints. -/
def SameRead (n : Nat) (r r' : ED × Nat) : Prop :=
  r.2 = r'.2 ∧ r.2 ≤ n ∧ SameButLabels (edValue r.1) (edValue r'.1) ∧
    ∀ c', r'.1.data.asCall = some c' → ∃ c, r.1.data.asCall = some c

/-- A value of an enum without variants in what was read. -/
def EmptyRead (R : Registry) (r : ED × Nat) : Prop := TellsEmpty R (edValue r.1)

theorem emptyCall_of {d : ED} {c : Call} (h : d.data.asCall = some c) (he : TellsEmpty R (edValue d)) : EmptyCall R c := by
  rw [asCall_value h] at he
  obtain ⟨h1, h2⟩ := he
  cases h2 with
  | pallet hm h2 => exact ⟨_, hm, h1, h2⟩

theorem decodeD_agree (H : HonestD External D R (Buf.ofBytes data)) (hR : Regular R) {id pos : Nat} (hp : pos ≤ data.length)
    {E : Out ε → Prop} (f : PErr → ε) (hf : ∀ e, External (.err e) → E (.err (f e))) :
    AgreeO E ((decodeD D (.symbol id) pos Propagated.new).mapErr f)
      ((decode R (Buf.ofBytes data) (.symbol id) pos Propagated.new).mapErr f) (SameRead data.length) (EmptyRead R) (EmptyRead R) := by
  intro s
  by_cases hv : Void (EmptyRead R) ((decode R (Buf.ofBytes data) (.symbol id) pos Propagated.new).mapErr f) ∧
      Void (EmptyRead R) ((decodeD D (.symbol id) pos Propagated.new).mapErr f s).1
  · exact .inr (.inr hv)
  unfold Dev.mapErr at hv ⊢
  dsimp only at hv ⊢
  have hgo : ∀ {d q}, decode R (Buf.ofBytes data) (.symbol id) pos Propagated.new = .ok (d, q) →
      (∃ e, (decodeD D (.symbol id) pos Propagated.new s).1 = .error e) → ¬ TellsEmpty R (edValue d) := by
    intro d q h1 ⟨e, h2⟩ hte
    obtain ⟨o, ho⟩ := mapErr_error (α := ED × Nat) f e
    exact hv ⟨.inr ⟨(d, q), by rw [h1]; rfl, hte⟩, by rw [h2, ho]; exact .err⟩
  have hback : ∀ {d' q}, (decodeD D (.symbol id) pos Propagated.new s).1 = .ok (d', q) →
      ∃ d, decode R (Buf.ofBytes data) (.symbol id) pos Propagated.new = .ok (d, q) ∧ SameButLabels (edValue d) (edValue d') := by
    intro d' q h1
    by_cases hte : TellsEmpty R (edValue d')
    · cases hr : decode R (Buf.ofBytes data) (.symbol id) pos Propagated.new with
      | error e =>
        obtain ⟨o, ho⟩ := mapErr_error (α := ED × Nat) f e
        exact absurd ⟨by rw [hr, ho]; exact .err, .inr ⟨(d', q), by rw [h1]; rfl, hte⟩⟩ hv
      | ok r =>
        obtain ⟨d, q'⟩ := r
        have hn : ¬ TellsEmpty R (edValue d) := fun h =>
          hv ⟨.inr ⟨(d, q'), by rw [hr]; rfl, h⟩, .inr ⟨(d', q), by rw [h1]; rfl, hte⟩⟩
        rcases decodeD_agrees H hR hp hn hr s with ⟨e, he, h2⟩ | ⟨d2, h2, h3⟩
        · rw [h1] at h2; cases h2
        · rw [h1] at h2; cases h2; exact ⟨d, rfl, h3⟩
    · exact decodeD_converse H hR hp hte h1
  cases hd : (decodeD D (.symbol id) pos Propagated.new s).1 with
  | ok r' =>
    obtain ⟨d', q⟩ := r'
    obtain ⟨d, h1, h2⟩ := hback hd
    refine .inr (.inl ⟨(d, q), (d', q), by rw [h1]; rfl, rfl, rfl, ?_, h2, ?_⟩)
    · obtain ⟨bs, g1, g2, _⟩ := (decode_parses R (Buf.ofBytes data) (.symbol id) Propagated.new).sound h1
      have := (g1.at hp).le
      show q ≤ data.length
      have e : (Buf.ofBytes data).bytes = data := rfl
      rw [e] at this
      omega
    · intro c' hc
      rcases decodeD_call H id pos s with ⟨r, g1, g2⟩ | ⟨e, g1⟩
      · rw [hd] at g1
        cases g1
        obtain ⟨bs, k1, k2, k3⟩ := g2 c' hc
        exact decode_isCall k3 (k1.at hp) h1 k2
      · rw [hd] at g1; cases g1
  | error e' =>
    cases hr : decode R (Buf.ofBytes data) (.symbol id) pos Propagated.new with
    | ok r =>
      obtain ⟨d, q⟩ := r
      rcases decodeD_agrees H hR hp (hgo hr ⟨e', hd⟩) hr s with ⟨e, he, h1⟩ | ⟨d', h1, _⟩
      · obtain ⟨pe, rfl⟩ := external_err e he
        rw [hd] at h1
        cases h1
        exact .inl ⟨_, rfl, hf pe he⟩
      · rw [hd] at h1; cases h1
    | error e =>
      obtain ⟨o, ho⟩ := mapErr_error (α := ED × Nat) f e
      obtain ⟨o', ho'⟩ := mapErr_error (α := ED × Nat) f e'
      exact .inr (.inr ⟨.inl ⟨o, ho⟩, .inl ⟨o', ho'⟩⟩)

/-! ### Calls and transactions -/

/-- An error from failures while decoding a call. -/
def CausedC (M : Metadata ME) (e : Out (SErr ME)) : Prop := ∃ se, CallCaused M se ∧ e = .err se

theorem decodeAsCallUnmarkedD_agree (H : HonestD External D M.types (Buf.ofBytes data)) (hR : Regular M.types) {pos : Nat}
    (hp : pos ≤ data.length) : AgreeO (CausedC M) (decodeAsCallUnmarkedD D M pos) (decodeAsCallUnmarked M (Buf.ofBytes data) pos)
      (fun r r' => r.2 = r'.2 ∧ r.2 ≤ data.length ∧ SameCall r.1 r'.1) (fun r => EmptyCall M.types r.1) (fun r => EmptyCall M.types r.1) := by
  refine ((FollowsO.of _).agree).bind (fun id id' hid h => ?_)
  subst h
  refine (decodeD_agree H hR hp _ (fun e h => ⟨_, .inl ⟨e, h, rfl⟩, rfl⟩)).bindV (fun r h => ?_) (fun r h => ?_) (fun r r' _ h => ?_)
  · obtain ⟨d, q⟩ := r
    cases hc : d.data.asCall with
    | none => dsimp only; rw [hc]; exact .err
    | some c => dsimp only; rw [hc]; exact .ok (emptyCall_of hc h)
  · obtain ⟨d, q⟩ := r
    cases hc : d.data.asCall with
    | none => exact .err
    | some c => exact .ok (emptyCall_of hc h)
  obtain ⟨d, q⟩ := r
  obtain ⟨d', q'⟩ := r'
  obtain ⟨rfl, h1, h2, h3⟩ := h
  dsimp only at h1 h2 h3 ⊢
  cases hc' : d'.data.asCall with
  | some c' =>
    obtain ⟨c, hc⟩ := h3 c' hc'
    rw [hc]
    exact .ok ⟨rfl, h1, sameCall_of hc hc' h2⟩
  | none => exact .caused ⟨_, .inr ⟨id, mapOut_ok.1 hid, rfl⟩, rfl⟩

theorem decodeAsCallD_agree (H : HonestD External D M.types (Buf.ofBytes data)) (hR : Regular M.types) {m : Marks}
    (hm : m.callStart ≤ m.extensionsStart) (hm' : m.extensionsStart ≤ data.length) :
    AgreeO (CausedC M) (decodeAsCallD D M m) (decodeAsCall M (m.on (Buf.ofBytes data))) SameCall (EmptyCall M.types)
      (EmptyCall M.types) := by
  obtain ⟨D', h1, h2, _⟩ := limitLength_honest H hm'
  have h3 : (m.on (Buf.ofBytes data)).dataNoExtensions (ME := ME) = .ok (Buf.ofBytes (data.take m.extensionsStart)) := by
    have : (Buf.ofBytes data).limitLength m.extensionsStart = .ok (Buf.ofBytes (data.take m.extensionsStart)) := by
      unfold Buf.limitLength; exact if_neg (by simp only [Buf.len, Buf.ofBytes]; omega)
    unfold Marked.dataNoExtensions
    rw [show (m.on (Buf.ofBytes data)).data = Buf.ofBytes data from rfl,
      show (m.on (Buf.ofBytes data)).extensionsStart = m.extensionsStart from rfl, this]
  unfold decodeAsCallD decodeAsCall
  rw [h1, h3]
  dsimp only
  rw [eok_bind]
  change HonestD External D' M.types (Buf.ofBytes (data.take m.extensionsStart)) at h2
  refine (decodeAsCallUnmarkedD_agree h2 hR (by simp only [List.length_take]; omega)).bindV (fun r h => ?_) (fun r h => ?_)
    (fun r r' _ h => ?_)
  · obtain ⟨c, q⟩ := r
    dsimp only
    split
    · exact .err
    · exact .ok h
  · obtain ⟨c, q⟩ := r
    dsimp only
    split
    · exact .err
    · exact .ok h
  obtain ⟨c, q⟩ := r
  obtain ⟨c', q'⟩ := r'
  obtain ⟨rfl, _, h5⟩ := h
  have he : (m.on (Buf.ofBytes data)).extensionsStart = m.extensionsStart := rfl
  rw [he]
  dsimp only
  split
  · exact .errs
  · exact .ok h5

theorem markD_agree (H : HonestD External D R b) :
    AgreeO (fun e => e = .err .cutSignable) (markD (ME := ME) D) (mark (ME := ME) b)
      (fun m m' => m = m'.on b ∧ m'.callStart ≤ m'.extensionsStart ∧ m'.extensionsStart ≤ b.len) (NoneOf _) (NoneOf _) := by
  refine ((getCompactD_follows H (compactUInt .u32) 0).mapErrO (E := fun e => e = Out.err (SErr.cutSignable (ME := ME))) _ (fun _ _ => rfl)).agree.bind (fun c c' hc h => ?_)
  subst h
  obtain ⟨n, q⟩ := c
  have hst := getCompact_start (mapErr_ok.1 hc)
  dsimp only
  rw [u32_word H hst.1]
  have hroom := H.word.room
  by_cases hlt : q + n < D.word.cap
  · refine AgreeO.arith (word_add hlt) ?_
    refine ((H.read q n).mapErrO (E := fun e => e = Out.err (SErr.cutSignable (ME := ME))) _ (fun _ _ => rfl)).agree.bind (fun c c' hc h => ?_)
    have := readSlice_le (mapErr_ok.1 hc)
    exact .ok ⟨rfl, by dsimp only; omega, by dsimp only; omega⟩
  · have hread : b.readSlice q n = .error (.err (.buffer (.dataTooShort q n))) := by
      unfold Buf.readSlice
      rw [if_neg (by omega), if_pos (by omega)]
    rw [cut, hread]
    refine AgreeO.fails (failsO_arith fun e _ => failsO_bind fun s => ?_)
    unfold Dev.mapErr
    rcases H.read q n s with ⟨f, hf, h⟩ | h
    · rw [h]; exact mapErr_error _ f
    · rw [h, hread]; exact ⟨_, rfl⟩

theorem keepErr_agree {x : DevO σ (SErr ME) Call} {r : Except (Out (SErr ME)) Call} (h : AgreeO (CausedC M) x r SameCall (EmptyCall M.types) (EmptyCall M.types))
    (hc : Calm r) (hx : SatO False x (fun _ => True)) (E : Out (SErr ME) → Prop) (exts : List ED) :
    AgreeO E (keepErr x >>= fun c => DevO.of (.ok { callResult := c, extensions := exts }))
      (match r with
        | .ok call => .ok { callResult := .ok call, extensions := exts }
        | .error (.err e) => .ok { callResult := .error e, extensions := exts }
        | .error .panic => .error .panic
        | .error .fuel => .error .fuel) (SameTransaction M) (NoneOf _) (NoneOf _) := by
  intro s
  have h := h s
  have hx := hx s
  show AgreesW E (SameTransaction M) _ _ _ (DevO.bind (keepErr x) _ s).1
  unfold DevO.bind keepErr
  rcases hxs : x s with ⟨o, s'⟩
  rw [hxs] at h hx
  dsimp only at h hx ⊢
  have ho : (∃ c, o = .ok c) ∨ ∃ e, o = .error (.err e) := by
    rcases hx with ⟨a, h, _⟩ | h | ⟨h, _⟩
    · exact .inl ⟨a, h⟩
    · exact .inr h
    · exact h.elim
  have hr : (∃ c, r = .ok c) ∨ ∃ e, r = .error (.err e) := by
    cases r with
    | ok c => exact .inl ⟨c, rfl⟩
    | error e =>
      cases e with
      | err e => exact .inr ⟨e, rfl⟩
      | panic => exact hc
      | fuel => exact hc
  rcases h with ⟨e, rfl, h2⟩ | ⟨a, a', rfl, rfl, h3⟩ | ⟨h1, h2⟩
  · obtain ⟨se, he, rfl⟩ := h2
    rcases hr with ⟨c, rfl⟩ | ⟨e, rfl⟩ <;> exact .inr (.inl ⟨_, _, rfl, rfl, rfl, .inl ⟨_, rfl, he⟩⟩)
  · exact .inr (.inl ⟨_, _, rfl, rfl, rfl, .inr (.inl ⟨a, a', rfl, rfl, h3⟩)⟩)
  · have v : ∀ {o : Except (Out (SErr ME)) Call} {q : Except (SErr ME) Call}, Void (EmptyCall M.types) o →
        ((∃ e, o = .error (.err e) ∧ q = .error e) ∨ ∃ c, o = .ok c ∧ q = .ok c) → Void (EmptyCall M.types) q := by
      rintro o q h (⟨e, rfl, rfl⟩ | ⟨c, rfl, rfl⟩)
      · exact .err
      · rcases h with ⟨e, h⟩ | ⟨a, h, h'⟩
        · cases h
        · cases h; exact .ok h'
    rcases hr with ⟨c, rfl⟩ | ⟨e, rfl⟩ <;> rcases ho with ⟨c', rfl⟩ | ⟨e', rfl⟩
    · exact .inr (.inl ⟨_, _, rfl, rfl, rfl, .inr (.inr ⟨v h1 (.inr ⟨_, rfl, rfl⟩), v h2 (.inr ⟨_, rfl, rfl⟩)⟩)⟩)
    · exact .inr (.inl ⟨_, _, rfl, rfl, rfl, .inr (.inr ⟨v h1 (.inr ⟨_, rfl, rfl⟩), v h2 (.inl ⟨_, rfl, rfl⟩)⟩)⟩)
    · exact .inr (.inl ⟨_, _, rfl, rfl, rfl, .inr (.inr ⟨v h1 (.inl ⟨_, rfl, rfl⟩), v h2 (.inr ⟨_, rfl, rfl⟩)⟩)⟩)
    · exact .inr (.inl ⟨_, _, rfl, rfl, rfl, .inr (.inr ⟨v h1 (.inl ⟨_, rfl, rfl⟩), v h2 (.inl ⟨_, rfl, rfl⟩)⟩)⟩)

theorem parseTransactionD_agree (H : HonestD External D M.types (Buf.ofBytes data)) (hM : CalmMetadata M)
    (hR : Regular M.types) (hl : ExtensionsLabelFree M) (expected : Option Bytes) :
    AgreeO (fun e => e = .err .cutSignable ∨ ∃ se, MemoryErrorS se ∧ e = .err se) (parseTransactionD D M expected)
      (parseTransaction M (Buf.ofBytes data) expected) (SameTransaction M) (NoneOf _) (NoneOf _) := by
  refine ((markD_agree H).mono (fun e h => .inl h) (fun _ _ h => h)).bind (fun m m' hm h => ?_)
  obtain ⟨rfl, h1, h2⟩ := h
  refine (((decodeExtensionsUnmarkedD_follows H hl m'.extensionsStart expected).agree).mono (fun e h => .inr h)
    (fun _ _ h => h)).bind (fun x x' _ h => ?_)
  subst h
  exact keepErr_agree (decodeAsCallD_agree H hR h1 h2) (decodeAsCall_calm hM hm)
    ((decodeAsCallD_satO H hM ⟨h1, h2⟩).mono (fun _ _ => trivial)) _ x

theorem parseTransactionUnmarkedD_agree (H : HonestD External D M.types (Buf.ofBytes data))
    (hR : Regular M.types) (hl : ExtensionsLabelFree M) (expected : Option Bytes) :
    AgreeO (CausedC M) (parseTransactionUnmarkedD D M expected)
      (parseTransactionUnmarked M (Buf.ofBytes data) expected) SameUnmarked (fun r => EmptyCall M.types r.call)
      (fun r => EmptyCall M.types r.call) := by
  refine (decodeAsCallUnmarkedD_agree H hR (Nat.zero_le _)).bindV
    (fun r h => .after (fun x _ => .ok h)) (fun r h => .after (fun x => .ok h)) (fun r r' _ h => ?_)
  obtain ⟨c, q⟩ := r
  obtain ⟨c', q'⟩ := r'
  obtain ⟨rfl, _, h1⟩ := h
  refine (((decodeExtensionsUnmarkedD_follows H hl q expected).agree).mono (fun e h => ?_) (fun _ _ h => h)).bind
    (fun x x' _ h => ?_)
  · obtain ⟨se, h, rfl⟩ := h; exact ⟨se, .inl h, rfl⟩
  · subst h; exact .ok ⟨h1, rfl⟩

/-! ### Unchecked extrinsics -/

/-- An error from failures while decoding an extrinsic. -/
def CausedU (e : Out (UErr ME)) : Prop := ∃ ue, ExtrinsicCaused ue ∧ e = .err ue

theorem extrinsicPartD_agree (H : HonestD External D R (Buf.ofBytes data)) (hR : Regular R) {id pos : Nat}
    (hp : pos ≤ data.length) : AgreeO CausedU (extrinsicPartD (ME := ME) D id pos)
      (extrinsicPart R (Buf.ofBytes data) id pos) (SameRead data.length) (EmptyRead R) (EmptyRead R) :=
  decodeD_agree H hR hp _ (fun e h => ⟨_, .inr (.inl ⟨e, h, rfl⟩), rfl⟩)

theorem extrinsicCallD_agree (H : HonestD External D R (Buf.ofBytes data)) (hR : Regular R) {id pos : Nat}
    (hp : pos ≤ data.length) : AgreeO CausedU (extrinsicCallD (ME := ME) D id pos)
      (extrinsicCall R (Buf.ofBytes data) id pos) SameCall (EmptyCall R) (EmptyCall R) := by
  refine (extrinsicPartD_agree H hR hp).bindV (fun r h => ?_) (fun r h => ?_) (fun r r' _ h => ?_)
  · obtain ⟨d, q⟩ := r
    cases hc : d.data.asCall with
    | none => dsimp only; rw [hc]; exact .err
    | some c => dsimp only; rw [hc]; exact .ok (emptyCall_of hc h)
  · obtain ⟨d, q⟩ := r
    cases hc : d.data.asCall with
    | none => exact .err
    | some c => exact .ok (emptyCall_of hc h)
  obtain ⟨d, q⟩ := r
  obtain ⟨d', q'⟩ := r'
  obtain ⟨rfl, h1, h2, h3⟩ := h
  dsimp only at h1 h2 h3 ⊢
  cases hc' : d'.data.asCall with
  | some c' =>
    obtain ⟨c, hc⟩ := h3 c' hc'
    rw [hc]
    exact .ok (sameCall_of hc hc' h2)
  | none => exact .caused ⟨_, .inr (.inr ⟨id, rfl⟩), rfl⟩

theorem extrinsicContentD_agree (H : HonestD External D R (Buf.ofBytes data)) (hR : Regular R) (params : ExtrinsicParams)
    (vb v : UInt8) {pos : Nat} (hp : pos ≤ data.length) : AgreeO CausedU (extrinsicContentD (ME := ME) D params vb v pos)
      (extrinsicContent R params (Buf.ofBytes data) vb v pos) SameExtrinsic (EmptyExtrinsic R) (EmptyExtrinsic R) := by
  unfold extrinsicContentD extrinsicContent
  split
  · exact .errs
  · split
    · exact (extrinsicCallD_agree H hR hp).bindV (fun c h => .ok h) (fun c h => .ok h) (fun c c' _ h => .ok h)
    · refine (extrinsicPartD_agree H hR hp).bindV
        (fun r h => .after fun _ _ => .after fun _ _ => .after fun _ _ => .ok (.inl h))
        (fun r h => .after fun _ => .after fun _ => .after fun _ => .ok (.inl h)) (fun r r' _ h => ?_)
      obtain ⟨a, q⟩ := r
      obtain ⟨a', q'⟩ := r'
      obtain ⟨rfl, ha, ha', _⟩ := h
      refine (extrinsicPartD_agree H hR ha).bindV
        (fun r h => .after fun _ _ => .after fun _ _ => .ok (.inr (.inl h)))
        (fun r h => .after fun _ => .after fun _ => .ok (.inr (.inl h))) (fun r r' _ h => ?_)
      obtain ⟨g, q1⟩ := r
      obtain ⟨g', q1'⟩ := r'
      obtain ⟨rfl, hg, hg', _⟩ := h
      refine (extrinsicPartD_agree H hR hg).bindV (fun r h => .after fun _ _ => .ok (.inr (.inr (.inl h))))
        (fun r h => .after fun _ => .ok (.inr (.inr (.inl h)))) (fun r r' _ h => ?_)
      obtain ⟨x, q2⟩ := r
      obtain ⟨x', q2'⟩ := r'
      obtain ⟨rfl, hx, hx', _⟩ := h
      exact (extrinsicCallD_agree H hR hx).bindV (fun c h => .ok (.inr (.inr (.inr h)))) (fun c h => .ok (.inr (.inr (.inr h))))
        (fun c c' _ h => .ok ⟨ha', hg', hx', h⟩)

theorem decodeUncheckedExtrinsicD_agree (H : HonestD External D MC.types (Buf.ofBytes data)) (hR : Regular MC.types) :
    AgreeO CausedU (decodeUncheckedExtrinsicD D MC) (decodeUncheckedExtrinsic MC (Buf.ofBytes data)) SameExtrinsic
      (EmptyExtrinsic MC.types) (EmptyExtrinsic MC.types) := by
  refine ((FollowsO.of _).agree).bind (fun params params' _ h => ?_)
  subst h
  refine ((getCompactD_follows H (compactUInt .u32) 0).mapErrO _ (fun _ _ => ⟨_, .inl rfl, rfl⟩)).agree.bind (fun c c' hc h => ?_)
  subst h
  obtain ⟨n, q⟩ := c
  have hst := getCompact_start (mapErr_ok.1 hc)
  dsimp only
  rw [u32_word H hst.1]
  have hroom := H.word.room
  unfold extrinsicFrameD
  by_cases hlt : q + n < D.word.cap
  · refine AgreeO.arith (word_add hlt) ?_
    rw [H.len]
    by_cases h1 : (Buf.ofBytes data).len < q + n
    · rw [if_pos h1, if_pos h1]
      exact AgreeO.arith (word_sub (by omega)) .errs
    · rw [if_neg h1, if_neg h1]
      by_cases h2 : q + n < (Buf.ofBytes data).len
      · rw [if_pos h2, if_pos h2]; exact .errs
      · rw [if_neg h2, if_neg h2]
        refine ((readByteD_follows H q).mapErrO _ (fun e h => ⟨_, .inr (.inl ⟨e, h, rfl⟩), rfl⟩)).agree.bind (fun vb vb' hvb h => ?_)
        subst h
        have hle := (readByte_ok (mapErr_ok.1 hvb)).le
        simp only [List.length_singleton] at hle
        refine AgreeO.arith (word_add (by omega)) ?_
        refine ((FollowsO.of _).agree).bind (fun v v' _ h => ?_)
        subst h
        exact extrinsicContentD_agree H hR params vb v hle
  · rw [if_pos (by omega)]
    refine AgreeO.fails ?_
    have hw := word_add_prefix (len := (Buf.ofBytes data).len) hst.2 hst.1 H.word (Nat.le_of_not_lt hlt)
    refine failsO_arith fun e he => ?_
    rw [hw] at he
    split at he
    · cases he
      have := H.word.words
      rw [H.len, if_neg (by omega), if_pos (by omega)]
      exact fun _ => ⟨_, rfl⟩
    · cases he

/-! ### Storage entries -/

/-- An error from failures while decoding a key; or a panic, if that is possible. -/
def CausedK (pan : Prop) (e : Out StErr) : Prop := (∃ pe, External (.err pe) ∧ e = .err (.parsingKey pe)) ∨ (pan ∧ e = .panic)

variable {pan : Prop} {HF : HashFns}

/-- The same key part, and the same position. -/
def SamePart (n : Nat) (r r' : KeyPart × Nat) : Prop := r.2 = r'.2 ∧ r.2 ≤ n ∧ KeyPartButLabels r.1 r'.1

theorem cutHashD_agree (H : HonestD External D R (Buf.ofBytes data)) (kind : HashKind) (ty pos : Nat) :
    AgreeO (CausedK pan) (cutHashD D kind ty pos) (cutHash kind ty (Buf.ofBytes data) pos) (SamePart data.length)
      (fun r => EmptyPart R r.1) (fun r => EmptyPart R r.1) := by
  refine ((H.read pos kind.len).mapErrO _ (fun e h => .inl ⟨e, h, rfl⟩)).agree.bind (fun x x' hx h => ?_)
  subst h
  have hle := readSlice_le (mapErr_ok.1 hx)
  split
  · exact .errs
  · exact AgreeO.arith (word_add (by have := H.word.room; omega)) (.ok ⟨rfl, hle, rfl⟩)

theorem checkHashD_agree (H : HonestD External D R (Buf.ofBytes data)) (hR : Regular R) (hp : pan) (n : Nat) (f : Bytes → Bytes)
    (ty pos : Nat) : AgreeO (CausedK pan) (checkHashD D n f ty pos) (checkHash R n f ty (Buf.ofBytes data) pos)
      (SamePart data.length) (fun r => EmptyPart R r.1) (fun r => EmptyPart R r.1) := by
  refine ((H.read pos n).mapErrO _ (fun e h => .inl ⟨e, h, rfl⟩)).agree.bind (fun x x' hx h => ?_)
  subst h
  have hle := readSlice_le (mapErr_ok.1 hx)
  have hroom := H.word.room
  dsimp only
  split
  · exact .errs
  · refine AgreeO.arith (word_add (by omega)) ?_
    refine (decodeD_agree H hR hle _ (fun e h => .inl ⟨e, h, rfl⟩)).bindV (fun r h => ?_) (fun r h => ?_) (fun r r' hr h => ?_)
    · obtain ⟨d, q⟩ := r
      dsimp only
      split
      · exact .err
      · split
        · exact .err
        · exact .ok h
    · obtain ⟨d, q⟩ := r
      refine .after fun _ => .after fun _ => ?_
      dsimp only
      split
      · exact .err
      · exact .ok h
    obtain ⟨d, q⟩ := r
    obtain ⟨d', q'⟩ := r'
    obtain ⟨rfl, h1, h2, _⟩ := h
    have hq : pos + n ≤ q := by
      obtain ⟨bs, g1, g2, _⟩ := (decode_parses R (Buf.ofBytes data) (.symbol ty) Propagated.new).sound (mapErr_ok.1 hr)
      omega
    refine AgreeO.arith (word_sub hq) ?_
    dsimp only
    intro s
    show AgreesW _ _ _ _ _ (DevO.bind (expectD (D.read (pos + n) (q - (pos + n)))) _ s).1
    have hread := H.read (pos + n) (q - (pos + n)) s
    unfold DevO.bind expectD
    rcases hxs : D.read (pos + n) (q - (pos + n)) s with ⟨o, s'⟩
    rw [hxs] at hread
    rcases hread with ⟨e, he, h⟩ | h
    · dsimp only at h; subst h
      exact .inl ⟨.panic, rfl, .inr ⟨hp, rfl⟩⟩
    · dsimp only at h
      rw [← h]
      cases o with
      | error e => exact .inl ⟨.panic, rfl, .inr ⟨hp, rfl⟩⟩
      | ok bs =>
        dsimp only
        split
        · exact .inr (.inr ⟨.err, .err⟩)
        · exact .inr (.inl ⟨_, _, rfl, rfl, rfl, h1, h2⟩)

theorem processHasherD_agree (H : HonestD External D R (Buf.ofBytes data)) (hR : Regular R) (h : Hasher) (hp : Concat h → pan)
    (ty : Nat) {pos : Nat} (hpos : pos ≤ data.length) :
    AgreeO (CausedK pan) (processHasherD D HF h ty pos) (processHasher HF R h ty (Buf.ofBytes data) pos) (SamePart data.length)
      (fun r => EmptyPart R r.1) (fun r => EmptyPart R r.1) := by
  cases h with
  | blake2_128 => exact cutHashD_agree H _ _ _
  | blake2_256 => exact cutHashD_agree H _ _ _
  | blake2_128Concat => exact checkHashD_agree H hR (hp (.inl rfl)) _ _ _ _
  | twox128 => exact cutHashD_agree H _ _ _
  | twox256 => exact cutHashD_agree H _ _ _
  | twox64Concat => exact checkHashD_agree H hR (hp (.inr rfl)) _ _ _ _
  | identity =>
    refine (decodeD_agree H hR hpos _ (fun e h => .inl ⟨e, h, rfl⟩)).bindV (fun r h => .ok h) (fun r h => .ok h) (fun r r' hr h => ?_)
    obtain ⟨d, q⟩ := r
    obtain ⟨d', q'⟩ := r'
    obtain ⟨rfl, h1, h2, _⟩ := h
    exact .ok ⟨rfl, h1, h2⟩

theorem hashersLoopD_agree (H : HonestD External D R (Buf.ofBytes data)) (hR : Regular R) :
    ∀ (hs : List Hasher) (tys : List Nat) (pos : Nat), (∀ h ∈ hs, Concat h → pan) → pos ≤ data.length →
    AgreeO (CausedK pan) (hashersLoopD D HF hs tys pos) (hashersLoop HF R (Buf.ofBytes data) hs tys pos)
      (fun r r' => r.2 = r'.2 ∧ r.1.length = r'.1.length ∧ ∀ x ∈ r.1.zip r'.1, KeyPartButLabels x.1 x.2)
      (fun r => ∃ p ∈ r.1, EmptyPart R p) (fun r => ∃ p ∈ r.1, EmptyPart R p) := by
  intro hs
  induction hs with
  | nil => intro tys pos _ _; exact .ok ⟨rfl, rfl, by simp⟩
  | cons h hs ih =>
    intro tys pos hp hpos
    cases tys with
    | nil => exact .ok ⟨rfl, rfl, by simp⟩
    | cons ty tys =>
      refine (processHasherD_agree H hR h (hp h (by simp)) ty hpos).bindV
        (fun r h => .after fun _ _ => .ok ⟨r.1, by simp, h⟩) (fun r h => .after fun _ => .ok ⟨r.1, by simp, h⟩) (fun r r' _ g => ?_)
      obtain ⟨p, q⟩ := r
      obtain ⟨p', q'⟩ := r'
      obtain ⟨rfl, g1, g2⟩ := g
      refine (ih tys q (fun h' hm => hp h' (by simp [hm])) g1).bindV
        (fun r ⟨p, h1, h2⟩ => .ok ⟨p, by simp [h1], h2⟩) (fun r ⟨p, h1, h2⟩ => .ok ⟨p, by simp [h1], h2⟩) (fun r r' _ g => ?_)
      obtain ⟨ps, q2⟩ := r
      obtain ⟨ps', q2'⟩ := r'
      obtain ⟨rfl, g3, g4⟩ := g
      dsimp only at g3 g4 g2 ⊢
      refine .ok ⟨rfl, by simp [g3], ?_⟩
      intro x hx
      simp only [List.zip_cons_cons, List.mem_cons] at hx
      rcases hx with rfl | hx
      · exact g2
      · exact g4 x hx

theorem keyDataD_agree (H : HonestD External D R (Buf.ofBytes data)) (hR : Regular R) (hashers : List Hasher)
    (hp : ∀ h ∈ hashers, Concat h → pan) (keyTy : Nat) {pos : Nat} (hpos : pos ≤ data.length) :
    AgreeO (CausedK pan) (keyDataD D HF hashers keyTy pos) (keyData HF R hashers keyTy (Buf.ofBytes data) pos)
      (fun r r' => r.2 = r'.2 ∧ KeyButLabels r.1 r'.1) (fun r => EmptyKey R r.1) (fun r => EmptyKey R r.1) := by
  match hashers, hp with
  | [h], hp =>
    refine (processHasherD_agree H hR h (hp h (by simp)) keyTy hpos).bindV (fun r h => .ok h) (fun r h => .ok h) (fun r r' _ g => ?_)
    obtain ⟨p, q⟩ := r
    obtain ⟨p', q'⟩ := r'
    obtain ⟨rfl, g1, g2⟩ := g
    exact .ok ⟨rfl, g2⟩
  | [], hp =>
    refine ((H.get keyTy).mapErrO _ (fun e h => .inl ⟨e, h, rfl⟩)).agree.bind (fun t t' _ h => ?_)
    subst h
    cases t.typeDef with
    | tuple elems =>
      dsimp only
      split
      · exact .errs
      · refine (hashersLoopD_agree H hR _ elems pos hp hpos).bindV (fun r h => .ok h) (fun r h => .ok h) (fun r r' _ g => ?_)
        obtain ⟨ps, q2⟩ := r
        obtain ⟨ps', q2'⟩ := r'
        obtain ⟨rfl, g3, g4⟩ := g
        exact .ok ⟨rfl, rfl, g3, g4⟩
    | _ => exact .errs
  | h1 :: h2 :: hs, hp =>
    refine ((H.get keyTy).mapErrO _ (fun e h => .inl ⟨e, h, rfl⟩)).agree.bind (fun t t' _ h => ?_)
    subst h
    cases t.typeDef with
    | tuple elems =>
      dsimp only
      split
      · exact .errs
      · refine (hashersLoopD_agree H hR _ elems pos hp hpos).bindV (fun r h => .ok h) (fun r h => .ok h) (fun r r' _ g => ?_)
        obtain ⟨ps, q2⟩ := r
        obtain ⟨ps', q2'⟩ := r'
        obtain ⟨rfl, g3, g4⟩ := g
        exact .ok ⟨rfl, rfl, g3, g4⟩
    | _ => exact .errs

theorem processKeyMappedD_agree (H : HonestD External D R (Buf.ofBytes data)) (hR : Regular R) (hashers : List Hasher)
    (hp : ∀ h ∈ hashers, Concat h → pan) (keyTy : Nat) {pos : Nat} (hpos : pos ≤ data.length) :
    AgreeO (CausedK pan) (processKeyMappedD D HF hashers keyTy pos) (processKeyMapped HF R hashers keyTy (Buf.ofBytes data) pos)
      KeyButLabels (EmptyKey R) (EmptyKey R) := by
  rw [processKeyMapped_keyData]
  refine (keyDataD_agree H hR hashers hp keyTy hpos).bindV (fun r h => ?_) (fun r h => ?_) (fun r r' _ h => ?_)
  · split
    · exact .ok h
    · exact .err
  · split
    · exact .ok h
    · exact .err
  rw [H.len, h.1]
  split
  · exact .ok h.2
  · exact .errs

theorem decodeAllD_agree (H : HonestD External D R (Buf.ofBytes data)) (hR : Regular R) (id : Nat)
    {E : Out ε → Prop} (f : PErr → ε) (hf : ∀ e, External (.err e) → E (.err (f e))) :
    AgreeO E ((decodeAllAsTypeD D id).mapErr f) ((decodeAllAsType R (Buf.ofBytes data) id).mapErr f)
      (fun d d' => SameButLabels (edValue d) (edValue d')) (fun d => TellsEmpty R (edValue d)) (fun d => TellsEmpty R (edValue d)) := by
  intro s
  have h := decodeD_agree (E := E) H hR (id := id) (Nat.zero_le _) f hf s
  have hd : (decodeAllAsTypeD D id s).1 = match (decodeD D (.symbol id) 0 Propagated.new s).1 with
      | .ok (d, q) => if q ≠ D.len then .error (.err (.someDataNotUsedBlob q)) else .ok d
      | .error e => .error e := by
    show (Dev.bind (decodeD D (.symbol id) 0 Propagated.new) _ s).1 = _
    unfold Dev.bind
    rcases decodeD D (.symbol id) 0 Propagated.new s with ⟨o, s'⟩
    cases o with
    | error e => rfl
    | ok r =>
      obtain ⟨d, q⟩ := r
      dsimp only
      split <;> rfl
  have hr : decodeAllAsType R (Buf.ofBytes data) id = match decode R (Buf.ofBytes data) (.symbol id) 0 Propagated.new with
      | .ok (d, q) => if q ≠ (Buf.ofBytes data).len then .error (.err (.someDataNotUsedBlob q)) else .ok d
      | .error e => .error e := by
    unfold decodeAllAsType decodeAsTypeAtPosition
    cases decode R (Buf.ofBytes data) (.symbol id) 0 Propagated.new with
    | error e => rfl
    | ok r => obtain ⟨d, q⟩ := r; rfl
  unfold Dev.mapErr at h ⊢
  dsimp only at h ⊢
  rw [hd, hr]
  generalize (decodeD D (.symbol id) 0 Propagated.new s).1 = o at h
  generalize decode R (Buf.ofBytes data) (.symbol id) 0 Propagated.new = r at h
  have hv : ∀ {n : Nat} {o : Res (ED × Nat)}, Void (EmptyRead R) (o.mapErr f) →
      Void (fun d => TellsEmpty R (edValue d)) (Res.mapErr f (match o with
        | .ok (d, q) => if q ≠ n then .error (.err (.someDataNotUsedBlob q)) else .ok d
        | .error e => .error e)) := by
    intro n o h
    cases o with
    | error e =>
      obtain ⟨x, hx⟩ := mapErr_error (α := ED) f e
      exact .inl ⟨x, hx⟩
    | ok r =>
      obtain ⟨d, q⟩ := r
      rcases h with ⟨e, h⟩ | ⟨a, h1, h2⟩
      · cases h
      · cases h1
        dsimp only
        split
        · exact .inl ⟨_, rfl⟩
        · exact .inr ⟨_, rfl, h2⟩
  rcases h with ⟨x, h, he⟩ | ⟨a, a', h1, h2, h3⟩ | ⟨h1, h2⟩
  · refine .inl ⟨x, ?_, he⟩
    cases o with
    | ok y => cases h
    | error e' => cases e' <;> (simp only [Res.mapErr, Except.error.injEq] at h ⊢; exact h)
  · rw [mapErr_ok] at h1 h2
    subst h1; subst h2
    obtain ⟨d, q⟩ := a
    obtain ⟨d', q'⟩ := a'
    obtain ⟨h4, _, h5, _⟩ := h3
    dsimp only at h4; subst h4
    dsimp only
    rw [H.len]
    split
    · exact .inr (.inr ⟨.err, .err⟩)
    · exact .inr (.inl ⟨_, _, rfl, rfl, h5⟩)
  · exact .inr (.inr ⟨hv h1, hv h2⟩)

theorem decodeStorageEntryD_agree {DK DV : Device σ} {k v : Bytes} (HK : HonestD External DK R (Buf.ofBytes k))
    (HV : HonestD External DV R (Buf.ofBytes v)) (hR : Regular R) (entry : Entry) :
    AgreeO (StorageCaused entry) (decodeStorageEntryD HF DK DV entry)
      (decodeStorageEntry HF R (Buf.ofBytes k) (Buf.ofBytes v) entry) StorageButLabels (EmptyStorage R) (EmptyStorage R) := by
  have hval : ∀ valueTy, AgreeO (StorageCaused entry) ((decodeAllAsTypeD DV valueTy).mapErr StErr.parsingValue)
      ((decodeAllAsType R (Buf.ofBytes v) valueTy).mapErr StErr.parsingValue)
      (fun d d' => SameButLabels (edValue d) (edValue d')) (fun d => TellsEmpty R (edValue d)) (fun d => TellsEmpty R (edValue d)) :=
    fun valueTy => decodeAllD_agree HV hR valueTy _ (fun e h => .inl ⟨e, h, .inr rfl⟩)
  unfold decodeStorageEntryD decodeStorageEntry
  dsimp only
  rw [HK.len]
  split
  · exact .errs
  · rename_i h32
    cases he : entry.ty with
    | plain valueTy =>
      dsimp only
      split
      · exact .errs
      · exact (hval valueTy).bindV (fun d h => .ok (.inr h)) (fun d h => .ok (.inr h)) (fun d d' _ h => .ok ⟨trivial, h, rfl⟩)
    | map hashers keyTy valueTy =>
      dsimp only
      refine ((processKeyMappedD_agree (pan := UsesConcat entry) HK hR hashers ?_ keyTy ?_).mono ?_ (fun _ _ h => h)).bindV
        (fun key h => .after fun _ _ => .ok (.inl h)) (fun key h => .after fun _ => .ok (.inl h)) (fun key key' _ hkey => ?_)
      · intro h hm hc
        unfold UsesConcat
        rw [he]
        exact ⟨h, hm, hc⟩
      · have : (Buf.ofBytes k).len = k.length := rfl
        omega
      · rintro e (⟨pe, h1, h2⟩ | h)
        · exact .inl ⟨pe, h1, .inl h2⟩
        · exact .inr h
      · exact (hval valueTy).bindV (fun d h => .ok (.inr h)) (fun d h => .ok (.inr h)) (fun d d' _ h => .ok ⟨hkey, h, rfl⟩)

end Verif
