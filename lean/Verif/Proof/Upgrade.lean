import Verif.Proof.Renaming
import Verif.Proof.Flaky
import Verif.Spec.Upgrade
/-!
# Decoding with metadata that knows more variants
-/
namespace Verif
open Spec

namespace Upgrade

/-- Not an outcome of the crate. -/
def Abnormal {α : Type} (r : Res α) : Prop := r = .error .fuel ∨ r = .error .panic

/-- Older and newer outcome; `w`: the older may be the error on an unknown variant. -/
def Up {α β : Type} (w : Prop) (Q : α → β → Prop) (r : Res α) (r' : Res β) : Prop :=
  Abnormal r ∨ Abnormal r' ∨ (w ∧ ∃ pos, r = .error (.err (.unexpectedEnumVariant pos))) ∨
    (∃ a a', r = .ok a ∧ r' = .ok a' ∧ Q a a') ∨ ∃ e, r = .error (.err e) ∧ r' = .error (.err e)

variable {α β γ δ : Type} {w : Prop}

theorem Up.ok {Q : α → β → Prop} {a : α} {a' : β} (h : Q a a') : Up w Q (.ok a) (.ok a') :=
  .inr (.inr (.inr (.inl ⟨a, a', rfl, rfl, h⟩)))

theorem Up.error {Q : α → β → Prop} (e : Fail) : Up w Q (.error e) (.error e) := by
  cases e with
  | err e => exact .inr (.inr (.inr (.inr ⟨e, rfl, rfl⟩)))
  | panic => exact .inl (.inr rfl)
  | fuel => exact .inl (.inl rfl)

theorem Up.refl {Q : α → α → Prop} (r : Res α) (h : ∀ a, r = .ok a → Q a a) : Up w Q r r := by
  cases r with
  | ok a => exact .ok (h a rfl)
  | error e => exact .error e

theorem Up.eq (r : Res α) : Up w Eq r r := .refl r fun _ _ => rfl

theorem Up.bind {Q : α → β → Prop} {P : γ → δ → Prop} {x : Res α} {x' : Res β} {k : α → Res γ} {k' : β → Res δ}
    (hx : Up w Q x x') (hk : ∀ a a', x = .ok a → x' = .ok a' → Q a a' → Up w P (k a) (k' a')) :
    Up w P (x >>= k) (x' >>= k') := by
  rcases hx with (rfl | rfl) | (rfl | rfl) | ⟨hw, pos, rfl⟩ | ⟨a, a', rfl, rfl, q⟩ | ⟨e, rfl, rfl⟩
  · exact .inl (.inl rfl)
  · exact .inl (.inr rfl)
  · exact .inr (.inl (.inl rfl))
  · exact .inr (.inl (.inr rfl))
  · exact .inr (.inr (.inl ⟨hw, pos, rfl⟩))
  · exact hk a a' rfl rfl q
  · exact .error (.err e)

/-- One program for both, then two. -/
theorem Up.bindL {P : γ → δ → Prop} (x : Res α) {k : α → Res γ} {k' : α → Res δ}
    (hk : ∀ a, x = .ok a → Up w P (k a) (k' a)) : Up w P (x >>= k) (x >>= k') :=
  (Up.refl (Q := fun a a' => a = a' ∧ x = .ok a) x fun a h => ⟨rfl, h⟩).bind fun a a' _ _ e => by
    obtain ⟨rfl, h⟩ := e
    exact hk a h

theorem Up.mono {w w' : Prop} {Q P : α → β → Prop} {x : Res α} {x' : Res β} (hx : Up w Q x x') (hw : w → w')
    (h : ∀ a a', Q a a' → P a a') : Up w' P x x' := by
  rcases hx with h1 | h1 | ⟨h0, h1⟩ | ⟨a, a', h1, h2, q⟩ | h1
  · exact .inl h1
  · exact .inr (.inl h1)
  · exact .inr (.inr (.inl ⟨hw h0, h1⟩))
  · exact .inr (.inr (.inr (.inl ⟨a, a', h1, h2, h _ _ q⟩)))
  · exact .inr (.inr (.inr (.inr h1)))

/-! ### Types -/

variable {R R' : Registry} {b : Buf} {S : Nat → Prop}

theorem _root_.Verif.Spec.GrownTyp.info {t t' : Typ} (h : GrownTyp t t') : Info.fromTy t' = Info.fromTy t := by
  unfold Info.fromTy; rw [h.1, h.2.1]

theorem _root_.Verif.Spec.GrownTyp.ident {t t' : Typ} (h : GrownTyp t t') : t'.ident = t.ident := by unfold Typ.ident; rw [h.1]

theorem _root_.Verif.Spec.GrownTyp.hinted {t t' : Typ} (h : GrownTyp t t') : TypeHinted.fromType t' = TypeHinted.fromType t := by
  unfold TypeHinted.fromType Typ.namespace; rw [h.ident, h.1]

theorem _root_.Verif.Spec.GrownTyp.fromPath {t t' : Typ} (h : GrownTyp t t') : Hint.fromPath t' = Hint.fromPath t := by
  unfold Hint.fromPath; rw [h.ident]

/-- Definitions that are not enums are the same. -/
theorem _root_.Verif.Spec.GrownTyp.def {t t' : Typ} (h : GrownTyp t t') (hn : ∀ vs, t.typeDef ≠ .variant vs) :
    t'.typeDef = t.typeDef := by
  rcases h.2.2 with h | ⟨vs, _, h, _⟩
  · exact h
  · exact absurd h (hn vs)

/-- Enums are enums, and know what they knew. -/
theorem _root_.Verif.Spec.GrownTyp.variants {t t' : Typ} (h : GrownTyp t t') {vs : List Variant} (hd : t.typeDef = .variant vs) :
    ∃ vs', t'.typeDef = .variant vs' ∧ KeepsVariants vs vs' ∧ vs'.isEmpty = vs.isEmpty := by
  rcases h.2.2 with h | ⟨us, vs', h, h', h1, h2⟩
  · exact ⟨vs, h.trans hd, fun _ _ h => h, rfl⟩
  · rw [hd] at h; cases h
    refine ⟨vs', h', h2, ?_⟩
    cases vs with
    | nil => exact absurd rfl h1
    | cons v vs =>
      have : Selects (v :: vs) v.index v := ⟨[], vs, rfl, rfl, fun _ h => nomatch h⟩
      obtain ⟨a, c, rfl, -⟩ := h2 _ _ this
      cases a <;> rfl

/-- The newer registry on a set of types. -/
structure UpOn (S : Nat → Prop) (R R' : Registry) : Prop where
  same : ∀ x, S x → GrownEntry (R.resolve x) (R'.resolve x)
  parts : ∀ id t, S id → R.resolve id = .ok t → Structural t.path → ∀ x ∈ partIds t, S x
  elems : ∀ id t n x, S id → R.resolve id = .ok t → t.typeDef = .array n x → S x

theorem upOn {id : Nat} (h : Upgraded R R' id) : UpOn (Seen R id) R R' where
  same := h
  parts _ _ h1 h2 h3 _ h4 := .part h1 h2 h3 h4
  elems _ _ _ _ h1 h2 h3 := .elem h1 h2 h3

/-- The outcome of a look-up. -/
def Got (R : Registry) (id : Nat) (t t' : Typ) : Prop := R.resolve id = .ok t ∧ GrownTyp t t'

theorem get_up (h : UpOn S R R') {id : Nat} (hs : S id) : Up w (Got R id) (R.get id) (R'.get id) := by
  have := h.same id hs
  unfold Registry.get
  revert this
  cases h1 : R.resolve id with
  | ok t =>
    cases h2 : R'.resolve id with
    | ok t' => exact fun q => .ok ⟨h1, q⟩
    | error e => exact False.elim
  | error e =>
    cases h2 : R'.resolve id with
    | ok t' => exact False.elim
    | error e' => rintro rfl; exact .error _

/-! ### Husking -/

/-- Husked types. -/
structure HuskUp (S : Nat → Prop) (R : Registry) (h h' : HuskedType) : Prop where
  info : h'.info = h.info
  checker : h'.checker = h.checker
  ty : GrownTyp h.ty h'.ty
  id : h'.id = h.id
  isIn : S h.id
  resolved : R.resolve h.id = .ok h.ty

theorem huskLoop_up (h : UpOn S R R') (n m : Nat) {t t' : Typ} {id : Nat} (info : List Info) (c : Checker)
    (hs : S id) (ht : R.resolve id = .ok t) (hr : GrownTyp t t') :
    Up w (HuskUp S R) (huskLoop R n t id info c) (huskLoop R' m t' id info c) := by
  induction n generalizing m t t' id info c with
  | zero => exact .inl (.inl rfl)
  | succ n ih =>
    cases m with
    | zero => exact .inr (.inl (.inl rfl))
    | succ m =>
      unfold huskLoop
      dsimp only
      rw [hr.info, hr.hinted]
      split
      · rename_i hn
        have hp := h.parts id t hs ht (structural_of_hinted hn)
        have stop : ∀ i, Up w (HuskUp S R) (.ok { info := i, checker := c, ty := t, id := id })
            (.ok { info := i, checker := c, ty := t', id := id }) := fun i => .ok ⟨rfl, rfl, hr, rfl, hs, ht⟩
        unfold partIds at hp
        cases hd : t.typeDef with
        | composite fs =>
          rw [hr.def (by rw [hd]; intro vs e; cases e), hd]
          rw [hd] at hp
          match fs, hp with
          | [], hp => exact stop _
          | [x], hp =>
            refine .bindL _ fun c' _ => ?_
            refine (get_up h (hp _ (by simp))).bind fun u u' _ _ q' => ?_
            exact ih m _ _ (hp _ (by simp)) q'.1 q'.2
          | _ :: _ :: _, hp => exact stop _
        | compact i =>
          rw [hr.def (by rw [hd]; intro vs e; cases e), hd]
          rw [hd] at hp
          refine .bindL _ fun _ _ => .bindL _ fun c' _ => ?_
          refine (get_up h (hp _ (by simp))).bind fun u u' _ _ q' => ?_
          exact ih m _ _ (hp _ (by simp)) q'.1 q'.2
        | variant vs => obtain ⟨vs', h1, -⟩ := hr.variants hd; rw [h1]; exact stop _
        | sequence e => rw [hr.def (by rw [hd]; intro vs e; cases e), hd]; exact stop _
        | array n e => rw [hr.def (by rw [hd]; intro vs e; cases e), hd]; exact stop _
        | tuple ids => rw [hr.def (by rw [hd]; intro vs e; cases e), hd]; exact stop _
        | primitive pr => rw [hr.def (by rw [hd]; intro vs e; cases e), hd]; exact stop _
        | bitSequence o s => rw [hr.def (by rw [hd]; intro vs e; cases e), hd]; exact stop _
      · exact .ok ⟨rfl, rfl, hr, rfl, hs, ht⟩

theorem huskType_up (h : UpOn S R R') {id : Nat} (hs : S id) (c : Checker) :
    Up w (HuskUp S R) (huskType R id c) (huskType R' id c) := by
  unfold huskType
  refine .bindL _ fun c' _ => ?_
  refine (get_up h hs).bind fun t t' _ _ q' => ?_
  exact huskLoop_up h _ _ [] _ hs q'.1 q'.2

/-! ### Recognition -/

/-- Discarded errors, without unknown variants among them. -/
theorem swallow_up {Q : α → β → Prop} {x : Res α} {x' : Res β} (h : Up False Q x x') :
    Up w (fun o o' => match o, o' with | some a, some a' => Q a a' | none, none => True | _, _ => False) (swallow x) (swallow x') := by
  rcases h with (rfl | rfl) | (rfl | rfl) | ⟨hw, pos, rfl⟩ | ⟨a, a', rfl, rfl, q⟩ | ⟨e, rfl, rfl⟩
  · exact .inl (.inl rfl)
  · exact .inl (.inr rfl)
  · exact .inr (.inl (.inl rfl))
  · exact .inr (.inl (.inr rfl))
  · exact hw.elim
  · exact .ok q
  · exact .ok trivial

theorem find_selects {vs : List Variant} {i : UInt8} {v : Variant} :
    vs.find? (fun v => v.index == i) = some v ↔ Selects vs i v := by
  rw [List.find?_eq_some_iff_append]
  constructor
  · rintro ⟨h, as, bs, h1, h2⟩
    exact ⟨as, bs, h1, by simpa using h, fun u hu => by have := h2 u hu; simpa using this⟩
  · rintro ⟨as, bs, h1, h2, h3⟩
    exact ⟨by simpa using h2, as, bs, h1, fun u hu => by have := h3 u hu; simpa using this⟩

theorem signatureIndicator_up (h : UpOn S R R') {x : Field} (hs : S x.ty) :
    Up w Eq (signatureIndicator R x) (signatureIndicator R' x) := by
  refine (swallow_up (huskType_up h hs Checker.new)).bind fun o o' _ _ q => ?_
  cases o with
  | none => cases o' with
    | none => exact .ok rfl
    | some _ => exact q.elim
  | some u => cases o' with
    | none => exact q.elim
    | some u' =>
      dsimp only
      cases hd : u.ty.typeDef with
      | array n e =>
        rw [q.ty.def (by rw [hd]; intro vs e; cases e), hd]
        refine (swallow_up (get_up h (h.elems _ _ _ _ q.isIn q.resolved hd))).bind fun o o' _ _ q => ?_
        cases o with
        | none => cases o' with
          | none => exact .ok rfl
          | some _ => exact q.elim
        | some t => cases o' with
          | none => exact q.elim
          | some t' =>
            have e : (t'.typeDef = .primitive .u8) ↔ (t.typeDef = .primitive .u8) := by
              rcases q.2.2.2 with h | ⟨vs, vs', h1, h2, -⟩
              · rw [h]
              · rw [h1, h2]; simp
            dsimp only
            simp only [e]
            exact .eq _
      | composite fs => rw [q.ty.def (by rw [hd]; intro vs e; cases e), hd]; exact .ok rfl
      | compact i => rw [q.ty.def (by rw [hd]; intro vs e; cases e), hd]; exact .ok rfl
      | variant vs => obtain ⟨vs', h1, -⟩ := q.ty.variants hd; rw [h1]; exact .ok rfl
      | sequence e => rw [q.ty.def (by rw [hd]; intro vs e; cases e), hd]; exact .ok rfl
      | tuple ids => rw [q.ty.def (by rw [hd]; intro vs e; cases e), hd]; exact .ok rfl
      | primitive pr => rw [q.ty.def (by rw [hd]; intro vs e; cases e), hd]; exact .ok rfl
      | bitSequence o s => rw [q.ty.def (by rw [hd]; intro vs e; cases e), hd]; exact .ok rfl

/-- Recognized types. -/
inductive TcUp (S : Nat → Prop) (t : Typ) : TypeChecked → TypeChecked → Prop
  | pallet {n : String} {i : Info} {vs vs' : List Variant} {item : PalletItem} :
      (∀ v ∈ vs, ∀ x ∈ v.fields.map (·.ty), S x) → KeepsVariants vs vs' →
      TcUp S t (.palletSpecific n i vs item) (.palletSpecific n i vs' item)
  | none : Structural t.path → TcUp S t .none .none
  | fixed {k : FixedKind} : TcUp S t (.fixed k) (.fixed k)
  | era : TcUp S t .era .era
  | h256 : TcUp S t .h256 .h256
  | perThing {k : PerKind} : TcUp S t (.perThing k) (.perThing k)

/-- Outcome of recognition. -/
def TcUps (S : Nat → Prop) (t : Typ) (r r' : TypeChecked × Nat) : Prop := TcUp S t r.1 r'.1 ∧ r'.2 = r.2

theorem variant_parts (h : UpOn S R R') {id : Nat} {t : Typ} {vs : List Variant} (hs : S id) (ht : R.resolve id = .ok t)
    (hst : Structural t.path) (hd : t.typeDef = .variant vs) : ∀ v ∈ vs, ∀ x ∈ v.fields.map (·.ty), S x := by
  intro v hv x hx
  refine h.parts id t hs ht hst x ?_
  unfold partIds; rw [hd]
  exact List.mem_flatMap.2 ⟨v, hv, hx⟩

/-- The index, if there is one, is known to the older registry. -/
def Knows (vs : List Variant) (b : Buf) (pos : Nat) : Prop :=
  ∀ i, b.readByte pos = .ok i → ∃ v, Selects vs i v

theorem pickVariant_knows {vs vs' : List Variant} (hk : KeepsVariants vs vs') {b : Buf} {pos : Nat} (h : Knows vs b pos) :
    pickVariant vs' b pos = pickVariant vs b pos := by
  unfold pickVariant
  cases hb : b.readByte pos with
  | error e => rfl
  | ok i =>
    obtain ⟨v, hv⟩ := h i hb
    show (match vs'.find? (fun v => v.index == i) with | some v => _ | none => _) = (match vs.find? (fun v => v.index == i) with | some v => _ | none => _)
    rw [find_selects.2 hv, find_selects.2 (hk _ _ hv)]

theorem pickVariant_unknown {vs : List Variant} {b : Buf} {pos : Nat} (h : ¬ Knows vs b pos) :
    pickVariant vs b pos = .error (.err (.unexpectedEnumVariant pos)) := by
  unfold Knows at h
  simp only [Classical.not_forall] at h
  obtain ⟨i, hb, hn⟩ := h
  unfold pickVariant
  rw [hb]
  show (match vs.find? (fun v => v.index == i) with | some v => _ | none => _) = _
  cases hf : vs.find? (fun v => v.index == i) with
  | none => rfl
  | some v => exact absurd ⟨v, find_selects.1 hf⟩ hn

theorem pickVariant_up {vs vs' : List Variant} (hk : KeepsVariants vs vs') (b : Buf) (pos : Nat) :
    Up True (fun v v' => v ∈ vs ∧ v' = v) (pickVariant vs b pos) (pickVariant vs' b pos) := by
  by_cases h : Knows vs b pos
  · rw [pickVariant_knows hk h]
    refine .refl _ fun v hv => ⟨?_, rfl⟩
    unfold pickVariant at hv
    obtain ⟨i, _, h2⟩ := bind_ok.1 hv
    split at h2
    · rename_i hf
      cases h2
      exact List.mem_of_find?_eq_some hf
    · cases h2
  · exact .inr (.inr (.inl ⟨trivial, pos, pickVariant_unknown h⟩))

theorem swallowPick_mem {vs : List Variant} {b : Buf} {pos : Nat} {v : Variant} (h : swallow (pickVariant vs b pos) = .ok (some v)) :
    v ∈ vs := by
  unfold swallow at h
  split at h
  · rename_i hv
    cases h
    unfold pickVariant at hv
    obtain ⟨i, _, h2⟩ := bind_ok.1 hv
    split at h2
    · rename_i hf
      cases h2
      exact List.mem_of_find?_eq_some hf
    · cases h2
  · cases h
  · cases h

theorem checkMultiSignature_up (h : UpOn S R R') {t t' : Typ} {id : Nat} (hs : S id) (ht : R.resolve id = .ok t)
    (hst : Structural t.path) (hr : GrownTyp t t') (b : Buf) (pos : Nat) (hk : ∀ vs, t.typeDef = .variant vs → Knows vs b pos) :
    Up w (TcUps S t) (checkMultiSignature R t b pos) (checkMultiSignature R' t' b pos) := by
  have hn : Up w (TcUps S t) (.ok (.none, pos)) (.ok (.none, pos)) := .ok ⟨.none hst, rfl⟩
  unfold checkMultiSignature
  cases hd : t.typeDef with
  | variant vs =>
    obtain ⟨vs', h1, h2, -⟩ := hr.variants hd
    rw [h1]
    dsimp only
    rw [pickVariant_knows h2 (hk vs hd)]
    refine .bindL _ fun o ho => ?_
    cases o with
    | none => exact hn
    | some v =>
      have hp := variant_parts h hs ht hst hd v (swallowPick_mem ho)
      dsimp only
      match hf : v.fields with
      | [] => exact hn
      | [x] =>
        rw [hf] at hp
        refine (signatureIndicator_up h (hp _ (by simp))).bind fun o o' _ _ q => ?_
        subst q
        cases o with
        | none => exact hn
        | some k => exact .ok ⟨.fixed, rfl⟩
      | _ :: _ :: _ => exact hn
  | composite fs => rw [hr.def (by rw [hd]; intro vs e; cases e), hd]; exact hn
  | compact i => rw [hr.def (by rw [hd]; intro vs e; cases e), hd]; exact hn
  | array n e => rw [hr.def (by rw [hd]; intro vs e; cases e), hd]; exact hn
  | sequence e => rw [hr.def (by rw [hd]; intro vs e; cases e), hd]; exact hn
  | tuple ids => rw [hr.def (by rw [hd]; intro vs e; cases e), hd]; exact hn
  | primitive pr => rw [hr.def (by rw [hd]; intro vs e; cases e), hd]; exact hn
  | bitSequence o s => rw [hr.def (by rw [hd]; intro vs e; cases e), hd]; exact hn

theorem checkPalletSpecific_up (h : UpOn S R R') {t t' : Typ} {id : Nat} (hs : S id) (ht : R.resolve id = .ok t)
    (hst : Structural t.path) (hr : GrownTyp t t') (item : PalletItem) (b : Buf) (pos : Nat)
    (hk : ∀ vs, t.typeDef = .variant vs → Knows vs b pos) :
    Up w (TcUps S t) (checkPalletSpecific R item t b pos) (checkPalletSpecific R' item t' b pos) := by
  have hn : Up w (TcUps S t) (.ok (.none, pos)) (.ok (.none, pos)) := .ok ⟨.none hst, rfl⟩
  unfold checkPalletSpecific
  cases hd : t.typeDef with
  | variant vs =>
    obtain ⟨vs', h1, h2, -⟩ := hr.variants hd
    rw [h1]
    dsimp only
    rw [pickVariant_knows h2 (hk vs hd)]
    refine .bindL _ fun o ho => ?_
    cases o with
    | none => exact hn
    | some v =>
      have hp := variant_parts h hs ht hst hd v (swallowPick_mem ho)
      dsimp only
      match hf : v.fields with
      | [] => exact hn
      | [x] =>
        rw [hf] at hp
        refine (swallow_up (get_up h (hp x.ty (by simp)))).bind fun o o' _ _ q => ?_
        cases o with
        | none => cases o' with
          | none => exact hn
          | some _ => exact q.elim
        | some u => cases o' with
          | none => exact q.elim
          | some u' =>
            have ho := hinted_open (t := u)
            dsimp only
            rw [q.2.hinted, q.2.info]
            cases hh : TypeHinted.fromType u with
            | palletSpecific item' =>
              rw [hh] at ho
              dsimp only
              split
              · exact hn
              · cases hud : u.typeDef with
                | variant ws =>
                  obtain ⟨ws', h3, h4, -⟩ := q.2.variants hud
                  rw [h3]
                  exact .ok ⟨.pallet (variant_parts h (hp x.ty (by simp)) q.1 (ho.1 rfl) hud) h4, rfl⟩
                | composite fs => rw [q.2.def (by rw [hud]; intro vs e; cases e), hud]; exact hn
                | compact i => rw [q.2.def (by rw [hud]; intro vs e; cases e), hud]; exact hn
                | array n e => rw [q.2.def (by rw [hud]; intro vs e; cases e), hud]; exact hn
                | sequence e => rw [q.2.def (by rw [hud]; intro vs e; cases e), hud]; exact hn
                | tuple ids => rw [q.2.def (by rw [hud]; intro vs e; cases e), hud]; exact hn
                | primitive pr => rw [q.2.def (by rw [hud]; intro vs e; cases e), hud]; exact hn
                | bitSequence o s => rw [q.2.def (by rw [hud]; intro vs e; cases e), hud]; exact hn
            | none => exact hn
            | fixed k => exact hn
            | era => exact hn
            | h256 => exact hn
            | multiSignature => exact hn
            | perThing k => exact hn
            | uncheckedExtrinsic => exact hn
      | _ :: _ :: _ => exact hn
  | composite fs => rw [hr.def (by rw [hd]; intro vs e; cases e), hd]; exact hn
  | compact i => rw [hr.def (by rw [hd]; intro vs e; cases e), hd]; exact hn
  | array n e => rw [hr.def (by rw [hd]; intro vs e; cases e), hd]; exact hn
  | sequence e => rw [hr.def (by rw [hd]; intro vs e; cases e), hd]; exact hn
  | tuple ids => rw [hr.def (by rw [hd]; intro vs e; cases e), hd]; exact hn
  | primitive pr => rw [hr.def (by rw [hd]; intro vs e; cases e), hd]; exact hn
  | bitSequence o s => rw [hr.def (by rw [hd]; intro vs e; cases e), hd]; exact hn

theorem fromType_up (h : UpOn S R R') {t t' : Typ} {id : Nat} (hs : S id) (ht : R.resolve id = .ok t)
    (hr : GrownTyp t t') (b : Buf) (pos : Nat) (hk : ∀ vs, t.typeDef = .variant vs → Knows vs b pos) :
    Up w (TcUps S t) (TypeChecked.fromType R t b pos) (TypeChecked.fromType R' t' b pos) := by
  unfold TypeChecked.fromType
  rw [hr.hinted]
  have ho := hinted_open (t := t)
  cases hh : TypeHinted.fromType t with
  | none => rw [hh] at ho; exact .ok ⟨.none (ho.1 rfl), rfl⟩
  | uncheckedExtrinsic => rw [hh] at ho; exact .ok ⟨.none (ho.1 rfl), rfl⟩
  | multiSignature => rw [hh] at ho; exact checkMultiSignature_up h hs ht (ho.1 rfl) hr b pos hk
  | palletSpecific item => rw [hh] at ho; exact checkPalletSpecific_up h hs ht (ho.1 rfl) hr item b pos hk
  | fixed k => exact .ok ⟨.fixed, rfl⟩
  | era => exact .ok ⟨.era, rfl⟩
  | h256 => exact .ok ⟨.h256, rfl⟩
  | perThing k => exact .ok ⟨.perThing, rfl⟩

/-! ### The decoder -/

variable {rec rec' : Dec}

/-- Recursive calls. -/
structure RecUp (S : Nat → Prop) (R : Registry) (rec rec' : Dec) : Prop where
  symbol : ∀ id pos p, S id → Up True Eq (rec (.symbol id) pos p) (rec' (.symbol id) pos p)
  resolved : ∀ t t' id pos p, S id → R.resolve id = .ok t → GrownTyp t t' →
    Up True Eq (rec (.resolved t id) pos p) (rec' (.resolved t' id) pos p)

theorem decodeFieldsLoop_up (hr : RecUp S R rec rec') (c : Checker) (fs : List Field) :
    ∀ pos, (∀ x ∈ fs.map (·.ty), S x) →
    Up True Eq (decodeFieldsLoop rec c fs pos) (decodeFieldsLoop rec' c fs pos) := by
  induction fs with
  | nil => intro pos _; exact .ok rfl
  | cons x fs ih =>
    intro pos hs
    refine .bindL _ fun p _ => ?_
    refine (hr.symbol _ _ _ (hs _ (by simp))).bind fun d _ _ _ e => ?_
    subst e
    refine (ih _ fun y hy => hs y (by simp at hy ⊢; exact .inr hy)).bind fun l _ _ _ e => ?_
    subst e
    exact .ok rfl

theorem decodeFields_up (hr : RecUp S R rec rec') (c : Checker) (fs : List Field)
    (pos : Nat) (hs : ∀ x ∈ fs.map (·.ty), S x) :
    Up True Eq (decodeFields rec fs pos c) (decodeFields rec' fs pos c) := by
  unfold decodeFields
  split
  · exact .bindL _ fun _ _ => decodeFieldsLoop_up hr _ _ _ hs
  · exact decodeFieldsLoop_up hr _ _ _ hs

theorem decodeElementsLoop_up (hr : RecUp S R rec rec') {u u' : HuskedType} (hu : HuskUp S R u u') (n : Nat) :
    ∀ pos, Up True Eq (decodeElementsLoop rec u n pos) (decodeElementsLoop rec' u' n pos) := by
  induction n with
  | zero => intro pos; exact .ok rfl
  | succ n ih =>
    intro pos
    unfold decodeElementsLoop
    rw [hu.id, hu.checker]
    refine (hr.resolved _ _ _ _ _ hu.isIn hu.resolved hu.ty).bind fun d _ _ _ e => ?_
    subst e
    refine (ih _).bind fun l _ _ _ e => ?_
    subst e
    exact .ok rfl

theorem decodeElementsSet_up (h : UpOn S R R') (hr : RecUp S R rec rec') {elem : Nat} (n pos : Nat)
    (p : Propagated) (hs : S elem) :
    Up True Eq (decodeElementsSet R rec elem n pos p) (decodeElementsSet R' rec' elem n pos p) := by
  unfold decodeElementsSet
  refine .bindL _ fun _ _ => (huskType_up h hs _).bind fun u u' _ _ q => ?_
  rw [q.info]
  split
  · exact .ok rfl
  · refine (decodeElementsLoop_up hr q n pos).bind fun l _ _ _ e => ?_
    subst e
    exact .eq _

theorem decodeVariant_up (hr : RecUp S R rec rec') {vs vs' : List Variant} (hk : KeepsVariants vs vs') (b : Buf) (pos : Nat)
    (hs : ∀ v ∈ vs, ∀ x ∈ v.fields.map (·.ty), S x) :
    Up True Eq (decodeVariant rec vs b pos) (decodeVariant rec' vs' b pos) := by
  refine (pickVariant_up hk b pos).bind fun v v' _ _ q => ?_
  obtain ⟨hv, rfl⟩ := q
  refine (decodeFields_up hr Checker.new v'.fields _ (hs v' hv)).bind fun l _ _ _ e => ?_
  subst e
  exact .ok rfl

theorem forTy_up (c : Checker) {t t' : Typ} (id : Nat) (ht : GrownTyp t t') :
    Propagated.forTy c t' id = Propagated.forTy c t id := by
  unfold Propagated.forTy Checker.updateForTy SpecialtySet.updateFromPath
  rw [ht.fromPath]

theorem decodeTupleLoop_up (h : UpOn S R R') (hr : RecUp S R rec rec') (c : Checker) (ids : List Nat) :
    ∀ pos, (∀ x ∈ ids, S x) →
    Up True Eq (decodeTupleLoop R rec c ids pos) (decodeTupleLoop R' rec' c ids pos) := by
  induction ids with
  | nil => intro pos _; exact .ok rfl
  | cons id ids ih =>
    intro pos hs
    refine (get_up h (hs _ (by simp))).bind fun t t' _ _ qt => ?_
    dsimp only
    rw [forTy_up _ _ qt.2]
    refine .bindL _ fun p _ => ?_
    refine (hr.resolved _ _ _ _ _ (hs _ (by simp)) qt.1 qt.2).bind fun d _ _ _ e => ?_
    subst e
    refine (ih _ fun y hy => hs y (by simp [hy])).bind fun l _ _ _ e => ?_
    subst e
    exact .ok rfl

theorem decodeTuple_up (h : UpOn S R R') (hr : RecUp S R rec rec') (ids : List Nat) (pos : Nat)
    (p : Propagated) (hs : ∀ x ∈ ids, S x) :
    Up True Eq (decodeTuple R rec ids pos p) (decodeTuple R' rec' ids pos p) := by
  unfold decodeTuple
  dsimp only
  have hl : ∀ q : Propagated, Up True Eq
      (decodeTupleLoop R rec q.checker ids pos >>= fun r => Except.ok (({ data := .tuple r.1, info := q.info } : ED), r.2))
      (decodeTupleLoop R' rec' q.checker ids pos >>= fun r => Except.ok (({ data := .tuple r.1, info := q.info } : ED), r.2)) := by
    intro q
    refine (decodeTupleLoop_up h hr _ _ _ hs).bind fun l _ _ _ e => ?_
    subst e
    exact .ok rfl
  split
  · exact .bindL _ fun q _ => hl _
  · exact hl _

theorem withInfo_up {x x' : Res (PD × Nat)} (info : List Info) (h : Up w Eq x x') : Up w Eq (withInfo info x) (withInfo info x') :=
  h.bind fun _ _ _ _ e => by subst e; exact .ok rfl

theorem findBitOrder_up (h : UpOn S R R') {o : Nat} (hs : S o) (id : Nat) :
    Up w Eq (findBitOrder R o id) (findBitOrder R' o id) := by
  refine (get_up h hs).bind fun t t' _ _ q => ?_
  rw [q.2.ident]
  rcases q.2.2.2 with e | ⟨vs, vs', h1, h2, -⟩
  · rw [e]; exact .eq _
  · rw [h1, h2]; exact .eq _

theorem decodeBitSequence_up (h : UpOn S R R') {o s : Nat} (ho : S o) (hs : S s) (id : Nat) (b : Buf) (pos : Nat) :
    Up w Eq (decodeBitSequence R o s id b pos) (decodeBitSequence R' o s id b pos) := by
  unfold decodeBitSequence
  refine (findBitOrder_up h ho id).bind fun o _ _ _ e => ?_
  subst e
  refine (get_up h hs).bind fun t t' _ _ q => ?_
  rcases q.2.2.2 with e | ⟨vs, vs', h1, h2, -⟩
  · rw [e]; exact .eq _
  · rw [h1, h2]; exact .eq _

theorem decodeTypeDef_up (h : UpOn S R R') (hr : RecUp S R rec rec') {t t' : Typ} {id : Nat} (b : Buf) (pos : Nat)
    (p : Propagated) (hs : S id) (ht : R.resolve id = .ok t) (hst : Structural t.path)
    (hrt : GrownTyp t t') :
    Up True Eq (decodeTypeDef R rec b t id pos p) (decodeTypeDef R' rec' b t' id pos p) := by
  have hq := h.parts id t hs ht hst
  unfold decodeTypeDef
  unfold partIds at hq
  cases hd : t.typeDef with
  | composite fs =>
    rw [hd] at hq; rw [hrt.def (by rw [hd]; intro vs e; cases e), hd]
    refine (decodeFields_up hr _ _ _ hq).bind fun l _ _ _ e => ?_
    subst e
    exact .ok rfl
  | variant vs =>
    rw [hd] at hq
    obtain ⟨vs', h1, h2, h3⟩ := hrt.variants hd
    rw [h1]
    dsimp only
    refine .bindL _ fun _ _ => ?_
    rw [h3]
    split
    · exact .ok rfl
    · refine (decodeVariant_up hr h2 b pos fun v hv x hx => hq x (List.mem_flatMap.2 ⟨v, hv, hx⟩)).bind fun r _ _ _ e => ?_
      subst e
      exact .ok rfl
  | sequence e =>
    rw [hd] at hq; rw [hrt.def (by rw [hd]; intro vs e; cases e), hd]
    exact .bindL _ fun n _ => decodeElementsSet_up h hr n.1 n.2 _ (hq _ (by simp))
  | array n e =>
    rw [hd] at hq; rw [hrt.def (by rw [hd]; intro vs e; cases e), hd]
    exact decodeElementsSet_up h hr n pos p (hq _ (by simp))
  | tuple ids =>
    rw [hd] at hq; rw [hrt.def (by rw [hd]; intro vs e; cases e), hd]
    exact decodeTuple_up h hr _ _ p hq
  | primitive pr => rw [hrt.def (by rw [hd]; intro vs e; cases e), hd]; exact .eq _
  | compact i =>
    rw [hd] at hq; rw [hrt.def (by rw [hd]; intro vs e; cases e), hd]
    exact .bindL _ fun _ _ => .bindL _ fun c _ => hr.symbol _ _ _ (hq _ (by simp))
  | bitSequence o s =>
    rw [hd] at hq; rw [hrt.def (by rw [hd]; intro vs e; cases e), hd]
    exact .bindL _ fun _ _ => withInfo_up _ (decodeBitSequence_up h (hq _ (by simp)) (hq _ (by simp)) _ _ _)

theorem decodeChecked_up (h : UpOn S R R') (hr : RecUp S R rec rec') {t t' : Typ} {id : Nat} (b : Buf) (pos : Nat)
    (p : Propagated) (hs : S id) (ht : R.resolve id = .ok t) (hrt : GrownTyp t t') {tc tc' : TypeChecked} (q : TcUp S t tc tc') :
    Up True Eq (decodeChecked R rec b tc t id pos p) (decodeChecked R' rec' b tc' t' id pos p) := by
  cases q with
  | none hst => exact decodeTypeDef_up h hr b pos p hs ht hst hrt
  | pallet h1 h2 =>
    refine .bindL _ fun _ _ => (decodeVariant_up hr h2 b pos h1).bind fun r _ _ _ e => ?_
    subst e
    exact .ok rfl
  | fixed => exact .eq _
  | era => exact .eq _
  | h256 => exact .eq _
  | perThing => exact .eq _

/-- Recognition of an enum with an index it does not know. -/
theorem fromType_unknown {t : Typ} {vs : List Variant} (hd : t.typeDef = .variant vs) {b : Buf} {pos : Nat}
    (h : ¬ Knows vs b pos) (ho : TypeHinted.fromType t = .multiSignature ∨ ∃ item, TypeHinted.fromType t = .palletSpecific item) :
    TypeChecked.fromType R t b pos = .ok (.none, pos) := by
  unfold TypeChecked.fromType
  rcases ho with ho | ⟨item, ho⟩
  · rw [ho]
    dsimp only
    unfold checkMultiSignature
    rw [hd]
    dsimp only
    rw [pickVariant_unknown h]
    rfl
  · rw [ho]
    dsimp only
    unfold checkPalletSpecific
    rw [hd]
    dsimp only
    rw [pickVariant_unknown h]
    rfl

/-- What the newer metadata may recognize in place of an unknown index refuses compacts in the same way. -/
theorem fromType_enum {t : Typ} {b : Buf} {pos : Nat}
    (ho : TypeHinted.fromType t = .multiSignature ∨ ∃ item, TypeHinted.fromType t = .palletSpecific item)
    {r : TypeChecked × Nat} (h : TypeChecked.fromType R t b pos = .ok r) :
    r = (.none, pos) ∨ (∃ k, r.1 = .fixed k) ∨ ∃ n i vs item, r.1 = .palletSpecific n i vs item := by
  unfold TypeChecked.fromType at h
  rcases ho with ho | ⟨item, ho⟩
  · rw [ho] at h
    dsimp only at h
    unfold checkMultiSignature at h
    split at h
    · obtain ⟨o, _, h⟩ := bind_ok.1 h
      split at h
      · split at h
        · obtain ⟨o, _, h⟩ := bind_ok.1 h
          split at h
          · cases h; exact .inr (.inl ⟨_, rfl⟩)
          · cases h; exact .inl rfl
        · cases h; exact .inl rfl
      · cases h; exact .inl rfl
    · cases h; exact .inl rfl
  · rw [ho] at h
    dsimp only at h
    unfold checkPalletSpecific at h
    split at h
    · obtain ⟨o, _, h⟩ := bind_ok.1 h
      split at h
      · split at h
        · obtain ⟨o, _, h⟩ := bind_ok.1 h
          split at h
          · split at h
            · split at h
              · cases h; exact .inl rfl
              · split at h
                · cases h; exact .inr (.inr ⟨_, _, _, _, rfl⟩)
                · cases h; exact .inl rfl
            · cases h; exact .inl rfl
          · cases h; exact .inl rfl
        · cases h; exact .inl rfl
      · cases h; exact .inl rfl
    · cases h; exact .inl rfl

theorem decodeBody_up (h : UpOn S R R') (hr : RecUp S R rec rec') {t t' : Typ} {id : Nat} (b : Buf) (pos : Nat)
    (p : Propagated) (hs : S id) (ht : R.resolve id = .ok t) (hrt : GrownTyp t t') :
    Up True Eq
      (TypeChecked.fromType R t b pos >>= fun r => decodeChecked R rec b r.1 t id r.2 (p.addInfo (Info.fromTy t)))
      (TypeChecked.fromType R' t' b pos >>= fun r => decodeChecked R' rec' b r.1 t' id r.2 (p.addInfo (Info.fromTy t'))) := by
  rw [hrt.info]
  generalize p.addInfo (Info.fromTy t) = p
  by_cases hk : (∀ vs, t.typeDef = .variant vs → Knows vs b pos) ∨
      ¬ (TypeHinted.fromType t = .multiSignature ∨ ∃ item, TypeHinted.fromType t = .palletSpecific item)
  · have key : Up True (TcUps S t) (TypeChecked.fromType R t b pos) (TypeChecked.fromType R' t' b pos) := by
      rcases hk with hk | hk
      · exact fromType_up h hs ht hrt b pos hk
      · unfold TypeChecked.fromType
        rw [hrt.hinted]
        have ho := hinted_open (t := t)
        cases hh : TypeHinted.fromType t with
        | none => rw [hh] at ho; exact .ok ⟨.none (ho.1 rfl), rfl⟩
        | uncheckedExtrinsic => rw [hh] at ho; exact .ok ⟨.none (ho.1 rfl), rfl⟩
        | multiSignature => exact absurd (.inl hh) hk
        | palletSpecific item => exact absurd (.inr ⟨_, hh⟩) hk
        | fixed k => exact .ok ⟨.fixed, rfl⟩
        | era => exact .ok ⟨.era, rfl⟩
        | h256 => exact .ok ⟨.h256, rfl⟩
        | perThing k => exact .ok ⟨.perThing, rfl⟩
    refine key.bind fun r r' _ _ q => ?_
    obtain ⟨q1, q2⟩ := q
    rw [q2]
    exact decodeChecked_up h hr b _ p hs ht hrt q1
  · obtain ⟨hk1, ho⟩ := not_or.1 hk
    have ho := Classical.not_not.1 ho
    simp only [Classical.not_forall] at hk1
    obtain ⟨vs, hd, hu⟩ := hk1
    have ho' : TypeHinted.fromType t' = .multiSignature ∨ ∃ item, TypeHinted.fromType t' = .palletSpecific item := by
      rw [hrt.hinted]; exact ho
    obtain ⟨vs', hd', hk', he⟩ := hrt.variants hd
    rw [fromType_unknown (R := R) hd hu ho]
    show Up True Eq (decodeTypeDef R rec b t id pos p) _
    cases hc : p.rejectCompact with
    | ok u =>
      by_cases hv : vs.isEmpty = true
      · -- an enum without variants, which has not grown
        have hv0 : vs = [] := List.isEmpty_iff.1 hv
        have hv' : vs' = [] := List.isEmpty_iff.1 (he.trans hv)
        subst hv0 hv'
        have hu' : ¬ Knows [] b pos := hu
        rw [fromType_unknown (R := R') hd' hu' ho']
        show Up True Eq _ (decodeTypeDef R' rec' b t' id pos p)
        unfold decodeTypeDef
        rw [hd, hd']
        exact .eq _
      · refine .inr (.inr (.inl ⟨trivial, pos, ?_⟩))
        unfold decodeTypeDef
        rw [hd]
        dsimp only
        rw [hc, ok_bind, if_neg hv]
        unfold decodeVariant
        rw [pickVariant_unknown hu]
        rfl
    | error e =>
      have hold : decodeTypeDef R rec b t id pos p = .error e := by
        unfold decodeTypeDef
        rw [hd]
        dsimp only
        rw [hc]; rfl
      have hnew : decodeTypeDef R' rec' b t' id pos p = .error e := by
        unfold decodeTypeDef
        rw [hd']
        dsimp only
        rw [hc]; rfl
      rw [hold]
      cases hf : TypeChecked.fromType R' t' b pos with
      | error e' =>
        -- recognition itself has no errors
        obtain ⟨r, hr, _⟩ := fromType_recog (R := R') (b := b) t' pos
        rw [hf] at hr; cases hr
      | ok r =>
        rcases fromType_enum ho' hf with rfl | ⟨k, hk⟩ | ⟨n, i, ws, item, hk⟩
        · show Up True Eq _ (decodeTypeDef R' rec' b t' id pos p)
          rw [hnew]; exact .error e
        · obtain ⟨tc, q⟩ := r
          cases hk
          show Up True Eq _ (withInfo p.info (parseFixed k b q p.compactAt))
          have : parseFixed k b q p.compactAt = .error e := by
            unfold parseFixed
            have hc' : blockCompact p.compactAt = .error e := hc
            rw [hc']; rfl
          rw [this]; exact .error e
        · obtain ⟨tc, q⟩ := r
          cases hk
          show Up True Eq _ (p.rejectCompact >>= _)
          rw [hc]; exact .error e

theorem decodeStep_up (h : UpOn S R R') (hr : RecUp S R rec rec') (b : Buf) :
    RecUp S R (decodeStep R b rec) (decodeStep R' b rec') where
  symbol id pos p hs := by
    refine ((get_up h hs).bind (P := fun r r' => Got R id r.1 r'.1 ∧ r.2 = id ∧ r'.2 = id) fun t t' _ _ q => ?_).bind
      fun r r' _ _ q => ?_
    · exact .ok ⟨q, rfl, rfl⟩
    · obtain ⟨t, id⟩ := r
      obtain ⟨t', id'⟩ := r'
      obtain ⟨q, rfl, rfl⟩ := q
      exact decodeBody_up h hr b pos p hs q.1 q.2
  resolved t t' id pos p hs ht hrt := decodeBody_up h hr b pos p hs ht hrt

theorem decodeF_up (h : UpOn S R R') (b : Buf) (n : Nat) : ∀ m, RecUp S R (decodeF R b n) (decodeF R' b m) := by
  induction n with
  | zero => exact fun m => ⟨fun _ _ _ _ => .inl (.inl rfl), fun _ _ _ _ _ _ _ _ => .inl (.inl rfl)⟩
  | succ n ih =>
    intro m
    cases m with
    | zero => exact ⟨fun _ _ _ _ => .inr (.inl (.inl rfl)), fun _ _ _ _ _ _ _ _ => .inr (.inl (.inl rfl))⟩
    | succ m => exact decodeStep_up h (ih m) b

theorem Up.same {x x' : Res α} (h : Up True Eq x x') (hx : Fine x) (hx' : Fine x') : SameUnlessNewVariant x x' := by
  rcases h with (rfl | rfl) | (rfl | rfl) | ⟨_, pos, rfl⟩ | ⟨a, a', rfl, rfl, rfl⟩ | ⟨e, rfl, rfl⟩
  · obtain ⟨e, he⟩ := hx _ rfl; cases he
  · obtain ⟨e, he⟩ := hx _ rfl; cases he
  · obtain ⟨e, he⟩ := hx' _ rfl; cases he
  · obtain ⟨e, he⟩ := hx' _ rfl; cases he
  · exact .inr ⟨pos, rfl⟩
  · exact .inl rfl
  · exact .inl rfl

end Upgrade

theorem decode_upgraded {R R' : Registry} {id : Nat} (h : Upgraded R R' id) (b : Buf) (pos : Nat) (p : Propagated) :
    SameUnlessNewVariant (decode R b (.symbol id) pos p) (decode R' b (.symbol id) pos p) :=
  ((Upgrade.decodeF_up (Upgrade.upOn h) b _ _).symbol id pos p .self).same (decode_fine _ _ _) (decode_fine _ _ _)

end Verif
