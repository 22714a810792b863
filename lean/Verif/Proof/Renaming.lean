import Verif.Proof.Fix
import Verif.Proof.Bridge
import Verif.Proof.Fuel
import Verif.Spec.Renaming
/-!
# Decoding with renumbered types
-/
namespace Verif
open Spec

/-- `r'` is `r` with types renumbered, unless one of them ran out of fuel. -/
def Sim {α β : Type} (f : Nat → Nat) (Q : α → β → Prop) (r : Res α) (r' : Res β) : Prop :=
  r = .error .fuel ∨ r' = .error .fuel ∨ (∃ a a', r = .ok a ∧ r' = .ok a' ∧ Q a a') ∨
    ∃ e, r = .error e ∧ r' = .error (renFail f e)

variable {α β γ δ : Type} {f : Nat → Nat}

theorem Sim.ok {Q : α → β → Prop} {a : α} {a' : β} (h : Q a a') : Sim f Q (.ok a) (.ok a') := .inr (.inr (.inl ⟨a, a', rfl, rfl, h⟩))

theorem Sim.error {Q : α → β → Prop} (e : Fail) : Sim f Q (.error e) (.error (renFail f e)) := .inr (.inr (.inr ⟨e, rfl, rfl⟩))

theorem Sim.bind {Q : α → β → Prop} {P : γ → δ → Prop} {x : Res α} {x' : Res β} {k : α → Res γ} {k' : β → Res δ}
    (hx : Sim f Q x x') (hk : ∀ a a', x = .ok a → x' = .ok a' → Q a a' → Sim f P (k a) (k' a')) :
    Sim f P (x >>= k) (x' >>= k') := by
  rcases hx with rfl | rfl | ⟨a, a', rfl, rfl, q⟩ | ⟨e, rfl, rfl⟩
  · exact .inl rfl
  · exact .inr (.inl rfl)
  · exact hk a a' rfl rfl q
  · exact .error _

theorem Sim.mono {Q P : α → β → Prop} {x : Res α} {x' : Res β} (hx : Sim f Q x x') (h : ∀ a a', Q a a' → P a a') : Sim f P x x' := by
  rcases hx with rfl | rfl | ⟨a, a', rfl, rfl, q⟩ | ⟨e, rfl, rfl⟩
  · exact .inl rfl
  · exact .inr (.inl rfl)
  · exact .ok (h _ _ q)
  · exact .error _

/-- The result names no type. -/
def Numberless (r : Res α) : Prop := ∀ f, Sim f Eq r r

theorem Numberless.ok (a : α) : Numberless (.ok a : Res α) := fun _ => .ok rfl

theorem Numberless.bind {x : Res α} {k : α → Res β} (hx : Numberless x) (hk : ∀ a, Numberless (k a)) : Numberless (x >>= k) :=
  fun f => (hx f).bind fun a _ _ _ e => by subst e; exact hk a f

theorem Sim.bindL {P : γ → δ → Prop} {x : Res α} {k : α → Res γ} {k' : α → Res δ}
    (hx : Numberless x) (hk : ∀ a, x = .ok a → Sim f P (k a) (k' a)) : Sim f P (x >>= k) (x >>= k') :=
  (hx f).bind fun a _ h _ e => by subst e; exact hk a h

theorem numberless_err {e : PErr} (h : ∀ f, renErr f e = e) : Numberless (.error (.err e) : Res α) := fun f =>
  .inr (.inr (.inr ⟨_, rfl, by show _ = Except.error (Fail.err (renErr f e)); rw [h]⟩))

theorem numberless_panic : Numberless (.error .panic : Res α) := fun _ => .inr (.inr (.inr ⟨_, rfl, rfl⟩))

/-! ### Leaves -/

theorem readSlice_numberless (b : Buf) (pos n : Nat) : Numberless (b.readSlice pos n) := by
  unfold Buf.readSlice
  split
  · exact numberless_err fun _ => rfl
  · split
    · exact numberless_err fun _ => rfl
    · split
      · exact numberless_err fun _ => rfl
      · exact .ok _

theorem readByte_numberless (b : Buf) (pos : Nat) : Numberless (b.readByte pos) := by
  refine (readSlice_numberless _ _ _).bind fun s => ?_
  split
  · exact .ok _
  · exact numberless_panic

theorem findCompactLoop_numberless (dec : Bytes → Option Nat) (b : Buf) (pos left i : Nat) :
    Numberless (findCompactLoop dec b pos left i) := by
  induction left generalizing i with
  | zero => exact .ok _
  | succ left ih =>
    unfold findCompactLoop
    split
    · exact .ok _
    · refine (readSlice_numberless _ _ _).bind fun s => ?_
      split
      · exact .ok _
      · exact ih _

theorem findCompact_numberless (dec : Bytes → Option Nat) (b : Buf) (pos : Nat) : Numberless (findCompact dec b pos) := by
  unfold findCompact
  split
  · exact numberless_err fun _ => rfl
  · refine (findCompactLoop_numberless _ _ _ _ _).bind fun o => ?_
    split
    · exact .ok _
    · exact numberless_err fun _ => rfl

theorem getCompact_numberless (dec : Bytes → Option Nat) (b : Buf) (pos : Nat) : Numberless (getCompact dec b pos) :=
  (findCompact_numberless _ _ _).bind fun _ => .ok _

theorem cutArray_numberless (n : Nat) (b : Buf) (pos : Nat) : Numberless (cutArray n b pos) := by
  refine (readSlice_numberless _ _ _).bind fun s => ?_
  split
  · exact numberless_panic
  · exact .ok _

theorem specialCaseEra_numberless (b : Buf) (pos : Nat) : Numberless (specialCaseEra b pos) := by
  unfold specialCaseEra
  refine (readSlice_numberless _ _ _).bind fun s => ?_
  split
  · exact .ok _
  · refine (readSlice_numberless _ _ _).bind fun s => ?_
    split
    · exact .ok _
    · exact numberless_err fun _ => rfl

theorem specialCaseH256_numberless (b : Buf) (pos : Nat) (s : SpecH256) : Numberless (specialCaseH256 b pos s) := by
  refine (cutArray_numberless _ _ _).bind fun x => ?_
  cases s <;> exact .ok _

theorem cutPer_numberless (k : PerKind) (b : Buf) (pos : Nat) : Numberless (cutPer k b pos) := by
  refine (readSlice_numberless _ _ _).bind fun s => ?_
  split
  · exact .ok _
  · exact numberless_err fun _ => rfl

theorem cutBool_numberless (b : Buf) (pos : Nat) : Numberless (cutBool b pos) := by
  refine (readSlice_numberless _ _ _).bind fun s => ?_
  split
  · exact .ok _
  · split
    · exact .ok _
    · exact numberless_err fun _ => rfl

theorem cutChar_numberless (b : Buf) (pos : Nat) : Numberless (cutChar b pos) := by
  refine (readSlice_numberless _ _ _).bind fun s => ?_
  split
  · exact numberless_panic
  · split
    · exact .ok _
    · exact numberless_err fun _ => rfl

theorem decodeStr_numberless (b : Buf) (pos : Nat) (h : Hint) : Numberless (decodeStr b pos h) := by
  unfold decodeStr
  refine (findCompact_numberless _ _ _).bind fun c => (readSlice_numberless _ _ _).bind fun s => ?_
  split
  · exact .ok _
  · exact numberless_err fun _ => rfl

theorem intoBitvecDecode_numberless (st : BitStore) (b : Buf) (pos : Nat) : Numberless (intoBitvecDecode st b pos) :=
  ((findCompact_numberless _ _ _).bind fun _ => .ok _).bind fun _ => (readSlice_numberless _ _ _).bind fun _ => .ok _

/-! ### What is carried down -/

/-- The specialties, renumbered. -/
def SpecialtySet.ren (f : Nat → Nat) (s : SpecialtySet) : SpecialtySet := { s with compactAt := s.compactAt.map f }

/-- The checker, renumbered. -/
def Checker.ren (f : Nat → Nat) (c : Checker) : Checker :=
  { specialtySet := c.specialtySet.ren f, cycleCheck := c.cycleCheck.map f }

/-- The propagated data, renumbered. -/
def Propagated.ren (f : Nat → Nat) (p : Propagated) : Propagated := { p with checker := p.checker.ren f }

theorem failInternal_sim {Q : α → β → Prop} {e e' : RegInternal} (h : e' = renInternal f e) :
    Sim f Q (failInternal e) (failInternal e') := by subst h; exact .error _

theorem blockCompact_sim (c : Option Nat) : Sim f (fun _ _ => True) (blockCompact c) (blockCompact (c.map f)) := by
  cases c with
  | none => exact .ok trivial
  | some id => exact failInternal_sim rfl

theorem SpecialtySet.rejectCompact_sim (s : SpecialtySet) :
    Sim f (fun _ _ => True) s.rejectCompact (s.ren f).rejectCompact := blockCompact_sim s.compactAt

theorem Checker.rejectCompact_sim (c : Checker) : Sim f (fun _ _ => True) c.rejectCompact (c.ren f).rejectCompact :=
  c.specialtySet.rejectCompact_sim

theorem Propagated.rejectCompact_sim (p : Propagated) : Sim f (fun _ _ => True) p.rejectCompact (p.ren f).rejectCompact :=
  p.checker.specialtySet.rejectCompact_sim

theorem parseUInt_sim (w : UW) (b : Buf) (pos : Nat) (s : SpecialtySet) :
    Sim f Eq (parseUInt w b pos s) (parseUInt w b pos (s.ren f)) := by
  have e : (s.ren f).compactAt.isSome = s.compactAt.isSome := by unfold SpecialtySet.ren; cases s.compactAt <;> rfl
  unfold parseUInt
  rw [e]
  dsimp only
  split
  · exact .bindL (getCompact_numberless _ _ _) fun _ _ => .ok rfl
  · exact .bindL ((readSlice_numberless _ _ _).bind fun _ => .ok _) fun _ _ => .ok rfl

theorem parsePer_sim (k : PerKind) (b : Buf) (pos : Nat) (c : Option Nat) :
    Sim f Eq (parsePer k b pos c) (parsePer k b pos (c.map f)) := by
  unfold parsePer
  rw [Option.isSome_map]
  dsimp only
  split
  · exact .bindL (getCompact_numberless _ _ _) fun _ _ => .ok rfl
  · exact .bindL (cutPer_numberless _ _ _) fun _ _ => .ok rfl

theorem parseFixed_sim (k : FixedKind) (b : Buf) (pos : Nat) (c : Option Nat) :
    Sim f Eq (parseFixed k b pos c) (parseFixed k b pos (c.map f)) :=
  (blockCompact_sim c).bind fun _ _ _ _ _ => .bindL (cutArray_numberless _ _ _) fun _ _ => .ok rfl

theorem parseInt_sim (w : IW) (b : Buf) (pos : Nat) (c : Option Nat) :
    Sim f Eq (parseInt w b pos c) (parseInt w b pos (c.map f)) :=
  (blockCompact_sim c).bind fun _ _ _ _ _ => .bindL ((readSlice_numberless _ _ _).bind fun _ => .ok _) fun _ _ => .ok rfl

theorem decodePrimitive_sim (p : Prim) (b : Buf) (pos : Nat) (s : SpecialtySet) :
    Sim f Eq (decodePrimitive p b pos s) (decodePrimitive p b pos (s.ren f)) := by
  cases p with
  | bool => exact (blockCompact_sim s.compactAt).bind fun _ _ _ _ _ => .bindL (cutBool_numberless _ _) fun _ _ => .ok rfl
  | char => exact (blockCompact_sim s.compactAt).bind fun _ _ _ _ _ => .bindL (cutChar_numberless _ _) fun _ _ => .ok rfl
  | str => exact s.rejectCompact_sim.bind fun _ _ _ _ _ => decodeStr_numberless _ _ _ _
  | u256 => exact (blockCompact_sim s.compactAt).bind fun _ _ _ _ _ =>
      .bindL ((readSlice_numberless _ _ _).bind fun _ => .ok _) fun _ _ => .ok rfl
  | u8 => exact parseUInt_sim _ _ _ _
  | u16 => exact parseUInt_sim _ _ _ _
  | u32 => exact parseUInt_sim _ _ _ _
  | u64 => exact parseUInt_sim _ _ _ _
  | u128 => exact parseUInt_sim _ _ _ _
  | i8 => exact parseInt_sim _ _ _ _
  | i16 => exact parseInt_sim _ _ _ _
  | i32 => exact parseInt_sim _ _ _ _
  | i64 => exact parseInt_sim _ _ _ _
  | i128 => exact parseInt_sim _ _ _ _
  | i256 => exact parseInt_sim _ _ _ _

/-! ### Registries -/

variable {R R' : Registry} {b : Buf} {S : Nat → Prop}

/-- Types, renumbered. -/
structure RenTyp (f : Nat → Nat) (t t' : Typ) : Prop where
  path : t'.path = t.path
  docs : t'.docs = t.docs
  typeDef : t'.typeDef = renDef f t.typeDef

theorem RenTyp.info {t t' : Typ} (h : RenTyp f t t') : Info.fromTy t' = Info.fromTy t := by
  unfold Info.fromTy; rw [h.path, h.docs]

theorem RenTyp.ident {t t' : Typ} (h : RenTyp f t t') : t'.ident = t.ident := by unfold Typ.ident; rw [h.path]

theorem RenTyp.hinted {t t' : Typ} (h : RenTyp f t t') : TypeHinted.fromType t' = TypeHinted.fromType t := by
  unfold TypeHinted.fromType Typ.namespace; rw [h.ident, h.path]

theorem RenTyp.fromPath {t t' : Typ} (h : RenTyp f t t') : Hint.fromPath t' = Hint.fromPath t := by
  unfold Hint.fromPath; rw [h.ident]

/-- Registries renumbered on a set of types. -/
structure Ren (f : Nat → Nat) (S : Nat → Prop) (R R' : Registry) : Prop where
  inj : ∀ x y, S x → S y → f x = f y → x = y
  same : ∀ x, S x → SameEntry f (R.resolve x) (R'.resolve (f x))
  parts : ∀ id t, S id → R.resolve id = .ok t → Structural t.path → ∀ x ∈ partIds t, S x
  elems : ∀ id t n x, S id → R.resolve id = .ok t → t.typeDef = .array n x → S x

theorem Spec.Renumbered.ren {id : Nat} (h : Renumbered f R R' id) : Ren f (Seen R id) R R' where
  inj := h.inj
  same := h.same
  parts _ _ h1 h2 h3 _ h4 := .part h1 h2 h3 h4
  elems _ _ _ _ h1 h2 h3 := .elem h1 h2 h3

/-- The outcome of a look-up. -/
def GotRen (f : Nat → Nat) (R : Registry) (id : Nat) (t t' : Typ) : Prop := R.resolve id = .ok t ∧ RenTyp f t t'

theorem get_sim (h : Ren f S R R') {id : Nat} (hs : S id) : Sim f (GotRen f R id) (R.get id) (R'.get (f id)) := by
  have := h.same id hs
  unfold Registry.get
  revert this
  cases h1 : R.resolve id with
  | ok t =>
    cases h2 : R'.resolve (f id) with
    | ok t' => exact fun q => .ok ⟨h1, q.1, q.2.1, q.2.2⟩
    | error e => exact False.elim
  | error e =>
    cases h2 : R'.resolve (f id) with
    | ok t' => exact False.elim
    | error e' => rintro rfl; exact .error _

/-- The ids met are in the set. -/
def CheckIn (S : Nat → Prop) (c : Checker) : Prop := ∀ x ∈ c.cycleCheck, S x

/-- Checkers, renumbered. -/
def CheckRen (f : Nat → Nat) (S : Nat → Prop) (c c' : Checker) : Prop := CheckIn S c ∧ c' = c.ren f

theorem checkId_sim (h : Ren f S R R') {c : Checker} (hc : CheckIn S c) {id : Nat} (hs : S id) :
    Sim f (CheckRen f S) (c.checkId id) ((c.ren f).checkId (f id)) := by
  have e : (c.ren f).cycleCheck.contains (f id) = c.cycleCheck.contains id := by
    rw [Bool.eq_iff_iff]
    simp only [Checker.ren, List.contains_iff_mem, List.mem_map]
    constructor
    · rintro ⟨x, hx, e⟩
      rw [← h.inj x id (hc x hx) hs e]; exact hx
    · exact fun hx => ⟨id, hx, rfl⟩
  unfold Checker.checkId
  rw [e]
  split
  · exact failInternal_sim rfl
  · refine .ok ⟨?_, ?_⟩
    · intro x hx
      rcases List.mem_append.1 hx with hx | hx
      · exact hc x hx
      · cases List.mem_singleton.1 hx; exact hs
    · simp [Checker.ren]

theorem hintFromField_ren (c : Checker) (x : Field) : (c.ren f).hintFromField (renField f x) = (c.hintFromField x).ren f := by
  unfold Checker.hintFromField
  have e : (c.ren f).specialtySet.hint = c.specialtySet.hint := rfl
  have e2 : Hint.fromField (renField f x) = Hint.fromField x := rfl
  rw [e, e2]
  cases c.specialtySet.hint <;> rfl

theorem hintFromField_in {c : Checker} (hc : CheckIn S c) (x : Field) : CheckIn S (c.hintFromField x) := by
  unfold CheckIn; rw [hintFromField_cycle]; exact hc

theorem forgetHint_ren (c : Checker) : (c.ren f).forgetHint = c.forgetHint.ren f := by
  unfold Checker.forgetHint SpecialtySet.forgetHint
  have e : (c.ren f).specialtySet.hint = c.specialtySet.hint := rfl
  rw [e]
  cases c.specialtySet.hint <;> rfl

theorem updateFromPath_ren (s : SpecialtySet) {t t' : Typ} (h : RenTyp f t t') :
    (s.ren f).updateFromPath t' = (s.updateFromPath t).ren f := by
  unfold SpecialtySet.updateFromPath
  have e : (s.ren f).hint = s.hint := rfl
  rw [e, h.fromPath]
  cases s.hint <;> rfl

/-- Propagated data, renumbered. -/
def PropRen (f : Nat → Nat) (S : Nat → Prop) (p p' : Propagated) : Prop := CheckIn S p.checker ∧ p' = p.ren f

theorem forField_sim (h : Ren f S R R') {c : Checker} (hc : CheckIn S c) {x : Field} (hs : S x.ty) :
    Sim f (PropRen f S) (Propagated.forField c x) (Propagated.forField (c.ren f) (renField f x)) := by
  unfold Propagated.forField Checker.updateForField
  rw [hintFromField_ren]
  refine (checkId_sim h (hintFromField_in hc x) hs).bind fun c' c'' _ _ q => ?_
  obtain ⟨q, rfl⟩ := q
  exact .ok ⟨q, rfl⟩

theorem forTy_sim (h : Ren f S R R') {c : Checker} (hc : CheckIn S c) {id : Nat} (hs : S id) {t t' : Typ} (ht : RenTyp f t t') :
    Sim f (PropRen f S) (Propagated.forTy c t id) (Propagated.forTy (c.ren f) t' (f id)) := by
  unfold Propagated.forTy Checker.updateForTy
  refine ((checkId_sim h hc hs).bind (P := CheckRen f S) fun c' c'' _ _ q => ?_).bind fun c' c'' _ _ q => ?_
  · obtain ⟨q, rfl⟩ := q
    refine .ok ⟨q, ?_⟩
    unfold Checker.ren
    dsimp only
    rw [updateFromPath_ren _ ht]
  · obtain ⟨q, rfl⟩ := q
    exact .ok ⟨q, rfl⟩

/-! ### Husking -/

/-- Husked types, renumbered. -/
structure HuskRen (f : Nat → Nat) (S : Nat → Prop) (R : Registry) (h h' : HuskedType) : Prop where
  info : h'.info = h.info
  checker : CheckRen f S h.checker h'.checker
  ty : RenTyp f h.ty h'.ty
  id : h'.id = f h.id
  isIn : S h.id
  resolved : R.resolve h.id = .ok h.ty

theorem structural_of_hinted {t : Typ} (h : TypeHinted.fromType t = .none) : Structural t.path := by
  have ho := hinted_open (t := t)
  rw [h] at ho
  exact ho.1 rfl

theorem huskLoop_sim (h : Ren f S R R') (n m : Nat) {t t' : Typ} {id : Nat} (info : List Info) {c : Checker} (hc : CheckIn S c)
    (hs : S id) (ht : R.resolve id = .ok t) (hr : RenTyp f t t') :
    Sim f (HuskRen f S R) (huskLoop R n t id info c) (huskLoop R' m t' (f id) info (c.ren f)) := by
  induction n generalizing m t t' id info c with
  | zero => exact .inl rfl
  | succ n ih =>
    cases m with
    | zero => exact .inr (.inl rfl)
    | succ m =>
      unfold huskLoop
      dsimp only
      rw [hr.info, hr.hinted]
      split
      · rename_i hn
        have hp := h.parts id t hs ht (structural_of_hinted hn)
        have stop : ∀ i, Sim f (HuskRen f S R) (.ok { info := i, checker := c, ty := t, id := id })
            (.ok { info := i, checker := c.ren f, ty := t', id := f id }) := fun i => .ok ⟨rfl, ⟨hc, rfl⟩, hr, rfl, hs, ht⟩
        have hd' := hr.typeDef
        unfold partIds at hp
        cases hd : t.typeDef with
        | composite fs =>
          rw [hd] at hd' hp
          rw [hd']
          match fs, hp with
          | [], hp => exact stop _
          | [x], hp =>
            refine (checkId_sim h hc (hp _ (by simp))).bind fun c' c'' _ _ q => ?_
            obtain ⟨q, rfl⟩ := q
            refine (get_sim h (hp _ (by simp))).bind fun u u' _ _ q' => ?_
            rw [show (renField f x).ty = f x.ty from rfl, hintFromField_ren]
            exact ih m _ (hintFromField_in q x) (hp _ (by simp)) q'.1 q'.2
          | _ :: _ :: _, hp => exact stop _
        | compact i =>
          rw [hd] at hd' hp
          rw [hd']
          refine c.rejectCompact_sim.bind fun _ _ _ _ _ => ?_
          refine (checkId_sim h (c := { c with specialtySet := { c.specialtySet with compactAt := some id } }) hc
            (hp _ (by simp))).bind fun c' c'' _ _ q => ?_
          obtain ⟨q, rfl⟩ := q
          refine (get_sim h (hp _ (by simp))).bind fun u u' _ _ q' => ?_
          exact ih m _ q (hp _ (by simp)) q'.1 q'.2
        | variant vs => rw [hd] at hd'; rw [hd']; exact stop _
        | sequence e => rw [hd] at hd'; rw [hd']; exact stop _
        | array n e => rw [hd] at hd'; rw [hd']; exact stop _
        | tuple ids => rw [hd] at hd'; rw [hd']; exact stop _
        | primitive pr => rw [hd] at hd'; rw [hd']; exact stop _
        | bitSequence o s => rw [hd] at hd'; rw [hd']; exact stop _
      · exact .ok ⟨rfl, ⟨hc, rfl⟩, hr, rfl, hs, ht⟩

theorem huskType_sim (h : Ren f S R R') {id : Nat} (hs : S id) {c : Checker} (hc : CheckIn S c) :
    Sim f (HuskRen f S R) (huskType R id c) (huskType R' (f id) (c.ren f)) := by
  unfold huskType
  refine (checkId_sim h hc hs).bind fun c' c'' _ _ q => ?_
  obtain ⟨q, rfl⟩ := q
  refine (get_sim h hs).bind fun t t' _ _ q' => ?_
  exact huskLoop_sim h _ _ [] (c := { c' with specialtySet := {} }) q hs q'.1 q'.2

/-! ### Recognition -/

theorem swallow_sim {Q : α → β → Prop} {x : Res α} {x' : Res β} (h : Sim f Q x x') :
    Sim f (fun o o' => match o, o' with | some a, some a' => Q a a' | none, none => True | _, _ => False) (swallow x) (swallow x') := by
  rcases h with rfl | rfl | ⟨a, a', rfl, rfl, q⟩ | ⟨e, rfl, rfl⟩
  · exact .inl rfl
  · exact .inr (.inl rfl)
  · exact .ok q
  · cases e with
    | err e => exact .ok trivial
    | panic => exact .error _
    | fuel => exact .error _

theorem find_ren (vs : List Variant) (i : UInt8) :
    (vs.map (renVariant f)).find? (fun v => v.index == i) = (vs.find? (fun v => v.index == i)).map (renVariant f) := by
  rw [List.find?_map]
  rfl

theorem pickVariant_sim (vs : List Variant) (b : Buf) (pos : Nat) :
    Sim f (fun v v' => v ∈ vs ∧ v' = renVariant f v) (pickVariant vs b pos) (pickVariant (vs.map (renVariant f)) b pos) := by
  refine .bindL (readByte_numberless _ _) fun i _ => ?_
  rw [find_ren]
  cases h : vs.find? (fun v => v.index == i) with
  | none => exact .error _
  | some v => exact .ok ⟨List.mem_of_find?_eq_some h, rfl⟩

theorem signatureIndicator_sim (h : Ren f S R R') {x : Field} (hs : S x.ty) :
    Sim f Eq (signatureIndicator R x) (signatureIndicator R' (renField f x)) := by
  refine (swallow_sim (huskType_sim h hs (c := Checker.new) (fun _ hx => nomatch hx))).bind fun o o' _ _ q => ?_
  cases o with
  | none => cases o' with
    | none => exact .ok rfl
    | some _ => exact q.elim
  | some u => cases o' with
    | none => exact q.elim
    | some u' =>
      have hd' := q.ty.typeDef
      dsimp only
      cases hd : u.ty.typeDef with
      | array n e =>
        rw [hd] at hd'
        rw [hd']
        refine (swallow_sim (get_sim h (h.elems _ _ _ _ q.isIn q.resolved hd))).bind fun o o' _ _ q => ?_
        cases o with
        | none => cases o' with
          | none => exact .ok rfl
          | some _ => exact q.elim
        | some t => cases o' with
          | none => exact q.elim
          | some t' =>
            have e : (t'.typeDef = .primitive .u8) ↔ (t.typeDef = .primitive .u8) := by
              rw [q.2.typeDef]
              cases t.typeDef <;> simp [renDef]
            dsimp only
            simp only [e]
            rw [show (renField f x).typeName = x.typeName from rfl]
            split
            · split
              · split
                · exact .ok rfl
                · split
                  · exact .ok rfl
                  · split <;> exact .ok rfl
              · exact .ok rfl
            · exact .ok rfl
      | composite fs => rw [hd] at hd'; rw [hd']; exact .ok rfl
      | compact i => rw [hd] at hd'; rw [hd']; exact .ok rfl
      | variant vs => rw [hd] at hd'; rw [hd']; exact .ok rfl
      | sequence e => rw [hd] at hd'; rw [hd']; exact .ok rfl
      | tuple ids => rw [hd] at hd'; rw [hd']; exact .ok rfl
      | primitive pr => rw [hd] at hd'; rw [hd']; exact .ok rfl
      | bitSequence o s => rw [hd] at hd'; rw [hd']; exact .ok rfl

/-- Recognized types, renumbered. -/
def renTc (f : Nat → Nat) : TypeChecked → TypeChecked
  | .palletSpecific n i vs item => .palletSpecific n i (vs.map (renVariant f)) item
  | tc => tc

/-- The variants of a recognized call or event are in the set; without recognition the definition counts. -/
def TcIn (S : Nat → Prop) (t : Typ) : TypeChecked → Prop
  | .palletSpecific _ _ vs _ => ∀ v ∈ vs, ∀ x ∈ v.fields.map (·.ty), S x
  | .none => Structural t.path
  | _ => True

/-- Outcome of recognition, renumbered. -/
def TcRen (f : Nat → Nat) (S : Nat → Prop) (t : Typ) (r r' : TypeChecked × Nat) : Prop :=
  TcIn S t r.1 ∧ r' = (renTc f r.1, r.2)

theorem variant_parts (h : Ren f S R R') {id : Nat} {t : Typ} {vs : List Variant} (hs : S id) (ht : R.resolve id = .ok t)
    (hst : Structural t.path) (hd : t.typeDef = .variant vs) : ∀ v ∈ vs, ∀ x ∈ v.fields.map (·.ty), S x := by
  intro v hv x hx
  refine h.parts id t hs ht hst x ?_
  unfold partIds; rw [hd]
  exact List.mem_flatMap.2 ⟨v, hv, hx⟩

theorem checkMultiSignature_sim (h : Ren f S R R') {t t' : Typ} {id : Nat} (hs : S id) (ht : R.resolve id = .ok t)
    (hst : Structural t.path) (hr : RenTyp f t t') (b : Buf) (pos : Nat) :
    Sim f (TcRen f S t) (checkMultiSignature R t b pos) (checkMultiSignature R' t' b pos) := by
  have hn : Sim f (TcRen f S t) (.ok (.none, pos)) (.ok (.none, pos)) := .ok ⟨hst, rfl⟩
  have hd' := hr.typeDef
  unfold checkMultiSignature
  cases hd : t.typeDef with
  | variant vs =>
    rw [hd] at hd'; rw [hd']
    refine (swallow_sim (pickVariant_sim vs b pos)).bind fun o o' _ _ q => ?_
    cases o with
    | none => cases o' with
      | none => exact hn
      | some _ => exact q.elim
    | some v => cases o' with
      | none => exact q.elim
      | some v' =>
        obtain ⟨hv, rfl⟩ := q
        have hp := variant_parts h hs ht hst hd v hv
        dsimp only [renVariant]
        match hf : v.fields with
        | [] => exact hn
        | [x] =>
          rw [hf] at hp
          refine (signatureIndicator_sim h (hp _ (by simp))).bind fun o o' _ _ q => ?_
          subst q
          cases o with
          | none => exact hn
          | some k => exact .ok ⟨trivial, rfl⟩
        | _ :: _ :: _ => exact hn
  | composite fs => rw [hd] at hd'; rw [hd']; exact hn
  | compact i => rw [hd] at hd'; rw [hd']; exact hn
  | array n e => rw [hd] at hd'; rw [hd']; exact hn
  | sequence e => rw [hd] at hd'; rw [hd']; exact hn
  | tuple ids => rw [hd] at hd'; rw [hd']; exact hn
  | primitive pr => rw [hd] at hd'; rw [hd']; exact hn
  | bitSequence o s => rw [hd] at hd'; rw [hd']; exact hn

theorem checkPalletSpecific_sim (h : Ren f S R R') {t t' : Typ} {id : Nat} (hs : S id) (ht : R.resolve id = .ok t)
    (hst : Structural t.path) (hr : RenTyp f t t') (item : PalletItem) (b : Buf) (pos : Nat) :
    Sim f (TcRen f S t) (checkPalletSpecific R item t b pos) (checkPalletSpecific R' item t' b pos) := by
  have hn : Sim f (TcRen f S t) (.ok (.none, pos)) (.ok (.none, pos)) := .ok ⟨hst, rfl⟩
  have hd' := hr.typeDef
  unfold checkPalletSpecific
  cases hd : t.typeDef with
  | variant vs =>
    rw [hd] at hd'; rw [hd']
    refine (swallow_sim (pickVariant_sim vs b pos)).bind fun o o' _ _ q => ?_
    cases o with
    | none => cases o' with
      | none => exact hn
      | some _ => exact q.elim
    | some v => cases o' with
      | none => exact q.elim
      | some v' =>
        obtain ⟨hv, rfl⟩ := q
        have hp := variant_parts h hs ht hst hd v hv
        dsimp only [renVariant]
        match hf : v.fields with
        | [] => exact hn
        | [x] =>
          rw [hf] at hp
          refine (swallow_sim (get_sim h (hp x.ty (by simp)))).bind fun o o' _ _ q => ?_
          cases o with
          | none => cases o' with
            | none => exact hn
            | some _ => exact q.elim
          | some u => cases o' with
            | none => exact q.elim
            | some u' =>
              have hd2 := q.2.typeDef
              have ho := hinted_open (t := u)
              dsimp only
              rw [q.2.hinted, q.2.info]
              cases hh : TypeHinted.fromType u with
              | palletSpecific item' =>
                rw [hh] at ho
                dsimp only
                split
                · exact hn
                · cases hud : u.typeDef with
                  | variant ws =>
                    rw [hud] at hd2; rw [hd2]
                    exact .ok ⟨variant_parts h (hp x.ty (by simp)) q.1 (ho.1 rfl) hud, rfl⟩
                  | composite fs => rw [hud] at hd2; rw [hd2]; exact hn
                  | compact i => rw [hud] at hd2; rw [hd2]; exact hn
                  | array n e => rw [hud] at hd2; rw [hd2]; exact hn
                  | sequence e => rw [hud] at hd2; rw [hd2]; exact hn
                  | tuple ids => rw [hud] at hd2; rw [hd2]; exact hn
                  | primitive pr => rw [hud] at hd2; rw [hd2]; exact hn
                  | bitSequence o s => rw [hud] at hd2; rw [hd2]; exact hn
              | none => exact hn
              | fixed k => exact hn
              | era => exact hn
              | h256 => exact hn
              | multiSignature => exact hn
              | perThing k => exact hn
              | uncheckedExtrinsic => exact hn
        | _ :: _ :: _ => exact hn
  | composite fs => rw [hd] at hd'; rw [hd']; exact hn
  | compact i => rw [hd] at hd'; rw [hd']; exact hn
  | array n e => rw [hd] at hd'; rw [hd']; exact hn
  | sequence e => rw [hd] at hd'; rw [hd']; exact hn
  | tuple ids => rw [hd] at hd'; rw [hd']; exact hn
  | primitive pr => rw [hd] at hd'; rw [hd']; exact hn
  | bitSequence o s => rw [hd] at hd'; rw [hd']; exact hn

theorem fromType_sim (h : Ren f S R R') {t t' : Typ} {id : Nat} (hs : S id) (ht : R.resolve id = .ok t)
    (hr : RenTyp f t t') (b : Buf) (pos : Nat) :
    Sim f (TcRen f S t) (TypeChecked.fromType R t b pos) (TypeChecked.fromType R' t' b pos) := by
  unfold TypeChecked.fromType
  rw [hr.hinted]
  have ho := hinted_open (t := t)
  cases hh : TypeHinted.fromType t with
  | none => rw [hh] at ho; exact .ok ⟨ho.1 rfl, rfl⟩
  | uncheckedExtrinsic => rw [hh] at ho; exact .ok ⟨ho.1 rfl, rfl⟩
  | multiSignature => rw [hh] at ho; exact checkMultiSignature_sim h hs ht (ho.1 rfl) hr b pos
  | palletSpecific item => rw [hh] at ho; exact checkPalletSpecific_sim h hs ht (ho.1 rfl) hr item b pos
  | fixed k => exact .ok ⟨trivial, rfl⟩
  | era => exact .ok ⟨trivial, rfl⟩
  | h256 => exact .ok ⟨trivial, rfl⟩
  | perThing k => exact .ok ⟨trivial, rfl⟩

/-! ### The decoder -/

variable {rec rec' : Dec}

/-- Recursive calls, renumbered. -/
structure RecRen (f : Nat → Nat) (S : Nat → Prop) (R : Registry) (rec rec' : Dec) : Prop where
  symbol : ∀ id pos p, S id → CheckIn S p.checker → Sim f Eq (rec (.symbol id) pos p) (rec' (.symbol (f id)) pos (p.ren f))
  resolved : ∀ t t' id pos p, S id → CheckIn S p.checker → R.resolve id = .ok t → RenTyp f t t' →
    Sim f Eq (rec (.resolved t id) pos p) (rec' (.resolved t' (f id)) pos (p.ren f))

theorem decodeFieldsLoop_sim (h : Ren f S R R') (hr : RecRen f S R rec rec') {c : Checker} (hc : CheckIn S c) (fs : List Field) :
    ∀ pos, (∀ x ∈ fs.map (·.ty), S x) →
    Sim f Eq (decodeFieldsLoop rec c fs pos) (decodeFieldsLoop rec' (c.ren f) (fs.map (renField f)) pos) := by
  induction fs with
  | nil => intro pos _; exact .ok rfl
  | cons x fs ih =>
    intro pos hs
    refine (forField_sim h hc (hs _ (by simp))).bind fun p p' _ _ q => ?_
    obtain ⟨q, rfl⟩ := q
    refine (hr.symbol _ _ _ (hs _ (by simp)) q).bind fun d _ _ _ e => ?_
    subst e
    refine (ih _ fun y hy => hs y (by simp at hy ⊢; exact .inr hy)).bind fun l _ _ _ e => ?_
    subst e
    exact .ok rfl

theorem decodeFields_sim (h : Ren f S R R') (hr : RecRen f S R rec rec') {c : Checker} (hc : CheckIn S c) (fs : List Field)
    (pos : Nat) (hs : ∀ x ∈ fs.map (·.ty), S x) :
    Sim f Eq (decodeFields rec fs pos c) (decodeFields rec' (fs.map (renField f)) pos (c.ren f)) := by
  unfold decodeFields
  rw [List.length_map]
  split
  · refine c.rejectCompact_sim.bind fun _ _ _ _ _ => ?_
    rw [forgetHint_ren]
    exact decodeFieldsLoop_sim h hr (c := c.forgetHint) hc _ _ hs
  · exact decodeFieldsLoop_sim h hr hc _ _ hs

theorem decodeElementsLoop_sim (hr : RecRen f S R rec rec') {u u' : HuskedType} (hu : HuskRen f S R u u') (n : Nat) :
    ∀ pos, Sim f Eq (decodeElementsLoop rec u n pos) (decodeElementsLoop rec' u' n pos) := by
  induction n with
  | zero => intro pos; exact .ok rfl
  | succ n ih =>
    intro pos
    unfold decodeElementsLoop
    rw [hu.id, hu.checker.2]
    refine (hr.resolved _ _ _ _ _ hu.isIn hu.checker.1 hu.resolved hu.ty).bind fun d _ _ _ e => ?_
    subst e
    refine (ih _).bind fun l _ _ _ e => ?_
    subst e
    exact .ok rfl

theorem decodeElementsSet_sim (h : Ren f S R R') (hr : RecRen f S R rec rec') {elem : Nat} (n pos : Nat)
    {p : Propagated} (hp : CheckIn S p.checker) (hs : S elem) :
    Sim f Eq (decodeElementsSet R rec elem n pos p) (decodeElementsSet R' rec' (f elem) n pos (p.ren f)) := by
  unfold decodeElementsSet
  refine p.rejectCompact_sim.bind fun _ _ _ _ _ => (huskType_sim h hs hp).bind fun u u' _ _ q => ?_
  rw [q.info]
  split
  · exact .ok rfl
  · refine (decodeElementsLoop_sim hr q n pos).bind fun l _ _ _ e => ?_
    subst e
    obtain ⟨l, q⟩ := l
    dsimp only
    cases wrapSequence l <;> exact .ok rfl

theorem decodeVariant_sim (h : Ren f S R R') (hr : RecRen f S R rec rec') (vs : List Variant) (b : Buf) (pos : Nat)
    (hs : ∀ v ∈ vs, ∀ x ∈ v.fields.map (·.ty), S x) :
    Sim f (fun r r' => r' = (renVariant f r.1, r.2)) (decodeVariant rec vs b pos)
      (decodeVariant rec' (vs.map (renVariant f)) b pos) := by
  refine (pickVariant_sim vs b pos).bind fun v v' _ _ q => ?_
  obtain ⟨hv, rfl⟩ := q
  refine (decodeFields_sim h hr (c := Checker.new) (fun _ hx => nomatch hx) v.fields _ (hs v hv)).bind fun l _ _ _ e => ?_
  subst e
  exact .ok rfl

theorem decodeTupleLoop_sim (h : Ren f S R R') (hr : RecRen f S R rec rec') {c : Checker} (hc : CheckIn S c) (ids : List Nat) :
    ∀ pos, (∀ x ∈ ids, S x) →
    Sim f Eq (decodeTupleLoop R rec c ids pos) (decodeTupleLoop R' rec' (c.ren f) (ids.map f) pos) := by
  induction ids with
  | nil => intro pos _; exact .ok rfl
  | cons id ids ih =>
    intro pos hs
    refine (get_sim h (hs _ (by simp))).bind fun t t' _ _ qt => ?_
    refine (forTy_sim h hc (hs _ (by simp)) qt.2).bind fun p p' _ _ q => ?_
    obtain ⟨q, rfl⟩ := q
    refine (hr.resolved _ _ _ _ _ (hs _ (by simp)) q qt.1 qt.2).bind fun d _ _ _ e => ?_
    subst e
    refine (ih _ fun y hy => hs y (by simp [hy])).bind fun l _ _ _ e => ?_
    subst e
    exact .ok rfl

theorem decodeTuple_sim (h : Ren f S R R') (hr : RecRen f S R rec rec') (ids : List Nat) (pos : Nat)
    {p : Propagated} (hp : CheckIn S p.checker) (hs : ∀ x ∈ ids, S x) :
    Sim f Eq (decodeTuple R rec ids pos p) (decodeTuple R' rec' (ids.map f) pos (p.ren f)) := by
  unfold decodeTuple
  rw [List.length_map]
  dsimp only
  have hl : ∀ q : Propagated, CheckIn S q.checker → Sim f Eq
      (decodeTupleLoop R rec q.checker ids pos >>= fun r => Except.ok (({ data := .tuple r.1, info := q.info } : ED), r.2))
      (decodeTupleLoop R' rec' (q.ren f).checker (ids.map f) pos >>= fun r =>
        Except.ok (({ data := .tuple r.1, info := (q.ren f).info } : ED), r.2)) := by
    intro q hq
    refine (decodeTupleLoop_sim h hr hq _ _ hs).bind fun l _ _ _ e => ?_
    subst e
    exact .ok rfl
  split
  · refine ((p.rejectCompact_sim).bind (P := fun q q' => q = p.forgetHint ∧ q' = p.forgetHint.ren f) fun _ _ _ _ _ => ?_).bind
      fun q q' _ _ e => ?_
    · refine .ok ⟨rfl, ?_⟩
      unfold Propagated.forgetHint Propagated.ren
      dsimp only
      rw [forgetHint_ren]
    · obtain ⟨rfl, rfl⟩ := e
      exact hl _ hp
  · exact hl _ hp

theorem withInfo_sim {x x' : Res (PD × Nat)} (info : List Info) (h : Sim f Eq x x') : Sim f Eq (withInfo info x) (withInfo info x') :=
  h.bind fun _ _ _ _ e => by subst e; exact .ok rfl

theorem findBitOrder_sim (h : Ren f S R R') {o : Nat} (hs : S o) (id : Nat) :
    Sim f Eq (findBitOrder R o id) (findBitOrder R' (f o) (f id)) := by
  refine (get_sim h hs).bind fun t t' _ _ q => ?_
  have hd' := q.2.typeDef
  rw [q.2.ident]
  have bad : Sim f (Eq (α := BitOrder)) (failInternal (.notBitOrderType id)) (failInternal (.notBitOrderType (f id))) :=
    failInternal_sim rfl
  cases hd : t.typeDef with
  | composite fs =>
    rw [hd] at hd'; rw [hd']
    dsimp only [renDef]
    split
    · split
      · exact .ok rfl
      · split
        · exact .ok rfl
        · exact bad
    · exact bad
  | variant vs => rw [hd] at hd'; rw [hd']; exact bad
  | compact i => rw [hd] at hd'; rw [hd']; exact bad
  | array n e => rw [hd] at hd'; rw [hd']; exact bad
  | sequence e => rw [hd] at hd'; rw [hd']; exact bad
  | tuple ids => rw [hd] at hd'; rw [hd']; exact bad
  | primitive pr => rw [hd] at hd'; rw [hd']; exact bad
  | bitSequence o s => rw [hd] at hd'; rw [hd']; exact bad

theorem decodeBitSequence_sim (h : Ren f S R R') {o s : Nat} (ho : S o) (hs : S s) (id : Nat) (b : Buf) (pos : Nat) :
    Sim f Eq (decodeBitSequence R o s id b pos) (decodeBitSequence R' (f o) (f s) (f id) b pos) := by
  unfold decodeBitSequence
  refine (findBitOrder_sim h ho id).bind fun o _ _ _ e => ?_
  subst e
  refine (get_sim h hs).bind fun t t' _ _ q => ?_
  have hd' := q.2.typeDef
  have bad : Sim f (Eq (α := PD × Nat)) (failInternal (.notBitStoreType id)) (failInternal (.notBitStoreType (f id))) :=
    failInternal_sim rfl
  cases hd : t.typeDef with
  | primitive pr =>
    rw [hd] at hd'; rw [hd']
    dsimp only [renDef]
    cases BitStore.ofPrim pr with
    | none => exact bad
    | some st =>
      refine .bindL (intoBitvecDecode_numberless _ _ _) fun x _ => ?_
      obtain ⟨x, y⟩ := x
      dsimp only
      split
      · exact .ok rfl
      · exact .error _
  | composite fs => rw [hd] at hd'; rw [hd']; exact bad
  | variant vs => rw [hd] at hd'; rw [hd']; exact bad
  | compact i => rw [hd] at hd'; rw [hd']; exact bad
  | array n e => rw [hd] at hd'; rw [hd']; exact bad
  | sequence e => rw [hd] at hd'; rw [hd']; exact bad
  | tuple ids => rw [hd] at hd'; rw [hd']; exact bad
  | bitSequence o s => rw [hd] at hd'; rw [hd']; exact bad

theorem decodeTypeDef_sim (h : Ren f S R R') (hr : RecRen f S R rec rec') {t t' : Typ} {id : Nat} (b : Buf) (pos : Nat)
    {p : Propagated} (hp : CheckIn S p.checker) (hs : S id) (ht : R.resolve id = .ok t) (hst : Structural t.path)
    (hrt : RenTyp f t t') :
    Sim f Eq (decodeTypeDef R rec b t id pos p) (decodeTypeDef R' rec' b t' (f id) pos (p.ren f)) := by
  have hq := h.parts id t hs ht hst
  have hd' := hrt.typeDef
  unfold decodeTypeDef
  unfold partIds at hq
  cases hd : t.typeDef with
  | composite fs =>
    rw [hd] at hq hd'; rw [hd']
    refine (decodeFields_sim h hr hp _ _ hq).bind fun l _ _ _ e => ?_
    subst e
    exact .ok rfl
  | variant vs =>
    rw [hd] at hq hd'; rw [hd']
    refine p.rejectCompact_sim.bind fun _ _ _ _ _ => ?_
    have e : (vs.map (renVariant f)).isEmpty = vs.isEmpty := by cases vs <;> rfl
    rw [e]
    split
    · exact .ok rfl
    · refine (decodeVariant_sim h hr vs b pos fun v hv x hx => hq x (List.mem_flatMap.2 ⟨v, hv, hx⟩)).bind fun r _ _ _ e => ?_
      subst e
      exact .ok rfl
  | sequence e =>
    rw [hd] at hq hd'; rw [hd']
    refine .bindL (getCompact_numberless _ _ _) fun n _ => ?_
    exact decodeElementsSet_sim h hr n.1 n.2 (p := { p with checker := p.checker.dropCycleCheck }) (fun _ hx => nomatch hx)
      (hq _ (by simp))
  | array n e =>
    rw [hd] at hq hd'; rw [hd']
    exact decodeElementsSet_sim h hr n pos hp (hq _ (by simp))
  | tuple ids =>
    rw [hd] at hq hd'; rw [hd']
    exact decodeTuple_sim h hr _ _ hp hq
  | primitive pr => rw [hd] at hd'; rw [hd']; exact withInfo_sim _ (decodePrimitive_sim _ _ _ _)
  | compact i =>
    rw [hd] at hq hd'; rw [hd']
    refine p.rejectCompact_sim.bind fun _ _ _ _ _ => ?_
    refine (checkId_sim h (c := { p.checker with specialtySet := { p.checker.specialtySet with compactAt := some id } }) hp
      (hq _ (by simp))).bind fun c c' _ _ q => ?_
    obtain ⟨q, rfl⟩ := q
    exact hr.symbol _ _ { p with checker := c } (hq _ (by simp)) q
  | bitSequence o s =>
    rw [hd] at hq hd'; rw [hd']
    refine p.rejectCompact_sim.bind fun _ _ _ _ _ => withInfo_sim _ (decodeBitSequence_sim h (hq _ (by simp)) (hq _ (by simp)) _ _ _)

theorem addInfo_ren (p : Propagated) (i : Info) : (p.ren f).addInfo i = (p.addInfo i).ren f := by
  unfold Propagated.addInfo; split <;> rfl

theorem decodeBody_sim (h : Ren f S R R') (hr : RecRen f S R rec rec') {t t' : Typ} {id : Nat} (b : Buf) (pos : Nat)
    {p : Propagated} (hp : CheckIn S p.checker) (hs : S id) (ht : R.resolve id = .ok t) (hrt : RenTyp f t t') :
    Sim f Eq
      (TypeChecked.fromType R t b pos >>= fun r => decodeChecked R rec b r.1 t id r.2 (p.addInfo (Info.fromTy t)))
      (TypeChecked.fromType R' t' b pos >>= fun r => decodeChecked R' rec' b r.1 t' (f id) r.2 ((p.ren f).addInfo (Info.fromTy t'))) := by
  refine (fromType_sim h hs ht hrt b pos).bind fun r r' _ _ q => ?_
  obtain ⟨q1, rfl⟩ := q
  obtain ⟨tc, pos⟩ := r
  rw [hrt.info, addInfo_ren]
  have hp' : CheckIn S (p.addInfo (Info.fromTy t)).checker := by rw [addInfo_checker]; exact hp
  generalize p.addInfo (Info.fromTy t) = p at hp'
  cases tc with
  | none => exact decodeTypeDef_sim h hr b pos hp' hs ht q1 hrt
  | fixed k => exact withInfo_sim _ (parseFixed_sim _ _ _ _)
  | era => exact p.rejectCompact_sim.bind fun _ _ _ _ _ => .bindL (specialCaseEra_numberless _ _) fun _ _ => .ok rfl
  | h256 => exact p.rejectCompact_sim.bind fun _ _ _ _ _ => withInfo_sim _ (specialCaseH256_numberless _ _ _ _)
  | palletSpecific n i vs item =>
    refine p.rejectCompact_sim.bind fun _ _ _ _ _ => (decodeVariant_sim h hr vs b pos q1).bind fun r _ _ _ e => ?_
    subst e
    exact .ok rfl
  | perThing k => exact withInfo_sim _ (parsePer_sim _ _ _ _)

theorem decodeStep_sim (h : Ren f S R R') (hr : RecRen f S R rec rec') (b : Buf) :
    RecRen f S R (decodeStep R b rec) (decodeStep R' b rec') where
  symbol id pos p hs hp := by
    refine ((get_sim h hs).bind (P := fun r r' => GotRen f R id r.1 r'.1 ∧ r.2 = id ∧ r'.2 = f id) fun t t' _ _ q => ?_).bind
      fun r r' _ _ q => ?_
    · exact .ok ⟨q, rfl, rfl⟩
    · obtain ⟨t, id⟩ := r
      obtain ⟨t', id'⟩ := r'
      obtain ⟨q, rfl, rfl⟩ := q
      exact decodeBody_sim h hr b pos hp hs q.1 q.2
  resolved t t' id pos p hs hp ht hrt := decodeBody_sim h hr b pos hp hs ht hrt

theorem decodeF_sim (h : Ren f S R R') (b : Buf) (n : Nat) : ∀ m, RecRen f S R (decodeF R b n) (decodeF R' b m) := by
  induction n with
  | zero => exact fun m => ⟨fun _ _ _ _ _ => .inl rfl, fun _ _ _ _ _ _ _ _ _ => .inl rfl⟩
  | succ n ih =>
    intro m
    cases m with
    | zero => exact ⟨fun _ _ _ _ _ => .inr (.inl rfl), fun _ _ _ _ _ _ _ _ _ => .inr (.inl rfl)⟩
    | succ m => exact decodeStep_sim h (ih m) b

theorem Sim.eq {x x' : Res α} (h : Sim f Eq x x') (hx : Fine x) (hx' : Fine x') : x' = renRes f x := by
  rcases h with rfl | rfl | ⟨a, a', rfl, rfl, rfl⟩ | ⟨e, rfl, rfl⟩
  · obtain ⟨e, he⟩ := hx _ rfl; cases he
  · obtain ⟨e, he⟩ := hx' _ rfl; cases he
  · rfl
  · rfl

theorem decode_ren (h : Ren f S R R') {id : Nat} (hs : S id) (b : Buf) (pos : Nat) {p : Propagated}
    (hp : CheckIn S p.checker) :
    decode R' b (.symbol (f id)) pos (p.ren f) = renRes f (decode R b (.symbol id) pos p) :=
  ((decodeF_sim h b _ _).symbol id pos p hs hp).eq (decode_fine _ _ _) (decode_fine _ _ _)

end Verif
