import Verif.Props.Decode
/-!
# What may be inside a compact (C17)
-/
namespace Verif
open Spec

variable {R : Registry}

/-- Types that a compact may hold: unsigned integers up to 128 bits, PerThings, the empty
struct or tuple, and structs or tuples with one field holding such a type. -/
inductive Compactable (R : Registry) : Nat → Prop
  | uint {id : Nat} {t : Typ} {p : Prim} : R.resolve id = .ok t → Structural t.path →
      t.typeDef = .primitive p → p = .u8 ∨ p = .u16 ∨ p = .u32 ∨ p = .u64 ∨ p = .u128 →
      Compactable R id
  | per {id : Nat} {t : Typ} {k : PerKind} : R.resolve id = .ok t → special t.path = some (.per k) →
      Compactable R id
  | struct {id : Nat} {t : Typ} {fields : List Field} : R.resolve id = .ok t → Structural t.path →
      t.typeDef = .composite fields → fields.length ≤ 1 → (∀ f ∈ fields, Compactable R f.ty) →
      Compactable R id
  | tuple {id : Nat} {t : Typ} {ids : List Nat} : R.resolve id = .ok t → Structural t.path →
      t.typeDef = .tuple ids → ids.length ≤ 1 → (∀ i ∈ ids, Compactable R i) → Compactable R id

theorem enc_compactable {c : Bool} {id : Nat} {v : Value} {bs : Bytes} (h : Enc R c id v bs)
    (hc : c = true) : Compactable R id := by
  induction h with
  | fixed | hash | era | per | record | never | variant | signature | pallet | sequence | array
    | compact | bits => cases hc
  | perCompact hr hs _ => exact .per hr hs
  | newtype hr hs hd _ ih =>
    exact .struct hr hs hd (by simp) (by intro f hf; rw [List.mem_singleton.1 hf]; exact ih hc)
  | unit hr hs hd => exact .struct hr hs hd (by simp) (by intro f hf; cases hf)
  | @tuple c id t ids ps hr hs hd hl hp he ih =>
    refine .tuple hr hs hd ?_ ?_
    · rcases Nat.lt_or_ge 1 ids.length with h | h
      · have := hl h; rw [hc] at this; cases this
      · exact h
    · intro i hi
      obtain ⟨q, hq⟩ := mem_zip_of_mem hp hi
      exact ih _ hq hc
  | primitive hr hs hd h =>
    cases h with
    | compact hu _ =>
      refine .uint hr hs hd ?_
      cases hu <;> simp
    | _ => cases hc

/-- C17. A compact is decoded only if what it holds is compactable. -/
theorem decode_compactable {b : Buf} {id inner pos pos' : Nat} {p : Propagated} {t : Typ} {d : ED}
    (hp : Fresh p) (ht : R.resolve id = .ok t) (hs : Structural t.path) (hd : t.typeDef = .compact inner)
    (h : decode R b (.symbol id) pos p = .ok (d, pos')) : Compactable R inner := by
  have h1 := decode_sound hp h
  generalize edValue d = v at h1
  generalize between b pos pos' = bs at h1
  cases h1 with
  | compact hr _ hd' he =>
    rw [ht] at hr; cases hr
    rw [hd] at hd'; cases hd'
    exact enc_compactable he rfl
  | newtype hr' _ hd' | unit hr' _ hd' | record hr' _ hd'
  | never hr' _ hd' | variant hr' _ hd' | array hr' _ hd'
  | primitive hr' _ hd' | tuple hr' _ hd' | sequence hr' _ hd' | bits hr' _ hd' =>
    rw [ht] at hr'; cases hr'; rw [hd] at hd'; cases hd'
  | signature hr' h' => 
    obtain ⟨_, vs, v, f, hd', _⟩ := h'
    rw [ht] at hr'; cases hr'; rw [hd] at hd'; cases hd'
  | pallet hr' h' => 
    obtain ⟨_, vs, v, f, _, hd', _⟩ := h'
    rw [ht] at hr'; cases hr'; rw [hd] at hd'; cases hd'
  | fixed hr' hs' | hash hr' hs' | era hr' hs' | per hr' hs' =>
    rw [ht] at hr'; cases hr'; unfold Structural at hs; rw [hs'] at hs; exact hs.elim

example : Compactable Example.good 1 := .uint (t := { typeDef := .primitive .u32 }) rfl trivial rfl (by simp)
example : (decode Example.good (Buf.ofBytes [0xb1, 0x04]) (.symbol 2) 0 Propagated.new).toOption.isSome = true := by
  rfl

/-- Types that a compact may not hold (a vector is treated separately, as its length is
read before it is rejected). -/
inductive Uncompactable (R : Registry) : Nat → Prop
  | known {id : Nat} {t : Typ} : R.resolve id = .ok t →
      ((∃ k, special t.path = some (.fixed k)) ∨ special t.path = some .hash ∨
        special t.path = some .era) → Uncompactable R id
  | primitive {id : Nat} {t : Typ} {p : Prim} : R.resolve id = .ok t → Structural t.path →
      t.typeDef = .primitive p →
      p ∈ [Prim.bool, .char, .str, .u256, .i8, .i16, .i32, .i64, .i128, .i256] → Uncompactable R id
  | enum {id : Nat} {t : Typ} {vs : List Variant} : R.resolve id = .ok t → Structural t.path →
      t.typeDef = .variant vs → Uncompactable R id
  | array {id : Nat} {t : Typ} {n elem : Nat} : R.resolve id = .ok t → Structural t.path →
      t.typeDef = .array n elem → Uncompactable R id
  | bits {id : Nat} {t : Typ} {o s : Nat} : R.resolve id = .ok t → Structural t.path →
      t.typeDef = .bitSequence o s → Uncompactable R id
  | compact {id : Nat} {t : Typ} {i : Nat} : R.resolve id = .ok t → Structural t.path →
      t.typeDef = .compact i → Uncompactable R id
  | fields {id : Nat} {t : Typ} {fields : List Field} : R.resolve id = .ok t → Structural t.path →
      t.typeDef = .composite fields → 2 ≤ fields.length → Uncompactable R id
  | elems {id : Nat} {t : Typ} {ids : List Nat} : R.resolve id = .ok t → Structural t.path →
      t.typeDef = .tuple ids → 2 ≤ ids.length → Uncompactable R id
  | newtype {id : Nat} {t : Typ} {f : Field} : R.resolve id = .ok t → Structural t.path →
      t.typeDef = .composite [f] → Uncompactable R f.ty → Uncompactable R id
  | single {id i : Nat} {t : Typ} : R.resolve id = .ok t → Structural t.path →
      t.typeDef = .tuple [i] → Uncompactable R i → Uncompactable R id

/-- The error that names the compact. -/
def insideError (id : Nat) : Fail := .err (.registry (.internal (.unexpectedCompactInsides id)))

theorem reject_some {s : SpecialtySet} {c : Nat} (h : s.compactAt = some c) :
    s.rejectCompact = .error (insideError c) := by
  unfold SpecialtySet.rejectCompact; rw [h]; rfl

theorem block_some {c : Nat} : blockCompact (some c) = .error (insideError c) := rfl

theorem fromType_enum_any {b : Buf} {ty : Typ} {vs : List Variant} (pos : Nat)
    (ho : (TypeHinted.fromType ty).open = true) (hd : ty.typeDef = .variant vs) :
    ∃ sp q, TypeChecked.fromType R ty b pos = .ok (sp, q) ∧
      (sp = .none ∨ (∃ k, sp = .fixed k) ∨ ∃ n i v' it, sp = .palletSpecific n i v' it) := by
  rcases (readByte_fine b pos).cases with ⟨i, hi⟩ | ⟨e, he⟩
  · refine ⟨_, _, fromType_enum_ok ho hd hi, ?_⟩
    rcases enumSpecial_cases (R := R) (TypeHinted.fromType ty) vs i with h | ⟨k, _, h⟩ | ⟨it, n, inf, vs', _, h⟩
    · exact .inl h
    · exact .inr (.inl ⟨k, h⟩)
    · exact .inr (.inr ⟨n, inf, vs', it, h⟩)
  · exact ⟨_, _, fromType_enum_err ho hd he, .inl rfl⟩

/-- `y` is the only part of `x`. -/
def OnlyPart (R : Registry) (x y : Nat) : Prop :=
  ∃ t, R.resolve x = .ok t ∧ Structural t.path ∧ ((∃ f, t.typeDef = .composite [f] ∧ f.ty = y) ∨ t.typeDef = .tuple [y])

/-- `y` is the only part of the only part ... of `x`. -/
inductive LeadsTo (R : Registry) : Nat → Nat → Prop
  | step {x y : Nat} : OnlyPart R x y → LeadsTo R x y
  | more {x y z : Nat} : LeadsTo R x y → OnlyPart R y z → LeadsTo R x z

theorem LeadsTo.first {x z : Nat} (h : LeadsTo R x z) : ∃ y, OnlyPart R x y ∧ (y = z ∨ LeadsTo R y z) := by
  induction h with
  | step h => exact ⟨_, h, .inl rfl⟩
  | more _ h ih =>
    obtain ⟨y, h1, rfl | h2⟩ := ih
    · exact ⟨y, h1, .inr (.step h)⟩
    · exact ⟨y, h1, .inr (.more h2 h)⟩

theorem acyclic_of_acc {x : Nat} (h : Acc (fun y x => OnlyPart R x y) x) : ¬ LeadsTo R x x := by
  induction h with
  | intro x _ ih =>
    intro hx
    obtain ⟨y, h1, rfl | h2⟩ := hx.first
    · exact ih _ h1 hx
    · exact ih _ h1 (.more h2 h1)

/-- The chain of only parts of such a type ends. -/
theorem Uncompactable.acc {j : Nat} (h : Uncompactable R j) : Acc (fun y x => OnlyPart R x y) j := by
  induction h with
  | known ht hsp =>
    refine ⟨_, fun y hy => ?_⟩
    obtain ⟨t, h1, h2, _⟩ := hy
    rw [ht] at h1; cases h1
    rcases hsp with ⟨k, hsp⟩ | hsp | hsp <;> (unfold Structural at h2; rw [hsp] at h2; exact h2.elim)
  | primitive ht hs hd | enum ht hs hd | array ht hs hd | bits ht hs hd | compact ht hs hd =>
    refine ⟨_, fun y hy => ?_⟩
    obtain ⟨t, h1, _, ⟨f, h2, _⟩ | h2⟩ := hy <;> (rw [ht] at h1; cases h1; rw [hd] at h2; cases h2)
  | fields ht hs hd hl =>
    refine ⟨_, fun y hy => ?_⟩
    obtain ⟨t, h1, _, ⟨f, h2, _⟩ | h2⟩ := hy <;> (rw [ht] at h1; cases h1; rw [hd] at h2; cases h2)
    simp at hl
  | elems ht hs hd hl =>
    refine ⟨_, fun y hy => ?_⟩
    obtain ⟨t, h1, _, ⟨f, h2, _⟩ | h2⟩ := hy <;> (rw [ht] at h1; cases h1; rw [hd] at h2; cases h2)
    simp at hl
  | newtype ht hs hd _ ih =>
    refine ⟨_, fun y hy => ?_⟩
    obtain ⟨t, h1, _, ⟨f, h2, rfl⟩ | h2⟩ := hy <;> (rw [ht] at h1; cases h1; rw [hd] at h2; cases h2)
    exact ih
  | single ht hs hd _ ih =>
    refine ⟨_, fun y hy => ?_⟩
    obtain ⟨t, h1, _, ⟨f, h2, _⟩ | h2⟩ := hy <;> (rw [ht] at h1; cases h1; rw [hd] at h2; cases h2)
    exact ih

theorem uncompactable_rejected {b : Buf} {c : Nat} {j : Nat}
    (h : Uncompactable R j) : ∀ {t : Typ} {pos : Nat} {p : Propagated}, R.resolve j = .ok t →
    p.compactAt = some c → (∀ x ∈ p.checker.cycleCheck, x = j ∨ LeadsTo R x j) →
    decode R b (.resolved t j) pos p = .error (insideError c) := by
  induction h with
  | @known id t ht hsp =>
    intro t' pos p ht' hp hcyc
    rw [ht] at ht'; cases ht'
    rw [decode_fix]; unfold decodeStep
    simp only [TyIn.resolve, ok_bind]
    have hp' : (p.addInfo (Info.fromTy t)).compactAt = some c := by rw [addInfo_compact]; exact hp
    rcases hsp with ⟨k, hsp⟩ | hsp | hsp
    · rw [show TypeChecked.fromType R t b pos = .ok (.fixed k, pos) by
        unfold TypeChecked.fromType; rw [hinted_fixed.2 hsp], ok_bind]
      simp only [decodeChecked, parseFixed, hp', block_some]; rfl
    · rw [show TypeChecked.fromType R t b pos = .ok (.h256, pos) by
        unfold TypeChecked.fromType; rw [hinted_h256.2 hsp], ok_bind]
      simp only [decodeChecked, Propagated.rejectCompact, reject_some hp']; rfl
    · rw [show TypeChecked.fromType R t b pos = .ok (.era, pos) by
        unfold TypeChecked.fromType; rw [hinted_era.2 hsp], ok_bind]
      simp only [decodeChecked, Propagated.rejectCompact, reject_some hp']; rfl
  | @primitive id t pr ht hs hd hpr =>
    intro t' pos p ht' hp hcyc
    rw [ht] at ht'; cases ht'
    rw [decode_fix]; unfold decodeStep
    have hp' : (p.addInfo (Info.fromTy t)).checker.specialtySet.compactAt = some c := by
      rw [addInfo_checker]; exact hp
    simp only [TyIn.resolve, ok_bind,
      fromType_nonEnum (R := R) (b := b) (pos := pos) (hinted_open.2 hs) (by intro vs; rw [hd]; simp), decodeChecked,
      decodeTypeDef, hd]
    simp only [List.mem_cons, List.not_mem_nil, or_false] at hpr
    rcases hpr with rfl | rfl | rfl | rfl | rfl | rfl | rfl | rfl | rfl | rfl <;>
      simp only [decodePrimitive, parseInt, hp', block_some, reject_some hp'] <;> rfl
  | @enum id t vs ht hs hd =>
    intro t' pos p ht' hp hcyc
    rw [ht] at ht'; cases ht'
    rw [decode_fix]; unfold decodeStep
    have hp' : (p.addInfo (Info.fromTy t)).checker.specialtySet.compactAt = some c := by
      rw [addInfo_checker]; exact hp
    simp only [TyIn.resolve, ok_bind]
    obtain ⟨sp, q, h1, h2⟩ := fromType_enum_any (R := R) (b := b) pos (hinted_open.2 hs) hd
    rw [h1, ok_bind]
    rcases h2 with rfl | ⟨k, rfl⟩ | ⟨n, i, v', it, rfl⟩
    · simp only [decodeChecked, decodeTypeDef, hd, Propagated.rejectCompact, reject_some hp']; rfl
    · simp only [decodeChecked, parseFixed, Propagated.compactAt, hp', block_some]; rfl
    · simp only [decodeChecked, Propagated.rejectCompact, reject_some hp']; rfl
  | @array id t n elem ht hs hd =>
    intro t' pos p ht' hp hcyc
    rw [ht] at ht'; cases ht'
    rw [decode_fix]; unfold decodeStep
    have hp' : (p.addInfo (Info.fromTy t)).checker.specialtySet.compactAt = some c := by
      rw [addInfo_checker]; exact hp
    simp only [TyIn.resolve, ok_bind,
      fromType_nonEnum (R := R) (b := b) (pos := pos) (hinted_open.2 hs) (by intro vs; rw [hd]; simp), decodeChecked,
      decodeTypeDef, hd, decodeElementsSet, Propagated.rejectCompact, reject_some hp']; rfl
  | @bits id t o s ht hs hd =>
    intro t' pos p ht' hp hcyc
    rw [ht] at ht'; cases ht'
    rw [decode_fix]; unfold decodeStep
    have hp' : (p.addInfo (Info.fromTy t)).checker.specialtySet.compactAt = some c := by
      rw [addInfo_checker]; exact hp
    simp only [TyIn.resolve, ok_bind,
      fromType_nonEnum (R := R) (b := b) (pos := pos) (hinted_open.2 hs) (by intro vs; rw [hd]; simp), decodeChecked,
      decodeTypeDef, hd, Propagated.rejectCompact, reject_some hp']; rfl
  | @compact id t i ht hs hd =>
    intro t' pos p ht' hp hcyc
    rw [ht] at ht'; cases ht'
    rw [decode_fix]; unfold decodeStep
    have hp' : (p.addInfo (Info.fromTy t)).checker.specialtySet.compactAt = some c := by
      rw [addInfo_checker]; exact hp
    simp only [TyIn.resolve, ok_bind,
      fromType_nonEnum (R := R) (b := b) (pos := pos) (hinted_open.2 hs) (by intro vs; rw [hd]; simp), decodeChecked,
      decodeTypeDef, hd, Propagated.rejectCompact, reject_some hp']; rfl
  | @fields id t fields ht hs hd hl =>
    intro t' pos p ht' hp hcyc
    rw [ht] at ht'; cases ht'
    rw [decode_fix]; unfold decodeStep
    have hp' : (p.addInfo (Info.fromTy t)).checker.specialtySet.compactAt = some c := by
      rw [addInfo_checker]; exact hp
    simp only [TyIn.resolve, ok_bind,
      fromType_nonEnum (R := R) (b := b) (pos := pos) (hinted_open.2 hs) (by intro vs; rw [hd]; simp), decodeChecked,
      decodeTypeDef, hd, decodeFields, if_pos (show 1 < fields.length from hl), Checker.rejectCompact, reject_some hp']; rfl
  | @elems id t ids ht hs hd hl =>
    intro t' pos p ht' hp hcyc
    rw [ht] at ht'; cases ht'
    rw [decode_fix]; unfold decodeStep
    have hp' : (p.addInfo (Info.fromTy t)).checker.specialtySet.compactAt = some c := by
      rw [addInfo_checker]; exact hp
    simp only [TyIn.resolve, ok_bind,
      fromType_nonEnum (R := R) (b := b) (pos := pos) (hinted_open.2 hs) (by intro vs; rw [hd]; simp), decodeChecked,
      decodeTypeDef, hd, decodeTuple, if_pos (show 1 < ids.length from hl), Propagated.rejectCompact, reject_some hp']; rfl
  | @newtype id t f ht hs hd hin ih =>
    intro t' pos p ht' hp hcyc
    rw [ht] at ht'; cases ht'
    rw [decode_fix]; unfold decodeStep
    have hp' : (p.addInfo (Info.fromTy t)).checker.specialtySet.compactAt = some c := by
      rw [addInfo_checker]; exact hp
    have hex : ∃ t, R.resolve f.ty = .ok t := by cases hin <;> exact ⟨_, by assumption⟩
    obtain ⟨tf, htf⟩ := hex
    have hstep : OnlyPart R id f.ty := ⟨t, ht, hs, .inl ⟨f, hd, rfl⟩⟩
    have hlead : ∀ x ∈ p.checker.cycleCheck, LeadsTo R x f.ty := fun x hx => by
      rcases hcyc x hx with rfl | h
      · exact .step hstep
      · exact .more h hstep
    have hnot : f.ty ∉ p.checker.cycleCheck := fun hx => acyclic_of_acc hin.acc (hlead _ hx)
    simp only [TyIn.resolve, ok_bind,
      fromType_nonEnum (R := R) (b := b) (pos := pos) (hinted_open.2 hs) (by intro vs; rw [hd]; simp), decodeChecked,
      decodeTypeDef, hd, decodeFields, List.length_singleton, Nat.lt_irrefl, if_false, decodeFieldsLoop]
    have hck : Propagated.forField (p.addInfo (Info.fromTy t)).checker f = .ok
        { checker := { ((p.addInfo (Info.fromTy t)).checker.hintFromField f) with
            cycleCheck := ((p.addInfo (Info.fromTy t)).checker.hintFromField f).cycleCheck ++ [f.ty] } } := by
      unfold Propagated.forField Checker.updateForField
      rw [checkId_ok.2 ⟨by
        rw [hintFromField_cycle, addInfo_checker]
        simpa using hnot, rfl⟩]
      rfl
    rw [hck, ok_bind]
    rw [show ∀ q, decode R b (.symbol f.ty) pos q = decode R b (.resolved tf f.ty) pos q by
      intro q; rw [decode_fix, decode_fix]; unfold decodeStep
      simp only [TyIn.resolve, get_ok.2 htf, ok_bind]]
    rw [ih htf (by
        show ((p.addInfo (Info.fromTy t)).checker.hintFromField f).specialtySet.compactAt = _
        rw [hintFromField_compact]; exact hp')
      (by
        intro x hx
        simp only [hintFromField_cycle, addInfo_checker] at hx
        rcases List.mem_append.1 hx with hx | hx
        · exact .inr (hlead x hx)
        · exact .inl (List.mem_singleton.1 hx))]
    rfl
  | @single id i t ht hs hd hin ih =>
    intro t' pos p ht' hp hcyc
    rw [ht] at ht'; cases ht'
    rw [decode_fix]; unfold decodeStep
    have hp' : (p.addInfo (Info.fromTy t)).checker.specialtySet.compactAt = some c := by
      rw [addInfo_checker]; exact hp
    have hex : ∃ t, R.resolve i = .ok t := by cases hin <;> exact ⟨_, by assumption⟩
    obtain ⟨tf, htf⟩ := hex
    have hstep : OnlyPart R id i := ⟨t, ht, hs, .inr hd⟩
    have hlead : ∀ x ∈ p.checker.cycleCheck, LeadsTo R x i := fun x hx => by
      rcases hcyc x hx with rfl | h
      · exact .step hstep
      · exact .more h hstep
    have hnot : i ∉ p.checker.cycleCheck := fun hx => acyclic_of_acc hin.acc (hlead _ hx)
    simp only [TyIn.resolve, ok_bind,
      fromType_nonEnum (R := R) (b := b) (pos := pos) (hinted_open.2 hs) (by intro vs; rw [hd]; simp), decodeChecked,
      decodeTypeDef, hd, decodeTuple, List.length_singleton, Nat.lt_irrefl, if_false, decodeTupleLoop,
      get_ok.2 htf]
    have hck : Propagated.forTy (p.addInfo (Info.fromTy t)).checker tf i = .ok
        ⟨⟨(p.addInfo (Info.fromTy t)).checker.specialtySet.updateFromPath tf,
            (p.addInfo (Info.fromTy t)).checker.cycleCheck ++ [i]⟩, []⟩ := by
      unfold Propagated.forTy Checker.updateForTy
      rw [checkId_ok.2 ⟨by
        rw [addInfo_checker]
        simpa using hnot, rfl⟩]
      rfl
    rw [hck, ok_bind]
    rw [ih htf (by
        show ((p.addInfo (Info.fromTy t)).checker.specialtySet.updateFromPath tf).compactAt = _
        rw [updateFromPath_compact]; exact hp')
      (by
        intro x hx
        simp only [addInfo_checker] at hx
        rcases List.mem_append.1 hx with hx | hx
        · exact .inr (hlead x hx)
        · exact .inl (List.mem_singleton.1 hx))]
    rfl

theorem decode_compact_eq {b : Buf} {id inner pos : Nat} {p : Propagated} {t ti : Typ}
    (hp : Fresh p) (ht : R.resolve id = .ok t) (hs : Structural t.path) (hd : t.typeDef = .compact inner)
    (hi : R.resolve inner = .ok ti) :
    ∃ q : Propagated, q.compactAt = some id ∧ q.checker.cycleCheck = [inner] ∧
      decode R b (.symbol id) pos p = decode R b (.resolved ti inner) pos q := by
  have hck : (p.addInfo (Info.fromTy t)).rejectCompact = .ok () := by
    unfold Propagated.rejectCompact; rw [addInfo_checker]; exact rejectCompact_ok.2 hp.1
  refine ⟨{ p.addInfo (Info.fromTy t) with checker :=
      { specialtySet := { p.checker.specialtySet with compactAt := some id }, cycleCheck := [inner] } }, rfl, rfl, ?_⟩
  rw [decode_fix]; unfold decodeStep
  simp only [TyIn.resolve, get_ok.2 ht, ok_bind,
    fromType_nonEnum (R := R) (b := b) (pos := pos) (hinted_open.2 hs) (by intro vs; rw [hd]; simp), decodeChecked,
    decodeTypeDef, hd, hck]
  rw [checkId_ok.2 ⟨by simp only [addInfo_checker, hp.2]; rfl, rfl⟩, ok_bind]
  simp only [addInfo_checker, hp.2, List.nil_append]
  rw [decode_fix, decode_fix]; unfold decodeStep
  simp only [TyIn.resolve, get_ok.2 hi, ok_bind]

/-- C17. A compact holding (directly, or inside one-field structs and tuples) a bool, char,
text, signed or 256-bit integer, hash, key, signature, account, era, enum, array, bit
sequence, another compact, a struct or tuple with several fields, is rejected with an error
naming the compact type, whatever the data. -/
theorem decode_uncompactable (b : Buf) {id inner : Nat} (pos : Nat)
    {p : Propagated} {t : Typ} (hp : Fresh p) (ht : R.resolve id = .ok t) (hs : Structural t.path)
    (hd : t.typeDef = .compact inner) (hu : Uncompactable R inner) :
    decode R b (.symbol id) pos p = .error (.err (.registry (.internal (.unexpectedCompactInsides id)))) := by
  have hex : ∃ t, R.resolve inner = .ok t := by cases hu <;> exact ⟨_, by assumption⟩
  obtain ⟨ti, hi⟩ := hex
  obtain ⟨q, h1, h2, h3⟩ := decode_compact_eq (b := b) (pos := pos) hp ht hs hd hi
  rw [h3]
  exact uncompactable_rejected hu hi h1 (by rw [h2]; intro x hx; exact .inl (List.mem_singleton.1 hx))

example : decode Example.good (Buf.ofBytes [1]) (.symbol 12) 0 Propagated.new =
    .error (.err (.registry (.internal (.unexpectedCompactInsides 12)))) :=
  decode_uncompactable _ _ (t := { typeDef := .compact 11 }) ⟨rfl, rfl⟩ rfl trivial rfl
    (.primitive (t := { typeDef := .primitive .bool }) rfl trivial rfl (by decide))

/-- C17. A compact of a vector: the error is the one of reading the length, or names the
compact. -/
theorem decode_compact_vector (b : Buf) {id inner elem : Nat} (pos : Nat)
    {p : Propagated} {t ti : Typ} (hp : Fresh p) (ht : R.resolve id = .ok t) (hs : Structural t.path)
    (hd : t.typeDef = .compact inner) (hi : R.resolve inner = .ok ti) (his : Structural ti.path)
    (hid : ti.typeDef = .sequence elem) :
    decode R b (.symbol id) pos p =
      match getCompact (compactUInt .u32) b pos with
      | .error e => .error e
      | .ok _ => .error (.err (.registry (.internal (.unexpectedCompactInsides id)))) := by
  obtain ⟨q, h1, h2, h3⟩ := decode_compact_eq (b := b) (pos := pos) hp ht hs hd hi
  rw [h3, decode_fix]; unfold decodeStep
  have hp' : (q.addInfo (Info.fromTy ti)).checker.specialtySet.compactAt = some id := by
    rw [addInfo_checker]; exact h1
  simp only [TyIn.resolve, ok_bind,
    fromType_nonEnum (R := R) (b := b) (pos := pos) (hinted_open.2 his) (by intro vs; rw [hid]; simp), decodeChecked,
    decodeTypeDef, hid]
  cases getCompact (compactUInt .u32) b pos with
  | error e => rfl
  | ok r =>
    simp only [ok_bind, decodeElementsSet, Propagated.rejectCompact, Checker.dropCycleCheck, reject_some hp']
    rfl

example : decode (Registry.portable [{ typeDef := .compact 1 }, { typeDef := .sequence 2 }, { typeDef := .primitive .u8 }])
    (Buf.ofBytes [0x04, 1]) (.symbol 0) 0 Propagated.new =
    .error (.err (.registry (.internal (.unexpectedCompactInsides 0)))) := by rfl

end Verif
