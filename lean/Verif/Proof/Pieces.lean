import Verif.Spec.Pieces
import Verif.Proof.Hints
/-!
The value that `decode_with_type` tells depends on the context only through the compact mark; what
`husk_type` finds is decoded like the type itself.
-/
namespace Verif
open Spec

variable {R : Registry} {b : Buf} {rk : Nat → Nat}

/-- Result seenBy through a function; errors are kept. -/
def seenBy {α β : Type} (f : α → β) (r : Res (α × Nat)) : Res (β × Nat) :=
  match r with
  | .ok (a, q) => .ok (f a, q)
  | .error e => .error e

theorem told_seen (r : Res (ED × Nat)) : told r = seenBy edValue r := by cases r <;> rfl

theorem seen_cases {α β : Type} {f : α → β} {r r' : Res (α × Nat)} (h : seenBy f r = seenBy f r') :
    (∃ a a' q, r = .ok (a, q) ∧ r' = .ok (a', q) ∧ f a = f a') ∨ (∃ e, r = .error e ∧ r' = .error e) := by
  cases r with
  | ok x =>
    cases r' with
    | ok y =>
      obtain ⟨a, q⟩ := x; obtain ⟨a', q'⟩ := y
      simp only [seenBy, Except.ok.injEq, Prod.mk.injEq] at h
      obtain ⟨h1, rfl⟩ := h
      exact .inl ⟨_, _, _, rfl, rfl, h1⟩
    | error e => simp [seenBy] at h
  | error e =>
    cases r' with
    | ok y => simp [seenBy] at h
    | error e' =>
      simp only [seenBy, Except.error.injEq] at h
      subst h; exact .inr ⟨_, rfl, rfl⟩

/-- Contexts in which the type `id` is decoded alike: the same compact mark, and no check for cycles
that a ranked registry could fail. -/
structure EqualContext (rk : Nat → Nat) (id : Nat) (c c' : Checker) : Prop where
  compact : c.specialtySet.compactAt = c'.specialtySet.compactAt
  left : ∀ x ∈ c.cycleCheck, rk id ≤ rk x
  right : ∀ x ∈ c'.cycleCheck, rk id ≤ rk x

theorem EqualContext.down {id i : Nat} {c c' : Checker} (h : EqualContext rk id c c') (hi : rk i < rk id) :
    ∃ d d', c.checkId i = .ok d ∧ c'.checkId i = .ok d' ∧ EqualContext rk i d d' := by
  have key : ∀ {c : Checker}, (∀ x ∈ c.cycleCheck, rk id ≤ rk x) →
      c.cycleCheck.contains i = false ∧ ∀ x ∈ c.cycleCheck ++ [i], rk i ≤ rk x := by
    intro c hc
    constructor
    · cases hcon : c.cycleCheck.contains i with
      | false => rfl
      | true => have := hc _ (by simpa using hcon); omega
    · intro x hx
      rcases List.mem_append.1 hx with hx | hx
      · have := hc x hx; omega
      · simp at hx; subst hx; exact Nat.le_refl _
  exact ⟨_, _, checkId_ok.2 ⟨(key h.left).1, rfl⟩, checkId_ok.2 ⟨(key h.right).1, rfl⟩,
    h.compact, (key h.left).2, (key h.right).2⟩

theorem EqualContext.reject {id : Nat} {c c' : Checker} (h : EqualContext rk id c c') : c.rejectCompact = c'.rejectCompact := by
  unfold Checker.rejectCompact SpecialtySet.rejectCompact; rw [h.compact]

theorem EqualContext.rejectP {id : Nat} {p p' : Propagated} (h : EqualContext rk id p.checker p'.checker) :
    p.rejectCompact = p'.rejectCompact := by
  unfold Propagated.rejectCompact SpecialtySet.rejectCompact; rw [h.compact]

theorem EqualContext.forget {id : Nat} {c c' : Checker} (h : EqualContext rk id c c') : EqualContext rk id c.forgetHint c'.forgetHint :=
  ⟨by rw [forgetHint_compact, forgetHint_compact]; exact h.1, h.2, h.3⟩

theorem EqualContext.field {id : Nat} {c c' : Checker} (h : EqualContext rk id c c') (f : Field) :
    EqualContext rk id (c.hintFromField f) (c'.hintFromField f) :=
  ⟨by rw [hintFromField_compact, hintFromField_compact]; exact h.1,
   by rw [hintFromField_cycle]; exact h.2, by rw [hintFromField_cycle]; exact h.3⟩

/-- Id of a type given to the decoder. -/
def TyIn.theId : TyIn → Nat
  | .resolved _ id => id
  | .symbol id => id

/-- The given type is the one of the registry. -/
def TyIn.RightIn (R : Registry) : TyIn → Prop
  | .resolved ty id => R.resolve id = .ok ty
  | .symbol _ => True

/-- The recursive calls do not depend on the context. -/
def RecEqualContext (R : Registry) (rk : Nat → Nat) (rec : Dec) : Prop := ∀ tyIn pos p p', tyIn.RightIn R →
  EqualContext rk tyIn.theId p.checker p'.checker → seenBy edValue (rec tyIn pos p) = seenBy edValue (rec tyIn pos p')

theorem fieldsLoop_alike {rec : Dec} (hrec : RecEqualContext R rk rec) {id : Nat} {c c' : Checker} (h : EqualContext rk id c c') :
    ∀ (fs : List Field), (∀ f ∈ fs, rk f.ty < rk id) → ∀ pos, seenBy fdsValue (decodeFieldsLoop rec c fs pos) =
      seenBy fdsValue (decodeFieldsLoop rec c' fs pos) := by
  intro fs
  induction fs with
  | nil => intro _ pos; rfl
  | cons f fs ih =>
    intro hf pos
    unfold decodeFieldsLoop Propagated.forField Checker.updateForField
    obtain ⟨d, d', h1, h2, h3⟩ := (h.field f).down (hf f (by simp))
    rw [h1, h2]
    simp only [ok_bind]
    rcases seen_cases (hrec (.symbol f.ty) pos ⟨d, []⟩ ⟨d', []⟩ trivial h3) with ⟨a, a', q, e1, e2, e3⟩ | ⟨e, e1, e2⟩
    · rw [e1, e2]
      simp only [ok_bind]
      rcases seen_cases (ih (fun g hg => hf g (by simp [hg])) q) with ⟨l, l', q', e4, e5, e6⟩ | ⟨e, e4, e5⟩
      · rw [e4, e5]
        simp only [ok_bind, seenBy, fdsValue, fdValue, e3, e6]
      · rw [e4, e5]; rfl
    · rw [e1, e2]; rfl

theorem fields_alike {rec : Dec} (hrec : RecEqualContext R rk rec) {id : Nat} {c c' : Checker} (h : EqualContext rk id c c')
    (fs : List Field) (hf : ∀ f ∈ fs, rk f.ty < rk id) (pos : Nat) : seenBy fdsValue (decodeFields rec fs pos c) =
      seenBy fdsValue (decodeFields rec fs pos c') := by
  unfold decodeFields
  split
  · rw [h.reject]
    cases c'.rejectCompact with
    | error e => rfl
    | ok u => exact fieldsLoop_alike hrec h.forget fs hf pos
  · exact fieldsLoop_alike hrec h fs hf pos

theorem tupleLoop_alike {rec : Dec} (hrec : RecEqualContext R rk rec) {id : Nat} {c c' : Checker} (h : EqualContext rk id c c') :
    ∀ (ids : List Nat), (∀ i ∈ ids, rk i < rk id) → ∀ pos, seenBy edsValue (decodeTupleLoop R rec c ids pos) =
      seenBy edsValue (decodeTupleLoop R rec c' ids pos) := by
  intro ids
  induction ids with
  | nil => intro _ pos; rfl
  | cons i ids ih =>
    intro hf pos
    unfold decodeTupleLoop
    cases hg : R.get i with
    | error e => rfl
    | ok ty =>
      simp only [ok_bind, Propagated.forTy, Checker.updateForTy]
      obtain ⟨d, d', h1, h2, h3⟩ := h.down (hf i (by simp))
      rw [h1, h2]
      simp only [ok_bind]
      rcases seen_cases (hrec (.resolved ty i) pos
          ⟨{ d with specialtySet := d.specialtySet.updateFromPath ty }, []⟩
          ⟨{ d' with specialtySet := d'.specialtySet.updateFromPath ty }, []⟩ (get_ok.1 hg)
          ⟨by simp only [updateFromPath_compact]; exact h3.1, h3.2, h3.3⟩) with ⟨a, a', q, e1, e2, e3⟩ | ⟨e, e1, e2⟩
      · rw [e1, e2]
        simp only [ok_bind]
        rcases seen_cases (ih (fun g hg => hf g (by simp [hg])) q) with ⟨l, l', q', e4, e5, e6⟩ | ⟨e, e4, e5⟩
        · rw [e4, e5]
          simp only [ok_bind, seenBy, edsValue, e3, e6]
        · rw [e4, e5]; rfl
      · rw [e1, e2]; rfl

theorem tuple_alike {rec : Dec} (hrec : RecEqualContext R rk rec) {id : Nat} {p p' : Propagated}
    (h : EqualContext rk id p.checker p'.checker) (ids : List Nat) (hf : ∀ i ∈ ids, rk i < rk id) (pos : Nat) :
    seenBy edValue (decodeTuple R rec ids pos p) = seenBy edValue (decodeTuple R rec ids pos p') := by
  have key : ∀ (c c' : Checker) (i i' : List Info), EqualContext rk id c c' →
      seenBy edValue (decodeTupleLoop R rec c ids pos >>= fun x => .ok (⟨.tuple x.1, i⟩, x.2)) =
      seenBy edValue (decodeTupleLoop R rec c' ids pos >>= fun x => .ok (⟨.tuple x.1, i'⟩, x.2)) := by
    intro c c' i i' hc
    rcases seen_cases (tupleLoop_alike (R := R) hrec hc ids hf pos) with ⟨l, l', q', e4, e5, e6⟩ | ⟨e, e4, e5⟩
    · rw [e4, e5]; simp only [ok_bind, seenBy, edValue, pdValue, e6]
    · rw [e4, e5] <;> rfl
  unfold decodeTuple
  split
  · rw [h.rejectP]
    cases p'.rejectCompact with
    | error e => rfl
    | ok u => exact key _ _ _ _ h.forget
  · exact key _ _ _ _ h

/-! ### Husks -/

/-- Outcomes of looking through wrappers that are decoded alike. -/
def EqualHusk (R : Registry) (rk : Nat → Nat) (r r' : Res HuskedType) : Prop :=
  (∃ e, r = .error e ∧ r' = .error e) ∨
  (∃ h h', r = .ok h ∧ r' = .ok h' ∧ h.ty = h'.ty ∧ h.id = h'.id ∧ R.resolve h.id = .ok h.ty ∧
    EqualContext rk h.id h.checker h'.checker)

theorem huskLoop_alike (hr : Ranked R rk) (n : Nat) : ∀ {ty : Typ} {id : Nat} {i i' : List Info} {c c' : Checker},
    R.resolve id = .ok ty → EqualContext rk id c c' → EqualHusk R rk (huskLoop R n ty id i c) (huskLoop R n ty id i' c') := by
  induction n with
  | zero => intro _ _ _ _ _ _ _ _; exact .inl ⟨_, rfl, rfl⟩
  | succ n ih =>
    intro ty id i i' c c' hid h
    unfold huskLoop
    simp only
    split
    · split
      · rename_i f hd
        obtain ⟨d, d', h1, h2, h3⟩ := h.down ((hr id ty hid).1 _ hd f (by simp))
        rw [h1, h2, ok_bind, ok_bind]
        cases hg : R.get f.ty with
        | error e => exact .inl ⟨_, rfl, rfl⟩
        | ok t => rw [ok_bind, ok_bind]; exact ih (get_ok.1 hg) (h3.field f)
      · rename_i inner hd
        rw [h.reject]
        cases c'.rejectCompact with
        | error e => exact .inl ⟨_, rfl, rfl⟩
        | ok u =>
          rw [ok_bind, ok_bind]
          have h' : EqualContext rk id (compactChecker c id) (compactChecker c' id) := ⟨rfl, h.2, h.3⟩
          obtain ⟨d, d', h1, h2, h3⟩ := h'.down ((hr id ty hid).2.2.2 _ hd)
          unfold compactChecker at h1 h2
          rw [h1, h2, ok_bind, ok_bind]
          cases hg : R.get inner with
          | error e => exact .inl ⟨_, rfl, rfl⟩
          | ok t => rw [ok_bind, ok_bind]; exact ih (get_ok.1 hg) h3
      · exact .inr ⟨_, _, rfl, rfl, rfl, rfl, hid, h⟩
    · exact .inr ⟨_, _, rfl, rfl, rfl, rfl, hid, h⟩

theorem huskType_alike (hr : Ranked R rk) {id elem : Nat} {c c' : Checker} (h : EqualContext rk id c c')
    (he : rk elem < rk id) : EqualHusk R rk (huskType R elem c) (huskType R elem c') := by
  unfold huskType
  obtain ⟨d, d', h1, h2, h3⟩ := h.down he
  rw [h1, h2, ok_bind, ok_bind]
  cases hg : R.get elem with
  | error e => exact .inl ⟨_, rfl, rfl⟩
  | ok t =>
    rw [ok_bind, ok_bind]
    exact huskLoop_alike hr _ (get_ok.1 hg) ⟨rfl, h3.2, h3.3⟩

theorem huskType_alike' (hr : Ranked R rk) {elem : Nat} {c c' : Checker} (hc : c.cycleCheck = [])
    (hc' : c'.cycleCheck = []) : EqualHusk R rk (huskType R elem c) (huskType R elem c') := by
  unfold huskType
  rw [checkId_ok.2 ⟨by rw [hc]; rfl, rfl⟩, checkId_ok.2 ⟨by rw [hc']; rfl, rfl⟩, ok_bind, ok_bind]
  cases hg : R.get elem with
  | error e => exact .inl ⟨_, rfl, rfl⟩
  | ok t =>
    rw [ok_bind, ok_bind]
    exact huskLoop_alike hr _ (get_ok.1 hg) ⟨rfl, by simp [hc], by simp [hc']⟩

/-- The elements, decoded with the type under the wrappers. -/
theorem elementsLoop_alike {rec : Dec} (hrec : RecEqualContext R rk rec) {h h' : HuskedType} (ht : h.ty = h'.ty)
    (hi : h.id = h'.id) (hres : R.resolve h.id = .ok h.ty) (ha : EqualContext rk h.id h.checker h'.checker) :
    ∀ n pos, seenBy pdsValue (decodeElementsLoop rec h n pos) = seenBy pdsValue (decodeElementsLoop rec h' n pos) := by
  intro n
  induction n with
  | zero => intro pos; rfl
  | succ n ih =>
    intro pos
    unfold decodeElementsLoop
    rw [← ht, ← hi]
    rcases seen_cases (hrec (.resolved h.ty h.id) pos (Propagated.withChecker h.checker)
      (Propagated.withChecker h'.checker) hres ha) with ⟨a, a', q, e1, e2, e3⟩ | ⟨e, e1, e2⟩
    · rw [e1, e2]
      simp only [ok_bind]
      rcases seen_cases (ih q) with ⟨l, l', q', e4, e5, e6⟩ | ⟨e, e4, e5⟩
      · rw [e4, e5]
        have e3 : pdValue a.data = pdValue a'.data := by cases a; cases a'; exact e3
        simp only [ok_bind, seenBy, pdsValue, e3, e6]
      · rw [e4, e5]; rfl
    · rw [e1, e2]; rfl

theorem elementsSet_value {rec : Dec} (elem n pos : Nat) (p : Propagated) :
    seenBy edValue (decodeElementsSet R rec elem n pos p) =
      match p.rejectCompact with
      | .error e => .error e
      | .ok _ =>
        match huskType R elem p.checker with
        | .error e => .error e
        | .ok h => seenBy Value.seq (seenBy pdsValue (decodeElementsLoop rec h n pos)) := by
  unfold decodeElementsSet
  cases p.rejectCompact with
  | error e => rfl
  | ok u =>
    simp only [ok_bind]
    cases huskType R elem p.checker with
    | error e => rfl
    | ok h =>
      simp only [ok_bind]
      split
      · rename_i h0
        subst h0
        rfl
      · cases decodeElementsLoop rec h n pos with
        | error e => rfl
        | ok r =>
          obtain ⟨l, q⟩ := r
          simp only [ok_bind]
          cases hw : wrapSequence l with
          | none => rfl
          | some s => simp only [seenBy, edValue, pdValue, wrapSequence_values hw]

theorem elements_alike {rec : Dec} (hrec : RecEqualContext R rk rec) {p p' : Propagated} (elem n pos : Nat)
    (hrj : p.rejectCompact = p'.rejectCompact)
    (h : EqualHusk R rk (huskType R elem p.checker) (huskType R elem p'.checker)) :
    seenBy edValue (decodeElementsSet R rec elem n pos p) = seenBy edValue (decodeElementsSet R rec elem n pos p') := by
  rw [elementsSet_value, elementsSet_value, hrj]
  cases p'.rejectCompact with
  | error e => rfl
  | ok u =>
    dsimp only
    rcases h with ⟨e, h1, h2⟩ | ⟨h, h', h1, h2, h3, h4, h5, h6⟩
    · rw [h1, h2]
    · rw [h1, h2]
      dsimp only
      rw [elementsLoop_alike hrec h3 h4 h5 h6]

/-! ### One call -/

theorem seen_of_relab {r r' : Res (PD × Nat)} (h : relab PD.unlabel r = relab PD.unlabel r') :
    seenBy pdValue r = seenBy pdValue r' := by
  rcases relab_cases h with ⟨a, a', q, h1, h2, h3⟩ | ⟨e, h1, h2⟩
  · rw [h1, h2]
    simp only [seenBy]
    rw [← unlabel_pdValue a, h3, unlabel_pdValue]
  · rw [h1, h2]

theorem withInfo_seen {i i' : List Info} {r r' : Res (PD × Nat)} (h : seenBy pdValue r = seenBy pdValue r') :
    seenBy edValue (withInfo i r) = seenBy edValue (withInfo i' r') := by
  rcases seen_cases h with ⟨l, l', q', e4, e5, e6⟩ | ⟨e, e4, e5⟩
  · rw [e4, e5]; simp only [withInfo, ok_bind, seenBy, edValue, e6]
  · rw [e4, e5] <;> rfl

theorem typeDef_alike (hr : Ranked R rk) {rec : Dec} (hrec : RecEqualContext R rk rec) {p p' : Propagated} {ty : Typ}
    {id : Nat} (hid : R.resolve id = .ok ty) (h : EqualContext rk id p.checker p'.checker) (pos : Nat) :
    seenBy edValue (decodeTypeDef R rec b ty id pos p) = seenBy edValue (decodeTypeDef R rec b ty id pos p') := by
  unfold decodeTypeDef
  have hrank := hr id ty hid
  cases hd : ty.typeDef with
  | composite fields =>
    rcases seen_cases (fields_alike hrec h fields (hrank.1 _ hd) pos) with ⟨l, l', q', e4, e5, e6⟩ | ⟨e, e4, e5⟩
    · simp only [e4, e5, ok_bind, seenBy, edValue, pdValue, e6]
    · simp only [e4, e5]; rfl
  | variant vs =>
    simp only [h.rejectP]
    cases p'.rejectCompact with
    | error e => rfl
    | ok u =>
      simp only [ok_bind]
      split
      · rfl
      · cases decodeVariant rec vs b pos <;> rfl
  | sequence elem =>
    simp only
    cases getCompact (compactUInt .u32) b pos with
    | error e => rfl
    | ok r =>
      simp only [ok_bind]
      exact elements_alike hrec _ _ _ h.rejectP (huskType_alike' hr rfl rfl)
  | array len elem => exact elements_alike hrec _ _ _ h.rejectP (huskType_alike hr h (hrank.2.2.1 _ _ hd))
  | tuple ids => exact tuple_alike hrec h ids (hrank.2.1 _ hd) pos
  | primitive pr => exact withInfo_seen (seen_of_relab (prim_same h.compact pr pos))
  | compact inner =>
    simp only [h.rejectP]
    cases p'.rejectCompact with
    | error e => rfl
    | ok u =>
      simp only [ok_bind]
      have h' : EqualContext rk id (compactChecker p.checker id) (compactChecker p'.checker id) := ⟨rfl, h.2, h.3⟩
      obtain ⟨d, d', h1, h2, h3⟩ := h'.down (hrank.2.2.2 _ hd)
      unfold compactChecker at h1 h2
      rw [h1, h2]
      exact hrec (.symbol inner) pos _ _ trivial h3
  | bitSequence o s =>
    simp only [h.rejectP]
    cases p'.rejectCompact with
    | error e => rfl
    | ok u => exact withInfo_seen rfl

theorem resolve_right {tyIn : TyIn} (hri : tyIn.RightIn R) {ty : Typ} {id : Nat} (h : tyIn.resolve R = .ok (ty, id)) :
    R.resolve id = .ok ty ∧ id = tyIn.theId := by
  cases tyIn with
  | resolved t i => cases h; exact ⟨hri, rfl⟩
  | symbol i =>
    obtain ⟨t, h1, h2⟩ := bind_ok.1 h
    cases h2
    exact ⟨get_ok.1 h1, rfl⟩

theorem step_alike (hr : Ranked R rk) {rec : Dec} (hrec : RecEqualContext R rk rec) : RecEqualContext R rk (decodeStep R b rec) := by
  intro tyIn pos p p' hri h
  unfold decodeStep
  cases hres : tyIn.resolve R with
  | error e => rfl
  | ok r =>
    obtain ⟨ty, id⟩ := r
    simp only [ok_bind]
    obtain ⟨hid, rfl⟩ := resolve_right hri hres
    have h' : EqualContext rk tyIn.theId (p.addInfo (Info.fromTy ty)).checker (p'.addInfo (Info.fromTy ty)).checker := by
      rw [addInfo_checker, addInfo_checker]; exact h
    generalize p.addInfo (Info.fromTy ty) = p at h'
    generalize p'.addInfo (Info.fromTy ty) = p' at h'
    cases TypeChecked.fromType R ty b pos with
    | error e => rfl
    | ok r =>
      obtain ⟨sp, q⟩ := r
      simp only [ok_bind]
      unfold decodeChecked
      cases sp with
      | none => exact typeDef_alike hr hrec hid h' q
      | fixed k => simp only [Propagated.compactAt, h'.compact]; exact withInfo_seen rfl
      | era =>
        simp only [h'.rejectP]
        cases p'.rejectCompact with
        | error e => rfl
        | ok u => simp only [ok_bind]; cases specialCaseEra b q <;> rfl
      | h256 =>
        simp only [h'.rejectP]
        cases p'.rejectCompact with
        | error e => rfl
        | ok u =>
          simp only [ok_bind]
          apply withInfo_seen
          unfold specialCaseH256
          cases cutArray 32 b q with
          | error e => rfl
          | ok r =>
            obtain ⟨x, q'⟩ := r
            simp only [ok_bind]
            cases p.checker.specialtySet.hint.hash256 <;> cases p'.checker.specialtySet.hint.hash256 <;> rfl
      | palletSpecific n i vs it =>
        simp only [h'.rejectP]
        cases p'.rejectCompact with
        | error e => rfl
        | ok u => simp only [ok_bind]; cases decodeVariant rec vs b q <;> rfl
      | perThing k => simp only [Propagated.compactAt, h'.compact]; exact withInfo_seen rfl

theorem decodeF_alike (hr : Ranked R rk) (n : Nat) : RecEqualContext R rk (decodeF R b n) := by
  induction n with
  | zero => intro _ _ _ _ _ _; rfl
  | succ n ih => exact step_alike hr ih

/-- The value told depends on the context only through the compact mark. -/
theorem decode_alike (hr : Ranked R rk) : RecEqualContext R rk (decode R b) := by
  intro tyIn pos p p' hri h
  exact decodeF_alike hr _ tyIn pos p p' hri h

/-! ### The type under the wrappers is decoded like the type -/

theorem seen_struct (fs : List FD) (h : fs.length = 1) :
    ∃ n t dc d, fs = [⟨n, t, dc, d⟩] := by
  match fs, h with
  | [⟨n, t, dc, d⟩], _ => exact ⟨n, t, dc, d, rfl⟩

/-- One step through a struct with a single field. -/
theorem decode_newtype {ty : Typ} {id : Nat} {f : Field} (hs : Structural ty.path) (hd : ty.typeDef = .composite [f])
    (pos : Nat) (p : Propagated) {d : Checker} (hck : (p.checker.hintFromField f).checkId f.ty = .ok d) :
    seenBy edValue (decode R b (.resolved ty id) pos p) = seenBy edValue (decode R b (.symbol f.ty) pos ⟨d, []⟩) := by
  rw [decode_fix]
  unfold decodeStep
  simp only [TyIn.resolve, ok_bind]
  rw [fromType_nonEnum (hinted_open.2 hs) (by rw [hd]; simp)]
  simp only [ok_bind, decodeChecked, decodeTypeDef, hd, decodeFields, List.length_singleton, Nat.lt_irrefl, if_false,
    decodeFieldsLoop, Propagated.forField, Checker.updateForField]
  rw [addInfo_checker, hck]
  simp only [ok_bind]
  cases decode R b (.symbol f.ty) pos ⟨d, []⟩ with
  | error e => rfl
  | ok r => rfl

/-- One step through a compact. -/
theorem decode_compact {ty : Typ} {id inner : Nat} (hs : Structural ty.path) (hd : ty.typeDef = .compact inner)
    (pos : Nat) (p : Propagated) (hrj : p.rejectCompact = .ok ()) {d : Checker}
    (hck : (compactChecker p.checker id).checkId inner = .ok d) :
    ∃ i, decode R b (.resolved ty id) pos p = decode R b (.symbol inner) pos ⟨d, i⟩ := by
  rw [decode_fix]
  unfold decodeStep
  simp only [TyIn.resolve, ok_bind]
  rw [fromType_nonEnum (hinted_open.2 hs) (by rw [hd]; simp)]
  have hrj' : (p.addInfo (Info.fromTy ty)).rejectCompact = .ok () := by
    unfold Propagated.rejectCompact; rw [addInfo_checker]; exact hrj
  unfold compactChecker at hck
  simp only [ok_bind, decodeChecked, decodeTypeDef, hd, hrj', addInfo_checker, hck]
  exact ⟨_, rfl⟩

theorem decode_symbol_ok {ty : Typ} {id : Nat} (h : R.get id = .ok ty) (pos : Nat) (p : Propagated) :
    decode R b (.symbol id) pos p = decode R b (.resolved ty id) pos p := by
  rw [decode_fix, decode_fix]
  unfold decodeStep
  simp only [TyIn.resolve, h, ok_bind]

theorem decode_symbol_err {id : Nat} {e : Fail} (h : R.get id = .error e) (pos : Nat) (p : Propagated) :
    decode R b (.symbol id) pos p = .error e := by
  rw [decode_fix]
  unfold decodeStep
  simp only [TyIn.resolve, h]
  rfl

theorem EqualContext.self {id : Nat} {c c' : Checker} (h : EqualContext rk id c c') : EqualContext rk id c c := ⟨rfl, h.2, h.2⟩

theorem huskLoop_decode (hr : Ranked R rk) (n : Nat) : ∀ {ty : Typ} {id : Nat} {i : List Info} {c c' : Checker},
    R.resolve id = .ok ty → EqualContext rk id c c' → ∀ pos j,
    (∃ h, huskLoop R n ty id i c = .ok h ∧ R.resolve h.id = .ok h.ty ∧ EqualContext rk h.id h.checker h.checker ∧
      seenBy edValue (decode R b (.resolved ty id) pos ⟨c', j⟩) =
      seenBy edValue (decode R b (.resolved h.ty h.id) pos (Propagated.withChecker h.checker))) ∨
    (∃ e, huskLoop R n ty id i c = .error e ∧ (e = .fuel ∨ decode R b (.resolved ty id) pos ⟨c', j⟩ = .error e)) := by
  induction n with
  | zero => intro _ _ _ _ _ _ _ _ _; exact .inr ⟨_, rfl, .inl rfl⟩
  | succ n ih =>
    intro ty id i c c' hid h pos j
    have hstop : ∀ info, ∃ hu, (Except.ok { info, checker := c, ty, id } : Res HuskedType) = .ok hu ∧
        R.resolve hu.id = .ok hu.ty ∧ EqualContext rk hu.id hu.checker hu.checker ∧
      seenBy edValue (decode R b (.resolved ty id) pos ⟨c', j⟩) =
      seenBy edValue (decode R b (.resolved hu.ty hu.id) pos (Propagated.withChecker hu.checker)) := fun info =>
      ⟨_, rfl, hid, h.self, decode_alike hr _ pos _ _ hid ⟨h.1.symm, h.3, h.2⟩⟩
    unfold huskLoop
    simp only
    split
    · rename_i hn
      have hs : Structural ty.path := structural_none (hinted_none.1 hn)
      split
      · rename_i f hd
        have hlt := (hr id ty hid).1 _ hd f (by simp)
        obtain ⟨d, d', h1, h2, h3⟩ := h.down hlt
        obtain ⟨_, g, _, h4, h5⟩ := (h.field f).down hlt
        rw [h1, ok_bind]
        have key := decode_newtype (R := R) (b := b) (id := id) hs hd pos ⟨c', j⟩ h4
        cases hg : R.get f.ty with
        | error e =>
          right
          refine ⟨e, rfl, .inr ?_⟩
          rw [decode_symbol_err hg] at key
          cases hx : decode R b (.resolved ty id) pos ⟨c', j⟩ with
          | ok r => rw [hx] at key; obtain ⟨a, q⟩ := r; simp [seenBy] at key
          | error e' => rw [hx] at key; simp only [seenBy, Except.error.injEq] at key; rw [key]
        | ok t =>
          rw [ok_bind]
          rw [decode_symbol_ok hg] at key
          obtain ⟨_, rfl⟩ := checkId_ok.1 h1
          obtain ⟨_, rfl⟩ := checkId_ok.1 h4
          have h6 : EqualContext rk f.ty (Checker.hintFromField { c with cycleCheck := c.cycleCheck ++ [f.ty] } f)
              { c'.hintFromField f with cycleCheck := (c'.hintFromField f).cycleCheck ++ [f.ty] } :=
            ⟨by rw [hintFromField_compact]; exact h.1.trans (hintFromField_compact c' f).symm,
             by rw [hintFromField_cycle]; exact h3.2, h5.3⟩
          rcases ih (i := if (Info.fromTy ty).isEmpty then i else i ++ [Info.fromTy ty]) (get_ok.1 hg) h6 pos [] with
            ⟨hu, e1, e2, e3, e4⟩ | ⟨e, e1, e2⟩
          · exact .inl ⟨hu, e1, e2, e3, key.trans e4⟩
          · refine .inr ⟨e, e1, e2.imp (fun h => h) fun e2 => ?_⟩
            rw [e2] at key
            cases hx : decode R b (.resolved ty id) pos ⟨c', j⟩ with
            | ok r => rw [hx] at key; obtain ⟨a, q⟩ := r; simp [seenBy] at key
            | error e' => rw [hx] at key; simp only [seenBy, Except.error.injEq] at key; rw [key]
      · rename_i inner hd
        have hlt := (hr id ty hid).2.2.2 _ hd
        cases hrj : c.rejectCompact with
        | error e =>
          right
          refine ⟨e, rfl, .inr ?_⟩
          rw [decode_fix]
          unfold decodeStep
          simp only [TyIn.resolve, ok_bind]
          rw [fromType_nonEnum (hinted_open.2 hs) (by rw [hd]; simp)]
          have hrj' : (Propagated.addInfo ⟨c', j⟩ (Info.fromTy ty)).rejectCompact = .error e := by
            unfold Propagated.rejectCompact; rw [addInfo_checker]
            show c'.rejectCompact = _
            rw [← h.reject]; exact hrj
          simp only [ok_bind, decodeChecked, decodeTypeDef, hd, hrj']
          rfl
        | ok u =>
          rw [ok_bind]
          have h' : EqualContext rk id (compactChecker c id) (compactChecker c' id) := ⟨rfl, h.2, h.3⟩
          obtain ⟨d, d', h1, h2, h3⟩ := h'.down hlt
          obtain ⟨j', key⟩ := decode_compact (R := R) (b := b) hs hd pos ⟨c', j⟩ (by
            show c'.rejectCompact = _
            rw [← h.reject, hrj]) h2
          unfold compactChecker at h1
          rw [h1, ok_bind]
          cases hg : R.get inner with
          | error e =>
            right
            refine ⟨e, rfl, .inr ?_⟩
            rw [key, decode_symbol_err hg]
          | ok t =>
            rw [ok_bind, key, decode_symbol_ok hg]
            exact ih (get_ok.1 hg) h3 pos j'
      · exact .inl (hstop _)
    · exact .inl (hstop _)

/-- What `husk_type` finds for an element type is decoded like the element type; what it
refuses is refused with the same error. -/
theorem huskType_decode (hr : Ranked R rk) {elem : Nat} {c : Checker} (hc : ∀ x ∈ c.cycleCheck, rk elem < rk x) (pos : Nat) :
    (∃ h, huskType R elem c = .ok h ∧ R.resolve h.id = .ok h.ty ∧ EqualContext rk h.id h.checker h.checker ∧
      ∀ pos, seenBy edValue (decodeAsTypeAtPosition R b elem pos) =
      seenBy edValue (decode R b (.resolved h.ty h.id) pos (Propagated.withChecker h.checker))) ∨
    (∃ e, huskType R elem c = .error e ∧ decodeAsTypeAtPosition R b elem pos = .error e) := by
  have hfine := huskType_fine R elem c
  have hnot : c.cycleCheck.contains elem = false := by
    cases hcon : c.cycleCheck.contains elem with
    | false => rfl
    | true => have := hc _ (by simpa using hcon); omega
  unfold huskType at hfine ⊢
  rw [checkId_ok.2 ⟨hnot, rfl⟩, ok_bind] at hfine ⊢
  unfold decodeAsTypeAtPosition
  cases hg : R.get elem with
  | error e => exact .inr ⟨e, rfl, decode_symbol_err hg pos _⟩
  | ok t =>
    rw [hg, ok_bind] at hfine
    rw [ok_bind]
    have hal : EqualContext rk elem { c with cycleCheck := c.cycleCheck ++ [elem], specialtySet := {} } Checker.new :=
      ⟨rfl, by
        intro x hx
        rcases List.mem_append.1 hx with hx | hx
        · exact Nat.le_of_lt (hc x hx)
        · simp at hx; subst hx; exact Nat.le_refl _, by intro x hx; cases hx⟩
    have hl := fun pos => huskLoop_decode (b := b) hr (R.size + 1) (i := []) (get_ok.1 hg) hal pos []
    rcases hl pos with ⟨hu, e1, e2, e3, _⟩ | ⟨e, e1, e2⟩
    · refine .inl ⟨hu, e1, e2, e3, fun pos => ?_⟩
      rw [decode_symbol_ok hg]
      rcases hl pos with ⟨hu', e1', _, _, e4'⟩ | ⟨e, e1', _⟩
      · rw [e1] at e1'; cases e1'; exact e4'
      · rw [e1] at e1'; cases e1'
    · refine .inr ⟨e, e1, ?_⟩
      rw [decode_symbol_ok hg]
      rcases e2 with rfl | e2
      · obtain ⟨x, hx⟩ := hfine _ e1; cases hx
      · exact e2

end Verif
