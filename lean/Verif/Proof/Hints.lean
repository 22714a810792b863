import Verif.Props.Decode
/-!
Hints only change labels.
-/
namespace Verif
open Spec

mutual
/-- Parsed data without labels: integers and texts carry no specialty, genesis and block
hashes are plain hashes. All the rest (values, names, docs, paths) stays. -/
def PD.unlabel : PD → PD
  | .blockHash h => .h256 h
  | .genesisHash h => .h256 h
  | .pallet item i d p v fs => .pallet item i d p v (unlabelFDs fs)
  | .composite fs => .composite (unlabelFDs fs)
  | .uint w v _ => .uint w v .none
  | .sequenceRaw i l => .sequenceRaw i (unlabelPDs l)
  | .text s _ => .text s .none
  | .tuple l => .tuple (unlabelEDs l)
  | .variant n d fs => .variant n d (unlabelFDs fs)
  | .bitVec s o l => .bitVec s o l
  | .h256 h => .h256 h
  | .fixed k h => .fixed k h
  | .emptyEnum => .emptyEnum
  | .era e => .era e
  | .perThing k v => .perThing k v
  | .bool v => .bool v
  | .char v => .char v
  | .int w v => .int w v
  | .u256 v => .u256 v
  | .sequence i s => .sequence i s
/-- Same for data with info. -/
def ED.unlabel : ED → ED
  | ⟨d, i⟩ => ⟨d.unlabel, i⟩
/-- Same for a field. -/
def FD.unlabel : FD → FD
  | ⟨n, t, s, d⟩ => ⟨n, t, s, d.unlabel⟩
/-- Same for a list. -/
def unlabelPDs : List PD → List PD
  | [] => []
  | d :: ds => d.unlabel :: unlabelPDs ds
/-- Same for a list. -/
def unlabelEDs : List ED → List ED
  | [] => []
  | d :: ds => d.unlabel :: unlabelEDs ds
/-- Same for a list. -/
def unlabelFDs : List FD → List FD
  | [] => []
  | d :: ds => d.unlabel :: unlabelFDs ds
end

mutual
theorem unlabel_pdValue : ∀ d : PD, pdValue d.unlabel = pdValue d
  | .blockHash h => rfl
  | .genesisHash h => rfl
  | .pallet item i d p v fs => by simp only [PD.unlabel, pdValue, unlabel_fdsValue fs]
  | .composite fs => by simp only [PD.unlabel, pdValue, unlabel_fdsValue fs]
  | .uint w v _ => rfl
  | .sequenceRaw i l => by simp only [PD.unlabel, pdValue, unlabel_pdsValue l]
  | .text s _ => rfl
  | .tuple l => by simp only [PD.unlabel, pdValue, unlabel_edsValue l]
  | .variant n d fs => by simp only [PD.unlabel, pdValue, unlabel_fdsValue fs]
  | .bitVec s o l => rfl
  | .h256 h => rfl
  | .fixed k h => rfl
  | .emptyEnum => rfl
  | .era e => rfl
  | .perThing k v => rfl
  | .bool v => rfl
  | .char v => rfl
  | .int w v => rfl
  | .u256 v => rfl
  | .sequence i s => rfl
theorem unlabel_edValue : ∀ d : ED, edValue d.unlabel = edValue d
  | ⟨d, i⟩ => by simp only [ED.unlabel, edValue, unlabel_pdValue d]
theorem unlabel_fdValue : ∀ d : FD, fdValue d.unlabel = fdValue d
  | ⟨n, t, s, d⟩ => by simp only [FD.unlabel, fdValue, unlabel_edValue d]
theorem unlabel_pdsValue : ∀ l : List PD, pdsValue (unlabelPDs l) = pdsValue l
  | [] => rfl
  | d :: ds => by simp only [unlabelPDs, pdsValue, unlabel_pdValue d, unlabel_pdsValue ds]
theorem unlabel_edsValue : ∀ l : List ED, edsValue (unlabelEDs l) = edsValue l
  | [] => rfl
  | d :: ds => by simp only [unlabelEDs, edsValue, unlabel_edValue d, unlabel_edsValue ds]
theorem unlabel_fdsValue : ∀ l : List FD, fdsValue (unlabelFDs l) = fdsValue l
  | [] => rfl
  | d :: ds => by simp only [unlabelFDs, fdsValue, unlabel_fdValue d, unlabel_fdsValue ds]
end

/-- Result without labels. -/
def relab {α : Type} (f : α → α) (r : Res (α × Nat)) : Res (α × Nat) :=
  match r with
  | .ok (a, q) => .ok (f a, q)
  | .error e => .error e

theorem relab_cases {α : Type} {f : α → α} {r r' : Res (α × Nat)} (h : relab f r = relab f r') :
    (∃ a a' q, r = .ok (a, q) ∧ r' = .ok (a', q) ∧ f a = f a') ∨ (∃ e, r = .error e ∧ r' = .error e) := by
  cases r with
  | ok x =>
    cases r' with
    | ok y =>
      obtain ⟨a, q⟩ := x; obtain ⟨a', q'⟩ := y
      simp only [relab, Except.ok.injEq, Prod.mk.injEq] at h
      obtain ⟨h1, rfl⟩ := h
      exact .inl ⟨_, _, _, rfl, rfl, h1⟩
    | error e => simp [relab] at h
  | error e =>
    cases r' with
    | ok y => simp [relab] at h
    | error e' =>
      simp only [relab, Except.error.injEq] at h
      subst h; exact .inr ⟨_, rfl, rfl⟩

/-- Same context but for the hint. -/
structure SameC (c c' : Checker) : Prop where
  compact : c.specialtySet.compactAt = c'.specialtySet.compactAt
  cycle : c.cycleCheck = c'.cycleCheck

/-- Same context but for the hint. -/
structure SameP (p p' : Propagated) : Prop where
  checker : SameC p.checker p'.checker
  info : p.info = p'.info

theorem SameP.addInfo {p p' : Propagated} (h : SameP p p') (i : Info) : SameP (p.addInfo i) (p'.addInfo i) := by
  obtain ⟨h1, h2⟩ := h
  unfold Propagated.addInfo
  split
  · exact ⟨h1, h2⟩
  · exact ⟨h1, by rw [h2]⟩

theorem SameC.forgetHint {c c' : Checker} (h : SameC c c') : SameC c.forgetHint c'.forgetHint :=
  ⟨by rw [forgetHint_compact, forgetHint_compact]; exact h.1,
   by rw [forgetHint_cycle, forgetHint_cycle]; exact h.2⟩

theorem SameC.field {c c' : Checker} (h : SameC c c') (f : Field) :
    SameC (c.hintFromField f) (c'.hintFromField f) :=
  ⟨by rw [hintFromField_compact, hintFromField_compact]; exact h.1,
   by rw [hintFromField_cycle, hintFromField_cycle]; exact h.2⟩

theorem SameC.checkId {c c' : Checker} (h : SameC c c') (id : Nat) :
    (∃ e, c.checkId id = .error e ∧ c'.checkId id = .error e) ∨
    (∃ d d', c.checkId id = .ok d ∧ c'.checkId id = .ok d' ∧ SameC d d') := by
  unfold Checker.checkId
  rw [h.2]
  split
  · exact .inl ⟨_, rfl, rfl⟩
  · exact .inr ⟨_, _, rfl, rfl, h.1, rfl⟩

theorem SameC.reject {c c' : Checker} (h : SameC c c') : c.rejectCompact = c'.rejectCompact := by
  unfold Checker.rejectCompact SpecialtySet.rejectCompact; rw [h.1]

theorem SameP.reject {p p' : Propagated} (h : SameP p p') : p.rejectCompact = p'.rejectCompact := by
  unfold Propagated.rejectCompact SpecialtySet.rejectCompact; rw [h.checker.1]

/-- The recursive calls do not depend on the hint, up to labels. -/
def RecSame (rec : Dec) : Prop := ∀ tyIn pos p p', SameP p p' →
  relab ED.unlabel (rec tyIn pos p) = relab ED.unlabel (rec tyIn pos p')

variable {R : Registry} {b : Buf}

theorem fieldsLoop_same {rec : Dec} (hrec : RecSame rec) {c c' : Checker} (h : SameC c c') :
    ∀ (fs : List Field) (pos : Nat), relab unlabelFDs (decodeFieldsLoop rec c fs pos) =
      relab unlabelFDs (decodeFieldsLoop rec c' fs pos) := by
  intro fs
  induction fs with
  | nil => intro pos; rfl
  | cons f fs ih =>
    intro pos
    unfold decodeFieldsLoop Propagated.forField Checker.updateForField
    rcases (h.field f).checkId f.ty with ⟨e, h1, h2⟩ | ⟨d, d', h1, h2, h3⟩
    · rw [h1, h2]; rfl
    · rw [h1, h2]
      simp only [ok_bind]
      rcases relab_cases (hrec (.symbol f.ty) pos ⟨d, []⟩ ⟨d', []⟩ ⟨h3, rfl⟩) with ⟨a, a', q, e1, e2, e3⟩ | ⟨e, e1, e2⟩
      · rw [e1, e2]
        simp only [ok_bind]
        rcases relab_cases (ih q) with ⟨l, l', q', e4, e5, e6⟩ | ⟨e, e4, e5⟩
        · rw [e4, e5]
          simp only [ok_bind, relab, unlabelFDs, FD.unlabel, e3, e6]
        · rw [e4, e5]; rfl
      · rw [e1, e2]; rfl

theorem fields_same {rec : Dec} (hrec : RecSame rec) {c c' : Checker} (h : SameC c c')
    (fs : List Field) (pos : Nat) : relab unlabelFDs (decodeFields rec fs pos c) =
      relab unlabelFDs (decodeFields rec fs pos c') := by
  unfold decodeFields
  split
  · rw [h.reject]
    cases c'.rejectCompact with
    | error e => rfl
    | ok u => exact fieldsLoop_same hrec h.forgetHint fs pos
  · exact fieldsLoop_same hrec h fs pos

theorem tupleLoop_same {rec : Dec} (hrec : RecSame rec) {c c' : Checker} (h : SameC c c') :
    ∀ (ids : List Nat) (pos : Nat), relab unlabelEDs (decodeTupleLoop R rec c ids pos) =
      relab unlabelEDs (decodeTupleLoop R rec c' ids pos) := by
  intro ids
  induction ids with
  | nil => intro pos; rfl
  | cons id ids ih =>
    intro pos
    unfold decodeTupleLoop
    cases R.get id with
    | error e => rfl
    | ok ty =>
      simp only [ok_bind, Propagated.forTy, Checker.updateForTy]
      rcases h.checkId id with ⟨e, h1, h2⟩ | ⟨d, d', h1, h2, h3⟩
      · rw [h1, h2]; rfl
      · rw [h1, h2]
        simp only [ok_bind]
        rcases relab_cases (hrec (.resolved ty id) pos
            ⟨{ d with specialtySet := d.specialtySet.updateFromPath ty }, []⟩
            ⟨{ d' with specialtySet := d'.specialtySet.updateFromPath ty }, []⟩
            ⟨⟨by simp only [updateFromPath_compact]; exact h3.1, h3.2⟩, rfl⟩) with ⟨a, a', q, e1, e2, e3⟩ | ⟨e, e1, e2⟩
        · rw [e1, e2]
          simp only [ok_bind]
          rcases relab_cases (ih q) with ⟨l, l', q', e4, e5, e6⟩ | ⟨e, e4, e5⟩
          · rw [e4, e5]
            simp only [ok_bind, relab, unlabelEDs, e3, e6]
          · rw [e4, e5]; rfl
        · rw [e1, e2]; rfl

theorem tuple_same {rec : Dec} (hrec : RecSame rec) {p p' : Propagated} (h : SameP p p')
    (ids : List Nat) (pos : Nat) : relab ED.unlabel (decodeTuple R rec ids pos p) =
      relab ED.unlabel (decodeTuple R rec ids pos p') := by
  have key : ∀ c c' : Checker, SameC c c' →
      relab ED.unlabel (decodeTupleLoop R rec c ids pos >>= fun x => .ok (⟨.tuple x.1, p.info⟩, x.2)) =
      relab ED.unlabel (decodeTupleLoop R rec c' ids pos >>= fun x => .ok (⟨.tuple x.1, p.info⟩, x.2)) := by
    intro c c' hc
    rcases relab_cases (tupleLoop_same (R := R) hrec hc ids pos) with ⟨l, l', q', e4, e5, e6⟩ | ⟨e, e4, e5⟩
    · rw [e4, e5]; simp only [ok_bind, relab, ED.unlabel, PD.unlabel, e6]
    · rw [e4, e5] <;> rfl
  unfold decodeTuple
  split
  · rw [h.reject]
    cases p'.rejectCompact with
    | error e => rfl
    | ok u =>
      simp only [ok_bind]
      have hi : p'.forgetHint.info = p.info := h.info.symm
      have hi' : p.forgetHint.info = p.info := rfl
      rw [hi, hi']
      exact key _ _ h.checker.forgetHint
  · simp only [ok_bind]
    rw [← h.info]
    exact key _ _ h.checker

theorem huskType_same {c c' : Checker} (h : SameC c c') (id : Nat) : huskType R id c = huskType R id c' := by
  unfold huskType Checker.checkId
  rw [h.2]
  split
  · rfl
  · rfl

theorem elements_same {rec : Dec} {p p' : Propagated} (h : SameP p p') (elem n pos : Nat) :
    decodeElementsSet R rec elem n pos p = decodeElementsSet R rec elem n pos p' := by
  unfold decodeElementsSet
  rw [h.reject, huskType_same h.checker, h.info]

theorem prim_same {s s' : SpecialtySet} (h : s.compactAt = s'.compactAt) (pr : Prim) (pos : Nat) :
    relab PD.unlabel (decodePrimitive pr b pos s) = relab PD.unlabel (decodePrimitive pr b pos s') := by
  have hu : ∀ w, relab PD.unlabel (parseUInt w b pos s) = relab PD.unlabel (parseUInt w b pos s') := by
    intro w
    unfold parseUInt
    rw [h]
    split
    · cases getCompact (compactUInt w) b pos <;> rfl
    · cases cutUInt w b pos <;> rfl
  have hr : s.rejectCompact = s'.rejectCompact := by unfold SpecialtySet.rejectCompact; rw [h]
  cases pr <;> simp only [decodePrimitive, h, hu, hr]
  case str =>
    cases s'.rejectCompact with
    | error e => rfl
    | ok u =>
      simp only [ok_bind]
      unfold decodeStr
      cases findCompact (compactUInt .u32) b pos with
      | error e => rfl
      | ok f =>
        simp only [ok_bind]
        cases b.readSlice f.startNextUnit f.compact with
        | error e => rfl
        | ok s =>
          simp only [ok_bind]
          cases stringFromUtf8 s <;> rfl

theorem withInfo_same {i : List Info} {r r' : Res (PD × Nat)} (h : relab PD.unlabel r = relab PD.unlabel r') :
    relab ED.unlabel (withInfo i r) = relab ED.unlabel (withInfo i r') := by
  rcases relab_cases h with ⟨l, l', q', e4, e5, e6⟩ | ⟨e, e4, e5⟩
  · rw [e4, e5]; simp only [withInfo, ok_bind, relab, ED.unlabel, e6]
  · rw [e4, e5] <;> rfl

theorem typeDef_same {rec : Dec} (hrec : RecSame rec) {p p' : Propagated} (h : SameP p p') (ty : Typ)
    (id pos : Nat) : relab ED.unlabel (decodeTypeDef R rec b ty id pos p) =
      relab ED.unlabel (decodeTypeDef R rec b ty id pos p') := by
  unfold decodeTypeDef
  cases ty.typeDef with
  | composite fields =>
    rcases relab_cases (fields_same hrec h.checker fields pos) with ⟨l, l', q', e4, e5, e6⟩ | ⟨e, e4, e5⟩
    · simp only [e4, e5, ok_bind, relab, ED.unlabel, PD.unlabel, e6, h.info]
    · simp only [e4, e5]; rfl
  | variant vs => simp only [h.reject, h.info]
  | sequence elem =>
    simp only
    cases getCompact (compactUInt .u32) b pos with
    | error e => rfl
    | ok r =>
      simp only [ok_bind]
      rw [elements_same (p := { p with checker := p.checker.dropCycleCheck })
        (p' := { p' with checker := p'.checker.dropCycleCheck }) ⟨⟨h.checker.1, rfl⟩, h.info⟩]
  | array len elem => simp only [elements_same h]
  | tuple ids => exact tuple_same hrec h ids pos
  | primitive pr =>
    simp only [h.info]
    exact withInfo_same (prim_same h.checker.1 pr pos)
  | compact inner =>
    simp only [h.reject]
    cases p'.rejectCompact with
    | error e => rfl
    | ok u =>
      simp only [ok_bind]
      rcases (show SameC (compactChecker p.checker id) (compactChecker p'.checker id) from
          ⟨rfl, h.checker.2⟩).checkId inner with ⟨e, h1, h2⟩ | ⟨d, d', h1, h2, h3⟩
      · unfold compactChecker at h1 h2
        rw [h1, h2]; rfl
      · unfold compactChecker at h1 h2
        rw [h1, h2]
        exact hrec (.symbol inner) pos _ _ ⟨h3, h.info⟩
  | bitSequence o s => simp only [h.reject, h.info]

theorem step_same {rec : Dec} (hrec : RecSame rec) : RecSame (decodeStep R b rec) := by
  intro tyIn pos p p' h
  unfold decodeStep
  cases tyIn.resolve R with
  | error e => rfl
  | ok r =>
    obtain ⟨ty, id⟩ := r
    simp only [ok_bind]
    have h' := h.addInfo (Info.fromTy ty)
    generalize p.addInfo (Info.fromTy ty) = p at h'
    generalize p'.addInfo (Info.fromTy ty) = p' at h'
    cases TypeChecked.fromType R ty b pos with
    | error e => rfl
    | ok r =>
      obtain ⟨sp, q⟩ := r
      simp only [ok_bind]
      unfold decodeChecked
      cases sp with
      | none => exact typeDef_same hrec h' ty id q
      | fixed k => simp only [Propagated.compactAt, h'.checker.1, h'.info]
      | era => simp only [h'.reject, h'.info]
      | h256 =>
        simp only [h'.reject, h'.info]
        cases p'.rejectCompact with
        | error e => rfl
        | ok u =>
          simp only [ok_bind]
          apply withInfo_same
          unfold specialCaseH256
          cases cutArray 32 b q with
          | error e => rfl
          | ok r =>
            obtain ⟨x, q'⟩ := r
            simp only [ok_bind]
            cases p.checker.specialtySet.hint.hash256 <;> cases p'.checker.specialtySet.hint.hash256 <;> rfl
      | palletSpecific n i vs it => simp only [h'.reject, h'.info]
      | perThing k => simp only [Propagated.compactAt, h'.checker.1, h'.info]

theorem decodeF_same (n : Nat) : RecSame (decodeF R b n) := by
  induction n with
  | zero => intro _ _ _ _ _; rfl
  | succ n ih => exact step_same ih

theorem decode_same : RecSame (decode R b) := by
  intro tyIn pos p p' h
  exact decodeF_same _ tyIn pos p p' h

end Verif
