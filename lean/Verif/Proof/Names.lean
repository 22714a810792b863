import Verif.Spec.Names
import Verif.Proof.Pieces
/-!
Decoding with registries that differ in names only.
-/
namespace Verif
open Spec

variable {N : Names} {R R' : Registry} {b : Buf}

/-- Outcomes that are the same error, or values that correspond. -/
def Twin {α β : Type} (P : α → β → Prop) (r : Res α) (r' : Res β) : Prop :=
  (∃ a a', r = .ok a ∧ r' = .ok a' ∧ P a a') ∨ ∃ e, r = .error e ∧ r' = .error e

theorem Twin.ok {α β : Type} {P : α → β → Prop} {a : α} {a' : β} (h : P a a') : Twin P (.ok a) (.ok a') :=
  .inl ⟨_, _, rfl, rfl, h⟩

theorem Twin.err {α β : Type} {P : α → β → Prop} (e : Fail) : Twin P (.error e : Res α) (.error e : Res β) :=
  .inr ⟨_, rfl, rfl⟩

theorem Twin.bind {α α' β β' : Type} {P : α → α' → Prop} {Q : β → β' → Prop} {x : Res α} {x' : Res α'}
    {f : α → Res β} {f' : α' → Res β'} (hx : Twin P x x') (hf : ∀ a a', P a a' → Twin Q (f a) (f' a')) :
    Twin Q (x >>= f) (x' >>= f') := by
  rcases hx with ⟨a, a', rfl, rfl, h⟩ | ⟨e, rfl, rfl⟩
  · exact hf a a' h
  · exact .err e

theorem Twin.bindL {α β β' : Type} {Q : β → β' → Prop} {x : Res α} {f : α → Res β} {f' : α → Res β'}
    (hf : ∀ a, Twin Q (f a) (f' a)) : Twin Q (x >>= f) (x >>= f') := by
  cases x with
  | ok a => exact hf a
  | error e => exact .err e

theorem Twin.mono {α β : Type} {P Q : α → β → Prop} {r : Res α} {r' : Res β} (h : Twin P r r')
    (hpq : ∀ a b, P a b → Q a b) : Twin Q r r' :=
  h.imp (fun ⟨a, a', h1, h2, h3⟩ => ⟨a, a', h1, h2, hpq _ _ h3⟩) fun h => h

theorem Twin.refl {α : Type} (r : Res α) : Twin Eq r r := by
  cases r with
  | ok a => exact .ok rfl
  | error e => exact .err e

/-- Data that tell the same value, renamed. -/
def TwinE (N : Names) (x : ED × Nat) (y : ED × Nat) : Prop := edValue y.1 = renamed N (edValue x.1) ∧ y.2 = x.2

def TwinP (N : Names) (x : PD × Nat) (y : PD × Nat) : Prop := pdValue y.1 = renamed N (pdValue x.1) ∧ y.2 = x.2

def TwinFs (N : Names) (x : List FD × Nat) (y : List FD × Nat) : Prop :=
  fdsValue y.1 = renamedFields N (fdsValue x.1) ∧ y.2 = x.2

def TwinPs (N : Names) (x : List PD × Nat) (y : List PD × Nat) : Prop :=
  pdsValue y.1 = renamedAll N (pdsValue x.1) ∧ y.2 = x.2

def TwinEs (N : Names) (x : List ED × Nat) (y : List ED × Nat) : Prop :=
  edsValue y.1 = renamedAll N (edsValue x.1) ∧ y.2 = x.2

theorem recordValue_renamed (l : List (Option String × Value)) :
    recordValue (renamedFields N l) = renamed N (recordValue l) := by
  match l with
  | [] => rfl
  | [(_, v)] => rfl
  | (_, _) :: (_, _) :: _ => rfl

/-- Types given to the decoder that correspond. -/
inductive TyTwin (N : Names) : TyIn → TyIn → Prop
  | symbol (id : Nat) : TyTwin N (.symbol id) (.symbol id)
  | resolved {t t' : Typ} (id : Nat) : RenamedTyp N t t' → TyTwin N (.resolved t id) (.resolved t' id)

/-- The recursive calls correspond. -/
def RecTwin (N : Names) (rec rec' : Dec) : Prop := ∀ tyIn tyIn' pos p p', TyTwin N tyIn tyIn' →
  SameC p.checker p'.checker → Twin (TwinE N) (rec tyIn pos p) (rec' tyIn' pos p')

theorem get_twin (h : RenamedIn N R R') (id : Nat) : Twin (RenamedTyp N) (R.get id) (R'.get id) := by
  have := h.entry id
  unfold Registry.get
  cases h1 : R.resolve id with
  | ok t =>
    rw [h1] at this
    cases h2 : R'.resolve id with
    | ok t' => rw [h2] at this; exact .ok this
    | error e => rw [h2] at this; exact this.elim
  | error e =>
    rw [h1] at this
    cases h2 : R'.resolve id with
    | ok t' => rw [h2] at this; exact this.elim
    | error e' => rw [h2] at this; cases this; exact .err _

theorem toSpecial_inj {a a' : TypeHinted} (h : a.toSpecial = a'.toSpecial) : a = a' := by
  cases a <;> cases a' <;> simp_all [TypeHinted.toSpecial]

theorem Spec.RenamedTyp.hinted {t t' : Typ} (h : RenamedTyp N t t') : TypeHinted.fromType t' = TypeHinted.fromType t :=
  toSpecial_inj (by rw [← special_eq, ← special_eq, h.special])

theorem SameC.checkTwin {c c' : Checker} (h : SameC c c') (id : Nat) : Twin SameC (c.checkId id) (c'.checkId id) := by
  rcases h.checkId id with ⟨e, h1, h2⟩ | ⟨d, d', h1, h2, h3⟩
  · exact .inr ⟨e, h1, h2⟩
  · exact .inl ⟨d, d', h1, h2, h3⟩

theorem SameC.fieldTwin {c c' : Checker} (h : SameC c c') (f f' : Field) :
    SameC (c.hintFromField f) (c'.hintFromField f') :=
  ⟨by rw [hintFromField_compact, hintFromField_compact]; exact h.1,
   by rw [hintFromField_cycle, hintFromField_cycle]; exact h.2⟩

theorem SameC.rejectTwin {c c' : Checker} (h : SameC c c') : Twin (fun _ _ : Unit => True) c.rejectCompact c'.rejectCompact := by
  rw [h.reject]
  exact (Twin.refl _).mono fun _ _ _ => trivial

theorem rejectP_twin {p p' : Propagated} (h : SameC p.checker p'.checker) :
    Twin (fun _ _ : Unit => True) p.rejectCompact p'.rejectCompact := h.rejectTwin

/-! ### Fields and tuples -/

theorem fieldsLoop_twin {rec rec' : Dec} (hrec : RecTwin N rec rec') {c c' : Checker} (h : SameC c c')
    {fs fs' : List Field} (hf : Matched (RenamedField N) fs fs') : ∀ pos,
    Twin (TwinFs N) (decodeFieldsLoop rec c fs pos) (decodeFieldsLoop rec' c' fs' pos) := by
  induction hf with
  | nil => intro pos; exact .ok ⟨rfl, rfl⟩
  | @cons f f' fs fs' hff _ ih =>
    intro pos
    unfold decodeFieldsLoop Propagated.forField Checker.updateForField
    rw [hff.ty]
    refine .bind (P := fun (p p' : Propagated) => SameC p.checker p'.checker) (.bind ((h.fieldTwin f f').checkTwin f.ty) fun d d' hd => .ok hd) ?_
    intro p p' hp
    refine .bind (hrec _ _ pos p p' (.symbol f.ty) hp) ?_
    rintro ⟨d, q⟩ ⟨d', q'⟩ ⟨h1, h2⟩
    dsimp only at h1 h2 ⊢
    subst h2
    refine .bind (ih q') ?_
    rintro ⟨l, q⟩ ⟨l', q'⟩ ⟨h3, h4⟩
    dsimp only at h3 h4 ⊢
    subst h4
    refine .ok ⟨?_, rfl⟩
    simp only [fdsValue, fdValue, renamedFields, h1, h3, hff.name]

theorem matched_length {α β : Type} {r : α → β → Prop} {l : List α} {l' : List β} (h : Matched r l l') :
    l'.length = l.length := by
  induction h with
  | nil => rfl
  | cons _ _ ih => simp [ih]

theorem fields_twin {rec rec' : Dec} (hrec : RecTwin N rec rec') {c c' : Checker} (h : SameC c c')
    {fs fs' : List Field} (hf : Matched (RenamedField N) fs fs') (pos : Nat) :
    Twin (TwinFs N) (decodeFields rec fs pos c) (decodeFields rec' fs' pos c') := by
  unfold decodeFields
  rw [matched_length hf]
  split
  · exact .bind h.rejectTwin fun _ _ _ => fieldsLoop_twin hrec h.forgetHint hf pos
  · exact fieldsLoop_twin hrec h hf pos

theorem tupleLoop_twin (hR : RenamedIn N R R') {rec rec' : Dec} (hrec : RecTwin N rec rec') {c c' : Checker} (h : SameC c c') :
    ∀ (ids : List Nat) pos, Twin (TwinEs N) (decodeTupleLoop R rec c ids pos) (decodeTupleLoop R' rec' c' ids pos) := by
  intro ids
  induction ids with
  | nil => intro pos; exact .ok ⟨rfl, rfl⟩
  | cons id ids ih =>
    intro pos
    unfold decodeTupleLoop Propagated.forTy Checker.updateForTy
    refine .bind (get_twin hR id) ?_
    intro t t' ht
    refine .bind (P := fun (p p' : Propagated) => SameC p.checker p'.checker)
      (.bind (P := SameC) (.bind (h.checkTwin id) fun d d' hd => .ok ?_) fun d d' hd => .ok hd) ?_
    · exact ⟨by simp only [updateFromPath_compact]; exact hd.1, hd.2⟩
    intro p p' hp
    refine .bind (hrec _ _ pos p p' (.resolved id ht) hp) ?_
    rintro ⟨d, q⟩ ⟨d', q'⟩ ⟨h1, h2⟩
    dsimp only at h1 h2 ⊢
    subst h2
    refine .bind (ih q') ?_
    rintro ⟨l, q⟩ ⟨l', q'⟩ ⟨h3, h4⟩
    dsimp only at h3 h4 ⊢
    subst h4
    exact .ok ⟨by simp only [edsValue, renamedAll, h1, h3], rfl⟩

theorem tuple_twin (hR : RenamedIn N R R') {rec rec' : Dec} (hrec : RecTwin N rec rec') {p p' : Propagated}
    (h : SameC p.checker p'.checker) (ids : List Nat) (pos : Nat) :
    Twin (TwinE N) (decodeTuple R rec ids pos p) (decodeTuple R' rec' ids pos p') := by
  have key : ∀ p p' : Propagated, SameC p.checker p'.checker →
      Twin (TwinE N) (decodeTupleLoop R rec p.checker ids pos >>= fun x => .ok (⟨.tuple x.1, p.info⟩, x.2))
        (decodeTupleLoop R' rec' p'.checker ids pos >>= fun x => .ok (⟨.tuple x.1, p'.info⟩, x.2)) := by
    intro p p' h
    refine .bind (tupleLoop_twin hR hrec h ids pos) ?_
    rintro ⟨l, q⟩ ⟨l', q'⟩ ⟨h3, h4⟩
    dsimp only at h3 h4 ⊢
    subst h4
    exact .ok ⟨by simp only [edValue, pdValue, renamed, h3], rfl⟩
  unfold decodeTuple
  dsimp only
  split
  · rcases rejectP_twin h with ⟨_, _, h1, h2, _⟩ | ⟨e, h1, h2⟩
    · rw [h1, h2]; exact key p.forgetHint p'.forgetHint h.forgetHint
    · rw [h1, h2]; exact .err e
  · exact key p p' h

/-! ### Husks -/

/-- Husks that correspond. -/
structure HuskTwin (N : Names) (h h' : HuskedType) : Prop where
  id : h'.id = h.id
  ty : RenamedTyp N h.ty h'.ty
  checker : SameC h.checker h'.checker

theorem huskLoop_twin (hR : RenamedIn N R R') (n : Nat) : ∀ {t t' : Typ} {id : Nat} {i i' : List Info} {c c' : Checker},
    RenamedTyp N t t' → SameC c c' → Twin (HuskTwin N) (huskLoop R n t id i c) (huskLoop R' n t' id i' c') := by
  induction n with
  | zero => intro _ _ _ _ _ _ _ _ _; exact .err _
  | succ n ih =>
    intro t t' id i i' c c' ht h
    unfold huskLoop
    simp only
    rw [ht.hinted]
    split
    · have hdef := ht.typeDef
      cases hd : t.typeDef with
      | composite l =>
        rw [hd] at hdef
        generalize hd' : t'.typeDef = td' at hdef
        cases hdef with
        | composite hm =>
          cases hm with
          | nil => exact .ok ⟨rfl, ht, h⟩
          | @cons f f' _ _ hf hm =>
            cases hm with
            | nil =>
              dsimp only
              rw [hf.ty]
              refine .bind (h.checkTwin f.ty) fun d d' hd => ?_
              refine .bind (get_twin hR f.ty) fun u u' hu => ih hu (hd.fieldTwin f f')
            | cons _ _ => exact .ok ⟨rfl, ht, h⟩
      | compact inner =>
        rw [hd] at hdef
        generalize hd' : t'.typeDef = td' at hdef
        cases hdef
        refine .bind h.rejectTwin fun _ _ _ => ?_
        refine .bind (P := SameC) ((show SameC (compactChecker c id) (compactChecker c' id) from ⟨rfl, h.2⟩).checkTwin inner) fun d d' hd => ?_
        exact .bind (get_twin hR inner) fun u u' hu => ih hu hd
      | variant l => 
        rw [hd] at hdef; generalize hd' : t'.typeDef = td' at hdef
        cases hdef; exact .ok ⟨rfl, ht, h⟩
      | sequence l => 
        rw [hd] at hdef; generalize hd' : t'.typeDef = td' at hdef
        cases hdef; exact .ok ⟨rfl, ht, h⟩
      | array n l => 
        rw [hd] at hdef; generalize hd' : t'.typeDef = td' at hdef
        cases hdef; exact .ok ⟨rfl, ht, h⟩
      | tuple l => 
        rw [hd] at hdef; generalize hd' : t'.typeDef = td' at hdef
        cases hdef; exact .ok ⟨rfl, ht, h⟩
      | primitive l => 
        rw [hd] at hdef; generalize hd' : t'.typeDef = td' at hdef
        cases hdef; exact .ok ⟨rfl, ht, h⟩
      | bitSequence n l => 
        rw [hd] at hdef; generalize hd' : t'.typeDef = td' at hdef
        cases hdef; exact .ok ⟨rfl, ht, h⟩
    · exact .ok ⟨rfl, ht, h⟩

theorem huskType_twin (hR : RenamedIn N R R') (id : Nat) {c c' : Checker} (h : SameC c c') :
    Twin (HuskTwin N) (huskType R id c) (huskType R' id c') := by
  unfold huskType
  refine .bind (h.checkTwin id) fun d d' hd => .bind (get_twin hR id) fun t t' ht => ?_
  rw [hR.size]
  exact huskLoop_twin hR _ ht ⟨rfl, hd.2⟩

/-! ### Elements -/

theorem elementsLoop_twin {rec rec' : Dec} (hrec : RecTwin N rec rec') {h h' : HuskedType} (hh : HuskTwin N h h') :
    ∀ n pos, Twin (TwinPs N) (decodeElementsLoop rec h n pos) (decodeElementsLoop rec' h' n pos) := by
  intro n
  induction n with
  | zero => intro pos; exact .ok ⟨rfl, rfl⟩
  | succ n ih =>
    intro pos
    unfold decodeElementsLoop
    rw [hh.id]
    refine .bind (hrec _ _ pos _ _ (.resolved h.id hh.ty) hh.checker) ?_
    rintro ⟨d, q⟩ ⟨d', q'⟩ ⟨h1, h2⟩
    dsimp only at h1 h2 ⊢
    subst h2
    refine .bind (ih q') ?_
    rintro ⟨l, q⟩ ⟨l', q'⟩ ⟨h3, h4⟩
    dsimp only at h3 h4 ⊢
    subst h4
    cases d; cases d'
    simp only [edValue] at h1
    exact .ok ⟨by simp only [pdsValue, renamedAll, h1, h3], rfl⟩

theorem elements_twin (hR : RenamedIn N R R') {rec rec' : Dec} (hrec : RecTwin N rec rec') {p p' : Propagated}
    (h : SameC p.checker p'.checker) (elem n pos : Nat) :
    Twin (TwinE N) (decodeElementsSet R rec elem n pos p) (decodeElementsSet R' rec' elem n pos p') := by
  unfold decodeElementsSet
  refine .bind (rejectP_twin h) fun _ _ _ => .bind (huskType_twin hR elem h) fun u u' hu => ?_
  split
  · exact .ok ⟨rfl, rfl⟩
  · refine .bind (elementsLoop_twin hrec hu n pos) ?_
    rintro ⟨l, q⟩ ⟨l', q'⟩ ⟨h3, h4⟩
    dsimp only at h3 h4 ⊢
    subst h4
    have key : ∀ (l : List PD) (i j : List Info) (q : Nat), ∃ d, (match wrapSequence l with
        | some s => (.ok ({ data := .sequence i s, info := j }, q) : Res (ED × Nat))
        | none => .ok ({ data := .sequenceRaw i l, info := j }, q)) = .ok (d, q) ∧ edValue d = .seq (pdsValue l) := by
      intro l i j q
      cases hw : wrapSequence l with
      | none => exact ⟨_, rfl, rfl⟩
      | some s => exact ⟨_, rfl, by simp only [edValue, pdValue, wrapSequence_values hw]⟩
    obtain ⟨d, e1, e2⟩ := key l u.info p.info q'
    obtain ⟨d', e3, e4⟩ := key l' u'.info p'.info q'
    refine .inl ⟨_, _, e1, e3, ?_, rfl⟩
    simp only [e2, e4, renamed, h3]

/-! ### Enums -/

theorem find_twin {vs vs' : List Variant} (h : Matched (RenamedVariant N) vs vs') (i : UInt8) :
    (vs.find? (fun v => v.index == i) = none ∧ vs'.find? (fun v => v.index == i) = none) ∨
    ∃ v v', vs.find? (fun v => v.index == i) = some v ∧ vs'.find? (fun v => v.index == i) = some v' ∧ RenamedVariant N v v' := by
  induction h with
  | nil => exact .inl ⟨rfl, rfl⟩
  | @cons v v' vs vs' hv _ ih =>
    simp only [List.find?_cons, hv.index]
    cases v.index == i with
    | true => exact .inr ⟨v, v', rfl, rfl, hv⟩
    | false => exact ih

theorem pickVariant_twin {vs vs' : List Variant} (h : Matched (RenamedVariant N) vs vs') (pos : Nat) :
    Twin (RenamedVariant N) (pickVariant vs b pos) (pickVariant vs' b pos) := by
  unfold pickVariant
  refine .bindL fun i => ?_
  rcases find_twin h i with ⟨h1, h2⟩ | ⟨v, v', h1, h2, h3⟩
  · rw [h1, h2]; exact .err _
  · rw [h1, h2]; exact .ok h3

theorem decodeVariant_twin {rec rec' : Dec} (hrec : RecTwin N rec rec') {vs vs' : List Variant}
    (h : Matched (RenamedVariant N) vs vs') (pos : Nat) :
    Twin (fun (x y : Variant × List FD × Nat) => RenamedVariant N x.1 y.1 ∧ TwinFs N x.2 y.2)
      (decodeVariant rec vs b pos) (decodeVariant rec' vs' b pos) := by
  unfold decodeVariant
  refine .bind (pickVariant_twin h pos) fun v v' hv => ?_
  exact .bind (fields_twin hrec ⟨rfl, rfl⟩ hv.fields (pos + 1)) fun x y hxy => .ok ⟨hv, hxy⟩

theorem swallow_twin {α β : Type} {P : α → β → Prop} {r : Res α} {r' : Res β} (h : Twin P r r') :
    Twin (fun (x : Option α) (y : Option β) => (x = none ∧ y = none) ∨ ∃ a a', x = some a ∧ y = some a' ∧ P a a')
      (swallow r) (swallow r') := by
  rcases h with ⟨a, a', rfl, rfl, h⟩ | ⟨e, rfl, rfl⟩
  · exact .ok (.inr ⟨a, a', rfl, rfl, h⟩)
  · cases e with
    | err e => exact .ok (.inl ⟨rfl, rfl⟩)
    | panic => exact .err _
    | fuel => exact .err _

/-- The choice made by the type name. -/
def signatureChoice (len : Nat) (tn : Option String) : Option FixedKind :=
  match tn with
  | some typeName =>
    if signatureEcdsaIdSet.contains typeName then
      (if len = FixedKind.signatureEcdsa.len then some .signatureEcdsa else none)
    else if signatureEd25519IdSet.contains typeName then
      (if len = FixedKind.signatureEd25519.len then some .signatureEd25519 else none)
    else if signatureSr25519IdSet.contains typeName then
      (if len = FixedKind.signatureSr25519.len then some .signatureSr25519 else none)
    else none
  | none => none

theorem signatureChoice_named (len : Nat) (tn : Option String) :
    signatureChoice len tn = (signatureNamed tn).bind fun k => if len = k.len then some k else none := by
  unfold signatureChoice signatureNamed
  simp only [signatureEcdsaIdSet, signatureEd25519IdSet, signatureSr25519IdSet, List.contains_cons, List.contains_nil,
    Bool.or_false]
  split
  · rename_i s
    by_cases h1 : s = "ecdsa::Signature"
    · subst h1; rfl
    by_cases h2 : s = "ed25519::Signature"
    · subst h2; rfl
    by_cases h3 : s = "sr25519::Signature"
    · subst h3; rfl
    simp [h1, h2, h3]
  · rfl

theorem signatureIndicator_twin (hR : RenamedIn N R R') {f f' : Field} (hf : RenamedField N f f') :
    Twin Eq (signatureIndicator R f) (signatureIndicator R' f') := by
  unfold signatureIndicator
  rw [hf.ty]
  refine .bind (swallow_twin (huskType_twin hR f.ty ⟨rfl, rfl⟩)) ?_
  rintro x y (⟨rfl, rfl⟩ | ⟨u, u', rfl, rfl, hu⟩)
  · exact .ok rfl
  dsimp only
  have hdef := hu.ty.typeDef
  generalize hd : u.ty.typeDef = td at hdef
  generalize hd' : u'.ty.typeDef = td' at hdef
  cases hdef with
  | array len elem =>
    dsimp only
    refine .bind (swallow_twin (get_twin hR elem)) ?_
    rintro x y (⟨rfl, rfl⟩ | ⟨t, t', rfl, rfl, ht⟩)
    · exact .ok rfl
    dsimp only
    have hp : t'.typeDef = .primitive .u8 ↔ t.typeDef = .primitive .u8 := by
      have := ht.typeDef
      constructor
      · intro h; rw [h] at this; generalize t.typeDef = a at this; cases this; rfl
      · intro h; rw [h] at this; generalize t'.typeDef = a at this; cases this; rfl
    by_cases h8 : t.typeDef = .primitive .u8
    · rw [if_pos h8, if_pos (hp.2 h8)]
      have hc : ∀ tn : Option String, (match tn with
          | some typeName =>
            if signatureEcdsaIdSet.contains typeName then
              (.ok (if len = FixedKind.signatureEcdsa.len then some .signatureEcdsa else none) : Res (Option FixedKind))
            else if signatureEd25519IdSet.contains typeName then
              .ok (if len = FixedKind.signatureEd25519.len then some .signatureEd25519 else none)
            else if signatureSr25519IdSet.contains typeName then
              .ok (if len = FixedKind.signatureSr25519.len then some .signatureSr25519 else none)
            else .ok none
          | none => .ok none) = .ok (signatureChoice len tn) := by
        intro tn
        unfold signatureChoice
        cases tn with
        | none => rfl
        | some s => dsimp only; repeat' split
                    all_goals rfl
      refine .inl ⟨_, _, hc f.typeName, hc f'.typeName, ?_⟩
      rw [signatureChoice_named, signatureChoice_named, hf.signature]
    · rw [if_neg h8, if_neg (fun h => h8 (hp.1 h))]
      exact .ok rfl
  | _ => exact .ok rfl

/-- Recognised specialties that correspond. -/
inductive TcTwin (N : Names) : TypeChecked → TypeChecked → Prop
  | none : TcTwin N .none .none
  | fixed (k : FixedKind) : TcTwin N (.fixed k) (.fixed k)
  | era : TcTwin N .era .era
  | h256 : TcTwin N .h256 .h256
  | perThing (k : PerKind) : TcTwin N (.perThing k) (.perThing k)
  | pallet {n : String} {i i' : Info} {vs vs' : List Variant} {item : PalletItem} : Matched (RenamedVariant N) vs vs' →
      TcTwin N (.palletSpecific n i vs item) (.palletSpecific (N.variant n) i' vs' item)

theorem checkMultiSignature_twin (hR : RenamedIn N R R') {t t' : Typ} (ht : RenamedTyp N t t') (pos : Nat) :
    Twin (fun (x y : TypeChecked × Nat) => TcTwin N x.1 y.1 ∧ y.2 = x.2)
      (checkMultiSignature R t b pos) (checkMultiSignature R' t' b pos) := by
  unfold checkMultiSignature
  have hdef := ht.typeDef
  generalize hd : t.typeDef = td at hdef
  generalize hd' : t'.typeDef = td' at hdef
  cases hdef with
  | variant hm =>
    dsimp only
    refine .bind (swallow_twin (pickVariant_twin hm pos)) ?_
    rintro x y (⟨rfl, rfl⟩ | ⟨v, v', rfl, rfl, hv⟩)
    · exact .ok ⟨.none, rfl⟩
    dsimp only
    have hfs := hv.fields
    generalize v.fields = fs at hfs
    generalize v'.fields = fs' at hfs
    cases hfs with
    | nil => exact .ok ⟨.none, rfl⟩
    | @cons f f' _ _ hf hm =>
      cases hm with
      | nil =>
        dsimp only
        refine .bind (signatureIndicator_twin hR hf) ?_
        rintro k _ rfl
        cases k with
        | none => exact .ok ⟨.none, rfl⟩
        | some k => exact .ok ⟨.fixed k, rfl⟩
      | cons _ _ => exact .ok ⟨.none, rfl⟩
  | _ => exact .ok ⟨.none, rfl⟩

theorem checkPalletSpecific_twin (hR : RenamedIn N R R') (item : PalletItem) {t t' : Typ} (ht : RenamedTyp N t t') (pos : Nat) :
    Twin (fun (x y : TypeChecked × Nat) => TcTwin N x.1 y.1 ∧ y.2 = x.2)
      (checkPalletSpecific R item t b pos) (checkPalletSpecific R' item t' b pos) := by
  unfold checkPalletSpecific
  have hdef := ht.typeDef
  generalize hd : t.typeDef = td at hdef
  generalize hd' : t'.typeDef = td' at hdef
  cases hdef with
  | variant hm =>
    dsimp only
    refine .bind (swallow_twin (pickVariant_twin hm pos)) ?_
    rintro x y (⟨rfl, rfl⟩ | ⟨v, v', rfl, rfl, hv⟩)
    · exact .ok ⟨.none, rfl⟩
    dsimp only
    have hfs := hv.fields
    generalize v.fields = fs at hfs
    generalize v'.fields = fs' at hfs
    cases hfs with
    | nil => exact .ok ⟨.none, rfl⟩
    | @cons f f' _ _ hf hm =>
      cases hm with
      | nil =>
        dsimp only
        rw [hf.ty]
        refine .bind (swallow_twin (get_twin hR f.ty)) ?_
        rintro x y (⟨rfl, rfl⟩ | ⟨u, u', rfl, rfl, hu⟩)
        · exact .ok ⟨.none, rfl⟩
        dsimp only
        rw [hu.hinted]
        cases TypeHinted.fromType u with
        | palletSpecific item' =>
          dsimp only
          split
          · exact .ok ⟨.none, rfl⟩
          · have hdef := hu.typeDef
            generalize u.typeDef = td at hdef
            generalize u'.typeDef = td' at hdef
            cases hdef with
            | variant hm =>
              refine .ok ⟨?_, rfl⟩
              dsimp only
              rw [hv.name]
              exact .pallet hm
            | _ => exact .ok ⟨.none, rfl⟩
        | _ => exact .ok ⟨.none, rfl⟩
      | cons _ _ => exact .ok ⟨.none, rfl⟩
  | _ => exact .ok ⟨.none, rfl⟩

theorem fromType_twin (hR : RenamedIn N R R') {t t' : Typ} (ht : RenamedTyp N t t') (pos : Nat) :
    Twin (fun (x y : TypeChecked × Nat) => TcTwin N x.1 y.1 ∧ y.2 = x.2)
      (TypeChecked.fromType R t b pos) (TypeChecked.fromType R' t' b pos) := by
  unfold TypeChecked.fromType
  rw [ht.hinted]
  cases TypeHinted.fromType t with
  | none => exact .ok ⟨.none, rfl⟩
  | fixed k => exact .ok ⟨.fixed k, rfl⟩
  | era => exact .ok ⟨.era, rfl⟩
  | h256 => exact .ok ⟨.h256, rfl⟩
  | multiSignature => exact checkMultiSignature_twin hR ht pos
  | palletSpecific item => exact checkPalletSpecific_twin hR item ht pos
  | perThing k => exact .ok ⟨.perThing k, rfl⟩
  | uncheckedExtrinsic => exact .ok ⟨.none, rfl⟩

/-! ### Leaves -/

theorem orderNamed_iff (x : Option String) :
    (match x with
      | some x => if x = "Lsb0" then some BitOrder.lsb0 else if x = "Msb0" then some .msb0 else none
      | none => none) = orderNamed x := by
  cases x with
  | none => rfl
  | some s =>
    dsimp only
    by_cases h1 : s = "Lsb0"
    · subst h1; rfl
    by_cases h2 : s = "Msb0"
    · subst h2; rfl
    simp [orderNamed, h1, h2]

theorem findBitOrder_twin (hR : RenamedIn N R R') (order id : Nat) :
    Twin Eq (findBitOrder R order id) (findBitOrder R' order id) := by
  unfold findBitOrder
  refine .bind (get_twin hR order) fun t t' ht => ?_
  have key : ∀ x : Option String, (match x with
      | some x => if x = "Lsb0" then (.ok .lsb0 : Res BitOrder) else if x = "Msb0" then .ok .msb0
        else failInternal (.notBitOrderType id)
      | none => failInternal (.notBitOrderType id)) =
      match orderNamed x with | some o => .ok o | none => failInternal (.notBitOrderType id) := by
    intro x
    rw [← orderNamed_iff]
    cases x with
    | none => rfl
    | some s => dsimp only; repeat' split
                all_goals simp_all
  have hdef := ht.typeDef
  generalize t.typeDef = td at hdef
  generalize t'.typeDef = td' at hdef
  cases hdef with
  | composite hm =>
    dsimp only
    have e3 : orderNamed t'.ident = orderNamed t.ident := ht.order
    cases ho : orderNamed t.ident with
    | none =>
      rw [ho] at e3
      exact .inr ⟨_, (key t.ident).trans (by rw [ho]; rfl), (key t'.ident).trans (by rw [e3]; rfl)⟩
    | some o =>
      rw [ho] at e3
      exact .inl ⟨o, o, (key t.ident).trans (by rw [ho]), (key t'.ident).trans (by rw [e3]), rfl⟩
  | _ => exact .refl _

theorem decodeBitSequence_twin (hR : RenamedIn N R R') (order store id pos : Nat) :
    Twin (TwinP N) (decodeBitSequence R order store id b pos) (decodeBitSequence R' order store id b pos) := by
  unfold decodeBitSequence
  refine .bind (findBitOrder_twin hR order id) ?_
  rintro o _ rfl
  refine .bind (get_twin hR store) fun t t' ht => ?_
  have hdef := ht.typeDef
  generalize t.typeDef = td at hdef
  generalize t'.typeDef = td' at hdef
  cases hdef with
  | primitive p =>
    dsimp only
    cases BitStore.ofPrim p with
    | none => exact .err _
    | some st =>
      dsimp only
      refine .bindL fun x => ?_
      obtain ⟨s, q⟩ := x
      dsimp only
      cases bitVecDecodeAll st o s with
      | none => exact .err _
      | some l => exact .ok ⟨rfl, rfl⟩
  | _ => exact .err _

/-- Data without names. -/
def Plain (N : Names) (r : Res (PD × Nat)) : Prop := ∀ d q, r = .ok (d, q) → renamed N (pdValue d) = pdValue d

theorem Plain.ok {d : PD} {q : Nat} (h : renamed N (pdValue d) = pdValue d) : Plain N (.ok (d, q)) := by
  intro d' q' h'; cases h'; exact h

theorem Plain.err {e : Fail} : Plain N (.error e) := by intro d q h; cases h

theorem Plain.bind {α : Type} {x : Res α} {f : α → Res (PD × Nat)} (h : ∀ a, Plain N (f a)) : Plain N (x >>= f) := by
  cases x with
  | ok a => exact h a
  | error e => exact .err

theorem Plain.twin {r r' : Res (PD × Nat)} (h : relab PD.unlabel r = relab PD.unlabel r') (hp : Plain N r) :
    Twin (TwinP N) r r' := by
  rcases relab_cases h with ⟨a, a', q, h1, h2, h3⟩ | ⟨e, h1, h2⟩
  · refine .inl ⟨_, _, h1, h2, ?_, rfl⟩
    show pdValue a' = renamed N (pdValue a)
    rw [hp a q h1, ← unlabel_pdValue a, h3, unlabel_pdValue]
  · exact .inr ⟨e, h1, h2⟩

theorem parsePrim_plain (pr : Prim) (pos : Nat) (s : SpecialtySet) : Plain N (decodePrimitive pr b pos s) := by
  have hu : ∀ w, Plain N (parseUInt w b pos s) := by
    intro w
    unfold parseUInt
    dsimp only
    split
    · exact .bind fun _ => .ok rfl
    · exact .bind fun _ => .ok rfl
  have hi : ∀ w, Plain N (parseInt w b pos s.compactAt) := by
    intro w
    unfold parseInt
    exact .bind fun _ => .bind fun _ => .ok rfl
  cases pr <;> simp only [decodePrimitive]
  all_goals first
    | exact hu _
    | exact hi _
    | exact .bind fun _ => .bind fun _ => .ok rfl
    | skip
  · refine .bind fun _ => ?_
    unfold decodeStr
    refine .bind fun f => .bind fun s => ?_
    cases stringFromUtf8 s with
    | none => exact .err
    | some t => exact .ok rfl

theorem withInfo_twin {i i' : List Info} {r r' : Res (PD × Nat)} (h : Twin (TwinP N) r r') :
    Twin (TwinE N) (withInfo i r) (withInfo i' r') := by
  unfold withInfo
  refine .bind h ?_
  rintro ⟨d, q⟩ ⟨d', q'⟩ ⟨h1, h2⟩
  exact .ok ⟨h1, h2⟩

/-! ### One call -/

theorem typeDef_twin (hR : RenamedIn N R R') {rec rec' : Dec} (hrec : RecTwin N rec rec') {p p' : Propagated}
    (h : SameC p.checker p'.checker) {t t' : Typ} (ht : RenamedTyp N t t') (id pos : Nat) :
    Twin (TwinE N) (decodeTypeDef R rec b t id pos p) (decodeTypeDef R' rec' b t' id pos p') := by
  unfold decodeTypeDef
  have hdef := ht.typeDef
  generalize t.typeDef = td at hdef
  generalize t'.typeDef = td' at hdef
  cases hdef with
  | composite hm =>
    refine .bind (fields_twin hrec h hm pos) ?_
    rintro ⟨l, q⟩ ⟨l', q'⟩ ⟨h3, h4⟩
    refine .ok ⟨?_, h4⟩
    simp only [edValue, pdValue]
    rw [← recordValue_renamed, ← h3]
  | @variant vs vs' hm =>
    refine .bind (rejectP_twin h) fun _ _ _ => ?_
    have he : vs'.isEmpty = vs.isEmpty := by cases hm <;> rfl
    rw [he]
    split
    · exact .ok ⟨rfl, rfl⟩
    · refine .bind (decodeVariant_twin hrec hm pos) ?_
      rintro ⟨v, l, q⟩ ⟨v', l', q'⟩ ⟨h2, h3, h4⟩
      refine .ok ⟨?_, h4⟩
      dsimp only at h2 h3
      simp only [edValue, pdValue, renamed, h2.name]
      rw [h3]
  | sequence elem =>
    refine .bindL fun x => ?_
    exact elements_twin hR hrec (p := { p with checker := p.checker.dropCycleCheck })
      (p' := { p' with checker := p'.checker.dropCycleCheck }) (SameC.mk h.1 rfl) elem x.1 x.2
  | array n elem => exact elements_twin hR hrec h elem n pos
  | tuple ids => exact tuple_twin hR hrec h ids pos
  | primitive pr => exact withInfo_twin (Plain.twin (prim_same h.1 pr pos) (parsePrim_plain pr pos _))
  | compact inner =>
    refine .bind (rejectP_twin h) fun _ _ _ => ?_
    refine .bind (P := SameC) ((show SameC (compactChecker p.checker id) (compactChecker p'.checker id) from
      ⟨rfl, h.2⟩).checkTwin inner) fun d d' hd => ?_
    exact hrec _ _ pos _ _ (.symbol inner) hd
  | bitSequence o s => exact .bind (rejectP_twin h) fun _ _ _ => withInfo_twin (decodeBitSequence_twin hR o s id pos)

theorem resolve_twin (hR : RenamedIn N R R') {tyIn tyIn' : TyIn} (h : TyTwin N tyIn tyIn') :
    Twin (fun (x y : Typ × Nat) => RenamedTyp N x.1 y.1 ∧ y.2 = x.2) (tyIn.resolve R) (tyIn'.resolve R') := by
  cases h with
  | symbol id => exact .bind (get_twin hR id) fun t t' ht => .ok ⟨ht, rfl⟩
  | resolved id ht => exact .ok ⟨ht, rfl⟩

theorem step_twin (hR : RenamedIn N R R') {rec rec' : Dec} (hrec : RecTwin N rec rec') :
    RecTwin N (decodeStep R b rec) (decodeStep R' b rec') := by
  intro tyIn tyIn' pos p p' hty h
  unfold decodeStep
  refine .bind (resolve_twin hR hty) ?_
  rintro ⟨t, id⟩ ⟨t', id'⟩ ⟨ht, hid⟩
  dsimp only at ht hid ⊢
  subst hid
  have h' : SameC (p.addInfo (Info.fromTy t)).checker (p'.addInfo (Info.fromTy t')).checker := by
    rw [addInfo_checker, addInfo_checker]; exact h
  generalize p.addInfo (Info.fromTy t) = p at h'
  generalize p'.addInfo (Info.fromTy t') = p' at h'
  refine .bind (fromType_twin hR ht pos) ?_
  rintro ⟨sp, q⟩ ⟨sp', q'⟩ ⟨hsp, hq⟩
  dsimp only at hsp hq ⊢
  subst hq
  unfold decodeChecked
  cases hsp with
  | none => exact typeDef_twin hR hrec h' ht id' q'
  | fixed k =>
    simp only [Propagated.compactAt, h'.1]
    refine withInfo_twin (Plain.twin rfl ?_)
    unfold parseFixed
    exact .bind fun _ => .bind fun _ => .ok rfl
  | era =>
    refine .bind (rejectP_twin h') fun _ _ _ => .bindL fun x => .ok ⟨rfl, rfl⟩
  | h256 =>
    refine .bind (rejectP_twin h') fun _ _ _ => ?_
    apply withInfo_twin
    unfold specialCaseH256
    refine .bindL fun x => ?_
    cases p.checker.specialtySet.hint.hash256 <;> cases p'.checker.specialtySet.hint.hash256 <;> exact .ok ⟨rfl, rfl⟩
  | perThing k =>
    simp only [Propagated.compactAt, h'.1]
    refine withInfo_twin (Plain.twin rfl ?_)
    unfold parsePer
    dsimp only
    split
    · exact .bind fun _ => .ok rfl
    · exact .bind fun _ => .ok rfl
  | pallet hm =>
    refine .bind (rejectP_twin h') fun _ _ _ => ?_
    refine .bind (decodeVariant_twin hrec hm q') ?_
    rintro ⟨v, l, q⟩ ⟨v', l', q'⟩ ⟨h2, h3, h4⟩
    refine .ok ⟨?_, h4⟩
    dsimp only at h2 h3
    simp only [edValue, pdValue, renamed, h2.name]
    rw [h3]

theorem decodeF_twin (hR : RenamedIn N R R') (n : Nat) : RecTwin N (decodeF R b n) (decodeF R' b n) := by
  induction n with
  | zero => intro _ _ _ _ _ _ _; exact .err _
  | succ n ih => exact step_twin hR ih

theorem decode_twin (hR : RenamedIn N R R') : RecTwin N (decode R b) (decode R' b) := by
  intro tyIn tyIn' pos p p' hty h
  unfold decode depthBound
  rw [hR.size]
  exact decodeF_twin hR _ tyIn tyIn' pos p p' hty h

end Verif
