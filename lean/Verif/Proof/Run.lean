import Verif.Proof.Fine
/-!
Buffer-free relation followed by `decode_with_type`, step by step, and proof
that the decoder succeeds exactly along it.
-/
namespace Verif
open Spec

/-- Relation of the recursive calls. -/
abbrev Rel := TyIn → Propagated → ED → Bytes → Prop

/-- `FieldData` of a field. -/
def mkFD (f : Field) (d : ED) : FD :=
  { fieldName := f.name, typeName := f.typeName, fieldDocs := collectDocs f.docs, data := d }

inductive FieldsRel (Q : Rel) (c : Checker) : List Field → List FD → Bytes → Prop
  | nil : FieldsRel Q c [] [] []
  | cons {f : Field} {fs : List Field} {p : Propagated} {d : ED} {ds : List FD} {x y : Bytes} :
      Propagated.forField c f = .ok p → Q (.symbol f.ty) p d x → FieldsRel Q c fs ds y →
      FieldsRel Q c (f :: fs) (mkFD f d :: ds) (x ++ y)

/-- Checker used for the fields. -/
def fieldsChecker (n : Nat) (c : Checker) : Checker := if 1 < n then c.forgetHint else c

structure FieldsTop (Q : Rel) (fields : List Field) (c : Checker) (ds : List FD) (bs : Bytes) :
    Prop where
  noCompact : 1 < fields.length → c.specialtySet.compactAt = none
  rel : FieldsRel Q (fieldsChecker fields.length c) fields ds bs

inductive ElemsRel (Q : Rel) (h : HuskedType) : List PD → Bytes → Prop
  | nil : ElemsRel Q h [] []
  | cons {d : ED} {ds : List PD} {x y : Bytes} :
      Q (.resolved h.ty h.id) (Propagated.withChecker h.checker) d x → ElemsRel Q h ds y →
      ElemsRel Q h (d.data :: ds) (x ++ y)

inductive TupleRel (R : Registry) (Q : Rel) (c : Checker) : List Nat → List ED → Bytes → Prop
  | nil : TupleRel R Q c [] [] []
  | cons {id : Nat} {ids : List Nat} {ty : Typ} {p : Propagated} {d : ED} {ds : List ED}
      {x y : Bytes} :
      R.get id = .ok ty → Propagated.forTy c ty id = .ok p → Q (.resolved ty id) p d x →
      TupleRel R Q c ids ds y → TupleRel R Q c (id :: ids) (d :: ds) (x ++ y)

/-- Data of a list of elements. -/
def seqData (h : HuskedType) (l : List PD) : PD :=
  match wrapSequence l with
  | some s => .sequence h.info s
  | none => .sequenceRaw h.info l

/-- Recognition of a signature or of a pallet item, given the first byte. -/
def enumSpecial (R : Registry) (h : TypeHinted) (vs : List Variant) (i : UInt8) : TypeChecked :=
  match h with
  | .multiSignature =>
    match vs.find? (fun v => v.index == i) with
    | some v =>
      match v.fields with
      | [f] =>
        match signatureIndicator R f with
        | .ok (some k) => .fixed k
        | _ => .none
      | _ => .none
    | none => .none
  | .palletSpecific item =>
    match vs.find? (fun v => v.index == i) with
    | some v =>
      match v.fields with
      | [f] =>
        match R.get f.ty with
        | .ok t =>
          match TypeHinted.fromType t with
          | .palletSpecific item' =>
            if item ≠ item' then .none
            else
              match t.typeDef with
              | .variant vs' => .palletSpecific v.name (Info.fromTy t) vs' item
              | _ => .none
          | _ => .none
        | .error _ => .none
      | _ => .none
    | none => .none
  | _ => .none

/-- Hints that do not fix a leaf decoder. -/
def TypeHinted.open : TypeHinted → Bool
  | .none | .multiSignature | .palletSpecific _ | .uncheckedExtrinsic => true
  | _ => false

/-- Checker inside a compact. -/
def compactChecker (c : Checker) (id : Nat) : Checker :=
  { c with specialtySet := { c.specialtySet with compactAt := some id } }

inductive DefRel (R : Registry) (Q : Rel) (ty : Typ) (id : Nat) (p : Propagated) :
    ED → Bytes → Prop
  | composite {fields : List Field} {ds : List FD} {bs : Bytes} :
      ty.typeDef = .composite fields → FieldsTop Q fields p.checker ds bs →
      DefRel R Q ty id p ⟨.composite ds, p.info⟩ bs
  | emptyEnum : ty.typeDef = .variant [] → p.compactAt = none →
      DefRel R Q ty id p ⟨.emptyEnum, p.info⟩ []
  | enum {vs : List Variant} {i : UInt8} {v : Variant} {ds : List FD} {bs : Bytes} :
      ty.typeDef = .variant vs → p.compactAt = none →
      vs.find? (fun v => v.index == i) = some v →
      enumSpecial R (TypeHinted.fromType ty) vs i = .none →
      FieldsTop Q v.fields Checker.new ds bs →
      DefRel R Q ty id p ⟨.variant v.name (collectDocs v.docs) ds, p.info⟩ (i :: bs)
  | sequence {elem : Nat} {h : HuskedType} {l : List PD} {bs : Bytes} :
      ty.typeDef = .sequence elem → p.compactAt = none →
      huskType R elem p.checker.dropCycleCheck = .ok h → l.length < 2 ^ 32 → ElemsRel Q h l bs →
      DefRel R Q ty id p ⟨seqData h l, p.info⟩ (compactEncode l.length ++ bs)
  | array {elem : Nat} {h : HuskedType} {l : List PD} {bs : Bytes} :
      ty.typeDef = .array l.length elem → p.compactAt = none →
      huskType R elem p.checker = .ok h → ElemsRel Q h l bs →
      DefRel R Q ty id p ⟨seqData h l, p.info⟩ bs
  | tuple {ids : List Nat} {ds : List ED} {bs : Bytes} :
      ty.typeDef = .tuple ids → (1 < ids.length → p.compactAt = none) →
      TupleRel R Q (fieldsChecker ids.length p.checker) ids ds bs →
      DefRel R Q ty id p ⟨.tuple ds, p.info⟩ bs
  | primitive {pr : Prim} {d : PD} {bs : Bytes} :
      ty.typeDef = .primitive pr → PrimRel p.checker.specialtySet pr d bs →
      DefRel R Q ty id p ⟨d, p.info⟩ bs
  | compact {inner : Nat} {c : Checker} {d : ED} {bs : Bytes} :
      ty.typeDef = .compact inner → p.compactAt = none →
      (compactChecker p.checker id).checkId inner = .ok c →
      Q (.symbol inner) { p with checker := c } d bs →
      DefRel R Q ty id p d bs
  | bits {order store : Nat} {k : BitStore × BitOrder} {l : List Bool} {bs : Bytes} :
      ty.typeDef = .bitSequence order store → p.compactAt = none →
      bitKind R order store id = .ok k → BitsEnc k.1 k.2 l bs →
      DefRel R Q ty id p ⟨.bitVec k.1 k.2 l, p.info⟩ bs

inductive TyRel (R : Registry) (Q : Rel) (ty : Typ) (id : Nat) (p : Propagated) : ED → Bytes → Prop
  | ofDef {d : ED} {bs : Bytes} : (TypeHinted.fromType ty).open = true → DefRel R Q ty id p d bs →
      TyRel R Q ty id p d bs
  | fixed {k : FixedKind} {bs : Bytes} : TypeHinted.fromType ty = .fixed k → p.compactAt = none →
      bs.length = k.len → TyRel R Q ty id p ⟨.fixed k bs, p.info⟩ bs
  | era {e : Era} : TypeHinted.fromType ty = .era → p.compactAt = none → EraOk e →
      TyRel R Q ty id p ⟨.era e, p.info⟩ (eraEncode e)
  | h256 {bs : Bytes} : TypeHinted.fromType ty = .h256 → p.compactAt = none → bs.length = 32 →
      TyRel R Q ty id p ⟨h256Data p.checker.specialtySet.hint.hash256 bs, p.info⟩ bs
  | per {k : PerKind} {v : Nat} : TypeHinted.fromType ty = .perThing k → p.compactAt = none →
      v ≤ k.accuracy → TyRel R Q ty id p ⟨.perThing k v, p.info⟩ (leBytes k.inner.bytes v)
  | perCompact {k : PerKind} {v : Nat} : TypeHinted.fromType ty = .perThing k →
      p.compactAt.isSome = true → v < 2 ^ (8 * k.inner.bytes) →
      TyRel R Q ty id p ⟨.perThing k (min v k.accuracy), p.info⟩ (compactEncode v)
  | signature {vs : List Variant} {i : UInt8} {k : FixedKind} {bs : Bytes} :
      ty.typeDef = .variant vs → p.compactAt = none →
      TypeHinted.fromType ty = .multiSignature →
      enumSpecial R (TypeHinted.fromType ty) vs i = .fixed k → bs.length = k.len →
      TyRel R Q ty id p ⟨.fixed k bs, p.info⟩ (i :: bs)
  | pallet {vs vs' : List Variant} {i j : UInt8} {item : PalletItem} {palletName : String}
      {palletInfo : Info} {v : Variant} {ds : List FD} {bs : Bytes} :
      ty.typeDef = .variant vs → p.compactAt = none →
      TypeHinted.fromType ty = .palletSpecific item →
      enumSpecial R (TypeHinted.fromType ty) vs i =
        .palletSpecific palletName palletInfo vs' item →
      vs'.find? (fun v => v.index == j) = some v →
      FieldsTop Q v.fields Checker.new ds bs →
      TyRel R Q ty id p
        ⟨.pallet item palletInfo (collectDocs v.docs) palletName v.name ds, p.info⟩ (i :: j :: bs)

/-- One call of `decode_with_type`. -/
def StepRel (R : Registry) (Q : Rel) : Rel := fun tyIn p d bs =>
  ∃ ty id, tyIn.resolve R = .ok (ty, id) ∧ TyRel R Q ty id (p.addInfo (Info.fromTy ty)) d bs

/-- `n` nested calls. -/
def RunN (R : Registry) : Nat → Rel
  | 0 => fun _ _ _ _ => False
  | n + 1 => StepRel R (RunN R n)

/-- The recursive calls follow the relation. -/
def RecParses (b : Buf) (rec : Dec) (Q : Rel) : Prop :=
  ∀ tyIn p, Parses b (fun pos => rec tyIn pos p) (Q tyIn p)

variable {R : Registry} {b : Buf} {rec : Dec} {Q : Rel}

theorem Parses.okCongr {α : Type} {f f' : Nat → Res (α × Nat)} {P : α → Bytes → Prop}
    (h : Parses b f P) (hf : ∀ pos r, f' pos = .ok r ↔ f pos = .ok r) : Parses b f' P where
  sound := fun hr => h.sound ((hf _ _).1 hr)
  complete := fun hr _ _ _ hq hat => (hf _ _).2 (h.complete hr hq hat)

theorem decodeFieldsLoop_parses (hrec : RecParses b rec Q) (c : Checker) (fs : List Field) :
    Parses b (fun pos => decodeFieldsLoop rec c fs pos) (FieldsRel Q c fs) := by
  induction fs with
  | nil =>
    refine (Parses.pure []).congr ?_
    intro a bs
    constructor
    · rintro ⟨rfl, rfl⟩; exact .nil
    · intro h; cases h; exact ⟨rfl, rfl⟩
  | cons f fs ih =>
    refine (Parses.lift (r := Propagated.forField c f) (fun p _ =>
      Parses.bind (hrec (.symbol f.ty) p) (fun d => Parses.map ih (fun l => mkFD f d :: l)))).congr ?_
    intro a bs
    constructor
    · rintro ⟨p, hp, d, x, y, rfl, h1, l, rfl, h2⟩
      exact .cons hp h1 h2
    · intro h
      cases h with
      | cons hp h1 h2 => exact ⟨_, hp, _, _, _, rfl, h1, _, rfl, h2⟩

theorem decodeFields_parses (hrec : RecParses b rec Q) (c : Checker) (fs : List Field) :
    Parses b (fun pos => decodeFields rec fs pos c) (FieldsTop Q fs c) := by
  unfold decodeFields
  by_cases h : 1 < fs.length
  · simp only [if_pos h]
    refine (Parses.guard (r := c.rejectCompact) (fun _ =>
      decodeFieldsLoop_parses hrec c.forgetHint fs)).congr ?_
    intro a bs
    rw [Checker.rejectCompact, rejectCompact_ok]
    constructor
    · rintro ⟨h1, h2⟩; exact ⟨fun _ => h1, by rw [fieldsChecker, if_pos h]; exact h2⟩
    · rintro ⟨h1, h2⟩; rw [fieldsChecker, if_pos h] at h2; exact ⟨h1 h, h2⟩
  · simp only [if_neg h]
    refine (decodeFieldsLoop_parses hrec c fs).congr ?_
    intro a bs
    constructor
    · intro h2; exact ⟨fun h' => absurd h' h, by rw [fieldsChecker, if_neg h]; exact h2⟩
    · rintro ⟨_, h2⟩; rw [fieldsChecker, if_neg h] at h2; exact h2

theorem decodeElementsLoop_parses (hrec : RecParses b rec Q) (h : HuskedType) (n : Nat) :
    Parses b (fun pos => decodeElementsLoop rec h n pos) (fun l bs => l.length = n ∧ ElemsRel Q h l bs) := by
  induction n with
  | zero =>
    refine (Parses.pure []).congr ?_
    intro a bs
    constructor
    · rintro ⟨rfl, rfl⟩; exact ⟨rfl, .nil⟩
    · rintro ⟨h0, h1⟩; cases h1 with
      | nil => exact ⟨rfl, rfl⟩
      | cons _ _ => simp at h0
  | succ n ih =>
    refine (Parses.bind (hrec (.resolved h.ty h.id) (Propagated.withChecker h.checker)) (fun d =>
      Parses.map ih (fun l => d.data :: l))).congr ?_
    intro a bs
    constructor
    · rintro ⟨d, x, y, rfl, h1, l, rfl, h2, h3⟩
      exact ⟨by simp [h2], .cons h1 h3⟩
    · rintro ⟨h0, h1⟩
      cases h1 with
      | nil => simp at h0
      | cons h1 h2 => exact ⟨_, _, _, rfl, h1, _, rfl, by simpa using h0, h2⟩

theorem decodeElementsSet_parses (hrec : RecParses b rec Q) (elem n : Nat) (p : Propagated) :
    Parses b (fun pos => decodeElementsSet R rec elem n pos p)
      (fun d bs => p.compactAt = none ∧ ∃ h, huskType R elem p.checker = .ok h ∧
        ∃ l, d = ⟨seqData h l, p.info⟩ ∧ l.length = n ∧ ElemsRel Q h l bs) := by
  refine Parses.congr (Parses.funCongr
    (Parses.guard (r := p.rejectCompact) (fun _ =>
      Parses.lift (r := huskType R elem p.checker) (fun h _ =>
        Parses.map (decodeElementsLoop_parses hrec h n) (fun l => (⟨seqData h l, p.info⟩ : ED))))) ?_) ?_
  · intro pos
    unfold decodeElementsSet
    cases p.rejectCompact with
    | error e => rfl
    | ok _ =>
      simp only [ok_bind]
      cases huskType R elem p.checker with
      | error e => rfl
      | ok h =>
        simp only [ok_bind]
        by_cases hn : n = 0
        · subst hn; rw [if_pos rfl]; rfl
        · rw [if_neg hn]
          cases decodeElementsLoop rec h n pos with
          | error e => rfl
          | ok r =>
            simp only [ok_bind, seqData]
            cases wrapSequence r.1 <;> rfl
  · intro d bs
    rw [Propagated.rejectCompact, rejectCompact_ok]
    rfl

theorem decodeTupleLoop_parses (hrec : RecParses b rec Q) (c : Checker) (ids : List Nat) :
    Parses b (fun pos => decodeTupleLoop R rec c ids pos) (TupleRel R Q c ids) := by
  induction ids with
  | nil =>
    refine (Parses.pure []).congr ?_
    intro a bs
    constructor
    · rintro ⟨rfl, rfl⟩; exact .nil
    · intro h; cases h; exact ⟨rfl, rfl⟩
  | cons id ids ih =>
    refine (Parses.lift (r := R.get id) (fun ty _ =>
      Parses.lift (r := Propagated.forTy c ty id) (fun p _ =>
      Parses.bind (hrec (.resolved ty id) p) (fun d => Parses.map ih (fun l => d :: l))))).congr ?_
    intro a bs
    constructor
    · rintro ⟨ty, ht, p, hp, d, x, y, rfl, h1, l, rfl, h2⟩
      exact .cons ht hp h1 h2
    · intro h
      cases h with
      | cons ht hp h1 h2 => exact ⟨_, ht, _, hp, _, _, _, rfl, h1, _, rfl, h2⟩

theorem decodeTuple_parses (hrec : RecParses b rec Q) (ids : List Nat) (p : Propagated) :
    Parses b (fun pos => decodeTuple R rec ids pos p)
      (fun d bs => (1 < ids.length → p.compactAt = none) ∧
        ∃ l, d = ⟨.tuple l, p.info⟩ ∧ TupleRel R Q (fieldsChecker ids.length p.checker) ids l bs) := by
  unfold decodeTuple
  by_cases h : 1 < ids.length
  · simp only [if_pos h]
    refine Parses.congr (Parses.funCongr
      (Parses.guard (r := p.rejectCompact) (fun _ =>
        Parses.map (decodeTupleLoop_parses (R := R) hrec p.forgetHint.checker ids)
          (fun l => (⟨.tuple l, p.info⟩ : ED)))) ?_) ?_
    · intro pos
      cases p.rejectCompact <;> rfl
    · intro d bs
      rw [Propagated.rejectCompact, rejectCompact_ok]
      simp only [fieldsChecker, if_pos h]
      constructor
      · rintro ⟨h1, h2⟩; exact ⟨fun _ => h1, h2⟩
      · rintro ⟨h1, h2⟩; exact ⟨h1 h, h2⟩
  · simp only [if_neg h]
    refine Parses.congr (Parses.map (decodeTupleLoop_parses (R := R) hrec p.checker ids)
          (fun l => (⟨.tuple l, p.info⟩ : ED))) ?_
    intro d bs
    simp only [fieldsChecker, if_neg h]
    constructor
    · intro h2; exact ⟨fun h' => absurd h' h, h2⟩
    · rintro ⟨_, h2⟩; exact h2

theorem withInfo_parses {f : Nat → Res (PD × Nat)} {P : PD → Bytes → Prop} (info : List Info)
    (h : Parses b f P) :
    Parses b (fun pos => withInfo info (f pos)) (fun d bs => ∃ a, d = ⟨a, info⟩ ∧ P a bs) :=
  Parses.map h (fun a => (⟨a, info⟩ : ED))

theorem propReject_ok {p : Propagated} : p.rejectCompact = .ok () ↔ p.compactAt = none := by
  rw [Propagated.rejectCompact, rejectCompact_ok]; rfl

/-- `decode_variant` reads the index byte, then the fields. -/
theorem decodeVariant_parses (hrec : RecParses b rec Q) (vs : List Variant) :
    Parses b (fun pos => decodeVariant rec vs b pos >>= fun (v, fs, pos) => .ok ((v, fs), pos))
      (fun r bs => ∃ i rest, bs = i :: rest ∧ vs.find? (fun v => v.index == i) = some r.1 ∧
        FieldsTop Q r.1.fields Checker.new r.2 rest) := by
  refine Parses.congr (Parses.okCongr
    (Parses.byte (k := fun i pos =>
      (match vs.find? (fun v => v.index == i) with
        | some v => (Except.ok v : Res Variant)
        | none => .error (.err (.unexpectedEnumVariant 0))) >>= fun v =>
        decodeFields rec v.fields pos Checker.new >>= fun (fs, pos) => .ok ((v, fs), pos))
      (fun i => Parses.lift (fun v _ =>
        Parses.map (decodeFields_parses hrec Checker.new v.fields) (fun fs => (v, fs))))) ?_) ?_
  · intro pos r
    unfold decodeVariant pickVariant
    cases b.readByte pos with
    | error e => simp [error_bind]
    | ok i =>
      simp only [ok_bind]
      cases vs.find? (fun v => v.index == i) with
      | none => simp [error_bind]
      | some v =>
        simp only [ok_bind]
        cases decodeFields rec v.fields (pos + 1) Checker.new with
        | error e => simp [error_bind]
        | ok r => simp only [ok_bind]
  · rintro ⟨v, fs⟩ bs
    constructor
    · rintro ⟨i, rest, rfl, v', hv, fs', heq, h⟩
      cases heq
      cases hfind : vs.find? (fun v => v.index == i) with
      | none => rw [hfind] at hv; cases hv
      | some v'' =>
        rw [hfind] at hv
        cases hv
        exact ⟨i, rest, rfl, hfind, h⟩
    · rintro ⟨i, rest, rfl, hfind, h⟩
      exact ⟨i, rest, rfl, v, by rw [hfind], fs, rfl, h⟩

/-- Mapped form. -/
theorem decodeVariant_map {α : Type} (hrec : RecParses b rec Q) (vs : List Variant)
    (g : Variant → List FD → α) :
    Parses b (fun pos => decodeVariant rec vs b pos >>= fun (v, fs, pos) => .ok (g v fs, pos))
      (fun r bs => ∃ v fs i rest, r = g v fs ∧ bs = i :: rest ∧
        vs.find? (fun v => v.index == i) = some v ∧ FieldsTop Q v.fields Checker.new fs rest) := by
  refine Parses.congr (Parses.funCongr
    (Parses.map (decodeVariant_parses hrec vs) (fun r => g r.1 r.2)) ?_) ?_
  · intro pos
    cases decodeVariant rec vs b pos <;> rfl
  · intro r bs
    constructor
    · rintro ⟨⟨v, fs⟩, rfl, i, rest, rfl, h1, h2⟩; exact ⟨v, fs, i, rest, rfl, rfl, h1, h2⟩
    · rintro ⟨v, fs, i, rest, rfl, rfl, h1, h2⟩; exact ⟨⟨v, fs⟩, rfl, i, rest, rfl, h1, h2⟩

/-- The general branch, for types that are not enums. -/
theorem decodeTypeDef_parses (hrec : RecParses b rec Q) (ty : Typ) (id : Nat) (p : Propagated)
    (hv : ∀ vs, ty.typeDef ≠ .variant vs) :
    Parses b (fun pos => decodeTypeDef R rec b ty id pos p) (DefRel R Q ty id p) := by
  unfold decodeTypeDef
  cases hd : ty.typeDef with
  | composite fields =>
    refine (Parses.map (decodeFields_parses hrec p.checker fields)
      (fun fs => (⟨.composite fs, p.info⟩ : ED))).congr ?_
    intro d bs
    constructor
    · rintro ⟨fs, rfl, h⟩; exact .composite hd h
    · intro h
      cases h with
      | composite h1 h2 => rw [hd] at h1; cases h1; exact ⟨_, rfl, h2⟩
      | _ => simp_all
  | variant vs => exact absurd hd (hv vs)
  | sequence elem =>
    refine (Parses.bind (Parses.compact (w := .u32)) (fun n =>
      decodeElementsSet_parses (R := R) hrec elem n
        { p with checker := p.checker.dropCycleCheck })).congr ?_
    intro d bs
    constructor
    · rintro ⟨n, x, y, rfl, ⟨h1, rfl⟩, h2, h, h3, l, rfl, rfl, h4⟩
      exact .sequence hd h2 h3 h1 h4
    · intro h
      cases h with
      | sequence h1 h2 h3 h4 h5 =>
        rw [hd] at h1; cases h1
        exact ⟨_, _, _, rfl, ⟨h4, rfl⟩, h2, _, h3, _, rfl, rfl, h5⟩
      | _ => simp_all
  | array len elem =>
    refine (decodeElementsSet_parses (R := R) hrec elem len p).congr ?_
    intro d bs
    constructor
    · rintro ⟨h2, h, h3, l, rfl, rfl, h4⟩
      exact .array hd h2 h3 h4
    · intro h
      cases h with
      | array h1 h2 h3 h4 =>
        rw [hd] at h1; cases h1
        exact ⟨h2, _, h3, _, rfl, rfl, h4⟩
      | _ => simp_all
  | tuple ids =>
    refine (decodeTuple_parses (R := R) hrec ids p).congr ?_
    intro d bs
    constructor
    · rintro ⟨h1, l, rfl, h2⟩; exact .tuple hd h1 h2
    · intro h
      cases h with
      | tuple h1 h2 h3 => rw [hd] at h1; cases h1; exact ⟨h2, _, rfl, h3⟩
      | _ => simp_all
  | primitive pr =>
    refine (withInfo_parses p.info (decodePrimitive_parses pr p.checker.specialtySet)).congr ?_
    intro d bs
    constructor
    · rintro ⟨a, rfl, h⟩; exact .primitive hd h
    · intro h
      cases h with
      | primitive h1 h2 => rw [hd] at h1; cases h1; exact ⟨_, rfl, h2⟩
      | _ => simp_all
  | compact inner =>
    refine (Parses.guard (r := p.rejectCompact) (fun _ =>
      Parses.lift (r := (compactChecker p.checker id).checkId inner) (fun c _ =>
        hrec (.symbol inner) { p with checker := c }))).congr ?_
    intro d bs
    rw [propReject_ok]
    constructor
    · rintro ⟨h1, c, h2, h3⟩; exact .compact hd h1 h2 h3
    · intro h
      cases h with
      | compact h1 h2 h3 h4 => rw [hd] at h1; cases h1; exact ⟨h2, _, h3, h4⟩
      | _ => simp_all
  | bitSequence order store =>
    refine (Parses.guard (r := p.rejectCompact) (fun _ =>
      withInfo_parses p.info (decodeBitSequence_parses R order store id))).congr ?_
    intro d bs
    rw [propReject_ok]
    constructor
    · rintro ⟨h1, a, rfl, k, h2, l, rfl, h3⟩; exact .bits hd h1 h2 h3
    · intro h
      cases h with
      | bits h1 h2 h3 h4 => rw [hd] at h1; cases h1; exact ⟨h2, _, rfl, _, h3, _, rfl, h4⟩
      | _ => simp_all

/-- Position after recognition. -/
def afterSpecial (sp : TypeChecked) (pos : Nat) : Nat :=
  match sp with
  | .none => pos
  | _ => pos + 1

/-- Recognition, when the first byte can be read. -/
theorem fromType_enum_ok {ty : Typ} {vs : List Variant} {pos : Nat} {i : UInt8}
    (ho : (TypeHinted.fromType ty).open = true) (hd : ty.typeDef = .variant vs)
    (hi : b.readByte pos = .ok i) :
    TypeChecked.fromType R ty b pos =
      .ok (enumSpecial R (TypeHinted.fromType ty) vs i,
        afterSpecial (enumSpecial R (TypeHinted.fromType ty) vs i) pos) := by
  unfold TypeChecked.fromType enumSpecial
  cases hh : TypeHinted.fromType ty with
  | fixed k => rw [hh] at ho; cases ho
  | era => rw [hh] at ho; cases ho
  | h256 => rw [hh] at ho; cases ho
  | perThing k => rw [hh] at ho; cases ho
  | none => rfl
  | uncheckedExtrinsic => rfl
  | multiSignature =>
    simp only [checkMultiSignature, hd, pickVariant, hi, ok_bind]
    cases hf : vs.find? (fun v => v.index == i) with
    | none => rfl
    | some v =>
      simp only [swallow, ok_bind]
      rcases v.fields with _ | ⟨f, _ | ⟨g, gs⟩⟩
      · rfl
      · dsimp only
        obtain ⟨o, ho⟩ := signatureIndicator_total R f
        rw [ho, ok_bind]
        cases o <;> rfl
      · rfl
  | palletSpecific item =>
    simp only [checkPalletSpecific, hd, pickVariant, hi, ok_bind]
    cases hf : vs.find? (fun v => v.index == i) with
    | none => rfl
    | some v =>
      simp only [swallow, ok_bind]
      rcases v.fields with _ | ⟨f, _ | ⟨g, gs⟩⟩
      · rfl
      · dsimp only
        rcases (R.get_fine f.ty).cases with ⟨t, ht⟩ | ⟨e, he⟩
        · rw [ht]
          simp only [ok_bind]
          cases TypeHinted.fromType t with
          | palletSpecific item' =>
            dsimp only
            by_cases hne : item ≠ item'
            · rw [if_pos hne, if_pos hne]; rfl
            · rw [if_neg hne, if_neg hne]
              cases t.typeDef <;> rfl
          | _ => rfl
        · rw [he]; rfl
      · rfl

/-- Recognition, when it can not. -/
theorem fromType_enum_err {ty : Typ} {vs : List Variant} {pos : Nat} {e : PErr}
    (ho : (TypeHinted.fromType ty).open = true) (hd : ty.typeDef = .variant vs)
    (hi : b.readByte pos = .error (.err e)) :
    TypeChecked.fromType R ty b pos = .ok (.none, pos) := by
  unfold TypeChecked.fromType
  cases hh : TypeHinted.fromType ty with
  | fixed k => rw [hh] at ho; cases ho
  | era => rw [hh] at ho; cases ho
  | h256 => rw [hh] at ho; cases ho
  | perThing k => rw [hh] at ho; cases ho
  | none => rfl
  | uncheckedExtrinsic => rfl
  | multiSignature => simp only [checkMultiSignature, hd, pickVariant, hi, error_bind, swallow, ok_bind]
  | palletSpecific item =>
    simp only [checkPalletSpecific, hd, pickVariant, hi, error_bind, swallow, ok_bind]

/-- Recognition for types that are not enums. -/
theorem fromType_nonEnum {ty : Typ} {pos : Nat}
    (ho : (TypeHinted.fromType ty).open = true) (hd : ∀ vs, ty.typeDef ≠ .variant vs) :
    TypeChecked.fromType R ty b pos = .ok (.none, pos) := by
  unfold TypeChecked.fromType
  cases hh : TypeHinted.fromType ty with
  | fixed k => rw [hh] at ho; cases ho
  | era => rw [hh] at ho; cases ho
  | h256 => rw [hh] at ho; cases ho
  | perThing k => rw [hh] at ho; cases ho
  | none => rfl
  | uncheckedExtrinsic => rfl
  | multiSignature =>
    simp only [checkMultiSignature]
  | palletSpecific item =>
    simp only [checkPalletSpecific]

theorem enumSpecial_cases (h : TypeHinted) (vs : List Variant) (i : UInt8) :
    enumSpecial R h vs i = .none ∨
    (∃ k, h = .multiSignature ∧ enumSpecial R h vs i = .fixed k) ∨
    (∃ item n inf vs', h = .palletSpecific item ∧
      enumSpecial R h vs i = .palletSpecific n inf vs' item) := by
  unfold enumSpecial
  repeat' split
  all_goals simp_all

theorem enumSpecial_find {h : TypeHinted} {vs : List Variant} {i : UInt8}
    (hn : enumSpecial R h vs i ≠ .none) : ∃ v, vs.find? (fun v => v.index == i) = some v := by
  cases hf : vs.find? (fun v => v.index == i) with
  | some v => exact ⟨v, rfl⟩
  | none =>
    exfalso; apply hn
    unfold enumSpecial
    rw [hf]
    split <;> rfl

/-- What is done after the index byte of an enum. -/
def enumBody (R : Registry) (rec : Dec) (b : Buf) (ty : Typ) (p : Propagated) (vs : List Variant)
    (i : UInt8) (pos : Nat) : Res (ED × Nat) :=
  match enumSpecial R (TypeHinted.fromType ty) vs i with
  | .fixed k => withInfo p.info (parseFixed k b pos none)
  | .palletSpecific palletName palletInfo vs' item =>
    decodeVariant rec vs' b pos >>= fun (v, fs, pos) =>
      .ok (⟨.pallet item palletInfo (collectDocs v.docs) palletName v.name fs, p.info⟩, pos)
  | _ =>
    match vs.find? (fun v => v.index == i) with
    | some v => decodeFields rec v.fields pos Checker.new >>= fun (fs, pos) =>
        .ok (⟨.variant v.name (collectDocs v.docs) fs, p.info⟩, pos)
    | none => .error (.err (.unexpectedEnumVariant 0))

theorem enum_ok_iff {ty : Typ} {vs : List Variant} {pos id : Nat} {p : Propagated} {r : ED × Nat}
    (ho : (TypeHinted.fromType ty).open = true) (hd : ty.typeDef = .variant vs) :
    ((TypeChecked.fromType R ty b pos >>= fun (sp, pos) => decodeChecked R rec b sp ty id pos p)
        = .ok r) ↔
      ((p.rejectCompact >>= fun _ => if vs.isEmpty then .ok (⟨.emptyEnum, p.info⟩, pos)
        else b.readByte pos >>= fun i => enumBody R rec b ty p vs i (pos + 1)) = .ok r) := by
  have hdef : ∀ q, decodeChecked R rec b .none ty id q p =
      (p.rejectCompact >>= fun _ => if vs.isEmpty then .ok (⟨.emptyEnum, p.info⟩, q)
        else decodeVariant rec vs b q >>= fun (v, fs, pos) =>
          .ok (⟨.variant v.name (collectDocs v.docs) fs, p.info⟩, pos)) := by
    intro q
    simp only [decodeChecked, decodeTypeDef, hd]
  rcases (readByte_fine b pos).cases with ⟨i, hi⟩ | ⟨e, he⟩
  · rw [fromType_enum_ok ho hd hi, ok_bind, hi]
    simp only [ok_bind, enumBody]
    rcases enumSpecial_cases (R := R) (TypeHinted.fromType ty) vs i with hs | ⟨k, hh, hs⟩ | ⟨item, n, inf, vs', hh, hs⟩
    · rw [hs]
      simp only [afterSpecial]
      rw [hdef]
      simp only [decodeVariant, pickVariant, hi, ok_bind]
      cases hrj : p.rejectCompact with
      | error e => rfl
      | ok u =>
        simp only [ok_bind]
        split
        · rfl
        · cases hf : vs.find? (fun v => v.index == i) with
          | none => simp [error_bind]
          | some v =>
            simp only [ok_bind]
            cases decodeFields rec v.fields (pos + 1) Checker.new with
            | error e => simp [error_bind]
            | ok r => simp only [ok_bind]
    · rw [hs]
      simp only [afterSpecial]
      obtain ⟨v, hf⟩ := enumSpecial_find (R := R) (h := TypeHinted.fromType ty) (vs := vs) (i := i) (by rw [hs]; simp)
      have hne : vs.isEmpty = false := by
        cases vs with
        | nil => simp at hf
        | cons _ _ => rfl
      rw [hne]
      simp only [decodeChecked, Propagated.rejectCompact, SpecialtySet.rejectCompact,
        Propagated.compactAt]
      cases p.checker.specialtySet.compactAt with
      | none => simp [ok_bind]
      | some id' => simp [parseFixed, blockCompact, failInternal, error_bind, withInfo]
    · rw [hs]
      simp only [afterSpecial]
      obtain ⟨v, hf⟩ := enumSpecial_find (R := R) (h := TypeHinted.fromType ty) (vs := vs) (i := i) (by rw [hs]; simp)
      have hne : vs.isEmpty = false := by
        cases vs with
        | nil => simp at hf
        | cons _ _ => rfl
      rw [hne]
      simp only [decodeChecked]
      cases hrj : p.rejectCompact with
      | error e => simp [error_bind]
      | ok u => simp [ok_bind]
  · rw [fromType_enum_err ho hd he, ok_bind, he]
    dsimp only
    rw [hdef]
    simp only [decodeVariant, pickVariant, he, error_bind]

theorem enumBody_parses (hrec : RecParses b rec Q) (ty : Typ) (id : Nat) (p : Propagated)
    (vs : List Variant) (i : UInt8) (hc : p.compactAt = none)
    (ho : (TypeHinted.fromType ty).open = true) (hd : ty.typeDef = .variant vs) :
    Parses b (enumBody R rec b ty p vs i) (fun d bs => TyRel R Q ty id p d (i :: bs)) := by
  unfold enumBody
  have hinv : ∀ d bs, TyRel R Q ty id p d (i :: bs) →
      (∃ v ds, vs.find? (fun v => v.index == i) = some v ∧
        enumSpecial R (TypeHinted.fromType ty) vs i = .none ∧
        FieldsTop Q v.fields Checker.new ds bs ∧
        d = ⟨.variant v.name (collectDocs v.docs) ds, p.info⟩) ∨
      (∃ k, enumSpecial R (TypeHinted.fromType ty) vs i = .fixed k ∧ bs.length = k.len ∧
        d = ⟨.fixed k bs, p.info⟩) ∨
      (∃ n inf vs' item j v ds rest,
        enumSpecial R (TypeHinted.fromType ty) vs i = .palletSpecific n inf vs' item ∧
        bs = j :: rest ∧ vs'.find? (fun v => v.index == j) = some v ∧
        FieldsTop Q v.fields Checker.new ds rest ∧
        d = ⟨.pallet item inf (collectDocs v.docs) n v.name ds, p.info⟩) := by
    intro d bs h
    generalize hbs : i :: bs = xs at h
    cases h with
    | ofDef _ h =>
      cases h with
      | enum h1 h2 h3 h4 h5 =>
        rw [hd] at h1; cases h1; cases hbs
        exact .inl ⟨_, _, h3, h4, h5, rfl⟩
      | emptyEnum => cases hbs
      | _ => simp_all
    | signature h1 h2 h3 h4 h5 =>
      rw [hd] at h1; cases h1; cases hbs
      exact .inr (.inl ⟨_, h4, h5, rfl⟩)
    | pallet h1 h2 h3 h4 h5 h6 =>
      rw [hd] at h1; cases h1; cases hbs
      exact .inr (.inr ⟨_, _, _, _, _, _, _, _, h4, rfl, h5, h6, rfl⟩)
    | _ => rename_i hx; first | (rw [hx] at ho; cases ho) | (simp_all [TypeHinted.open])
  rcases enumSpecial_cases (R := R) (TypeHinted.fromType ty) vs i with hs | ⟨k, hh, hs⟩ | ⟨item, n, inf, vs', hh, hs⟩
  · simp only [hs]
    cases hf : vs.find? (fun v => v.index == i) with
    | none =>
      refine (Parses.fail (fun pos => ⟨_, rfl⟩)).congr ?_
      intro d bs
      simp only [false_iff]
      intro h
      rcases hinv d bs h with ⟨v, ds, h1, h2⟩ | ⟨k, h1, h2⟩ | ⟨_, _, _, _, _, _, _, _, h1, _⟩
      · rw [hf] at h1; cases h1
      · rw [hs] at h1; cases h1
      · rw [hs] at h1; cases h1
    | some v =>
      refine (Parses.map (decodeFields_parses hrec Checker.new v.fields)
        (fun fs => (⟨.variant v.name (collectDocs v.docs) fs, p.info⟩ : ED))).congr ?_
      intro d bs
      constructor
      · rintro ⟨fs, rfl, h⟩
        exact .ofDef ho (.enum hd hc hf hs h)
      · intro h
        rcases hinv d bs h with ⟨v', ds, h1, h2, h3, rfl⟩ | ⟨k, h1, h2⟩ | ⟨_, _, _, _, _, _, _, _, h1, _⟩
        · rw [hf] at h1; cases h1; exact ⟨ds, rfl, h3⟩
        · rw [hs] at h1; cases h1
        · rw [hs] at h1; cases h1
  · simp only [hs]
    refine (withInfo_parses p.info (parseFixed_parses k none)).congr ?_
    intro d bs
    constructor
    · rintro ⟨a, rfl, _, rfl, h⟩
      exact .signature hd hc hh hs h
    · intro h
      rcases hinv d bs h with ⟨v', ds, h1, h2, h3⟩ | ⟨k, h1, h2, rfl⟩ | ⟨_, _, _, _, _, _, _, _, h1, _⟩
      · rw [hs] at h2; cases h2
      · rw [hs] at h1; cases h1; exact ⟨_, rfl, rfl, rfl, h2⟩
      · rw [hs] at h1; cases h1
  · simp only [hs]
    refine (decodeVariant_map hrec vs' (fun v fs =>
      (⟨.pallet item inf (collectDocs v.docs) n v.name fs, p.info⟩ : ED))).congr ?_
    intro d bs
    constructor
    · rintro ⟨v, fs, j, rest, rfl, rfl, h1, h2⟩
      exact .pallet hd hc hh hs h1 h2
    · intro h
      rcases hinv d bs h with ⟨v', ds, h1, h2, h3⟩ | ⟨k, h1, h2⟩ | ⟨_, _, _, _, j, v, ds, rest, h1, rfl, h2, h3, rfl⟩
      · rw [hs] at h2; cases h2
      · rw [hs] at h1; cases h1
      · rw [hs] at h1; cases h1; exact ⟨v, ds, j, rest, rfl, rfl, h2, h3⟩

/-- One call, after the type is resolved. -/
theorem tyRel_parses (hrec : RecParses b rec Q) (ty : Typ) (id : Nat) (p : Propagated) :
    Parses b (fun pos => TypeChecked.fromType R ty b pos >>= fun (sp, pos) =>
      decodeChecked R rec b sp ty id pos p) (TyRel R Q ty id p) := by
  cases hh : TypeHinted.fromType ty with
  | fixed k =>
    refine ((withInfo_parses p.info (parseFixed_parses k p.compactAt)).congr ?_).funCongr ?_
    · intro d bs
      constructor
      · rintro ⟨a, rfl, h1, rfl, h2⟩; exact .fixed hh h1 h2
      · intro h
        cases h with
        | fixed h1 h2 h3 => rw [hh] at h1; cases h1; exact ⟨_, rfl, h2, rfl, h3⟩
        | _ => simp_all [TypeHinted.open]
    · intro pos; simp [TypeChecked.fromType, hh, ok_bind, decodeChecked]
  | era =>
    refine ((Parses.guard (r := p.rejectCompact) (fun _ => Parses.map specialCaseEra_parses
      (fun e => (⟨.era e, p.info⟩ : ED)))).congr ?_).funCongr ?_
    · intro d bs
      rw [propReject_ok]
      constructor
      · rintro ⟨h1, e, rfl, h2, rfl⟩; exact .era hh h1 h2
      · intro h
        cases h with
        | era h1 h2 h3 => exact ⟨h2, _, rfl, h3, rfl⟩
        | _ => simp_all [TypeHinted.open]
    · intro pos; simp [TypeChecked.fromType, hh, ok_bind, decodeChecked]
  | h256 =>
    refine ((Parses.guard (r := p.rejectCompact) (fun _ => withInfo_parses p.info
      (specialCaseH256_parses p.checker.specialtySet.hint.hash256))).congr ?_).funCongr ?_
    · intro d bs
      rw [propReject_ok]
      constructor
      · rintro ⟨h1, a, rfl, rfl, h2⟩; exact .h256 hh h1 h2
      · intro h
        cases h with
        | h256 h1 h2 h3 => exact ⟨h2, _, rfl, rfl, h3⟩
        | _ => simp_all [TypeHinted.open]
    · intro pos; simp [TypeChecked.fromType, hh, ok_bind, decodeChecked]
  | perThing k =>
    refine ((withInfo_parses p.info (parsePer_parses k p.compactAt)).congr ?_).funCongr ?_
    · intro d bs
      constructor
      · rintro ⟨a, rfl, v, rfl, h⟩
        split at h
        · rename_i hc
          obtain ⟨v', h1, rfl, rfl⟩ := h
          exact .perCompact hh hc h1
        · rename_i hc
          obtain ⟨h1, rfl⟩ := h
          exact .per hh (by simpa using hc) h1
      · intro h
        cases h with
        | per h1 h2 h3 =>
          rw [hh] at h1; cases h1
          exact ⟨_, rfl, _, rfl, by rw [if_neg (by simp [h2])]; exact ⟨h3, rfl⟩⟩
        | perCompact h1 h2 h3 =>
          rw [hh] at h1; cases h1
          exact ⟨_, rfl, _, rfl, by rw [if_pos h2]; exact ⟨_, h3, rfl, rfl⟩⟩
        | _ => simp_all [TypeHinted.open]
    · intro pos; simp [TypeChecked.fromType, hh, ok_bind, decodeChecked]
  | none | multiSignature | palletSpecific item | uncheckedExtrinsic =>
    all_goals
      have ho : (TypeHinted.fromType ty).open = true := by rw [hh]; rfl
      clear hh
      by_cases hv : ∃ vs, ty.typeDef = .variant vs
      · obtain ⟨vs, hd⟩ := hv
        refine Parses.okCongr ?_ (fun pos r => enum_ok_iff ho hd)
        cases vs with
        | nil =>
          refine (Parses.guard (r := p.rejectCompact) (fun _ =>
            Parses.pure (⟨.emptyEnum, p.info⟩ : ED))).congr ?_
          intro d bs
          rw [propReject_ok]
          constructor
          · rintro ⟨h1, rfl, rfl⟩; exact .ofDef ho (.emptyEnum hd h1)
          · intro h
            cases h with
            | ofDef _ h =>
              cases h with
              | emptyEnum h1 h2 => exact ⟨h2, rfl, rfl⟩
              | enum h1 h2 h3 => rw [hd] at h1; cases h1; simp at h3
              | _ => simp_all
            | signature h1 _ _ h4 => rw [hd] at h1; cases h1; simp_all [enumSpecial]
            | pallet h1 _ h3 h4 => rw [hd] at h1; cases h1; simp_all [enumSpecial]
            | fixed hx => rw [hx] at ho; cases ho
            | era hx => rw [hx] at ho; cases ho
            | h256 hx => rw [hx] at ho; cases ho
            | per hx => rw [hx] at ho; cases ho
            | perCompact hx => rw [hx] at ho; cases ho
        | cons v0 vs0 =>
          refine (Parses.guard (r := p.rejectCompact) (fun hr => Parses.byte (fun i =>
            enumBody_parses (R := R) hrec ty id p (v0 :: vs0) i (propReject_ok.1 hr) ho hd))).congr ?_
          intro d bs
          rw [propReject_ok]
          constructor
          · rintro ⟨_, i, rest, rfl, h⟩; exact h
          · intro h
            cases h with
            | ofDef _ h =>
              cases h with
              | emptyEnum h1 h2 => rw [hd] at h1; cases h1
              | enum h1 h2 h3 h4 h5 =>
                exact ⟨h2, _, _, rfl, .ofDef ho (.enum h1 h2 h3 h4 h5)⟩
              | _ => simp_all
            | signature h1 h2 h3 h4 h5 => exact ⟨h2, _, _, rfl, .signature h1 h2 h3 h4 h5⟩
            | pallet h1 h2 h3 h4 h5 h6 => exact ⟨h2, _, _, rfl, .pallet h1 h2 h3 h4 h5 h6⟩
            | fixed hx => rw [hx] at ho; cases ho
            | era hx => rw [hx] at ho; cases ho
            | h256 hx => rw [hx] at ho; cases ho
            | per hx => rw [hx] at ho; cases ho
            | perCompact hx => rw [hx] at ho; cases ho
      · have hv' : ∀ vs, ty.typeDef ≠ .variant vs := fun vs h => hv ⟨vs, h⟩
        refine ((decodeTypeDef_parses (R := R) hrec ty id p hv').congr ?_).funCongr ?_
        · intro d bs
          constructor
          · intro h; exact .ofDef ho h
          · intro h
            cases h with
            | ofDef _ h => exact h
            | signature h1 => exact absurd h1 (hv' _)
            | pallet h1 => exact absurd h1 (hv' _)
            | fixed hx => rw [hx] at ho; cases ho
            | era hx => rw [hx] at ho; cases ho
            | h256 hx => rw [hx] at ho; cases ho
            | per hx => rw [hx] at ho; cases ho
            | perCompact hx => rw [hx] at ho; cases ho
        · intro pos
          rw [fromType_nonEnum ho hv']
          rfl

theorem decodeStep_parses (hrec : RecParses b rec Q) (tyIn : TyIn) (p : Propagated) :
    Parses b (fun pos => decodeStep R b rec tyIn pos p) (StepRel R Q tyIn p) := by
  refine (Parses.lift (r := tyIn.resolve R) (fun c _ =>
    tyRel_parses (R := R) hrec c.1 c.2 (p.addInfo (Info.fromTy c.1)))).congr ?_
  intro d bs
  constructor
  · rintro ⟨⟨ty, id⟩, h1, h2⟩; exact ⟨ty, id, h1, h2⟩
  · rintro ⟨ty, id, h1, h2⟩; exact ⟨⟨ty, id⟩, h1, h2⟩

/-- The decoder with at most `n` nested calls succeeds exactly along `RunN`. -/
theorem decodeF_parses (R : Registry) (b : Buf) (n : Nat) : RecParses b (decodeF R b n) (RunN R n) := by
  induction n with
  | zero => intro tyIn p; exact Parses.fail (fun pos => ⟨_, rfl⟩)
  | succ n ih => intro tyIn p; exact decodeStep_parses ih tyIn p

end Verif
