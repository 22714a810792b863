import Verif.Proof.Pieces
/-!
# C78: decoding in pieces

Decoding a compound type is decoding its parts one after another. Outcomes are compared whole: values,
positions and errors.
-/
namespace Verif
open Spec

variable {R : Registry} {b : Buf} {rk : Nat → Nat}

theorem valueAs_seen (id pos : Nat) : valueAs R b id pos = seenBy edValue (decodeAsTypeAtPosition R b id pos) :=
  told_seen _

/-- Fields of a struct, in any context without a compact mark, are decoded like fields on their own. -/
theorem fieldsLoop_each (hr : Ranked R rk) {c : Checker} (hc : c.specialtySet.compactAt = none) (fs : List Field)
    (hf : ∀ f ∈ fs, ∀ x ∈ c.cycleCheck, rk f.ty < rk x) : ∀ pos,
    seenBy fdsValue (decodeFieldsLoop (decode R b) c fs pos) = seenBy (withNames fs) (eachAs R b (fs.map (·.ty)) pos) := by
  induction fs with
  | nil => intro pos; rfl
  | cons f fs ih =>
    intro pos
    have hcyc : ∀ x ∈ (c.hintFromField f).cycleCheck, rk f.ty < rk x := by
      rw [hintFromField_cycle]; exact hf f (by simp)
    have hnot : (c.hintFromField f).cycleCheck.contains f.ty = false := by
      cases hcon : (c.hintFromField f).cycleCheck.contains f.ty with
      | false => rfl
      | true => have := hcyc _ (by simpa using hcon); omega
    unfold decodeFieldsLoop Propagated.forField Checker.updateForField
    rw [checkId_ok.2 ⟨hnot, rfl⟩]
    simp only [ok_bind, List.map_cons, eachAs, valueAs_seen]
    have ha : EqualContext rk f.ty { c.hintFromField f with cycleCheck := (c.hintFromField f).cycleCheck ++ [f.ty] }
        Checker.new :=
      ⟨by show (c.hintFromField f).specialtySet.compactAt = _
          rw [hintFromField_compact]; exact hc, by
        intro x hx
        rcases List.mem_append.1 hx with hx | hx
        · exact Nat.le_of_lt (hcyc x hx)
        · simp at hx; subst hx; exact Nat.le_refl _, by intro x hx; cases hx⟩
    rcases seen_cases (decode_alike (b := b) hr (.symbol f.ty) pos ⟨_, []⟩ Propagated.new trivial ha) with
      ⟨a, a', q, e1, e2, e3⟩ | ⟨e, e1, e2⟩
    · rw [e1, show decodeAsTypeAtPosition R b f.ty pos = .ok (a', q) from e2]
      simp only [ok_bind, seenBy]
      have h := ih (fun g hg => hf g (by simp [hg])) q
      cases h1 : decodeFieldsLoop (decode R b) c fs q with
      | error e =>
        rw [h1] at h
        cases h2 : eachAs R b (fs.map (·.ty)) q with
        | error e' => rw [h2] at h; exact h
        | ok r => rw [h2] at h; obtain ⟨l, q'⟩ := r; cases h
      | ok r =>
        rw [h1] at h
        obtain ⟨l, q'⟩ := r
        cases h2 : eachAs R b (fs.map (·.ty)) q with
        | error e' => rw [h2] at h; cases h
        | ok r =>
          rw [h2] at h
          obtain ⟨l', q''⟩ := r
          simp only [seenBy, Except.ok.injEq, Prod.mk.injEq] at h
          obtain ⟨h3, rfl⟩ := h
          simp only [ok_bind, seenBy, fdsValue, fdValue, e3, h3]
          rfl
    · rw [e1, show decodeAsTypeAtPosition R b f.ty pos = .error e from e2]
      rfl

theorem seen_seen {α β γ : Type} (f : α → β) (g : β → γ) (r : Res (α × Nat)) :
    seenBy g (seenBy f r) = seenBy (fun a => g (f a)) r := by cases r <;> rfl

theorem assembled_seen (f : List Value → Value) (r : Res (List Value × Nat)) : assembled f r = seenBy f r := by
  cases r <;> rfl

theorem fields_each (hr : Ranked R rk) {c : Checker} (hc : c.specialtySet.compactAt = none) (fs : List Field)
    (hf : ∀ f ∈ fs, ∀ x ∈ c.cycleCheck, rk f.ty < rk x) (pos : Nat) :
    seenBy fdsValue (decodeFields (decode R b) fs pos c) = seenBy (withNames fs) (eachAs R b (fs.map (·.ty)) pos) := by
  unfold decodeFields
  split
  · have : c.rejectCompact = .ok () := rejectCompact_ok.2 hc
    rw [this]
    exact fieldsLoop_each (c := c.forgetHint) hr (by rw [forgetHint_compact]; exact hc) fs hf pos
  · exact fieldsLoop_each hr hc fs hf pos

/-- A call of the decoder on a type whose layout is given by its definition, enums aside. -/
theorem valueAs_typeDef {id pos : Nat} {t : Typ} (ht : R.resolve id = .ok t) (hs : Structural t.path)
    (hd : ∀ vs, t.typeDef ≠ .variant vs) :
    ∃ i, valueAs R b id pos = seenBy edValue (decodeTypeDef R (decode R b) b t id pos ⟨Checker.new, i⟩) := by
  rw [valueAs_seen]
  unfold decodeAsTypeAtPosition
  rw [decode_symbol_ok (get_ok.2 ht), decode_fix]
  unfold decodeStep
  simp only [TyIn.resolve, ok_bind]
  rw [fromType_nonEnum (hinted_open.2 hs) hd]
  simp only [ok_bind, decodeChecked]
  refine ⟨(Propagated.new.addInfo (Info.fromTy t)).info, ?_⟩
  have : Propagated.new.addInfo (Info.fromTy t) = ⟨Checker.new, (Propagated.new.addInfo (Info.fromTy t)).info⟩ := by
    have := addInfo_checker Propagated.new (Info.fromTy t)
    cases h : Propagated.new.addInfo (Info.fromTy t) with
    | mk c i => rw [h] at this; exact congrArg (Propagated.mk · i) this
  rw [← this]

/-- **C78**, structs. A struct is decoded as its fields are, one after another; one with a single field is decoded
as the field is. -/
theorem pieces_struct (hr : Ranked R rk) {id : Nat} {t : Typ} {fields : List Field} (ht : R.resolve id = .ok t)
    (hs : Structural t.path) (hd : t.typeDef = .composite fields) (pos : Nat) :
    valueAs R b id pos =
      assembled (fun vs => recordValue (withNames fields vs)) (eachAs R b (fields.map (·.ty)) pos) := by
  obtain ⟨i, h⟩ := valueAs_typeDef (b := b) (pos := pos) ht hs (by rw [hd]; simp)
  rw [h, assembled_seen, ← seen_seen (withNames fields) recordValue, ← fields_each hr (c := Checker.new) rfl fields
    (by intro f _ x hx; cases hx)]
  unfold decodeTypeDef
  rw [hd]
  simp only
  cases decodeFields (decode R b) fields pos Checker.new <;> rfl

/-- **C78**, tuples. -/
theorem pieces_tuple (hr : Ranked R rk) {id : Nat} {t : Typ} {ids : List Nat} (ht : R.resolve id = .ok t)
    (hs : Structural t.path) (hd : t.typeDef = .tuple ids) (pos : Nat) :
    valueAs R b id pos = assembled Value.tuple (eachAs R b ids pos) := by
  obtain ⟨i, h⟩ := valueAs_typeDef (b := b) (pos := pos) ht hs (by rw [hd]; simp)
  have loop : ∀ (c : Checker), c.specialtySet.compactAt = none → c.cycleCheck = [] → ∀ ids pos,
      seenBy edsValue (decodeTupleLoop R (decode R b) c ids pos) = eachAs R b ids pos := by
    intro c hc hcyc ids
    induction ids with
    | nil => intro pos; rfl
    | cons i ids ih =>
      intro pos
      unfold decodeTupleLoop
      simp only [eachAs, valueAs_seen]
      cases hg : R.get i with
      | error e =>
        rw [show decodeAsTypeAtPosition R b i pos = .error e from decode_symbol_err hg pos _]
        rfl
      | ok ty =>
        simp only [ok_bind, Propagated.forTy, Checker.updateForTy]
        rw [checkId_ok.2 ⟨by rw [hcyc]; rfl, rfl⟩]
        simp only [ok_bind]
        have hdec : decodeAsTypeAtPosition R b i pos = decode R b (.resolved ty i) pos Propagated.new :=
          decode_symbol_ok hg pos _
        rcases seen_cases (decode_alike (b := b) hr (.resolved ty i) pos
            ⟨{ c with cycleCheck := c.cycleCheck ++ [i], specialtySet := c.specialtySet.updateFromPath ty }, []⟩
            Propagated.new (get_ok.1 hg)
            ⟨by simp only [updateFromPath_compact]; exact hc, by
              intro x hx
              rw [hcyc] at hx
              simp at hx
              subst hx
              exact Nat.le_refl _, by intro x hx; cases hx⟩) with ⟨a, a', q, e1, e2, e3⟩ | ⟨e, e1, e2⟩
        · rw [e1, hdec, e2]
          have h := ih q
          simp only [ok_bind, seenBy]
          rw [← h, ← e3]
          cases decodeTupleLoop R (decode R b) c ids q <;> rfl
        · rw [e1, hdec, e2]; rfl
  have hloop : ∀ (p : Propagated), p.checker.specialtySet.compactAt = none → p.checker.cycleCheck = [] →
      seenBy edValue (decodeTupleLoop R (decode R b) p.checker ids pos >>= fun x =>
        .ok (⟨.tuple x.1, p.info⟩, x.2)) = assembled Value.tuple (eachAs R b ids pos) := by
    intro p h1 h2
    rw [← loop _ h1 h2]
    cases decodeTupleLoop R (decode R b) p.checker ids pos <;> rfl
  rw [h]
  unfold decodeTypeDef decodeTuple
  rw [hd]
  dsimp only
  split
  · rw [show Propagated.rejectCompact ⟨Checker.new, i⟩ = .ok () from rfl]
    exact hloop (Propagated.forgetHint ⟨Checker.new, i⟩) rfl rfl
  · exact hloop ⟨Checker.new, i⟩ rfl rfl

theorem elements_each {h : HuskedType} {elem : Nat} (hdec : ∀ pos, seenBy edValue (decodeAsTypeAtPosition R b elem pos) =
      seenBy edValue (decode R b (.resolved h.ty h.id) pos (Propagated.withChecker h.checker))) (n : Nat) :
    ∀ pos, seenBy pdsValue (decodeElementsLoop (decode R b) h n pos) = eachAs R b (List.replicate n elem) pos := by
  induction n with
  | zero => intro pos; rfl
  | succ n ih =>
    intro pos
    unfold decodeElementsLoop
    simp only [List.replicate_succ, eachAs, valueAs_seen]
    rcases seen_cases (hdec pos) with ⟨a, a', q, e1, e2, e3⟩ | ⟨e, e1, e2⟩
    · rw [e1, e2]
      simp only [ok_bind, seenBy]
      rw [← ih q]
      have e3 : pdValue a.data = pdValue a'.data := by cases a; cases a'; exact e3
      rw [show edValue a = pdValue a.data by cases a; rfl, e3]
      cases decodeElementsLoop (decode R b) h n q <;> rfl
    · rw [e1, e2]; rfl

theorem known_husk {elem : Nat} (hk : Known R elem) : ∃ h, huskType R elem Checker.new = .ok h := by
  obtain ⟨c', core, coreId, k, hc⟩ := hk
  obtain ⟨h, h1, _⟩ := huskType_of_core (coreHeight_down (R := R)) hc (ch := Checker.new) (by intro x hx; cases hx)
  exact ⟨h, h1⟩

theorem elementsSet_each (hr : Ranked R rk) (elem n pos : Nat) (hk : n = 0 → Known R elem) (i : List Info) :
    seenBy edValue (decodeElementsSet R (decode R b) elem n pos ⟨Checker.new, i⟩) =
      assembled Value.seq (eachAs R b (List.replicate n elem) pos) := by
  rw [elementsSet_value, assembled_seen, show Propagated.rejectCompact ⟨Checker.new, i⟩ = .ok () from rfl]
  dsimp only
  rcases huskType_decode (b := b) hr (elem := elem) (c := Checker.new) (by intro x hx; cases hx) pos with
    ⟨h, h1, _, _, h4⟩ | ⟨e, h1, h2⟩
  · rw [h1]
    dsimp only
    rw [elements_each h4 n pos]
  · rw [h1]
    dsimp only
    cases n with
    | zero =>
      obtain ⟨h, hh⟩ := known_husk (hk rfl)
      rw [hh] at h1; cases h1
    | succ n =>
      simp only [List.replicate_succ, eachAs, valueAs_seen, h2]
      rfl

/-- **C78**, arrays. -/
theorem pieces_array (hr : Ranked R rk) {id : Nat} {t : Typ} {n elem : Nat} (ht : R.resolve id = .ok t)
    (hs : Structural t.path) (hd : t.typeDef = .array n elem) (hk : n = 0 → Known R elem) (pos : Nat) :
    valueAs R b id pos = assembled Value.seq (eachAs R b (List.replicate n elem) pos) := by
  obtain ⟨i, h⟩ := valueAs_typeDef (b := b) (pos := pos) ht hs (by rw [hd]; simp)
  rw [h]
  unfold decodeTypeDef
  rw [hd]
  exact elementsSet_each hr elem n pos hk i

/-- **C78**, vectors: the length, then as many elements. -/
theorem pieces_vector (hr : Ranked R rk) {id : Nat} {t : Typ} {elem : Nat} (ht : R.resolve id = .ok t)
    (hs : Structural t.path) (hd : t.typeDef = .sequence elem) (hk : Known R elem) (pos : Nat) :
    valueAs R b id pos =
      match getCompact (compactUInt .u32) b pos with
      | .error e => .error e
      | .ok (n, pos) => assembled Value.seq (eachAs R b (List.replicate n elem) pos) := by
  obtain ⟨i, h⟩ := valueAs_typeDef (b := b) (pos := pos) ht hs (by rw [hd]; simp)
  rw [h]
  unfold decodeTypeDef
  rw [hd]
  dsimp only
  cases getCompact (compactUInt .u32) b pos with
  | error e => rfl
  | ok r =>
    obtain ⟨n, q⟩ := r
    exact elementsSet_each hr elem n q (fun _ => hk) i

/-! ### Enums -/

theorem variant_each (hr : Ranked R rk) (vs : List Variant) (pos : Nat) :
    seenBy (fun x : Variant × List FD => (x.1, fdsValue x.2))
        ((decodeVariant (decode R b) vs b pos).map fun x => ((x.1, x.2.1), x.2.2)) =
      match pickVariant vs b pos with
      | .error e => .error e
      | .ok v => seenBy (fun xs => (v, withNames v.fields xs)) (eachAs R b (v.fields.map (·.ty)) (pos + 1)) := by
  unfold decodeVariant
  cases pickVariant vs b pos with
  | error e => rfl
  | ok v =>
    simp only [ok_bind]
    rw [← seen_seen (withNames v.fields) (fun l => (v, l)), ← fields_each hr (c := Checker.new) rfl v.fields
      (by intro f _ x hx; cases hx)]
    cases decodeFields (decode R b) v.fields (pos + 1) Checker.new <;> rfl

/-- **C78**, enums: the index, then the fields of the variant, when the variant is not shown as a signature or
as a call or event of a pallet. -/
theorem pieces_enum (hr : Ranked R rk) {id : Nat} {t : Typ} {vs : List Variant} (ht : R.resolve id = .ok t)
    (hs : Structural t.path) (hd : t.typeDef = .variant vs) (hne : vs ≠ []) (pos : Nat)
    (hsig : ∀ i k, b.readByte pos = .ok i → ¬ IsSignature R t i k)
    (hpal : ∀ i item n inner, b.readByte pos = .ok i → ¬ IsPallet R t i item n inner) :
    valueAs R b id pos =
      match pickVariant vs b pos with
      | .error e => .error e
      | .ok v => assembled (fun xs => .variant v.name (withNames v.fields xs))
          (eachAs R b (v.fields.map (·.ty)) (pos + 1)) := by
  have hft : TypeChecked.fromType R t b pos = .ok (.none, pos) := by
    rcases (readByte_fine b pos).cases with ⟨i, hi⟩ | ⟨e, he⟩
    · rw [fromType_enum_ok (hinted_open.2 hs) hd hi, (enumSpecial_none hd).2 ⟨fun k => hsig i k hi,
        fun item n inner => hpal i item n inner hi⟩]
      rfl
    · exact fromType_enum_err (hinted_open.2 hs) hd he
  rw [valueAs_seen]
  unfold decodeAsTypeAtPosition
  rw [decode_symbol_ok (get_ok.2 ht), decode_fix]
  unfold decodeStep
  simp only [TyIn.resolve, ok_bind, hft, decodeChecked, decodeTypeDef, hd]
  have hrj : (Propagated.new.addInfo (Info.fromTy t)).rejectCompact = .ok () := by
    unfold Propagated.rejectCompact; rw [addInfo_checker]; rfl
  rw [hrj]
  have hv : vs.isEmpty = false := by cases vs <;> simp_all
  simp only [ok_bind, hv, Bool.false_eq_true, if_false]
  have h := variant_each (b := b) hr vs pos
  cases hp : pickVariant vs b pos with
  | error e => 
    rw [hp] at h
    unfold decodeVariant
    rw [hp]
    rfl
  | ok v =>
    rw [hp] at h
    dsimp only at h ⊢
    rw [assembled_seen]
    cases h1 : decodeVariant (decode R b) vs b pos with
    | error e =>
      rw [h1] at h
      cases h2 : eachAs R b (v.fields.map (·.ty)) (pos + 1) with
      | error e' => rw [h2] at h; simp only [Except.map, seenBy, Except.error.injEq] at h; subst h; rfl
      | ok r => rw [h2] at h; obtain ⟨l, q⟩ := r; cases h
    | ok r =>
      obtain ⟨v', l', q'⟩ := r
      rw [h1] at h
      cases h2 : eachAs R b (v.fields.map (·.ty)) (pos + 1) with
      | error e' => rw [h2] at h; cases h
      | ok r =>
        rw [h2] at h; obtain ⟨l, q⟩ := r
        simp only [Except.map, seenBy, Except.ok.injEq, Prod.mk.injEq] at h
        obtain ⟨⟨rfl, h3⟩, rfl⟩ := h
        simp only [ok_bind, seenBy, edValue, pdValue, h3]

/-- **C78**, calls and events: the index of the pallet, the index of its item, then the fields. -/
theorem pieces_pallet (hr : Ranked R rk) {id : Nat} {t : Typ} {i : UInt8} {item : PalletItem} {name : String}
    {inner : List Variant} (ht : R.resolve id = .ok t) (pos : Nat) (hi : b.readByte pos = .ok i)
    (hp : IsPallet R t i item name inner) :
    valueAs R b id pos =
      match pickVariant inner b (pos + 1) with
      | .error e => .error e
      | .ok v => assembled (fun xs => .pallet item name v.name (withNames v.fields xs))
          (eachAs R b (v.fields.map (·.ty)) (pos + 2)) := by
  obtain ⟨hsp, vs, v0, f, t', hd, _⟩ := _root_.id hp
  have ho : (TypeHinted.fromType t).open = true := hinted_open.2 (by unfold Structural; rw [hsp]; trivial)
  obtain ⟨info, he⟩ := (enumSpecial_pallet hd).2 hp
  have hft := fromType_enum_ok (R := R) ho hd hi
  rw [he] at hft
  rw [valueAs_seen]
  unfold decodeAsTypeAtPosition
  rw [decode_symbol_ok (get_ok.2 ht), decode_fix]
  unfold decodeStep
  simp only [TyIn.resolve, ok_bind, hft, decodeChecked, afterSpecial]
  have hrj : (Propagated.new.addInfo (Info.fromTy t)).rejectCompact = .ok () := by
    unfold Propagated.rejectCompact; rw [addInfo_checker]; rfl
  rw [hrj]
  simp only [ok_bind]
  have h := variant_each (b := b) hr inner (pos + 1)
  cases hpk : pickVariant inner b (pos + 1) with
  | error e => 
    unfold decodeVariant
    rw [hpk]
    rfl
  | ok v =>
    rw [hpk] at h
    dsimp only at h ⊢
    rw [assembled_seen]
    cases h1 : decodeVariant (decode R b) inner b (pos + 1) with
    | error e =>
      rw [h1] at h
      cases h2 : eachAs R b (v.fields.map (·.ty)) (pos + 1 + 1) with
      | error e' => rw [h2] at h; simp only [Except.map, seenBy, Except.error.injEq] at h; subst h; rfl
      | ok r => rw [h2] at h; obtain ⟨l, q⟩ := r; cases h
    | ok r =>
      obtain ⟨v', l', q'⟩ := r
      rw [h1] at h
      cases h2 : eachAs R b (v.fields.map (·.ty)) (pos + 1 + 1) with
      | error e' => rw [h2] at h; cases h
      | ok r =>
        rw [h2] at h; obtain ⟨l, q⟩ := r
        simp only [Except.map, seenBy, Except.ok.injEq, Prod.mk.injEq] at h
        obtain ⟨⟨rfl, h3⟩, rfl⟩ := h
        simp only [ok_bind, seenBy, edValue, pdValue, h3]

/-- **C78**, signatures: the index, then the bytes of the signature. -/
theorem pieces_signature {id : Nat} {t : Typ} {i : UInt8} {k : FixedKind} (ht : R.resolve id = .ok t) (pos : Nat)
    (hi : b.readByte pos = .ok i) (hp : IsSignature R t i k) :
    valueAs R b id pos =
      match b.readSlice (pos + 1) k.len with
      | .error e => .error e
      | .ok bs => .ok (.fixed k bs, pos + 1 + k.len) := by
  obtain ⟨hsp, vs, v0, f, hd, _⟩ := _root_.id hp
  have ho : (TypeHinted.fromType t).open = true := hinted_open.2 (by unfold Structural; rw [hsp]; trivial)
  have hft := fromType_enum_ok (R := R) ho hd hi
  rw [(enumSpecial_fixed hd).2 hp] at hft
  rw [valueAs_seen]
  unfold decodeAsTypeAtPosition
  rw [decode_symbol_ok (get_ok.2 ht), decode_fix]
  unfold decodeStep
  simp only [TyIn.resolve, ok_bind, hft, decodeChecked, afterSpecial]
  have hc : (Propagated.new.addInfo (Info.fromTy t)).compactAt = none := by
    unfold Propagated.compactAt; rw [addInfo_checker]; rfl
  rw [hc]
  unfold parseFixed cutArray
  cases hsl : b.readSlice (pos + 1) k.len with
  | error e => rfl
  | ok x =>
    rw [ok_bind, if_neg (by rw [(readSlice_ok hsl).2]; simp)]
    rfl

/-! ### A registry with all of these -/

namespace PiecesExample

/-- `0: u8`, `1: u32`, `2: (u8, u32)`, `3: struct { a: (u8, u32), b: u8 }`, `4: [u8; 64]`, `5: struct W((u8, u32))`,
`6: [W; 2]`, `7: Vec<W>`, `8: enum { A, B(3) }`, `9: Call { transfer(u32) }`, `10: RuntimeCall { Balances(9) }`,
`11: MultiSignature { Sr25519([u8; 64]) }`. -/
def types : List Typ :=
  [ { typeDef := .primitive .u8 },
    { typeDef := .primitive .u32 },
    { typeDef := .tuple [0, 1] },
    { path := ["S"], typeDef := .composite [{ name := some "a", ty := 2 }, { name := some "b", ty := 0 }] },
    { typeDef := .array 64 0 },
    { path := ["W"], typeDef := .composite [{ ty := 2 }] },
    { typeDef := .array 2 5 },
    { typeDef := .sequence 5 },
    { path := ["E"], typeDef := .variant [{ name := "A", index := 0 }, { name := "B", index := 1, fields := [{ ty := 3 }] }] },
    { path := ["pallet_balances", "pallet", "Call"],
      typeDef := .variant [{ name := "transfer", index := 0, fields := [{ name := some "value", ty := 1 }] }] },
    { path := ["runtime", "RuntimeCall"], typeDef := .variant [{ name := "Balances", index := 4, fields := [{ ty := 9 }] }] },
    { path := ["sp_runtime", "MultiSignature"], typeDef := .variant
        [{ name := "Sr25519", index := 1, fields := [{ ty := 4, typeName := some "sr25519::Signature" }] }] } ]

/-- Registry of the types. -/
def reg : Registry := Registry.portable types

/-- Rank of the types. -/
def rank : Nat → Nat
  | 2 => 1 | 3 => 2 | 4 => 1 | 5 => 2 | 6 => 3 | _ => 0

theorem ranked : Ranked reg rank := Example.ranked_of_check (by decide)

theorem known5 : Known reg 5 :=
  ⟨_, _, _, _, .struct (f := { ty := 2 }) rfl rfl rfl (.stop (t := { typeDef := .tuple [0, 1] }) rfl (fun _ => by simp))⟩

/-- Bytes of all sorts. -/
def data : Buf := Buf.ofBytes ([1, 7, 1, 0, 0, 0, 8, 2, 0, 0] ++ [4, 0, 9, 0, 0, 0] ++ [1] ++ List.replicate 64 3)

example (pos : Nat) := pieces_struct (b := data) ranked (id := 3) rfl trivial rfl pos
example (pos : Nat) := pieces_tuple (b := data) ranked (id := 2) rfl trivial rfl pos
example (pos : Nat) := pieces_array (b := data) ranked (id := 6) rfl trivial rfl (fun h => by cases h) pos
example (pos : Nat) := pieces_vector (b := data) ranked (id := 7) rfl trivial rfl known5 pos
example := pieces_enum (b := data) ranked (id := 8) rfl trivial rfl (by simp) 0
  (fun i k _ h => by have := h.1; cases this) (fun i item n inner _ h => by have := h.1; cases this)
example := pieces_pallet (b := data) ranked (id := 10) (i := 4) (item := .call) (name := "Balances") rfl 10 (by rfl)
  ⟨rfl, _, _, _, _, rfl, ⟨[], [], rfl, rfl, by simp⟩, rfl, rfl, rfl, rfl, rfl⟩
example := pieces_signature (b := data) (R := reg) (id := 11) (i := 1) (k := .signatureSr25519) rfl 16 (by rfl)
  ⟨rfl, _, _, _, rfl, ⟨[], [], rfl, rfl, by simp⟩, rfl, .inr (.inr ⟨rfl, rfl⟩), _, _, _, _, _, _,
    .stop (t := { typeDef := .array 64 0 }) rfl (fun _ => by simp), rfl, rfl, rfl⟩

/-- An outcome with a value, and one with an error: the data end inside the second element of the array. -/
example : (valueAs reg data 8 0).toOption.map (·.2) = some 7 := by decide +kernel
example : (valueAs reg data 6 72).toOption.isSome = false := by decide +kernel

end PiecesExample

end Verif
