import Verif.Proof.Hints
import Verif.Proof.Shown
import Verif.Props.Decode
/-!
# Hints: what they change, where they go, and what is shown beside values
-/
namespace Verif
open Spec

variable {R : Registry} {b : Buf}

/-- The same propagated data, with another hint. -/
def Propagated.withHint (p : Propagated) (h : Hint) : Propagated :=
  { p with checker := { p.checker with specialtySet := { p.checker.specialtySet with hint := h } } }

theorem same_withHint (p : Propagated) (h h' : Hint) : SameP (p.withHint h) (p.withHint h') :=
  ⟨⟨rfl, rfl⟩, rfl⟩

/-! ### C08 hints do not change what is decoded -/

/-- C08. With any two hints, decoding fails with the same error, or succeeds with
trees of the same value that differ in labels only, at the same position. -/
theorem decode_hint_independent (id pos : Nat) (p : Propagated) (h h' : Hint) :
    (∃ e, decode R b (.symbol id) pos (p.withHint h) = .error e ∧
      decode R b (.symbol id) pos (p.withHint h') = .error e) ∨
    ∃ d d' q, decode R b (.symbol id) pos (p.withHint h) = .ok (d, q) ∧
      decode R b (.symbol id) pos (p.withHint h') = .ok (d', q) ∧
      edValue d = edValue d' ∧ d.unlabel = d'.unlabel := by
  rcases relab_cases (decode_same (R := R) (b := b) (.symbol id) pos _ _ (same_withHint p h h')) with
    ⟨d, d', q, h1, h2, h3⟩ | ⟨e, h1, h2⟩
  · refine .inr ⟨d, d', q, h1, h2, ?_, h3⟩
    rw [← unlabel_edValue d, h3, unlabel_edValue]
  · exact .inl ⟨e, h1, h2⟩

/-- C08. In particular the identifier of a signed extension does not change what is
decoded. -/
theorem decode_identifier_independent (id pos : Nat) (a a' : String) :
    (∃ e, decode R b (.symbol id) pos (.fromExtMeta a) = .error e ∧
      decode R b (.symbol id) pos (.fromExtMeta a') = .error e) ∨
    ∃ d d' q, decode R b (.symbol id) pos (.fromExtMeta a) = .ok (d, q) ∧
      decode R b (.symbol id) pos (.fromExtMeta a') = .ok (d', q) ∧
      edValue d = edValue d' ∧ d.unlabel = d'.unlabel :=
  decode_hint_independent id pos {} (Hint.fromExtMeta a) (Hint.fromExtMeta a')

/-- The labels do differ: same bytes, same number, nonce or tip. -/
example : decode Example.reg (Buf.ofBytes [5]) (.symbol 0) 0 (.fromExtMeta "CheckNonce") =
      .ok (⟨.uint .u8 5 .nonce, []⟩, 1) ∧
    decode Example.reg (Buf.ofBytes [5]) (.symbol 0) 0 (.fromExtMeta "ChargeTransactionPayment") =
      .ok (⟨.uint .u8 5 .tip, []⟩, 1) := ⟨rfl, rfl⟩

/-! ### C48 what is shown -/

/-- C48. The decoded tree carries the names, docs, paths and labels of the registry:
it is `Shown` for the type, starting from the hint and the infos collected above. -/
theorem decode_shown {id pos pos' : Nat} {p : Propagated} {d : ED}
    (h : decode R b (.symbol id) pos p = .ok (d, pos')) :
    Shown R p.checker.specialtySet.hint p.info id d := by
  obtain ⟨bs, _, _, h3⟩ := (decode_parses R b (.symbol id) p).sound h
  exact run_shown.symbol h3

/-- C48, for `decode_all_as_type`. -/
theorem decodeAllAsType_shown {id : Nat} {d : ED} (h : decodeAllAsType R b id = .ok d) :
    Shown R .none [] id d := by
  unfold decodeAllAsType at h
  obtain ⟨⟨d', pos⟩, h1, h2⟩ := bind_ok.1 h
  simp only at h2
  split at h2
  · cases h2
  · cases h2; exact decode_shown h1

example : ∃ ds, decodeAllAsType Example.reg (Buf.ofBytes Example.sBytes) 4 =
    .ok ⟨.composite ds, [⟨"", ["a", "S"]⟩]⟩ ∧ ds.map (·.fieldName) = [some "a", some "b", some "c"] :=
  ⟨_, rfl, rfl⟩

/-! ### C40 labels of fields -/

/-- C40. A field with one of the five names is labelled by the name, whatever its type
name. -/
theorem field_label_by_name (f : Field) :
    (f.name = some "nonce" → Hint.fromField f = .fieldNonce) ∧
    (f.name = some "spec_version" → Hint.fromField f = .fieldSpecVersion) ∧
    (f.name = some "spec_name" → Hint.fromField f = .fieldSpecName) ∧
    (f.name = some "tx_version" ∨ f.name = some "transaction_version" →
      Hint.fromField f = .fieldTxVersion) := by
  rw [fieldLabel_eq]
  unfold fieldLabel
  refine ⟨?_, ?_, ?_, ?_⟩
  · intro h; simp [h]
  · intro h; simp [h]
  · intro h; simp [h]
  · rintro (h | h) <;> simp [h]

/-- C40. Otherwise the type name alone decides, between a balance and no label. -/
theorem field_label_by_type_name (f : Field)
    (h : f.name ∉ [some "nonce", some "spec_version", some "spec_name", some "tx_version",
      some "transaction_version"]) :
    Hint.fromField f =
      if f.typeName ∈ [some "Balance", some "BalanceOf<T>", some "BalanceOf<T, I>",
        some "DepositBalance", some "ExtendedBalance", some "PalletBalanceOf<T>", some "T::Balance"]
      then .fieldBalance else .none := by
  rw [fieldLabel_eq]
  unfold fieldLabel
  simp only [List.mem_cons, List.not_mem_nil, or_false, not_or] at h
  obtain ⟨h1, h2, h3, h4, h5⟩ := h
  rw [if_neg h1, if_neg h2, if_neg h3, if_neg (by simp [h4, h5])]

/-- C40. In a decoded struct, the label of every field that is an unsigned integer: the
label from above if there is one (and it gets through), else the label of the field. -/
theorem struct_field_label {id pos pos' : Nat} {p : Propagated} {d : ED} {t : Typ} {fields : List Field}
    (ht : R.resolve id = .ok t) (hs : Structural t.path) (hd : t.typeDef = .composite fields)
    (h : decode R b (.symbol id) pos p = .ok (d, pos')) :
    ∃ ds info, d = ⟨.composite ds, info⟩ ∧ ds.length = fields.length ∧
      ∀ (i : Nat) (f : Field) (x : FD), fields[i]? = some f → ds[i]? = some x →
        ∀ u pr w, R.resolve f.ty = .ok u → Structural u.path → u.typeDef = .primitive pr → IsUInt pr w →
          ∃ v, x.data.data = .uint w v
            (uintLabel (first (handed fields.length p.checker.specialtySet.hint) (fieldLabel f))) := by
  have hsh := decode_shown h
  have special_of : ∀ {t : Typ} {s : Special}, Structural t.path → special t.path = some s →
      s = .multiSignature ∨ (∃ i, s = .pallet i) ∨ s = .extrinsic := by
    intro t s hs h
    unfold Structural at hs
    rw [h] at hs
    cases s <;> simp_all
  have uintShown : ∀ {h : Hint} {is : List Info} {id : Nat} {u : Typ} {pr : Prim} {w : UW} {d : ED},
      R.resolve id = .ok u → Structural u.path → u.typeDef = .primitive pr → IsUInt pr w →
      Shown R h is id d → ∃ v, d.data = .uint w v (uintLabel h) := by
    intro h is id u pr w d hr hst hdef hw hsd
    cases hsd with
    | fixed h1 h2 => rw [hr] at h1; cases h1; simpa using special_of hst h2
    | hash h1 h2 => rw [hr] at h1; cases h1; simpa using special_of hst h2
    | era h1 h2 => rw [hr] at h1; cases h1; simpa using special_of hst h2
    | per h1 h2 => rw [hr] at h1; cases h1; simpa using special_of hst h2
    | struct h1 _ h2 => rw [hr] at h1; cases h1; rw [hdef] at h2; cases h2
    | never h1 _ h2 => rw [hr] at h1; cases h1; rw [hdef] at h2; cases h2
    | variant h1 _ h2 => rw [hr] at h1; cases h1; rw [hdef] at h2; cases h2
    | signature h1 h2 =>
      rw [hr] at h1; cases h1; obtain ⟨_, _, _, _, h3, _⟩ := h2; rw [hdef] at h3; cases h3
    | pallet h1 _ h2 => rw [hr] at h1; cases h1; rw [hdef] at h2; cases h2
    | list h1 _ h2 => rw [hr] at h1; cases h1; rw [hdef] at h2; rcases h2 with h2 | h2 <;> cases h2
    | collected h1 _ h2 => rw [hr] at h1; cases h1; rw [hdef] at h2; rcases h2 with h2 | h2 <;> cases h2
    | tuple h1 _ h2 => rw [hr] at h1; cases h1; rw [hdef] at h2; cases h2
    | @uint _ _ _ _ _ w' _ h1 _ h2 h3 =>
      rw [hr] at h1; cases h1; rw [hdef] at h2; cases h2
      have : w = w' := by cases hw <;> cases h3 <;> rfl
      subst this
      exact ⟨_, rfl⟩
    | text h1 _ h2 => rw [hr] at h1; cases h1; rw [hdef] at h2; cases h2; cases hw
    | bool h1 _ h2 => rw [hr] at h1; cases h1; rw [hdef] at h2; cases h2; cases hw
    | char h1 _ h2 => rw [hr] at h1; cases h1; rw [hdef] at h2; cases h2; cases hw
    | u256 h1 _ h2 => rw [hr] at h1; cases h1; rw [hdef] at h2; cases h2; cases hw
    | int h1 _ h2 h3 => rw [hr] at h1; cases h1; rw [hdef] at h2; cases h2; cases hw <;> cases h3
    | compact h1 _ h2 => rw [hr] at h1; cases h1; rw [hdef] at h2; cases h2
    | bits h1 _ h2 => rw [hr] at h1; cases h1; rw [hdef] at h2; cases h2
  generalize hh : p.checker.specialtySet.hint = hint at hsh ⊢
  cases hsh with
  | fixed h1 h2 => rw [ht] at h1; cases h1; simpa using special_of hs h2
  | hash h1 h2 => rw [ht] at h1; cases h1; simpa using special_of hs h2
  | era h1 h2 => rw [ht] at h1; cases h1; simpa using special_of hs h2
  | per h1 h2 => rw [ht] at h1; cases h1; simpa using special_of hs h2
  | @struct _ _ _ _ _ ds h1 _ h2 h3 h4 h5 =>
    rw [ht] at h1; cases h1; rw [hd] at h2; cases h2
    refine ⟨_, _, rfl, h3, ?_⟩
    intro i f x hf hx u pr w hr hst hdef hw
    have hz : (f, x) ∈ fields.zip ds := by
      rw [List.mem_iff_getElem?]
      exact ⟨i, by rw [List.getElem?_zip_eq_some]; exact ⟨hf, hx⟩⟩
    exact uintShown hr hst hdef hw (h5 _ hz)
  | never h1 _ h2 => rw [ht] at h1; cases h1; rw [hd] at h2; cases h2
  | variant h1 _ h2 => rw [ht] at h1; cases h1; rw [hd] at h2; cases h2
  | signature h1 h2 =>
    rw [ht] at h1; cases h1; obtain ⟨_, _, _, _, h3, _⟩ := h2; rw [hd] at h3; cases h3
  | pallet h1 _ h2 => rw [ht] at h1; cases h1; rw [hd] at h2; cases h2
  | list h1 _ h2 => rw [ht] at h1; cases h1; rw [hd] at h2; rcases h2 with h2 | h2 <;> cases h2
  | collected h1 _ h2 => rw [ht] at h1; cases h1; rw [hd] at h2; rcases h2 with h2 | h2 <;> cases h2
  | tuple h1 _ h2 => rw [ht] at h1; cases h1; rw [hd] at h2; cases h2
  | uint h1 _ h2 h3 => rw [ht] at h1; cases h1; rw [hd] at h2; cases h2
  | text h1 _ h2 => rw [ht] at h1; cases h1; rw [hd] at h2; cases h2
  | bool h1 _ h2 => rw [ht] at h1; cases h1; rw [hd] at h2; cases h2
  | char h1 _ h2 => rw [ht] at h1; cases h1; rw [hd] at h2; cases h2
  | u256 h1 _ h2 => rw [ht] at h1; cases h1; rw [hd] at h2; cases h2
  | int h1 _ h2 h3 => rw [ht] at h1; cases h1; rw [hd] at h2; cases h2
  | compact h1 _ h2 => rw [ht] at h1; cases h1; rw [hd] at h2; cases h2
  | bits h1 _ h2 => rw [ht] at h1; cases h1; rw [hd] at h2; cases h2

/-- A registry with labelled fields: `0: u32`, `1: struct { nonce: Balance, tip: Balance }`,
`2: struct { nonce: u32 }`. -/
def Example.labels : Registry := Registry.portable
  [ { typeDef := .primitive .u32 },
    { typeDef := .composite [{ name := some "nonce", ty := 0, typeName := some "Balance" },
        { name := some "tip", ty := 0, typeName := some "Balance" }] },
    { typeDef := .composite [{ name := some "nonce", ty := 0 }] } ]

/-- Name before type name; the type name where the name says nothing. -/
example : decodeAllAsType Example.labels (Buf.ofBytes [1, 0, 0, 0, 2, 0, 0, 0]) 1 =
    .ok ⟨.composite [⟨some "nonce", some "Balance", "", ⟨.uint .u32 1 .nonce, []⟩⟩,
      ⟨some "tip", some "Balance", "", ⟨.uint .u32 2 .balance, []⟩⟩], []⟩ := rfl

/-- The first label stays: a label from above gets to a single field and wins over the
label of the field. -/
example : decode Example.labels (Buf.ofBytes [1, 0, 0, 0]) (.symbol 2) 0 (.fromExtMeta "CheckSpecVersion") =
    .ok (⟨.composite [⟨some "nonce", none, "", ⟨.uint .u32 1 .specVersion, []⟩⟩], []⟩, 4) := rfl

/-! ### C41 labels do not leak -/

/-- Types in which no label is handed down at all. -/
inductive Opaque : TypeDef → Prop
  | enum (vs : List Variant) : Opaque (.variant vs)
  | sequence (elem : Nat) : Opaque (.sequence elem)
  | array (n elem : Nat) : Opaque (.array n elem)
  | bits (o s : Nat) : Opaque (.bitSequence o s)

/-- Types in which no label but that of the asset tip is handed down. -/
inductive Several : TypeDef → Prop
  | struct (fields : List Field) : 2 ≤ fields.length → Several (.composite fields)
  | tuple (ids : List Nat) : 2 ≤ ids.length → Several (.tuple ids)

theorem fromType_h256 {t : Typ} {pos q : Nat} (h : TypeChecked.fromType R t b pos = .ok (.h256, q)) :
    TypeHinted.fromType t = .h256 := by
  unfold TypeChecked.fromType at h
  split at h <;> try cases h
  · assumption
  · unfold checkMultiSignature at h
    split at h
    · obtain ⟨r, h1, h⟩ := bind_ok.1 h
      split at h
      · split at h
        · obtain ⟨k, h2, h⟩ := bind_ok.1 h
          split at h <;> cases h
        · cases h
      · cases h
    · cases h
  · unfold checkPalletSpecific at h
    split at h
    · obtain ⟨r, h1, h⟩ := bind_ok.1 h
      split at h
      · split at h
        · obtain ⟨k, h2, h⟩ := bind_ok.1 h
          split at h
          · split at h
            · split at h
              · cases h
              · split at h <;> cases h
            · cases h
          · cases h
        · cases h
      · cases h
    · cases h

theorem checked_opaque {rec : Dec} {p p' : Propagated} (h : SameP p p') {sp : TypeChecked} (hsp : sp ≠ .h256)
    {t : Typ} (ho : sp = .none → Opaque t.typeDef) (id pos : Nat) :
    decodeChecked R rec b sp t id pos p = decodeChecked R rec b sp t id pos p' := by
  have hc : p.compactAt = p'.compactAt := h.checker.1
  unfold decodeChecked
  cases sp with
  | h256 => exact absurd rfl hsp
  | fixed k => simp only [hc, h.info]
  | perThing k => simp only [hc, h.info]
  | era => simp only [h.reject, h.info]
  | palletSpecific n i vs it => simp only [h.reject, h.info]
  | none =>
    unfold decodeTypeDef
    cases hd : t.typeDef with
    | variant vs => simp only [h.reject, h.info]
    | sequence elem =>
      simp only
      cases getCompact (compactUInt .u32) b pos with
      | error e => rfl
      | ok r =>
        simp only [ok_bind]
        rw [elements_same (p := { p with checker := p.checker.dropCycleCheck })
          (p' := { p' with checker := p'.checker.dropCycleCheck }) ⟨⟨h.checker.1, rfl⟩, h.info⟩]
    | array len elem => simp only [elements_same h]
    | bitSequence o s => simp only [h.reject, h.info]
    | composite fs => have := ho rfl; rw [hd] at this; cases this
    | tuple ids => have := ho rfl; rw [hd] at this; cases this
    | primitive pr => have := ho rfl; rw [hd] at this; cases this
    | compact i => have := ho rfl; rw [hd] at this; cases this

theorem fromType_none_or {t : Typ} {pos q : Nat} {sp : TypeChecked} (hs : Structural t.path)
    (h : TypeChecked.fromType R t b pos = .ok (sp, q)) : sp ≠ .h256 := by
  rintro rfl
  have h1 := fromType_h256 h
  have h2 := hinted_h256.1 h1
  unfold Structural at hs
  rw [h2] at hs
  exact hs

/-- C41. Of an enum, a sequence, an array or a bit sequence, decoding gives the very same
result whatever label comes from above: it does not get to any part of it. -/
theorem decode_label_dropped {id : Nat} {t : Typ} (ht : R.resolve id = .ok t) (hs : Structural t.path)
    (ho : Opaque t.typeDef) (pos : Nat) (p : Propagated) (h h' : Hint) :
    decode R b (.symbol id) pos (p.withHint h) = decode R b (.symbol id) pos (p.withHint h') := by
  rw [decode_fix, decode_fix]
  unfold decodeStep TyIn.resolve
  simp only [get_ok.2 ht, ok_bind]
  cases hsp : TypeChecked.fromType R t b pos with
  | error e => rfl
  | ok r =>
    obtain ⟨sp, q⟩ := r
    simp only [ok_bind]
    exact checked_opaque ((same_withHint p h h').addInfo _) (fromType_none_or hs hsp) (fun _ => ho) _ _

/-- C41. Of a struct or a tuple of several parts, decoding gives the very same result
whatever label comes from above, unless it is that of the asset tip. -/
theorem decode_label_several {id : Nat} {t : Typ} (ht : R.resolve id = .ok t) (hs : Structural t.path)
    (ho : Several t.typeDef) (pos : Nat) (p : Propagated) {h h' : Hint} (hh : h ≠ .chargeAssetTxPayment)
    (hh' : h' ≠ .chargeAssetTxPayment) :
    decode R b (.symbol id) pos (p.withHint h) = decode R b (.symbol id) pos (p.withHint h') := by
  have hforget : ∀ (c : Checker) (g : Hint), g ≠ .chargeAssetTxPayment → c.specialtySet.hint = g →
      c.forgetHint = { c with specialtySet := { c.specialtySet with hint := .none } } := by
    intro c g hg hc
    unfold Checker.forgetHint SpecialtySet.forgetHint
    split
    · rename_i h0; rw [hc] at h0; exact absurd h0 hg
    · rfl
  rw [decode_fix, decode_fix]
  unfold decodeStep TyIn.resolve
  simp only [get_ok.2 ht, ok_bind]
  have hsp : TypeChecked.fromType R t b pos = .ok (.none, pos) :=
    fromType_nonEnum (hinted_open.2 hs) (by intro vs hv; rw [hv] at ho; cases ho)
  rw [hsp]
  simp only [ok_bind, decodeChecked]
  have hs1 := (same_withHint p h h').addInfo (Info.fromTy t)
  have e1 : ((p.withHint h).addInfo (Info.fromTy t)).checker = (p.withHint h).checker := addInfo_checker _ _
  have e2 : ((p.withHint h').addInfo (Info.fromTy t)).checker = (p.withHint h').checker := addInfo_checker _ _
  have ec : (p.withHint h).checker.forgetHint = (p.withHint h').checker.forgetHint := by
    rw [hforget _ h hh rfl, hforget _ h' hh' rfl]; rfl
  have hrej : (p.withHint h).checker.rejectCompact = (p.withHint h').checker.rejectCompact := rfl
  unfold decodeTypeDef
  cases hd : t.typeDef with
  | composite fs =>
    rw [hd] at ho; cases ho with
    | struct _ hl =>
      simp only
      rw [e1, e2, hs1.info]
      unfold decodeFields
      rw [if_pos (by omega), if_pos (by omega), ec, hrej]
  | tuple ids =>
    rw [hd] at ho; cases ho with
    | tuple _ hl =>
      simp only
      unfold decodeTuple Propagated.forgetHint
      rw [if_pos (by omega), if_pos (by omega), e1, e2, ec, hs1.info, hs1.reject]
  | variant vs => rw [hd] at ho; cases ho
  | sequence elem => rw [hd] at ho; cases ho
  | array len elem => rw [hd] at ho; cases ho
  | bitSequence o s => rw [hd] at ho; cases ho
  | primitive pr => rw [hd] at ho; cases ho
  | compact i => rw [hd] at ho; cases ho

/-- A label from above does not get into the struct of several fields. -/
example : decode Example.labels (Buf.ofBytes [1, 0, 0, 0, 2, 0, 0, 0]) (.symbol 1) 0
      (.fromExtMeta "CheckSpecVersion") =
    .ok (⟨.composite [⟨some "nonce", some "Balance", "", ⟨.uint .u32 1 .nonce, []⟩⟩,
      ⟨some "tip", some "Balance", "", ⟨.uint .u32 2 .balance, []⟩⟩], []⟩, 8) := rfl

/-- But that of the asset tip does, and stays: `struct_field_label` for this hint. -/
example : decode Example.labels (Buf.ofBytes [1, 0, 0, 0, 2, 0, 0, 0]) (.symbol 1) 0
      (.fromExtMeta "ChargeAssetTxPayment") =
    .ok (⟨.composite [⟨some "nonce", some "Balance", "", ⟨.uint .u32 1 .tipAsset, []⟩⟩,
      ⟨some "tip", some "Balance", "", ⟨.uint .u32 2 .tipAsset, []⟩⟩], []⟩, 8) := rfl

/-- C41. Which label reaches the fields of a struct: of one field, any; of several, only
that of the asset tip. -/
theorem handed_label (n : Nat) (h : Hint) :
    handed n h = if n < 2 ∨ h = .chargeAssetTxPayment then h else .none := by
  unfold handed
  by_cases h1 : 2 ≤ n <;> by_cases h2 : h = .chargeAssetTxPayment <;> simp [h1, h2, Nat.not_lt.2] <;> omega

end Verif
