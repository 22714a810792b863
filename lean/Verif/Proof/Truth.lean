import Verif.Spec.Errors
import Verif.Proof.Faults
import Verif.Proof.HuskBridge
import Verif.Props.CompactInside
/-!
Errors of the decoder are true reports.
-/
namespace Verif
open Spec

/-- An error of the outcome is true. -/
def Honest {α : Type} (P : PErr → Prop) (r : Res α) : Prop := ∀ e, r = .error (.err e) → P e

namespace Honest
variable {α β : Type} {P : PErr → Prop}

theorem ok (a : α) : Honest P (.ok a : Res α) := by intro e h; cases h
theorem panic : Honest P (.error .panic : Res α) := by intro e h; cases h
theorem fuel : Honest P (.error .fuel : Res α) := by intro e h; cases h
theorem err {e : PErr} (h : P e) : Honest P (.error (.err e) : Res α) := by intro e h; cases h; assumption

theorem bind {x : Res α} {f : α → Res β} (hx : Honest P x) (hf : ∀ a, x = .ok a → Honest P (f a)) :
    Honest P (x >>= f) := by
  cases x with
  | error g => intro e h; rw [error_bind] at h; cases h; exact hx _ rfl
  | ok a => rw [ok_bind]; exact hf a rfl

theorem bindR {x : Res α} {f : α → Res β} (hx : Honest P x) (hf : ∀ a, Honest P (f a)) :
    Honest P (x >>= f) := bind hx fun a _ => hf a

end Honest

section
variable {R : Registry} {b : Buf} {start : Nat}

theorem readSlice_true (hr : Reliable b) {pos : Nat} (n : Nat) (hp : start ≤ pos) :
    Honest (TrueOf R b start) (b.readSlice pos n) := by
  unfold Buf.readSlice
  split
  · rename_i h; exact .err (.outOfRange hp h)
  · split
    · rename_i h1 h2; exact .err (.tooShort hp (by simpa [Buf.len] using h1) h2)
    · rw [hr]; exact .ok _

theorem readByte_true (hr : Reliable b) {pos : Nat} (hp : start ≤ pos) :
    Honest (TrueOf R b start) (b.readByte pos) := by
  refine .bindR (readSlice_true hr 1 hp) fun s => ?_
  split
  · exact .ok _
  · exact .panic

theorem findCompactLoop_true (hr : Reliable b) (dec : Bytes → Option Nat) {pos : Nat} (hp : start ≤ pos)
    (left i : Nat) : Honest (TrueOf R b start) (findCompactLoop dec b pos left i) := by
  induction left generalizing i with
  | zero => exact .ok _
  | succ left ih =>
    unfold findCompactLoop
    split
    · exact .ok _
    · refine .bindR (readSlice_true hr _ hp) fun s => ?_
      split
      · exact .ok _
      · exact ih _

theorem findCompact_true (hr : Reliable b) {w : UW} {g : Nat → Nat} {pos : Nat} (hp : start ≤ pos) :
    Honest (TrueOf R b start) (findCompact (fun bs => (compactUInt w bs).map g) b pos) := by
  by_cases h : b.len < pos
  · unfold findCompact
    rw [if_pos h]
    exact .err (.outOfRange hp h)
  · by_cases hv : ∃ v, v < 2 ^ (8 * w.bytes) ∧ At b.bytes pos (compactEncode v)
    · obtain ⟨v, h1, h2⟩ := hv
      rw [findCompact_complete_map hr h1 h2]
      exact .ok _
    · unfold findCompact
      rw [if_neg h]
      refine .bindR (findCompactLoop_true hr _ hp _ _) fun o => ?_
      split
      · exact .ok _
      · exact .err (.noCompact (w := w) hp (by simpa [Buf.len] using h) fun v h1 h2 => hv ⟨v, h1, h2⟩)

theorem findCompact_true' (hr : Reliable b) {w : UW} {pos : Nat} (hp : start ≤ pos) :
    Honest (TrueOf R b start) (findCompact (compactUInt w) b pos) := by
  have := findCompact_true (R := R) hr (w := w) (g := fun v => v) hp
  rwa [map_id_eq] at this

theorem getCompact_true (hr : Reliable b) {w : UW} {pos : Nat} (hp : start ≤ pos) :
    Honest (TrueOf R b start) (getCompact (compactUInt w) b pos) :=
  .bindR (findCompact_true' hr hp) fun _ => .ok _

/-- A failure to convert bytes that are there is true if the reader accepts all encodings. -/
theorem fail_true {α : Type} (hr : Reliable b) {f : Nat → Res (α × Nat)} {Q : α → Bytes → Prop}
    (hf : Parses b f Q) {pos : Nat} {e : Fail} (he : f pos = .error e) (ty : Named)
    (hq : ∀ bs, ty.Enc bs → ∃ a, Q a bs) (hp : start ≤ pos) (hl : pos < b.bytes.length) :
    TrueOf R b start (.typeFailure pos ty.name) := by
  refine .typeFailure hp hl fun bs h hat => ?_
  obtain ⟨a, ha⟩ := hq bs h
  rw [hf.complete hr ha hat] at he
  cases he

theorem slice_lt {pos n : Nat} {s : Bytes} (h : b.readSlice pos n = .ok s) (hn : 0 < n) : pos < b.bytes.length := by
  have h1 := (readSlice_ok h).1.le
  have h2 := (readSlice_ok h).2
  omega

theorem cutBool_true (hr : Reliable b) {pos : Nat} (hp : start ≤ pos) :
    Honest (TrueOf R b start) (cutBool b pos) := by
  intro e he
  have he' := he
  unfold cutBool at he
  rcases hs : b.readSlice pos 1 with f | s
  · rw [hs, error_bind] at he; cases he; exact readSlice_true hr 1 hp _ hs
  · rw [hs, ok_bind] at he
    split at he
    · cases he
    · split at he
      · cases he
      · cases he
        refine fail_true hr cutBool_parses he' .bool ?_ hp (slice_lt hs (by omega))
        intro bs h
        cases h with
        | bool h => cases h with
          | false => exact ⟨false, rfl⟩
          | true => exact ⟨true, rfl⟩
          | uint h => cases h
          | int h => cases h

theorem cutChar_true (hr : Reliable b) {pos : Nat} (hp : start ≤ pos) :
    Honest (TrueOf R b start) (cutChar b pos) := by
  intro e he
  have he' := he
  unfold cutChar at he
  rcases hs : b.readSlice pos 4 with f | s
  · rw [hs, error_bind] at he; cases he; exact readSlice_true hr 4 hp _ hs
  · rw [hs, ok_bind] at he
    split at he
    · cases he
    · split at he
      · cases he
      · cases he
        refine fail_true hr cutChar_parses he' .char ?_ hp (slice_lt hs (by omega))
        intro bs h
        cases h with
        | char h => cases h with
          | char v => exact ⟨v, rfl⟩
          | uint h => cases h
          | int h => cases h

theorem PerKind.bytes_pos (k : PerKind) : 0 < k.inner.bytes := by cases k <;> decide

theorem cutPer_true (hr : Reliable b) (k : PerKind) {pos : Nat} (hp : start ≤ pos) :
    Honest (TrueOf R b start) (cutPer k b pos) := by
  intro e he
  have he' := he
  unfold cutPer at he
  rcases hs : b.readSlice pos k.inner.bytes with f | s
  · rw [hs, error_bind] at he; cases he; exact readSlice_true hr _ hp _ hs
  · rw [hs, ok_bind] at he
    split at he
    · cases he
    · cases he
      have hn : k.name = (Named.per k).name := by cases k <;> rfl
      rw [hn] at he' ⊢
      refine fail_true hr (cutPer_parses k) he' (.per k) ?_ hp (slice_lt hs k.bytes_pos)
      intro bs h
      cases h with
      | per h => exact ⟨_, h, rfl⟩

theorem specialCaseEra_true (hr : Reliable b) {pos : Nat} (hp : start ≤ pos) :
    Honest (TrueOf R b start) (specialCaseEra b pos) := by
  intro e he
  have he' := he
  unfold specialCaseEra at he
  rcases hs : b.readSlice pos 1 with f | s
  · rw [hs, error_bind] at he; cases he; exact readSlice_true hr _ hp _ hs
  · rw [hs, ok_bind] at he
    split at he
    · cases he
    · rcases hs2 : b.readSlice pos 2 with f | s2
      · rw [hs2, error_bind] at he; cases he; exact readSlice_true hr _ hp _ hs2
      · rw [hs2, ok_bind] at he
        split at he
        · cases he
        · cases he
          refine fail_true hr specialCaseEra_parses he' .era ?_ hp (slice_lt hs (by omega))
          intro bs h
          cases h with
          | era h => exact ⟨_, h, rfl⟩

theorem decodeStr_true (hr : Reliable b) {pos : Nat} (hp : start ≤ pos) (hint : Hint) :
    Honest (TrueOf R b start) (decodeStr b pos hint) := by
  intro e he
  have he' := he
  unfold decodeStr at he
  rcases hs : findCompact (compactUInt .u32) b pos with f | f
  · rw [hs, error_bind] at he; cases he; exact findCompact_true' hr hp _ hs
  · rw [hs, ok_bind] at he
    obtain ⟨c1, c2, c3⟩ := findCompact_sound hs
    rcases hs2 : b.readSlice f.startNextUnit f.compact with g | s2
    · rw [hs2, error_bind] at he; cases he
      exact readSlice_true hr _ (by omega) _ hs2
    · rw [hs2, ok_bind] at he
      split at he
      · cases he
      · cases he
        refine fail_true hr (decodeStr_parses hint) he' .str ?_ hp ?_
        · intro bs h
          cases h with
          | str h => cases h with
            | str v hv => exact ⟨_, v, rfl, hv, rfl⟩
            | uint h => cases h
            | int h => cases h
        · have := c2.le
          have : 0 < (compactEncode f.compact).length := by
            have := compactEncode_length_pos f.compact
            omega
          omega

/-! ### Compacts -/

/-- The compact above, if any, is a compact of the registry, and may hold the type `id` or
nothing at all. -/
def CmpOk (R : Registry) (c : Option Nat) (id : Nat) : Prop :=
  ∀ x, c = some x → ∃ t inner, R.resolve x = .ok t ∧ t.typeDef = .compact inner ∧
    (¬ Compactable R id → ¬ Compactable R inner)

theorem cmpOk_none {id : Nat} : CmpOk R none id := by intro x h; cases h

theorem CmpOk.step {c : Option Nat} {id j : Nat} (h : CmpOk R c id)
    (hj : Compactable R id → Compactable R j) : CmpOk R c j := by
  intro x hx
  obtain ⟨t, inner, h1, h2, h3⟩ := h x hx
  exact ⟨t, inner, h1, h2, fun hn => h3 fun h => hn (hj h)⟩

theorem cmpOk_self {id inner : Nat} {t : Typ} (h : R.resolve id = .ok t) (hd : t.typeDef = .compact inner) :
    CmpOk R (some id) inner := by
  intro x hx
  cases hx
  exact ⟨t, inner, h, hd, fun h => h⟩

theorem blockCompact_true {c : Option Nat} {id : Nat} (h : CmpOk R c id) (hn : ¬ Compactable R id) :
    Honest (TrueOf R b start) (blockCompact c) := by
  cases c with
  | none => exact .ok _
  | some x =>
    obtain ⟨t, inner, h1, h2, h3⟩ := h x rfl
    exact .err (.registry (.compact h1 h2 fun v bs he => h3 hn (enc_compactable he rfl)))

theorem rejectCompact_true {s : SpecialtySet} {id : Nat} (h : CmpOk R s.compactAt id) (hn : ¬ Compactable R id) :
    Honest (TrueOf R b start) s.rejectCompact := blockCompact_true h hn

theorem propReject_true {p : Propagated} {id : Nat} (h : CmpOk R p.compactAt id) (hn : ¬ Compactable R id) :
    Honest (TrueOf R b start) p.rejectCompact := blockCompact_true h hn

theorem compactable_cases {id : Nat} {t : Typ} (ht : R.resolve id = .ok t) (h : Compactable R id) :
    (∃ k, special t.path = some (.per k)) ∨ (Structural t.path ∧
      ((∃ p, t.typeDef = .primitive p ∧ (p = .u8 ∨ p = .u16 ∨ p = .u32 ∨ p = .u64 ∨ p = .u128)) ∨
      (∃ fields, t.typeDef = .composite fields ∧ fields.length ≤ 1 ∧ ∀ f ∈ fields, Compactable R f.ty) ∨
      (∃ ids, t.typeDef = .tuple ids ∧ ids.length ≤ 1 ∧ ∀ i ∈ ids, Compactable R i))) := by
  cases h with
  | uint h1 h2 h3 h4 => rw [ht] at h1; cases h1; exact .inr ⟨h2, .inl ⟨_, h3, h4⟩⟩
  | per h1 h2 => rw [ht] at h1; cases h1; exact .inl ⟨_, h2⟩
  | struct h1 h2 h3 h4 h5 => rw [ht] at h1; cases h1; exact .inr ⟨h2, .inr (.inl ⟨_, h3, h4, h5⟩)⟩
  | tuple h1 h2 h3 h4 h5 => rw [ht] at h1; cases h1; exact .inr ⟨h2, .inr (.inr ⟨_, h3, h4, h5⟩)⟩

/-- The type can not be in a compact, judged by its definition. -/
theorem not_compactable {id : Nat} {t : Typ} (ht : R.resolve id = .ok t) (hs : Structural t.path)
    (h1 : ∀ p, t.typeDef = .primitive p → p ∉ [.u8, .u16, .u32, .u64, .u128])
    (h2 : ∀ fields, t.typeDef = .composite fields → 1 < fields.length)
    (h3 : ∀ ids, t.typeDef = .tuple ids → 1 < ids.length) : ¬ Compactable R id := by
  intro h
  rcases compactable_cases ht h with ⟨k, hk⟩ | ⟨-, ⟨p, hp, hc⟩ | ⟨fs, hf, hl, -⟩ | ⟨ids, hi, hl, -⟩⟩
  · unfold Structural at hs; rw [hk] at hs; exact hs
  · exact h1 p hp (by simpa using hc)
  · have := h2 _ hf; omega
  · have := h3 _ hi; omega

theorem not_compactable_special {id : Nat} {t : Typ} (ht : R.resolve id = .ok t) (hs : ¬ Structural t.path)
    (hk : ∀ k, special t.path ≠ some (.per k)) : ¬ Compactable R id := by
  intro h
  rcases compactable_cases ht h with ⟨k, h⟩ | ⟨h, -⟩
  · exact hk k h
  · exact hs h

theorem parseUInt_true (hr : Reliable b) (w : UW) {pos : Nat} (hp : start ≤ pos) (s : SpecialtySet) :
    Honest (TrueOf R b start) (parseUInt w b pos s) := by
  unfold parseUInt
  dsimp only
  split
  · exact .bindR (getCompact_true hr hp) fun _ => .ok _
  · exact .bindR (.bindR (readSlice_true hr _ hp) fun _ => .ok _) fun _ => .ok _

theorem parsePer_true (hr : Reliable b) (k : PerKind) {pos : Nat} (hp : start ≤ pos) (c : Option Nat) :
    Honest (TrueOf R b start) (parsePer k b pos c) := by
  unfold parsePer
  dsimp only
  split
  · exact .bindR (.bindR (findCompact_true hr hp) fun _ => .ok _) fun _ => .ok _
  · exact .bindR (cutPer_true hr k hp) fun _ => .ok _

theorem cutArray_true (hr : Reliable b) (n : Nat) {pos : Nat} (hp : start ≤ pos) :
    Honest (TrueOf R b start) (cutArray n b pos) := by
  refine .bindR (readSlice_true hr n hp) fun s => ?_
  split
  · exact .panic
  · exact .ok _

theorem parseInt_true (hr : Reliable b) (w : IW) {pos : Nat} (hp : start ≤ pos) {c : Option Nat} {id : Nat}
    (hc : CmpOk R c id) (hn : ¬ Compactable R id) : Honest (TrueOf R b start) (parseInt w b pos c) :=
  .bindR (blockCompact_true hc hn) fun _ => .bindR (.bindR (readSlice_true hr _ hp) fun _ => .ok _) fun _ => .ok _

theorem decodePrimitive_true (hr : Reliable b) {p : Prim} {pos : Nat} (hp : start ≤ pos) {s : SpecialtySet}
    {id : Nat} {t : Typ} (ht : R.resolve id = .ok t) (hs : Structural t.path) (hd : t.typeDef = .primitive p)
    (hc : CmpOk R s.compactAt id) : Honest (TrueOf R b start) (decodePrimitive p b pos s) := by
  have hn : p ∉ [Prim.u8, .u16, .u32, .u64, .u128] → ¬ Compactable R id := fun h =>
    not_compactable ht hs (by rw [hd]; intro p' hp'; cases hp'; exact h) (by simp [hd]) (by simp [hd])
  unfold decodePrimitive
  cases p with
  | bool => exact .bindR (blockCompact_true hc (hn (by simp))) fun _ => .bindR (cutBool_true hr hp) fun _ => .ok _
  | char => exact .bindR (blockCompact_true hc (hn (by simp))) fun _ => .bindR (cutChar_true hr hp) fun _ => .ok _
  | str => exact .bindR (rejectCompact_true hc (hn (by simp))) fun _ => decodeStr_true hr hp _
  | u256 => exact .bindR (blockCompact_true hc (hn (by simp))) fun _ =>
      .bindR (.bindR (readSlice_true hr _ hp) fun _ => .ok _) fun _ => .ok _
  | u8 | u16 | u32 | u64 | u128 => exact parseUInt_true hr _ hp _
  | i8 | i16 | i32 | i64 | i128 | i256 => exact parseInt_true hr _ hp hc (hn (by simp))

theorem get_true (id : Nat) : Honest (TrueOf R b start) (R.get id) := by
  unfold Registry.get
  cases h : R.resolve id with
  | ok t => exact .ok _
  | error e => exact .err (.registry (.unresolved h))

theorem decodeBitSequence_true (hr : Reliable b) {order store id pos : Nat} {t : Typ} (ht : R.resolve id = .ok t)
    (hd : t.typeDef = .bitSequence order store) (hp : start ≤ pos) :
    Honest (TrueOf R b start) (decodeBitSequence R order store id b pos) := by
  unfold decodeBitSequence
  refine .bind ?_ fun o ho => .bind (get_true _) fun t' ht' => ?_
  · unfold findBitOrder
    refine .bind (get_true _) fun to hto => ?_
    rw [get_ok] at hto
    have bad : (∀ fields, to.typeDef = .composite fields →
        to.path.getLast? ≠ some "Lsb0" ∧ to.path.getLast? ≠ some "Msb0") →
        TrueOf R b start (.registry (.internal (.notBitOrderType id))) := by
      intro h
      refine .registry (.bitOrder ht hd ?_)
      rintro o ⟨t2, fields, h1, h2, h3⟩
      rw [hto] at h1; cases h1
      obtain ⟨h4, h5⟩ := h fields h2
      rcases h3 with ⟨-, h3⟩ | ⟨-, h3⟩
      · exact h4 h3
      · exact h5 h3
    split
    · split
      · split
        · exact .ok _
        · split
          · exact .ok _
          · rename_i h1 h2 h3
            refine .err (bad fun _ _ => ?_)
            unfold Typ.ident at h1
            rw [h1]
            exact ⟨fun h => h2 (by simpa using h), fun h => h3 (by simpa using h)⟩
      · rename_i h1
        refine .err (bad fun _ _ => ?_)
        unfold Typ.ident at h1
        rw [h1]; simp
    · rename_i h1
      exact .err (bad fun fields hf => absurd hf (h1 fields))
  · rw [get_ok] at ht'
    have bad : (∀ p, t'.typeDef = .primitive p → BitStore.ofPrim p = none) →
        TrueOf R b start (.registry (.internal (.notBitStoreType id))) := by
      intro h
      refine .registry (.bitStore ht hd ?_)
      rintro o ⟨t2, p, h1, h2, h3⟩
      rw [ht'] at h1; cases h1
      have h4 := h p h2
      rcases h3 with ⟨-, rfl⟩ | ⟨-, rfl⟩ | ⟨-, rfl⟩ | ⟨-, rfl⟩ <;> cases h4
    split
    · rename_i p hp'
      split
      · rename_i st hst
        intro e he
        rcases hx : intoBitvecDecode st b pos with f | ⟨s, pos'⟩
        · rw [hx, error_bind] at he
          cases he
          refine (?_ : Honest (TrueOf R b start) (intoBitvecDecode st b pos)) e hx
          unfold intoBitvecDecode BitVecPositions.new
          refine .bind (.bindR (findCompact_true' hr hp) fun _ => .ok _) fun q hq => ?_
          obtain ⟨f, -, hq⟩ := bind_ok.1 hq
          cases hq
          exact .bindR (readSlice_true hr _ hp) fun _ => .ok _
        · rw [hx, ok_bind] at he
          dsimp only at he
          cases hb : bitVecDecodeAll st o s with
          | some bits => rw [hb] at he; cases he
          | none =>
            rw [hb] at he
            cases he
            have hn : bitVecName st o = (Named.bits st o).name := by cases st <;> cases o <;> decide
            rw [hn]
            refine fail_true hr (bitsReader_parses st o) (pos := pos) (e := .err (.typeFailure pos (bitVecName st o)))
              ?_ (.bits st o) ?_ hp ?_
            · unfold bitsReader
              rw [hx, ok_bind]
              dsimp only
              rw [hb]
            · intro bs h
              cases h with
              | bits h => exact ⟨_, h⟩
            · unfold intoBitvecDecode BitVecPositions.new at hx
              obtain ⟨q, hq, -⟩ := bind_ok.1 hx
              obtain ⟨f, hf, -⟩ := bind_ok.1 hq
              obtain ⟨-, c2, -⟩ := findCompact_sound hf
              have := c2.le
              have := compactEncode_length_pos f.compact
              omega
      · rename_i h
        exact .err (bad fun p' h' => by rw [hp'] at h'; cases h'; exact h)
    · rename_i h
      exact .err (bad fun p' h' => absurd h' (h p'))

theorem withInfo_true {info : List Info} {r : Res (PD × Nat)} {P : PErr → Prop} (h : Honest P r) :
    Honest P (withInfo info r) := .bindR h fun _ => .ok _

theorem pickVariant_true (hr : Reliable b) {vs : List Variant} {pos id : Nat} {t : Typ} (hp : start ≤ pos)
    (ht : R.resolve id = .ok t) (hd : t.typeDef = .variant vs) :
    Honest (TrueOf R b start) (pickVariant vs b pos) := by
  refine .bind (readByte_true hr hp) fun i hi => ?_
  cases hf : vs.find? (fun v => v.index == i) with
  | some v => exact .ok _
  | none =>
    refine .err (.enumVariant (i := i) hp ?_ ht hd ?_)
    · obtain ⟨pre, post, h1, h2⟩ := readByte_ok hi
      rw [h1, ← h2]; simp
    · intro v hv hc
      have := List.find?_eq_none.1 hf v hv
      simp [hc] at this

/-! ### Types seen on the way -/

/-- All types seen contain the current one. -/
def CycOk (R : Registry) (l : List Nat) (id : Nat) : Prop := ∀ x ∈ l, x = id ∨ Within R x id

theorem cycOk_nil {id : Nat} : CycOk R [] id := by intro x h; cases h

theorem CycOk.next {l : List Nat} {id j : Nat} (h : CycOk R l id) (hj : Part R id j) : CycOk R (l ++ [j]) j := by
  intro x hx
  rcases List.mem_append.1 hx with hx | hx
  · rcases h x hx with rfl | h
    · exact .inr (.part hj)
    · exact .inr (.step h hj)
  · exact .inl (List.mem_singleton.1 hx)

theorem CycOk.within {l : List Nat} {id j : Nat} (h : CycOk R l id) (hj : Part R id j) (hm : j ∈ l) :
    Within R j j := by
  rcases h j hm with rfl | h
  · exact .part hj
  · exact .step h hj

theorem checkId_true {c : Checker} {id j : Nat} (h : CycOk R c.cycleCheck id) (hj : Part R id j) :
    Honest (TrueOf R b start) (c.checkId j) := by
  unfold Checker.checkId
  split
  · rename_i hc
    exact .err (.registry (.cyclic (h.within hj (by simpa using hc))))
  · exact .ok _

/-- The state of a call is in order: the type is the one of the registry, and types seen and
compact above are as they should be. -/
structure Call.Ok (R : Registry) (ty : Option Typ) (id : Nat) (c : Checker) : Prop where
  typ : ∀ t, ty = some t → R.resolve id = .ok t
  cyc : CycOk R c.cycleCheck id
  cmp : CmpOk R c.specialtySet.compactAt id

/-- The type of the call, if resolved. -/
def TyIn.typ : TyIn → Option Typ
  | .resolved ty _ => some ty
  | .symbol _ => none

/-- Id of the type of the call. -/
def TyIn.tyId : TyIn → Nat
  | .resolved _ id => id
  | .symbol id => id

/-- Recursive calls report the truth and go forward. -/
structure RecTrue (R : Registry) (b : Buf) (start : Nat) (rec : Dec) : Prop where
  honest : ∀ tyIn pos p, start ≤ pos → Call.Ok R tyIn.typ tyIn.tyId p.checker →
    Honest (TrueOf R b start) (rec tyIn pos p)
  forward : ∀ tyIn pos p d pos', rec tyIn pos p = .ok (d, pos') → pos ≤ pos'

/-- A checker that may be handed to the part `j`. -/
structure HandOk (R : Registry) (c : Checker) (j : Nat) : Prop where
  cyc : c.cycleCheck = [] ∨ ∃ id, CycOk R c.cycleCheck id ∧ Part R id j
  cmp : CmpOk R c.specialtySet.compactAt j

theorem HandOk.check {c : Checker} {j : Nat} (h : HandOk R c j) : Honest (TrueOf R b start) (c.checkId j) := by
  rcases h.cyc with h0 | ⟨id, h1, h2⟩
  · unfold Checker.checkId
    rw [h0]
    exact .ok _
  · exact checkId_true h1 h2

theorem HandOk.next {c : Checker} {j : Nat} (h : HandOk R c j) : CycOk R (c.cycleCheck ++ [j]) j := by
  rcases h.cyc with h0 | ⟨id, h1, h2⟩
  · rw [h0]
    intro x hx
    exact .inl (by simpa using hx)
  · exact h1.next h2

theorem decodeFieldsLoop_true {rec : Dec} (h : RecTrue R b start rec) {c : Checker} (fs : List Field) :
    ∀ {pos : Nat}, start ≤ pos → (∀ f ∈ fs, HandOk R c f.ty) →
      Honest (TrueOf R b start) (decodeFieldsLoop rec c fs pos) := by
  induction fs with
  | nil => intro pos _ _; exact .ok _
  | cons f fs ih =>
    intro pos hp hh
    have hf := hh f (by simp)
    have hf' : HandOk R (c.hintFromField f) f.ty :=
      ⟨by rw [hintFromField_cycle]; exact hf.cyc, by rw [hintFromField_compact]; exact hf.cmp⟩
    refine .bind (.bindR hf'.check fun _ => .ok _) fun p hpp => ?_
    obtain ⟨h1, h2, h3, h4⟩ := forField_ok hpp
    refine .bind (h.honest _ _ _ hp ⟨(by intro t ht; cases ht), ?_, ?_⟩) fun r hr' => ?_
    · rw [h2]; exact hf.next
    · rw [h4, hintFromField_compact]; exact hf.cmp
    · obtain ⟨d, pos'⟩ := r
      have := h.forward _ _ _ _ _ hr'
      exact .bindR (ih (by omega) fun f hf => hh f (by simp [hf])) fun _ => .ok _

theorem decodeFields_true {rec : Dec} (h : RecTrue R b start rec) {c : Checker} {fs : List Field} {pos id : Nat}
    (hp : start ≤ pos) (hh : ∀ f ∈ fs, c.cycleCheck = [] ∨ ∃ i, CycOk R c.cycleCheck i ∧ Part R i f.ty)
    (h1 : ∀ f ∈ fs, fs.length = 1 → CmpOk R c.specialtySet.compactAt f.ty)
    (h2 : 1 < fs.length → c.specialtySet.compactAt = none ∨ CmpOk R c.specialtySet.compactAt id ∧ ¬ Compactable R id) :
    Honest (TrueOf R b start) (decodeFields rec fs pos c) := by
  unfold decodeFields
  split
  · rename_i hl
    have h3 : Honest (TrueOf R b start) c.specialtySet.rejectCompact := by
      rcases h2 hl with h3 | ⟨h3, h4⟩
      · unfold SpecialtySet.rejectCompact
        rw [h3]
        exact .ok _
      · exact rejectCompact_true h3 h4
    refine .bind h3 fun u hu => ?_
    have hc := rejectCompact_ok.1 hu
    refine decodeFieldsLoop_true h fs hp fun f hf => ⟨hh f hf, ?_⟩
    have : c.forgetHint.specialtySet.compactAt = c.specialtySet.compactAt := by
      unfold Checker.forgetHint SpecialtySet.forgetHint
      dsimp only; split <;> rfl
    rw [this, hc]
    exact cmpOk_none
  · rename_i hl
    refine decodeFieldsLoop_true h fs hp fun f hf => ⟨hh f hf, h1 f hf ?_⟩
    have := List.length_pos_of_mem hf
    omega

theorem decodeElementsLoop_true {rec : Dec} (h : RecTrue R b start rec) {hu : HuskedType}
    (hk : Call.Ok R (some hu.ty) hu.id hu.checker) (n : Nat) :
    ∀ {pos : Nat}, start ≤ pos → Honest (TrueOf R b start) (decodeElementsLoop rec hu n pos) := by
  induction n with
  | zero => intro pos _; exact .ok _
  | succ n ih =>
    intro pos hp
    refine .bind (h.honest _ _ _ hp hk) fun r hr' => ?_
    obtain ⟨d, pos'⟩ := r
    have := h.forward _ _ _ _ _ hr'
    exact .bindR (ih (by omega)) fun _ => .ok _

theorem huskLoop_true (n : Nat) : ∀ {ty : Typ} {id : Nat} {info : List Info} {c : Checker},
    Call.Ok R (some ty) id c → Honest (TrueOf R b start) (huskLoop R n ty id info c) ∧
      ∀ hu, huskLoop R n ty id info c = .ok hu → Call.Ok R (some hu.ty) hu.id hu.checker := by
  induction n with
  | zero =>
    intro ty id info c _
    exact ⟨.fuel, fun hu h => by cases h⟩
  | succ n ih =>
    intro ty id info c hk
    have hty := hk.typ _ rfl
    unfold huskLoop
    dsimp only
    split
    · rename_i hno
      rw [hinted_none] at hno
      have hst : Structural ty.path := by unfold Structural; rw [hno]; trivial
      split
      · rename_i f hd
        have hpart : Part R id f.ty := .field hty hd (by simp)
        have hcmp : CmpOk R c.specialtySet.compactAt f.ty := hk.cmp.step fun hc => by
          rcases compactable_cases hty hc with ⟨k, h⟩ | ⟨-, ⟨p, h, -⟩ | ⟨fs, h, -, h'⟩ | ⟨ids, h, -⟩⟩
          · rw [hno] at h; cases h
          · rw [hd] at h; cases h
          · rw [hd] at h; cases h; exact h' f (by simp)
          · rw [hd] at h; cases h
        have key : ∀ c' t, c.checkId f.ty = .ok c' → R.get f.ty = .ok t →
            Call.Ok R (some t) f.ty (c'.hintFromField f) := by
          intro c' t hc ht
          obtain ⟨-, rfl⟩ := checkId_ok.1 hc
          refine ⟨fun t' ht' => by cases ht'; exact get_ok.1 ht, ?_, ?_⟩
          · rw [hintFromField_cycle]; exact hk.cyc.next hpart
          · rw [hintFromField_compact]; exact hcmp
        constructor
        · refine .bind (checkId_true hk.cyc hpart) fun c' hc => .bind (get_true _) fun t ht => ?_
          exact (ih (key c' t hc ht)).1
        · intro hu h
          obtain ⟨c', hc, h⟩ := bind_ok.1 h
          obtain ⟨t, ht, h⟩ := bind_ok.1 h
          exact (ih (key c' t hc ht)).2 hu h
      · rename_i inner hd
        have hpart : Part R id inner := .compact hty hd
        have key : ∀ c' t, ({ c with specialtySet := { c.specialtySet with compactAt := some id } } : Checker).checkId
            inner = .ok c' → R.get inner = .ok t → Call.Ok R (some t) inner c' := by
          intro c' t hc ht
          obtain ⟨-, rfl⟩ := checkId_ok.1 hc
          exact ⟨fun t' ht' => by cases ht'; exact get_ok.1 ht, hk.cyc.next hpart, cmpOk_self hty hd⟩
        constructor
        · refine .bind (rejectCompact_true hk.cmp
            (not_compactable hty hst (by simp [hd]) (by simp [hd]) (by simp [hd]))) fun _ _ =>
              .bind (checkId_true (c := { c with specialtySet := { c.specialtySet with compactAt := some id } })
                hk.cyc hpart) fun c' hc => .bind (get_true _) fun t ht => ?_
          exact (ih (key c' t hc ht)).1
        · intro hu h
          obtain ⟨_, -, h⟩ := bind_ok.1 h
          obtain ⟨c', hc, h⟩ := bind_ok.1 h
          obtain ⟨t, ht, h⟩ := bind_ok.1 h
          exact (ih (key c' t hc ht)).2 hu h
      · exact ⟨.ok _, fun hu h => by cases h; exact hk⟩
    · exact ⟨.ok _, fun hu h => by cases h; exact hk⟩

theorem huskType_true {c : Checker} {j : Nat} (h : c.cycleCheck = [] ∨ ∃ id, CycOk R c.cycleCheck id ∧ Part R id j) :
    Honest (TrueOf R b start) (huskType R j c) ∧
      ∀ hu, huskType R j c = .ok hu → Call.Ok R (some hu.ty) hu.id hu.checker := by
  have hh : HandOk R { c with specialtySet := {} } j := ⟨h, cmpOk_none⟩
  have h0 : ∀ b start, Honest (TrueOf R b start) (c.checkId j) := by
    intro b start
    have := hh.check (b := b) (start := start)
    intro e he
    refine this e ?_
    unfold Checker.checkId at he ⊢
    dsimp only
    split at he
    · rename_i hc; rw [if_pos hc]; exact he
    · cases he
  have key : ∀ c' t, c.checkId j = .ok c' → R.get j = .ok t →
      Call.Ok R (some t) j { c' with specialtySet := {} } := by
    intro c' t hc ht
    obtain ⟨-, rfl⟩ := checkId_ok.1 hc
    exact ⟨fun t' ht' => by cases ht'; exact get_ok.1 ht, hh.next, cmpOk_none⟩
  unfold huskType
  constructor
  · refine .bind (h0 b start) fun c' hc => .bind (get_true _) fun t ht => ?_
    exact (huskLoop_true _ (key c' t hc ht)).1
  · intro hu h
    obtain ⟨c', hc, h⟩ := bind_ok.1 h
    obtain ⟨t, ht, h⟩ := bind_ok.1 h
    exact (huskLoop_true (b := b) (start := start) _ (key c' t hc ht)).2 hu h

theorem decodeElementsSet_true {rec : Dec} (h : RecTrue R b start rec) {elem n pos id : Nat} {p : Propagated}
    (hp : start ≤ pos)
    (hc : p.checker.cycleCheck = [] ∨ ∃ i, CycOk R p.checker.cycleCheck i ∧ Part R i elem)
    (h1 : CmpOk R p.compactAt id) (h2 : ¬ Compactable R id) :
    Honest (TrueOf R b start) (decodeElementsSet R rec elem n pos p) := by
  unfold decodeElementsSet
  refine .bindR (propReject_true h1 h2) fun _ => .bind (huskType_true hc).1 fun hu hhu => ?_
  split
  · exact .ok _
  · refine .bindR (decodeElementsLoop_true h ((huskType_true (b := b) (start := start) hc).2 _ hhu) _ hp) fun r => ?_
    dsimp only
    split <;> exact .ok _

theorem decodeTupleLoop_true {rec : Dec} (h : RecTrue R b start rec) {c : Checker} (ids : List Nat) :
    ∀ {pos : Nat}, start ≤ pos → (∀ i ∈ ids, HandOk R c i) →
      Honest (TrueOf R b start) (decodeTupleLoop R rec c ids pos) := by
  induction ids with
  | nil => intro pos _ _; exact .ok _
  | cons i ids ih =>
    intro pos hp hh
    have hf := hh i (by simp)
    refine .bind (get_true _) fun t ht => .bind (.bindR (.bindR hf.check fun _ => .ok _) fun _ => .ok _) fun p hpp => ?_
    obtain ⟨h1, h2, h3, h4⟩ := forTy_ok hpp
    refine .bind (h.honest _ _ _ hp ⟨(by intro t' ht'; cases ht'; exact get_ok.1 ht), ?_, ?_⟩) fun r hr' => ?_
    · rw [h2]; exact hf.next
    · have : (c.specialtySet.updateFromPath t).compactAt = c.specialtySet.compactAt := by
        unfold SpecialtySet.updateFromPath; split <;> rfl
      rw [h4, this]; exact hf.cmp
    · obtain ⟨d, pos'⟩ := r
      have := h.forward _ _ _ _ _ hr'
      exact .bindR (ih (by omega) fun f hf => hh f (by simp [hf])) fun _ => .ok _

theorem decodeVariant_true (hr : Reliable b) {rec : Dec} (h : RecTrue R b start rec) {vs : List Variant}
    {pos id : Nat} {t : Typ} (hp : start ≤ pos) (ht : R.resolve id = .ok t) (hd : t.typeDef = .variant vs) :
    Honest (TrueOf R b start) (decodeVariant rec vs b pos) := by
  refine .bindR (pickVariant_true hr hp ht hd) fun v => .bindR ?_ fun _ => .ok _
  exact decodeFields_true h (id := id) (by omega) (fun _ _ => .inl rfl) (fun _ _ _ => cmpOk_none) fun _ => .inl rfl

/-! ### Special types -/

/-- What is known after recognition. -/
inductive SpOk (R : Registry) (ty : Typ) : TypeChecked → Prop
  | none : Structural ty.path → SpOk R ty .none
  | fixed {k : FixedKind} : special ty.path = some (.fixed k) → SpOk R ty (.fixed k)
  | signature {k : FixedKind} {vs : List Variant} : Structural ty.path → ty.typeDef = .variant vs →
      SpOk R ty (.fixed k)
  | era : special ty.path = some .era → SpOk R ty .era
  | h256 : special ty.path = some .hash → SpOk R ty .h256
  | per {k : PerKind} : special ty.path = some (.per k) → SpOk R ty (.perThing k)
  | pallet {n : String} {inf : Info} {vs ws : List Variant} {item : PalletItem} {id : Nat} {t : Typ} :
      Structural ty.path → ty.typeDef = .variant ws → R.resolve id = .ok t → t.typeDef = .variant vs →
      SpOk R ty (.palletSpecific n inf vs item)

theorem swallow_true {α : Type} {P : PErr → Prop} (r : Res α) : Honest P (swallow r) := by
  intro e h
  cases r with
  | ok a => cases h
  | error f => cases f <;> cases h

theorem signatureIndicator_true {P : PErr → Prop} (f : Field) : Honest P (signatureIndicator R f) := by
  obtain ⟨o, ho⟩ := signatureIndicator_total R f
  rw [ho]
  exact .ok _

theorem fromType_true (ty : Typ) (pos : Nat) :
    Honest (TrueOf R b start) (TypeChecked.fromType R ty b pos) ∧
      ∀ sp pos', TypeChecked.fromType R ty b pos = .ok (sp, pos') → SpOk R ty sp := by
  have hop := hinted_open (t := ty)
  cases hh : TypeHinted.fromType ty with
  | none =>
    unfold TypeChecked.fromType
    rw [hh] at hop ⊢
    exact ⟨.ok _, fun sp pos' h => by cases h; exact .none (hop.1 rfl)⟩
  | uncheckedExtrinsic =>
    unfold TypeChecked.fromType
    rw [hh] at hop ⊢
    exact ⟨.ok _, fun sp pos' h => by cases h; exact .none (hop.1 rfl)⟩
  | fixed k =>
    unfold TypeChecked.fromType
    rw [hh]
    exact ⟨.ok _, fun sp pos' h => by cases h; exact .fixed (hinted_fixed.1 hh)⟩
  | era =>
    unfold TypeChecked.fromType
    rw [hh]
    exact ⟨.ok _, fun sp pos' h => by cases h; exact .era (hinted_era.1 hh)⟩
  | h256 =>
    unfold TypeChecked.fromType
    rw [hh]
    exact ⟨.ok _, fun sp pos' h => by cases h; exact .h256 (hinted_h256.1 hh)⟩
  | perThing k =>
    unfold TypeChecked.fromType
    rw [hh]
    exact ⟨.ok _, fun sp pos' h => by cases h; exact .per (hinted_per.1 hh)⟩
  | multiSignature =>
    unfold TypeChecked.fromType
    rw [hh] at hop ⊢
    have hs := hop.1 rfl
    dsimp only
    unfold checkMultiSignature
    split
    · rename_i vs hd
      constructor
      · refine .bindR (swallow_true _) fun o => ?_
        split
        · split
          · refine .bindR (signatureIndicator_true _) fun o => ?_
            split <;> exact .ok _
          · exact .ok _
        · exact .ok _
      · intro sp pos' h
        obtain ⟨o, -, h⟩ := bind_ok.1 h
        split at h
        · split at h
          · obtain ⟨o, -, h⟩ := bind_ok.1 h
            split at h
            · cases h; exact .signature hs hd
            · cases h; exact .none hs
          · cases h; exact .none hs
        · cases h; exact .none hs
    · exact ⟨.ok _, fun sp pos' h => by cases h; exact .none hs⟩
  | palletSpecific item =>
    unfold TypeChecked.fromType
    rw [hh] at hop ⊢
    have hs := hop.1 rfl
    dsimp only
    unfold checkPalletSpecific
    split
    · rename_i ws hd
      constructor
      · refine .bindR (swallow_true _) fun o => ?_
        split
        · split
          · refine .bindR (swallow_true _) fun o => ?_
            repeat' split
            all_goals exact .ok _
          · exact .ok _
        · exact .ok _
      · intro sp pos' h
        obtain ⟨o, -, h⟩ := bind_ok.1 h
        split at h
        · split at h
          · obtain ⟨o, ho, h⟩ := bind_ok.1 h
            split at h
            · split at h
              · split at h
                · cases h; exact .none hs
                · split at h
                  · rename_i hv
                    cases h
                    exact .pallet hs hd (get_ok.1 (swallow_some.1 ho)) hv
                  · cases h; exact .none hs
              · cases h; exact .none hs
            · cases h; exact .none hs
          · cases h; exact .none hs
        · cases h; exact .none hs
    · exact ⟨.ok _, fun sp pos' h => by cases h; exact .none hs⟩

theorem decodeTypeDef_true (hr : Reliable b) {rec : Dec} (h : RecTrue R b start rec) {ty : Typ} {id pos : Nat}
    {p : Propagated} (hp : start ≤ pos) (hs : Structural ty.path) (hk : Call.Ok R (some ty) id p.checker) :
    Honest (TrueOf R b start) (decodeTypeDef R rec b ty id pos p) := by
  have hty := hk.typ _ rfl
  have hno : (∀ p, ty.typeDef ≠ .primitive p) → (∀ fields, ty.typeDef ≠ .composite fields) →
      (∀ ids, ty.typeDef ≠ .tuple ids) → ¬ Compactable R id := fun h1 h2 h3 =>
    not_compactable hty hs (fun p h => absurd h (h1 p)) (fun p h => absurd h (h2 p)) (fun p h => absurd h (h3 p))
  unfold decodeTypeDef
  cases hd : ty.typeDef with
  | composite fields =>
    refine .bindR (decodeFields_true h (id := id) hp (fun f hf => .inr ⟨id, hk.cyc, .field hty hd hf⟩) ?_ ?_)
      fun _ => .ok _
    · intro f hf hl
      refine hk.cmp.step fun hc => ?_
      rcases compactable_cases hty hc with ⟨k, h⟩ | ⟨-, ⟨p, h, -⟩ | ⟨fs, h, -, h'⟩ | ⟨ids, h, -⟩⟩
      · unfold Structural at hs; rw [h] at hs; cases hs
      · rw [hd] at h; cases h
      · rw [hd] at h; cases h; exact h' f hf
      · rw [hd] at h; cases h
    · intro hl
      exact .inr ⟨hk.cmp, not_compactable hty hs (by simp [hd])
        (by intro fs h; rw [hd] at h; cases h; exact hl) (by simp [hd])⟩
  | variant vs =>
    refine .bindR (propReject_true hk.cmp (hno (by simp [hd]) (by simp [hd]) (by simp [hd]))) fun _ => ?_
    split
    · exact .ok _
    · exact .bindR (decodeVariant_true hr h hp hty hd) fun _ => .ok _
  | sequence elem =>
    refine .bind (getCompact_true hr hp) fun r hrr => ?_
    obtain ⟨n, pos'⟩ := r
    have hle : pos ≤ pos' := by
      obtain ⟨f, hf, hrr⟩ := bind_ok.1 hrr
      cases hrr
      have := (findCompact_sound hf).2.2
      omega
    exact decodeElementsSet_true h (id := id) (by omega) (.inl rfl) hk.cmp
      (hno (by simp [hd]) (by simp [hd]) (by simp [hd]))
  | array n elem =>
    exact decodeElementsSet_true h (id := id) hp (.inr ⟨id, hk.cyc, .array hty hd⟩) hk.cmp
      (hno (by simp [hd]) (by simp [hd]) (by simp [hd]))
  | tuple ids =>
    dsimp only
    unfold decodeTuple
    have hloop : ∀ c : Checker, c.cycleCheck = p.checker.cycleCheck →
        (∀ i ∈ ids, CmpOk R c.specialtySet.compactAt i) →
        Honest (TrueOf R b start) (decodeTupleLoop R rec c ids pos) := by
      intro c h1 h2
      exact decodeTupleLoop_true h ids hp fun i hi => ⟨.inr ⟨id, by rw [h1]; exact hk.cyc, .tuple hty hd hi⟩, h2 i hi⟩
    dsimp only
    split
    · rename_i hl
      rw [bind_assoc]
      refine .bind (propReject_true hk.cmp (not_compactable hty hs (by simp [hd]) (by simp [hd])
        (by intro fs h; rw [hd] at h; cases h; exact hl))) fun u hu => ?_
      rw [ok_bind]
      refine .bindR (hloop _ rfl fun i hi => ?_) fun _ => .ok _
      have hcn := propReject_ok.1 hu
      have : p.forgetHint.checker.specialtySet.compactAt = p.checker.specialtySet.compactAt := by
        unfold Propagated.forgetHint Checker.forgetHint SpecialtySet.forgetHint
        dsimp only; split <;> rfl
      rw [this]
      unfold Propagated.compactAt at hcn
      rw [hcn]
      exact cmpOk_none
    · rename_i hl
      rw [ok_bind]
      refine .bindR (hloop _ rfl fun i hi => hk.cmp.step fun hc => ?_) fun _ => .ok _
      rcases compactable_cases hty hc with ⟨k, h⟩ | ⟨-, ⟨p, h, -⟩ | ⟨fs, h, -, h'⟩ | ⟨ids, h, -, h'⟩⟩
      · unfold Structural at hs; rw [h] at hs; cases hs
      · rw [hd] at h; cases h
      · rw [hd] at h; cases h
      · rw [hd] at h; cases h; exact h' i hi
  | primitive prim => exact withInfo_true (decodePrimitive_true hr hp hty hs hd hk.cmp)
  | compact inner =>
    refine .bindR (propReject_true hk.cmp (hno (by simp [hd]) (by simp [hd]) (by simp [hd]))) fun _ => ?_
    dsimp only
    refine .bind (checkId_true (c := { p.checker with specialtySet :=
      { p.checker.specialtySet with compactAt := some id } }) hk.cyc (.compact hty hd)) fun c hc => ?_
    obtain ⟨-, rfl⟩ := checkId_ok.1 hc
    exact h.honest _ _ _ hp ⟨(by intro t ht; cases ht), hk.cyc.next (.compact hty hd), cmpOk_self hty hd⟩
  | bitSequence order store =>
    exact .bindR (propReject_true hk.cmp (hno (by simp [hd]) (by simp [hd]) (by simp [hd]))) fun _ =>
      withInfo_true (decodeBitSequence_true hr hty hd hp)

theorem decodeChecked_true (hr : Reliable b) {rec : Dec} (h : RecTrue R b start rec) {ty : Typ} {id pos : Nat}
    {p : Propagated} {sp : TypeChecked} (hp : start ≤ pos) (hs : SpOk R ty sp) (hk : Call.Ok R (some ty) id p.checker) :
    Honest (TrueOf R b start) (decodeChecked R rec b sp ty id pos p) := by
  have hty := hk.typ _ rfl
  have hsp : ∀ s, special ty.path = some s → (∀ k, s ≠ .per k) → ¬ Structural ty.path → ¬ Compactable R id :=
    fun s h1 h2 h3 => not_compactable_special hty h3 fun k hk => by rw [h1] at hk; cases hk; exact h2 _ rfl
  have hen : ∀ vs, Structural ty.path → ty.typeDef = .variant vs → ¬ Compactable R id := fun vs h1 h2 =>
    not_compactable hty h1 (by simp [h2]) (by simp [h2]) (by simp [h2])
  unfold decodeChecked
  cases hs with
  | none h1 => exact decodeTypeDef_true hr h hp h1 hk
  | fixed h1 =>
    refine withInfo_true (.bindR (blockCompact_true hk.cmp (hsp _ h1 (by simp) ?_)) fun _ =>
      .bindR (cutArray_true hr _ hp) fun _ => .ok _)
    unfold Structural; rw [h1]; exact fun h => h
  | signature h1 h2 =>
    exact withInfo_true (.bindR (blockCompact_true hk.cmp (hen _ h1 h2)) fun _ =>
      .bindR (cutArray_true hr _ hp) fun _ => .ok _)
  | era h1 =>
    refine .bindR (propReject_true hk.cmp (hsp _ h1 (by simp) ?_)) fun _ =>
      .bindR (specialCaseEra_true hr hp) fun _ => .ok _
    unfold Structural; rw [h1]; exact fun h => h
  | h256 h1 =>
    refine .bindR (propReject_true hk.cmp (hsp _ h1 (by simp) ?_)) fun _ =>
      withInfo_true (.bindR (cutArray_true hr _ hp) fun _ => by dsimp only; split <;> exact .ok _)
    unfold Structural; rw [h1]; exact fun h => h
  | per h1 => exact withInfo_true (parsePer_true hr _ hp _)
  | pallet h1 h2 h3 h4 =>
    exact .bindR (propReject_true hk.cmp (hen _ h1 h2)) fun _ =>
      .bindR (decodeVariant_true hr h hp h3 h4) fun _ => .ok _

theorem decodeStep_true (hr : Reliable b) {rec : Dec} (h : RecTrue R b start rec) {tyIn : TyIn} {pos : Nat}
    {p : Propagated} (hp : start ≤ pos) (hk : Call.Ok R tyIn.typ tyIn.tyId p.checker) :
    Honest (TrueOf R b start) (decodeStep R b rec tyIn pos p) := by
  unfold decodeStep
  have key : ∀ ty id, tyIn.resolve R = .ok (ty, id) → Call.Ok R (some ty) id (p.addInfo (Info.fromTy ty)).checker := by
    intro ty id hres
    rw [addInfo_checker]
    cases tyIn with
    | resolved t i => cases hres; exact hk
    | symbol i =>
      obtain ⟨t, ht, hres⟩ := bind_ok.1 hres
      cases hres
      exact ⟨fun t' ht' => by cases ht'; exact get_ok.1 ht, hk.cyc, hk.cmp⟩
  refine .bind ?_ fun r hres => ?_
  · cases tyIn with
    | resolved t i => exact .ok _
    | symbol i => exact .bindR (get_true _) fun _ => .ok _
  · obtain ⟨ty, id⟩ := r
    refine .bind (fromType_true _ _).1 fun r hft => ?_
    obtain ⟨sp, pos'⟩ := r
    have := checkMultiSignature_pos hft
    exact decodeChecked_true hr h (by omega) ((fromType_true (start := start) _ _).2 _ _ hft) (key _ _ hres)

theorem decodeF_true (hr : Reliable b) (n : Nat) : RecTrue R b start (decodeF R b n) := by
  induction n with
  | zero => exact ⟨fun _ _ _ _ _ => .fuel, fun _ _ _ _ _ h => by cases h⟩
  | succ n ih =>
    exact ⟨fun tyIn pos p hp hk => decodeStep_true hr ih hp hk, fun tyIn pos p d pos' h => decodeF_forward _ _ _ _ _ _ h⟩

theorem decode_true (hr : Reliable b) {tyIn : TyIn} {pos : Nat} {p : Propagated} (hp : start ≤ pos)
    (hk : Call.Ok R tyIn.typ tyIn.tyId p.checker) : Honest (TrueOf R b start) (decode R b tyIn pos p) :=
  (decodeF_true hr _).honest _ _ _ hp hk

end

end Verif
