import Verif.Spec.Depth
import Verif.Props.Decode
/-!
# C55 How deep decoding nests

`decodeF R b n` is `decode_with_type` where at most `n` calls may be nested: the next one ends the
program (`Fail.fuel`), as a full stack would. On a device with a small stack it matters how deep the
calls nest.
-/
namespace Verif
open Spec

variable {R : Registry} {b : Buf}

/-! ### Depth of the outcome -/

theorem pdDepth_pos (d : PD) : 1 ≤ pdDepth d := by
  cases d <;> simp [pdDepth]

/-- Parser of single values. -/
def Flat (r : Res (PD × Nat)) : Prop := ∀ d q, r = .ok (d, q) → pdDepth d = 1

theorem Flat.bind {α : Type} {r : Res α} {f : α → Res (PD × Nat)} (h : ∀ a, Flat (f a)) : Flat (r >>= f) := by
  intro d q e
  obtain ⟨a, _, e⟩ := bind_ok.1 e
  exact h a d q e

theorem Flat.ok {d : PD} {q : Nat} (h : pdDepth d = 1) : Flat (.ok (d, q)) := by
  intro d' q' e; cases e; exact h

theorem Flat.error {e : Fail} : Flat (.error e) := fun _ _ h => nomatch h

theorem parseUInt_flat (w : UW) (pos : Nat) (s : SpecialtySet) : Flat (parseUInt w b pos s) := by
  unfold parseUInt
  dsimp only
  split <;> exact .bind fun _ => .ok (by simp [pdDepth])

theorem parsePer_flat (k : PerKind) (pos : Nat) (c : Option Nat) : Flat (parsePer k b pos c) := by
  unfold parsePer
  dsimp only
  split <;> exact .bind fun _ => .ok (by simp [pdDepth])

theorem parseFixed_flat (k : FixedKind) (pos : Nat) (c : Option Nat) : Flat (parseFixed k b pos c) :=
  .bind fun _ => .bind fun _ => .ok (by simp [pdDepth])

theorem specialCaseH256_flat (pos : Nat) (s : SpecH256) : Flat (specialCaseH256 b pos s) :=
  .bind fun _ => by cases s <;> exact .ok (by simp [pdDepth])

theorem parseInt_flat (w : IW) (pos : Nat) (c : Option Nat) : Flat (parseInt w b pos c) :=
  .bind fun _ => .bind fun _ => .ok (by simp [pdDepth])

theorem decodePrimitive_flat (p : Prim) (pos : Nat) (s : SpecialtySet) : Flat (decodePrimitive p b pos s) := by
  cases p with
  | bool => exact .bind fun _ => .bind fun _ => .ok (by simp [pdDepth])
  | char => exact .bind fun _ => .bind fun _ => .ok (by simp [pdDepth])
  | str =>
    refine .bind fun _ => ?_
    unfold decodeStr
    refine .bind fun _ => .bind fun _ => ?_
    split
    · exact .ok (by simp [pdDepth])
    · exact .error
  | u256 => exact .bind fun _ => .bind fun _ => .ok (by simp [pdDepth])
  | u8 | u16 | u32 | u64 | u128 => exact parseUInt_flat _ _ _
  | i8 | i16 | i32 | i64 | i128 | i256 => exact parseInt_flat _ _ _

theorem decodeBitSequence_flat (o s id pos : Nat) : Flat (decodeBitSequence R o s id b pos) := by
  unfold decodeBitSequence
  refine .bind fun _ => .bind fun t => ?_
  split
  · split
    · refine .bind fun x => ?_
      dsimp only
      split
      · exact .ok (by simp [pdDepth])
      · exact .error
    · exact fun _ _ h => nomatch h
  · exact fun _ _ h => nomatch h

/-- Outcomes of at most this depth. -/
def Shallow (n : Nat) (r : Res (ED × Nat)) : Prop := ∀ d q, r = .ok (d, q) → edDepth d ≤ n

theorem Flat.shallow {r : Res (PD × Nat)} (h : Flat r) (info : List Info) (n : Nat) : Shallow (n + 1) (withInfo info r) := by
  intro d q e
  unfold withInfo at e
  obtain ⟨⟨x, y⟩, e1, e⟩ := bind_ok.1 e
  cases e
  have := h _ _ e1
  simp only [edDepth]
  omega

theorem Shallow.bind {α : Type} {n : Nat} {r : Res α} {f : α → Res (ED × Nat)} (h : ∀ a, r = .ok a → Shallow n (f a)) :
    Shallow n (r >>= f) := by
  intro d q e
  obtain ⟨a, ha, e⟩ := bind_ok.1 e
  exact h a ha d q e

theorem Shallow.ok {n : Nat} {d : ED} {q : Nat} (h : edDepth d ≤ n) : Shallow n (.ok (d, q)) := by
  intro d' q' e; cases e; exact h

section
variable {rec : Dec} {n : Nat} (h : ∀ tyIn pos p, Shallow n (rec tyIn pos p))
include h

theorem decodeFieldsLoop_depth (c : Checker) (fs : List Field) {pos q : Nat} {out : List FD}
    (e : decodeFieldsLoop rec c fs pos = .ok (out, q)) : fdsDepth out ≤ n := by
  induction fs generalizing pos out with
  | nil => cases e; simp [fdsDepth]
  | cons f fs ih =>
    unfold decodeFieldsLoop at e
    obtain ⟨p, _, e⟩ := bind_ok.1 e
    obtain ⟨⟨d, q1⟩, e1, e⟩ := bind_ok.1 e
    obtain ⟨⟨l, q2⟩, e2, e⟩ := bind_ok.1 e
    cases e
    simp only [fdsDepth]
    exact Nat.max_le.2 ⟨h _ _ _ _ _ e1, ih e2⟩

theorem decodeFields_depth {c : Checker} {fs : List Field} {pos q : Nat} {out : List FD}
    (e : decodeFields rec fs pos c = .ok (out, q)) : fdsDepth out ≤ n := by
  unfold decodeFields at e
  split at e
  · obtain ⟨_, _, e⟩ := bind_ok.1 e
    exact decodeFieldsLoop_depth h _ _ e
  · exact decodeFieldsLoop_depth h _ _ e

theorem decodeElementsLoop_depth (u : HuskedType) (k : Nat) {pos q : Nat} {out : List PD}
    (e : decodeElementsLoop rec u k pos = .ok (out, q)) : pdsDepth out ≤ n := by
  induction k generalizing pos out with
  | zero => cases e; simp [pdsDepth]
  | succ k ih =>
    unfold decodeElementsLoop at e
    obtain ⟨⟨d, q1⟩, e1, e⟩ := bind_ok.1 e
    obtain ⟨⟨l, q2⟩, e2, e⟩ := bind_ok.1 e
    cases e
    simp only [pdsDepth]
    exact Nat.max_le.2 ⟨by have := h _ _ _ _ _ e1; cases d; simpa only [edDepth] using this, ih e2⟩

theorem decodeElementsSet_depth (elem k pos : Nat) (p : Propagated) : Shallow (n + 1) (decodeElementsSet R rec elem k pos p) := by
  unfold decodeElementsSet
  refine .bind fun _ _ => .bind fun u _ => ?_
  split
  · exact .ok (by simp [edDepth, pdDepth, pdsDepth])
  · refine .bind fun x hx => ?_
    obtain ⟨out, q⟩ := x
    have := decodeElementsLoop_depth h u k hx
    dsimp only
    split
    · exact .ok (by simp [edDepth, pdDepth])
    · exact .ok (by simpa [edDepth, pdDepth] using this)

theorem decodeTupleLoop_depth (c : Checker) (ids : List Nat) {pos q : Nat} {out : List ED}
    (e : decodeTupleLoop R rec c ids pos = .ok (out, q)) : edsDepth out ≤ n := by
  induction ids generalizing pos out with
  | nil => cases e; simp [edsDepth]
  | cons i ids ih =>
    unfold decodeTupleLoop at e
    obtain ⟨t, _, e⟩ := bind_ok.1 e
    obtain ⟨p, _, e⟩ := bind_ok.1 e
    obtain ⟨⟨d, q1⟩, e1, e⟩ := bind_ok.1 e
    obtain ⟨⟨l, q2⟩, e2, e⟩ := bind_ok.1 e
    cases e
    simp only [edsDepth]
    exact Nat.max_le.2 ⟨h _ _ _ _ _ e1, ih e2⟩

theorem decodeVariant_depth {vs : List Variant} {pos q : Nat} {v : Variant} {out : List FD}
    (e : decodeVariant rec vs b pos = .ok (v, out, q)) : fdsDepth out ≤ n := by
  unfold decodeVariant at e
  obtain ⟨w, _, e⟩ := bind_ok.1 e
  obtain ⟨⟨l, q2⟩, e2, e⟩ := bind_ok.1 e
  cases e
  exact decodeFields_depth h e2

theorem decodeTypeDef_depth (ty : Typ) (id pos : Nat) (p : Propagated) :
    Shallow (n + 1) (decodeTypeDef R rec b ty id pos p) := by
  unfold decodeTypeDef
  split
  · refine .bind fun x hx => .ok ?_
    have := decodeFields_depth h hx
    simpa [edDepth, pdDepth] using this
  · refine .bind fun _ _ => ?_
    split
    · exact .ok (by simp [edDepth, pdDepth])
    · refine .bind fun x hx => .ok ?_
      have := decodeVariant_depth h hx
      simpa [edDepth, pdDepth] using this
  · exact .bind fun _ _ => decodeElementsSet_depth h _ _ _ _
  · exact decodeElementsSet_depth h _ _ _ _
  · unfold decodeTuple
    dsimp only
    split
    all_goals
      refine .bind fun p' _ => .bind fun x hx => .ok ?_
      have := decodeTupleLoop_depth h _ _ hx
      simpa [edDepth, pdDepth] using this
  · exact (decodePrimitive_flat _ _ _).shallow _ _
  · refine .bind fun _ _ => .bind fun _ _ => ?_
    intro d q e
    have := h _ _ _ d q e
    omega
  · exact .bind fun _ _ => (decodeBitSequence_flat _ _ _ _).shallow _ _

theorem decodeStep_depth (tyIn : TyIn) (pos : Nat) (p : Propagated) : Shallow (n + 1) (decodeStep R b rec tyIn pos p) := by
  unfold decodeStep
  refine .bind fun x _ => .bind fun y _ => ?_
  obtain ⟨ty, id⟩ := x
  obtain ⟨sp, q⟩ := y
  dsimp only
  unfold decodeChecked
  cases sp with
  | none => exact decodeTypeDef_depth h _ _ _ _
  | fixed k => exact (parseFixed_flat _ _ _).shallow _ _
  | era => exact .bind fun _ _ => .bind fun _ _ => .ok (by simp [edDepth, pdDepth])
  | h256 => exact .bind fun _ _ => (specialCaseH256_flat _ _).shallow _ _
  | palletSpecific a i vs item =>
    refine .bind fun _ _ => .bind fun x hx => .ok ?_
    have := decodeVariant_depth h hx
    simpa [edDepth, pdDepth] using this
  | perThing k => exact (parsePer_flat _ _ _).shallow _ _

end

theorem decodeF_depth (n : Nat) (tyIn : TyIn) (pos : Nat) (p : Propagated) : Shallow n (decodeF R b n tyIn pos p) := by
  induction n generalizing tyIn pos p with
  | zero => intro d q e; cases e
  | succ n ih => exact decodeStep_depth (fun t q p => ih t q p) tyIn pos p

/-! ### The bound -/

/-- C55. Decoding at `pos` nests at most `u * (t + 1) + t + 2` calls, where `u` bytes are not read yet and
`t` is the number of types: with this many, and with any greater number, the outcome is that of decoding
without a limit. -/
theorem decode_nesting (b : Buf) (tyIn : TyIn) (pos : Nat) (p : Propagated) {n : Nat}
    (hn : (b.len - pos) * (R.size + 1) + R.size + 2 ≤ n) :
    decodeF R b n tyIn pos p = decode R b tyIn pos p ∧ decodeF R b n tyIn pos p ≠ .error .fuel := by
  have h := decodeF_eq_decode (R := R) (b := b) n tyIn pos p
    (by have := measure_le (R := R) (b := b) pos p.checker; unfold depthBound at this; omega)
  refine ⟨h, ?_⟩
  rw [h]
  rcases decode_total (R := R) b tyIn pos p with ⟨d, q, e⟩ | ⟨e', e⟩ <;> rw [e] <;> intro h <;> cases h

/-- C55. So deep is the outcome at most. -/
theorem decode_depth {tyIn : TyIn} {pos q : Nat} {p : Propagated} {d : ED} (h : decode R b tyIn pos p = .ok (d, q)) :
    edDepth d ≤ (b.len - pos) * (R.size + 1) + R.size + 2 :=
  decodeF_depth (depthBound R b pos) tyIn pos p d q h

/-! ### No constant limit -/

namespace Example

/-- `enum List { Nil, Cons(List) }`. -/
def listReg : Registry :=
  .portable [
    { path := ["List"], typeDef := .variant
        [{ name := "Nil", index := 0 }, { name := "Cons", index := 1, fields := [{ ty := 0 }] }] }]

/-- `Cons(Cons(… Nil))`, `n` times `Cons`. -/
def listBytes : Nat → Bytes
  | 0 => [0]
  | n + 1 => 1 :: listBytes n

/-- The decoded list, with the info of the type at every place. -/
def listData : Nat → ED
  | 0 => ⟨.variant "Nil" "" [], [⟨"", ["List"]⟩]⟩
  | n + 1 => ⟨.variant "Cons" "" [⟨none, none, "", listData n⟩], [⟨"", ["List"]⟩]⟩

/-- What is handed down to the next element. -/
def listProp : Propagated := { checker := { cycleCheck := [0] } }

end Example
open Example

theorem listBytes_length (n : Nat) : (listBytes n).length = n + 1 := by
  induction n with
  | zero => rfl
  | succ n ih => simp [listBytes, ih]

theorem listData_depth (n : Nat) : edDepth (listData n) = n + 1 := by
  induction n with
  | zero => simp [listData, edDepth, pdDepth, fdsDepth]
  | succ n ih => simp [listData, edDepth, pdDepth, fdsDepth, ih]

/-- One step of the decoder on such a list. -/
theorem list_step {rec : Dec} {pos : Nat} {p : Propagated} {x : UInt8} (hi : p.info = [])
    (hc : p.checker.specialtySet.compactAt = none) (hb : b.readByte pos = .ok x) (hx : x = 0 ∨ x = 1) :
    decodeStep listReg b rec (.symbol 0) pos p =
      if x = 0 then .ok (listData 0, pos + 1)
      else rec (.symbol 0) (pos + 1) listProp >>= fun r =>
        .ok (⟨.variant "Cons" "" [⟨none, none, "", r.1⟩], [⟨"", ["List"]⟩]⟩, r.2) := by
  have hr : p.rejectCompact = .ok () := by
    show p.checker.specialtySet.rejectCompact = _
    unfold SpecialtySet.rejectCompact
    rw [hc]
  obtain ⟨c, info⟩ := p
  subst hi
  have h1 : decodeStep listReg b rec (.symbol 0) pos ⟨c, []⟩ =
      (Propagated.rejectCompact ⟨c, []⟩ >>= fun _ => decodeVariant rec
          [{ name := "Nil", index := 0 }, { name := "Cons", index := 1, fields := [{ ty := 0 }] }] b pos >>= fun r =>
        .ok (⟨.variant r.1.name (collectDocs r.1.docs) r.2.1, [⟨"", ["List"]⟩]⟩, r.2.2)) := rfl
  rw [h1, hr, ok_bind]
  unfold decodeVariant pickVariant
  rw [hb, ok_bind]
  rcases hx with rfl | rfl
  · rfl
  · show (decodeFieldsLoop rec Checker.new [{ ty := 0 }] (pos + 1) >>= fun r => Except.ok (_, r.1, r.2)) >>= _ = _
    unfold decodeFieldsLoop
    have h2 : Propagated.forField Checker.new { ty := 0 } = .ok listProp := rfl
    rw [h2, ok_bind]
    show _ = rec (.symbol 0) (pos + 1) listProp >>= _
    cases rec (.symbol 0) (pos + 1) listProp with
    | error e => rfl
    | ok r => rfl

theorem list_run (n k : Nat) (pre : Bytes) {p : Propagated} (hi : p.info = []) (hc : p.checker.specialtySet.compactAt = none) :
    decodeF listReg (.ofBytes (pre ++ listBytes n)) k (.symbol 0) pre.length p =
      if n < k then .ok (listData n, pre.length + n + 1) else .error .fuel := by
  induction n generalizing k pre p with
  | zero =>
    cases k with
    | zero => rfl
    | succ k =>
      unfold decodeF
      rw [list_step (x := 0) hi hc (readByte_of_at (reliable_ofBytes _) ⟨pre, [], by simp [Buf.ofBytes, listBytes], rfl⟩) (.inl rfl),
        if_pos rfl, if_pos (by omega)]
  | succ n ih =>
    cases k with
    | zero => rfl
    | succ k =>
      unfold decodeF
      rw [list_step (x := 1) hi hc
        (readByte_of_at (reliable_ofBytes _) ⟨pre, listBytes n, by simp [Buf.ofBytes, listBytes], rfl⟩) (.inr rfl),
        if_neg (by decide)]
      have := ih k (pre ++ [1]) (p := listProp) rfl rfl
      rw [List.length_append, List.append_assoc] at this
      simp only [listBytes, List.singleton_append, List.length_singleton] at this ⊢
      rw [this]
      by_cases hn : n < k
      · rw [if_pos hn, if_pos (by omega)]
        show Except.ok _ = Except.ok _
        congr 2
        omega
      · rw [if_neg hn, if_neg (by omega)]; rfl

/-- C55. There is no limit: `n + 1` bytes, of a type with one enum that contains itself, are decoded with
more than `n` nested calls, into data of depth `n + 1`. -/
theorem decode_nesting_unbounded (n : Nat) : (listBytes n).length = n + 1 ∧
    decodeAllAsType listReg (.ofBytes (listBytes n)) 0 = .ok (listData n) ∧ edDepth (listData n) = n + 1 ∧
    decodeF listReg (.ofBytes (listBytes n)) n (.symbol 0) 0 Propagated.new = .error .fuel := by
  refine ⟨listBytes_length n, ?_, listData_depth n, ?_⟩
  · unfold decodeAllAsType decodeAsTypeAtPosition
    have h := list_run n (depthBound listReg (.ofBytes (listBytes n)) 0) [] (p := Propagated.new) rfl rfl
    have hl : (Buf.ofBytes (listBytes n)).len = n + 1 := listBytes_length n
    rw [if_pos (by unfold depthBound; rw [hl]; simp only [Nat.sub_zero]; show n < (n + 1) * (1 + 1) + 1 + 2; omega)] at h
    have h : decode listReg (.ofBytes (listBytes n)) (.symbol 0) 0 Propagated.new = .ok (listData n, n + 1) := by
      rw [show [].length + n + 1 = n + 1 by simp] at h
      exact h
    rw [h]
    show (if n + 1 ≠ _ then _ else _) = _
    rw [hl, if_neg (by simp)]
  · have h := list_run n n [] (p := Propagated.new) rfl rfl
    rw [if_neg (by omega)] at h
    exact h

/-- Three nested lists: depth four, allowed by the bound. -/
example : decode listReg (.ofBytes [1, 1, 1, 0]) (.symbol 0) 0 .new = .ok (listData 3, 4) ∧ edDepth (listData 3) = 4 ∧
    4 ≤ (4 - 0) * (1 + 1) + 1 + 2 := ⟨rfl, listData_depth 3, by decide⟩

end Verif
