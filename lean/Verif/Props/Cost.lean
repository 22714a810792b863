import Verif.Proof.CostTx
import Verif.Props.Weight
import Verif.Props.Checkers
/-!
# C66 The cost of memory accesses is linear in the size of the input

Every access to the external memory costs one, plus one for each byte handed over. As long as elements
of vectors take at least one byte (`SolidVectors`), and no type contains itself without an enum or a
vector in between (`Ranked`), decoding costs at most proportionally to the input, also if accesses fail
and if the outcome is an error; how much a byte may cost depends on the registry only.
-/
namespace Verif
open Spec

variable {σ ME : Type} {D : Device σ} {R : Registry} {data : Bytes} {c : σ → Nat}

/-! ### A meter can be attached to every memory -/

theorem metered_meters (D : Device σ) : Metered (metered D) (·.2) :=
  ⟨fun _ _ _ => Nat.le_refl _, fun _ _ => Nat.le_refl _⟩

theorem metered_flaky (h : Flaky D R data) : Flaky (metered D) R data :=
  ⟨h.len, h.size, h.word, fun pos n s => h.read pos n s.1, fun id s => h.resolve id s.1⟩

/-! ### Every registry without cycles has a toll -/

theorem fieldsCost_le {f g : Nat → Nat} {fs : List Field} (h : ∀ x ∈ fs, f x.ty ≤ g x.ty) :
    fieldsCost f fs ≤ fieldsCost g fs := sum_map_le h

theorem costUpTo_pos (n id : Nat) : 1 ≤ costUpTo R n id := by
  cases n with
  | zero => exact Nat.le_refl _
  | succ n =>
    rw [costUpTo]
    split
    · exact Nat.le_refl _
    · unfold ownCost; omega

theorem costUpTo_succ (n : Nat) : ∀ id, costUpTo R n id ≤ costUpTo R (n + 1) id := by
  induction n with
  | zero => intro id; exact costUpTo_pos _ _
  | succ n ih =>
    intro id
    rw [costUpTo, costUpTo]
    split
    · exact Nat.le_refl _
    · refine Nat.add_le_add_left ?_ _
      split
      · exact fieldsCost_le fun x _ => ih x.ty
      · exact sum_map_le fun i _ => ih i
      · exact Nat.mul_le_mul_left _ (ih _)
      · exact ih _
      · exact Nat.le_refl _

theorem costUpTo_mono {n m : Nat} (h : n ≤ m) (id : Nat) : costUpTo R n id ≤ costUpTo R m id := by
  induction h with
  | refl => exact Nat.le_refl _
  | step _ ih => exact Nat.le_trans ih (costUpTo_succ _ id)

/-- A registry without cycles has a toll: the cost of the most expensive type or variant. -/
theorem ranked_toll {rk : Nat → Nat} (hr : Ranked R rk) : Toll R (typeCost R rk) (largestCost R rk) := by
  have hK : ∀ id, id < R.size → max (typeCost R rk id) (variantCost R (typeCost R rk) id) ≤ largestCost R rk := by
    intro id h
    have := le_largest (f := fun id => max (typeCost R rk id) (variantCost R (typeCost R rk) id)) (List.mem_range.2 h)
    unfold largestCost
    omega
  have hlt : ∀ {id t}, R.resolve id = .ok t → id < R.size := by
    intro id t h
    rcases Nat.lt_or_ge id R.size with h1 | h1
    · exact h1
    · obtain ⟨e, he⟩ := R.bounded id h1
      rw [he] at h; cases h
  unfold typeCost at hK ⊢
  refine ⟨?_, ?_, ?_, ?_, ?_, ?_, ?_, ?_⟩
  · intro id
    rcases Nat.lt_or_ge id R.size with h1 | h1
    · have := hK id h1
      omega
    · obtain ⟨e, he⟩ := R.bounded id h1
      simp only [costUpTo, he, largestCost]
      omega
  · intro id
    exact costUpTo_pos _ _
  · intro id t h
    simp only [costUpTo, h]
    omega
  · intro id t fields h hd
    have h1 := (hr id t h).1 fields hd
    have h2 : fieldsCost (fun i => costUpTo R (rk i + 1) i) fields ≤ fieldsCost (costUpTo R (rk id)) fields :=
      fieldsCost_le fun x hx => costUpTo_mono (h1 x hx) x.ty
    simp only [costUpTo, h, hd]
    simp only [costUpTo] at h2
    omega
  · intro id t ids h hd
    have h1 := (hr id t h).2.1 ids hd
    have h2 : (ids.map fun i => costUpTo R (rk i + 1) i).sum ≤ (ids.map (costUpTo R (rk id))).sum :=
      sum_map_le fun x hx => costUpTo_mono (h1 x hx) x
    simp only [costUpTo, h, hd]
    simp only [costUpTo] at h2
    omega
  · intro id t n elem h hd
    have h1 := (hr id t h).2.2.1 n elem hd
    have h2 := Nat.mul_le_mul_left (n + 1) (costUpTo_mono (R := R) h1 elem)
    simp only [costUpTo, h, hd]
    simp only [costUpTo] at h2
    omega
  · intro id t inner h hd
    have h1 := (hr id t h).2.2.2 inner hd
    have h2 := costUpTo_mono (R := R) h1 inner
    simp only [costUpTo, h, hd]
    simp only [costUpTo] at h2
    omega
  · intro id t vs v h hd hv
    have h1 := hK id (hlt h)
    have h2 := le_largest (f := fun v : Variant =>
      ownCost + 2 * fieldsCost (fun i => costUpTo R (rk i + 1) i) v.fields) hv
    obtain ⟨path, docs, params, d⟩ := t
    cases hd
    simp only [variantCost, h] at h1
    omega

/-! ### Values -/

variable {sz : Nat → Nat} {K : Nat}

/-- C66. Decoding a value, with a toll: in any state of the memory, whatever accesses fail, whatever the
outcome, the accesses cost at most in proportion to the data after the position. -/
theorem value_cost_linear (T : Toll R sz K) (hv : SolidVectors R) (h : Flaky D R data) (M : Metered D c)
    (id pos : Nat) (s : σ) :
    c (decodeAsTypeAtPositionD D id pos s).2 ≤ c s + K * (1 + 2 * (data.length - pos)) := by
  have hp := decodeD_pays T hv M h.honest id pos Propagated.new s
  have hK := T.within id
  have hl : (Buf.ofBytes data).len = data.length := rfl
  rw [hl] at hp
  have e : K * (1 + 2 * (data.length - pos)) = K + 2 * K * (data.length - pos) := by
    rw [Nat.mul_add, Nat.mul_one, Nat.mul_left_comm, Nat.mul_assoc]
  show c (decodeD D (.symbol id) pos Propagated.new s).2 ≤ _
  rw [e]
  cases ho : (decodeD D (.symbol id) pos Propagated.new s).1 with
  | error x => have := hp.2 x ho; omega
  | ok a =>
    obtain ⟨h1, h2⟩ := hp.1 a ho
    have := toll_end (W := 2 * K) h1
    omega

/-- C66. If the outcome is a value, the accesses cost at most in proportion to the bytes consumed. -/
theorem value_cost_consumed (T : Toll R sz K) (hv : SolidVectors R) (h : Flaky D R data) (M : Metered D c)
    {id pos q : Nat} {d : ED} {s : σ} (ho : (decodeAsTypeAtPositionD D id pos s).1 = .ok (d, q)) :
    c (decodeAsTypeAtPositionD D id pos s).2 ≤ c s + K * (1 + 2 * (q - pos)) := by
  have hp := decodeD_pays T hv M h.honest id pos Propagated.new s
  have hK := T.within id
  have e : K * (1 + 2 * (q - pos)) = K + 2 * K * (q - pos) := by
    rw [Nat.mul_add, Nat.mul_one, Nat.mul_left_comm, Nat.mul_assoc]
  obtain ⟨_, h2⟩ := hp.1 _ ho
  rw [e]
  dsimp only at h2
  show c (decodeD D (.symbol id) pos Propagated.new s).2 ≤ _
  omega

/-- C66. The same for a registry without cycles. -/
theorem value_cost_ranked {rk : Nat → Nat} (hr : Ranked R rk) (hv : SolidVectors R) (h : Flaky D R data)
    (id pos : Nat) (s : σ) :
    (decodeAsTypeAtPositionD (metered D) id pos (s, 0)).2.2 ≤ largestCost R rk * (1 + 2 * (data.length - pos)) := by
  have := value_cost_linear (ranked_toll hr) hv (metered_flaky h) (metered_meters D) id pos (s, 0)
  dsimp only at this
  omega

theorem decodeAllAsTypeD_state (D : Device σ) (id : Nat) (s : σ) :
    (decodeAllAsTypeD D id s).2 = (decodeAsTypeAtPositionD D id 0 s).2 := by
  show (Dev.bind (decodeAsTypeAtPositionD D id 0) _ s).2 = _
  unfold Dev.bind
  rcases decodeAsTypeAtPositionD D id 0 s with ⟨o, s'⟩
  cases o with
  | error e => rfl
  | ok a => dsimp only; split <;> rfl

/-- C66. Decoding the whole input as a value. -/
theorem whole_value_cost_linear (T : Toll R sz K) (hv : SolidVectors R) (h : Flaky D R data) (M : Metered D c)
    (id : Nat) (s : σ) : c (decodeAllAsTypeD D id s).2 ≤ c s + K * (1 + 2 * data.length) := by
  rw [decodeAllAsTypeD_state]
  exact value_cost_linear T hv h M id 0 s

/-! ### Transactions, extrinsics, storage entries -/

/-- C66. Parsing a transaction: two values per signed extension and the call. -/
theorem transaction_cost_linear {X : Metadata ME} (T : Toll X.types sz K) (hv : SolidVectors X.types)
    (h : Flaky D X.types data) (M : Metered D c) (expected : Option Bytes) (s : σ) :
    c (parseTransactionD D X expected s).2 ≤
      c s + (343 + data.length + K * (2 * extensionCount X + 1 + 2 * data.length)) :=
  transaction_spends T hv M h.honest expected s

/-- C66. Parsing a transaction that is not marked. -/
theorem transactionUnmarked_cost_linear {X : Metadata ME} (T : Toll X.types sz K) (hv : SolidVectors X.types)
    (h : Flaky D X.types data) (M : Metered D c) (expected : Option Bytes) (s : σ) :
    c (parseTransactionUnmarkedD D X expected s).2 ≤ c s + K * (2 * extensionCount X + 1 + 2 * data.length) :=
  transactionUnmarked_spends T hv M h.honest expected s

/-- C66. Decoding the call only, and the signed extensions only. -/
theorem call_cost_linear {X : Metadata ME} (T : Toll X.types sz K) (hv : SolidVectors X.types)
    (h : Flaky D X.types data) (M : Metered D c) (pos : Nat) (s : σ) :
    c (decodeAsCallUnmarkedD D X pos s).2 ≤ c s + (K + 2 * K * (data.length - pos)) :=
  (callUnmarked_pays T hv M h.honest pos).spends s

theorem extensions_cost_linear {X : Metadata ME} (T : Toll X.types sz K) (hv : SolidVectors X.types)
    (h : Flaky D X.types data) (M : Metered D c) (pos : Nat) (expected : Option Bytes) (s : σ) :
    c (decodeExtensionsUnmarkedD D X pos expected s).2 ≤
      c s + (2 * extensionCount X * K + 2 * K * (data.length - pos)) :=
  extensions_spends T hv M h.honest pos expected s

/-- C66. Decoding an unchecked extrinsic: address, signature, extra, call. -/
theorem extrinsic_cost_linear {X : CompleteMetadata ME} (T : Toll X.types sz K) (hv : SolidVectors X.types)
    (h : Flaky D X.types data) (M : Metered D c) (s : σ) :
    c (decodeUncheckedExtrinsicD D X s).2 ≤ c s + (344 + 2 * K * (2 + data.length)) :=
  extrinsic_spends T hv M h.honest s

/-- C66. Decoding a storage entry: the key (parts hashed with a concatenating hasher are read twice) and
the value. -/
theorem storage_cost_linear {DK DV : Device σ} {k v : Bytes} (T : Toll R sz K) (hv : SolidVectors R)
    (hk : Flaky DK R k) (MK : Metered DK c) (hval : Flaky DV R v) (MV : Metered DV c) (F : HashFns) (e : Entry) (s : σ) :
    c (decodeStorageEntryD F DK DV e s).2 ≤
      c s + (1 + keyParts e.ty * (34 + K) + (2 * K + 1) * k.length + K * (1 + 2 * v.length)) :=
  storage_spends T hv MK hk.honest MV hval.honest F e s

/-! ### Examples -/

namespace CostExample

/-- The types of the example, in a memory with a meter, whichever accesses fail. -/
example (fails : Nat → Bool) (s : Nat) :
    (decodeAsTypeAtPositionD (metered (scripted (usize64 false) (Registry.portable WeightExample.solidTypes)
      WeightExample.arrayBytes fails)) 13 0 (s, 0)).2.2 ≤
      largestCost (Registry.portable WeightExample.solidTypes) Example.rank * (1 + 2 * (WeightExample.arrayBytes.length - 0)) :=
  value_cost_ranked WeightExample.solid_ranked (solidVectors_check (by decide))
    (scripted_flaky _ ⟨by decide, by decide⟩ fails) 13 0 s

/-- The accesses for two structs in an array, if none of them fails, and if the fifth does. -/
example :
    ((decodeAsTypeAtPositionD (metered (scripted (usize64 false) (Registry.portable WeightExample.solidTypes)
      WeightExample.arrayBytes (fun _ => false))) 13 0 (0, 0)).2.2,
    (decodeAsTypeAtPositionD (metered (scripted (usize64 false) (Registry.portable WeightExample.solidTypes)
      WeightExample.arrayBytes (fun k => k == 4))) 13 0 (0, 0)).2.2) = (39, 5) := by decide +kernel

/-- The largest cost of a type or variant of the example: a byte costs at most `15200`; the array above
has `12` bytes, and costs `39`. -/
example : largestCost (Registry.portable WeightExample.solidTypes) Example.rank = 7600 := by decide +kernel

/-- The example chain, whichever accesses fail. -/
example (fails : Nat → Bool) (s : Nat) :
    (parseTransactionD (metered (FlakyExample.memory Example.payload.bytes fails)) Example.chain (some Example.genesis) (s, 0)).2.2 ≤
      0 + (343 + 77 + largestCost Example.chain.types (fun i => if i = 7 then 1 else 0) * (2 * 3 + 1 + 2 * 77)) :=
  transaction_cost_linear (X := Example.chain) (ranked_toll Example.chain_ranked) (solidVectors_check (ts := Example.chainTypes) (by decide))
    (metered_flaky (FlakyExample.memory_flaky (by decide) fails)) (metered_meters _) _ (s, 0)

/-- The example storage entry. -/
example (fails : Nat → Bool) (s : Nat) :
    (decodeStorageEntryD Example.hashes (metered (scripted (usize64 false) Example.storageReg Example.keyBytes fails))
      (metered (scripted (usize64 false) Example.storageReg [2, 1, 0, 0] fails)) Example.entry (s, 0)).2.2 ≤
      0 + (1 + 3 * (34 + 1600) + (2 * 1600 + 1) * Example.keyBytes.length + 1600 * (1 + 2 * 4)) :=
  storage_cost_linear (sz := typeCost Example.storageReg (fun i => if i = 2 then 1 else 0)) (K := 1600)
    (show Toll Example.storageReg _ (largestCost Example.storageReg (fun i => if i = 2 then 1 else 0)) from
      ranked_toll Example.storageReg_ranked)
    (solidVectors_check (by decide)) (metered_flaky (scripted_flaky _ ⟨by decide, by decide⟩ _)) (metered_meters _)
    (metered_flaky (scripted_flaky _ ⟨by decide, by decide⟩ _)) (metered_meters _) _ _ (s, 0)

/-- Types `()`, `((), ())`, `Vec<((), ())>`. -/
def unitVector : List Typ := [{ typeDef := .tuple [] }, { typeDef := .tuple [0, 0] }, { typeDef := .sequence 1 }]

theorem unitVector_ranked : Ranked (Registry.portable unitVector) (fun i => if i = 1 then 1 else 0) :=
  ranked_check (by decide)

/-- A vector whose elements take no bytes costs more than the bound: two bytes are enough for `3100`
elements. The assumption on vectors is needed. -/
theorem bound_exceeded :
    largestCost (Registry.portable unitVector) (fun i => if i = 1 then 1 else 0) * (1 + 2 * 2) <
      (decodeAsTypeAtPositionD (metered (scripted (usize64 false) (Registry.portable unitVector) [0x71, 0x30] (fun _ => false)))
        2 0 (0, 0)).2.2 := by decide +kernel

end CostExample

end Verif
