import Verif.Props.Renaming
import Verif.Props.Position
import Verif.Props.ErrorText
import Verif.Props.Weight
import Verif.Props.Checkers
import Verif.Props.Cost
import Verif.Props.Target32
import Verif.Props.CardsTx
import Verif.Witness.Values
import Verif.Witness.Transaction
import Verif.Witness.Device
/-!
# Every theorem applied to a concrete case: C62 to C67
-/
namespace Verif.Witness.Bounds
open Spec Verif.Example

/-! ### C62: numbers of types -/

/-- All types renumbered by one, with another type before them. -/
def after (ts : List Typ) : List Typ :=
  { path := ["Other"], typeDef := .variant [] } ::
    ts.map fun t =>
      { path := t.path, docs := t.docs, params := t.params.map (renParam (· + 1)), typeDef := renDef (· + 1) t.typeDef }

theorem after_renumbered (ts : List Typ) (id : Nat) :
    Renumbered (· + 1) (.portable ts) (.portable (after ts)) id where
  inj x y _ _ e := by omega
  same x _ := by
    simp only [Registry.portable, after, List.getElem?_cons_succ, List.getElem?_map]
    cases ts[x]? with
    | none => rfl
    | some t => exact ⟨rfl, rfl, rfl⟩

/-- The chain with all types renumbered. -/
def moved1 : Metadata Unit where
  types := .portable (after chainTypes)
  specNameVersion := .ok ⟨"9", "example"⟩
  callTy := .ok 3
  signedExtensions := .ok (chainExtensions.map (renExt (· + 1)))

theorem chain_moved : RenumberedMeta (· + 1) id chain moved1 where
  version := rfl
  call := rfl
  callTypes id _ := after_renumbered _ id
  extensions := rfl
  extTypes es _ e _ := ⟨after_renumbered _ _, after_renumbered _ _⟩

/-- The same with extrinsics. -/
def moved2 : CompleteMetadata Unit :=
  { moved1 with extrinsicTypeParams := .ok ⟨1, 3, 6, 8⟩, extrinsicVersion := .ok 4 }

example := decodeAsTypeAtPosition_renumbered (after_renumbered Example.types 4) Values.inside 1
example := decodeAllAsType_renumbered (after_renumbered Example.types 4) (Buf.ofBytes Example.sBytes)
/-- A registry that differs in a type that `Vec<u8>` does not reach. -/
theorem unseen {x : Nat} (h : Seen Example.reg 3 x) : Example.good.resolve x = Example.reg.resolve x := by
  have : x = 3 ∨ x = 0 := by
    induction h with
    | self => exact .inl rfl
    | part _ h1 _ h2 ih =>
      rcases ih with rfl | rfl <;> cases h1 <;> simp [partIds] at h2
      exact .inr h2
    | elem _ h1 h2 ih => rcases ih with rfl | rfl <;> cases h1 <;> cases h2
  rcases this with rfl | rfl <;> rfl
example := decodeAsTypeAtPosition_local (fun _ h => unseen h) (Buf.ofBytes [9, 8, 1, 2]) 1
example := decodeAllAsType_local (fun _ h => unseen h) (Buf.ofBytes [8, 1, 2])
example : decodeAsCallUnmarked moved1 payload 1 = .ok (call, 8) := decodeAsCallUnmarked_renumbered chain_moved payload 1
example : decodeAsCall moved1 ⟨payload, 1, 8⟩ = .ok call := decodeAsCall_renumbered chain_moved ⟨payload, 1, 8⟩
example : decodeExtensionsUnmarked moved1 payload 8 (some genesis) = .ok Transaction.exts :=
  decodeExtensionsUnmarked_renumbered chain_moved payload 8 (some genesis)
example : parseTransactionUnmarked moved1 (Buf.ofBytes (callBytes ++ extBytes)) none = .ok ⟨call, Transaction.exts⟩ :=
  parseTransactionUnmarked_renumbered chain_moved (Buf.ofBytes (callBytes ++ extBytes)) none
example : parseTransaction moved1 payload (some genesis) = .ok ⟨.ok call, Transaction.exts⟩ :=
  parseTransaction_renumbered chain_moved payload (some genesis)
example : decodeUncheckedExtrinsic moved2 (Buf.ofBytes unsignedBytes) = .ok (.unsigned call) :=
  decodeUncheckedExtrinsic_renumbered (M := extrinsicChain) (g := id) ⟨rfl, rfl, fun _ _ _ _ => after_renumbered _ _⟩
    (Buf.ofBytes unsignedBytes)
example := decodeStorageEntry_renumbered (H := hashes) (entry := entry) (f := (· + 1))
  (R := storageReg) (fun id _ => after_renumbered _ id) (Buf.ofBytes keyBytes) (Buf.ofBytes [2, 1, 0, 0])
example := v14_renumbered RenamingExample.back_v14

/-- The V15 example with the types renumbered. -/
def v15r : V15 where
  types := after v15.types
  pallets := v15.pallets.map (renPallet (· + 1))
  params := renParams (· + 1) v15.params
  extrinsicVersion := 4
  signedExtensions := []
example := v15_renumbered (m := v15) (m' := v15r) (f := (· + 1))
  ⟨⟨fun x y e => by omega, fun x => (after_renumbered v15.types x).same x .self,
    fun x t t' h1 h2 => by
      simp only [v15r, after, List.getElem?_cons_succ, List.getElem?_map, h1, Option.map_some, Option.some.injEq] at h2
      rw [← h2]⟩, rfl, rfl, rfl, rfl⟩

/-! ### C63: positions -/

open PositionExample in
example := position_outcome types (Buf.ofBytes [0xff, 5, 8, 104, 105, 3, 9]) 2 1
open PositionExample in
example := position_total types (Buf.ofBytes [0xff, 5, 8, 104, 105, 3, 9]) 2 1
open PositionExample in
example : Forward [0xff, 5, 8, 104, 105, 3, 9] 1 5 := position_forward types (Buf.ofBytes [0xff, 5, 8, 104, 105, 3, 9]) 2 1
example := position_call chain (Buf.ofBytes [5, 1, 7, 1, 0]) 0
example := position_extensions chain (Buf.ofBytes (extBytes ++ [7])) none 0
example := position_transaction chain (Buf.ofBytes (callBytes ++ extBytes ++ [7])) none 0

/-! ### C64: texts of errors -/

example : ∀ a b : RegInternal, a.text = b.text → a = b := fun a b h => error_text_inner.2.1 a b h
example : PErr.noCompact 5 = PErr.noCompact 5 := error_text_parser_own plainTexts (by simp) (by simp) rfl
example := error_text_parser plainTexts_clear
example := error_text_storage plainTexts_clear
example : SErr.notACall (ME := V14Err) 5 = .notACall 5 :=
  error_text_signable plainTexts_clear error_text_inner.2.2.2 (by simp) (by simp) rfl
example : SErr.someDataNotUsedExtensions (ME := Unit) 76 = .someDataNotUsedExtensions 76 :=
  error_text_transaction_unmarked plainTexts_clear (m := fun _ : Unit => "") (fun _ _ _ => rfl)
    (M := chain) (M' := chain) (b := Buf.ofBytes (callBytes ++ extBytes ++ [1])) (b' := Buf.ofBytes (callBytes ++ extBytes ++ [2]))
    (expected := none) (expected' := some genesis) rfl rfl rfl
example : SErr.someDataNotUsedCall (ME := Unit) 8 9 = .someDataNotUsedCall 8 9 :=
  error_text_transaction_call plainTexts_clear (m := fun _ : Unit => "") (fun _ _ _ => rfl) (M := chain) (M' := chain)
    (b := Buf.ofBytes ([32] ++ callBytes ++ [1] ++ extBytes)) (b' := Buf.ofBytes ([32] ++ callBytes ++ [2] ++ extBytes))
    (expected := none) (expected' := none) (t := ⟨.error (.someDataNotUsedCall 8 9), Transaction.exts⟩)
    (t' := ⟨.error (.someDataNotUsedCall 8 9), Transaction.exts⟩) rfl rfl rfl rfl rfl

/-! ### C65: sizes -/

open WeightExample
/-- The types without vectors of nothing. -/
def solid : Registry := .portable solidTypes
theorem solid_vectors : SolidVectors solid := solidVectors_check (by decide)
theorem solid_budget : Budget solid (typeSize solid Example.rank) (largestSize solid Example.rank) := ranked_budget solid_ranked
theorem out_solid : decodeAsTypeAtPosition solid Values.inside 4 1 = .ok (Values.out, 7) := rfl
theorem out_solid' : decodeAllAsType solid (Buf.ofBytes Example.sBytes) 4 = .ok Values.out := rfl
theorem chain_vectors : SolidVectors chain.types := solidVectors_check (ts := chainTypes) (by decide)
example : SolidVectors solid := solidVectors_check (by decide)
example := ranked_budget solid_ranked
example := decode_size solid_budget solid_vectors (p := {}) out_solid
example := value_size_linear solid_budget solid_vectors out_solid
example := value_size_largest solid_ranked solid_vectors out_solid
example := whole_value_size_linear solid_budget solid_vectors out_solid'
example := transaction_size_linear (ranked_budget chain_ranked) chain_vectors rfl Transaction.parsed
example := unmarked_size_linear (M := chain) (ranked_budget chain_ranked) chain_vectors rfl
  (data := Buf.ofBytes (callBytes ++ extBytes)) (expected := none) (t := ⟨call, Transaction.exts⟩) rfl
example := extrinsic_size_linear (M := extrinsicChain) (ranked_budget chain_ranked) chain_vectors
  (input := Buf.ofBytes unsignedBytes) (x := .unsigned call) rfl
example := storage_size_linear (ranked_budget storageReg_ranked)
  (solidVectors_check (ts := [{ typeDef := .primitive .u8 }, { typeDef := .primitive .u32 }, { typeDef := .tuple [0, 1, 0] }])
    (by decide)) stored_decoded
example := value_cards_linear examplePrinters exampleSpecs "westend" solid_budget solid_vectors out_solid 2 true
example := transaction_cards_linear examplePrinters exampleSpecs "westend" (ranked_budget chain_ranked) chain_vectors rfl
  Transaction.parsed
example := bound_fails

/-! ### C66: cost, with memories that fail -/

/-- Two `W(S {…})`; the fifth access fails. -/
def fifth : Device Nat := scripted (usize64 false) solid arrayBytes (fun k => k == 4)
theorem fifth_flaky : Flaky fifth solid arrayBytes := scripted_flaky _ ⟨by decide, by decide⟩ _
/-- Accesses from the 100th on fail. -/
def hundredth : Device Nat := scripted (usize64 false) solid arrayBytes (fun k => 100 ≤ k)
theorem hundredth_flaky : Flaky hundredth solid arrayBytes := scripted_flaky _ ⟨by decide, by decide⟩ _
def pair : ED × Nat := ((decodeAsTypeAtPositionD (metered hundredth) 13 0 (0, 0)).1.toOption).getD (⟨.tuple [], []⟩, 0)
theorem pair_ok : (decodeAsTypeAtPositionD (metered hundredth) 13 0 (0, 0)).1 = .ok pair := Device.ok_getD _ (by decide +kernel)
theorem eta {α β ε : Type} {x : Except ε (α × β)} {p : α × β} (h : x = .ok p) : x = .ok (p.1, p.2) := h
theorem pair_eq : (decodeAsTypeAtPositionD (metered hundredth) 13 0 (0, 0)).1 = .ok (pair.1, pair.2) := eta pair_ok
example : pair.2 = 12 := by decide +kernel
theorem solid_toll : Toll solid (typeCost solid Example.rank) (largestCost solid Example.rank) := ranked_toll solid_ranked
theorem chain_toll : Toll chain.types (typeCost chain.types (fun i => if i = 7 then 1 else 0))
    (largestCost chain.types (fun i => if i = 7 then 1 else 0)) := ranked_toll chain_ranked

example := ranked_toll solid_ranked
example := metered_meters fifth
example := metered_flaky fifth_flaky
example := value_cost_linear solid_toll solid_vectors (metered_flaky fifth_flaky) (metered_meters fifth) 13 0 (0, 0)
example := value_cost_consumed solid_toll solid_vectors (metered_flaky hundredth_flaky) (metered_meters hundredth) pair_eq
example := value_cost_ranked solid_ranked solid_vectors fifth_flaky 13 0 0
example := whole_value_cost_linear solid_toll solid_vectors (metered_flaky fifth_flaky) (metered_meters fifth) 13 (0, 0)
example := transaction_cost_linear (X := chain) chain_toll chain_vectors (metered_flaky Device.atCall_flaky) (metered_meters _) none (0, 0)
example := transactionUnmarked_cost_linear (X := chain) chain_toll chain_vectors (metered_flaky Device.atCall_flaky)
  (metered_meters _) none (0, 0)
example := call_cost_linear (X := chain) chain_toll chain_vectors (metered_flaky Device.atCall_flaky) (metered_meters _) 1 (0, 0)
example := extensions_cost_linear (X := chain) chain_toll chain_vectors (metered_flaky Device.atCall_flaky) (metered_meters _) 8
  (some genesis) (0, 0)
example := extrinsic_cost_linear (X := extrinsicChain) chain_toll chain_vectors
  (metered_flaky (Device.late_flaky (data := signedBytes) (by decide))) (metered_meters _) (0, 0)
example := storage_cost_linear (ranked_toll storageReg_ranked)
  (solidVectors_check (ts := [{ typeDef := .primitive .u8 }, { typeDef := .primitive .u32 }, { typeDef := .tuple [0, 1, 0] }])
    (by decide)) (metered_flaky (Device.key_flaky (· == 4))) (metered_meters _) (metered_flaky (Device.value_flaky (· == 4)))
  (metered_meters _) hashes entry (0, 0)
example := CostExample.bound_exceeded

/-! ### C67: 32-bit targets -/

/-- A bit sequence with `u64` store. -/
def bits : Buf := .ofBytes [12, 5, 0, 0, 0, 0, 0, 0, 0]
theorem bits_usual : Usual bits := usual_of_bytes (by decide)
theorem payload_usual : Usual payload := usual_of_bytes (by decide)
theorem chain_noBits : ¬ HasU64Bits chain.types := noU64Bits_check (ts := chainTypes) (by decide)
theorem chain_noMsb0 : NoMsb0U64Bits chain.types := by
  intro id t order store hr hd hs _
  exact chain_noBits ⟨id, t, order, store, hr, hd, hs⟩
theorem storage_noMsb0 : NoMsb0U64Bits storageReg := by
  intro id t order store hr hd hs _
  exact noU64Bits_check (ts := [{ typeDef := .primitive .u8 }, { typeDef := .primitive .u32 }, { typeDef := .tuple [0, 1, 0] }])
    (by decide) ⟨id, t, order, store, hr, hd, hs⟩

example := decode32_outcome (b := bits) lsb0Reg_order 2 0
example : decodeAsTypeAtPosition lsb0Reg bits 2 0 = .ok ({ data := .bitVec .u64 .lsb0 [true, false, true], info := [] }, 9) :=
  decode32_success (b := bits) lsb0Reg_order rfl
example := decodeAllAsType32 lsb0Reg_order bits_usual 2
example := parseTransaction32 chain_noMsb0 payload_usual (some genesis)
example := parseTransactionUnmarked32 chain_noMsb0 payload_usual (some genesis)
example := decodeUncheckedExtrinsic32 (M := extrinsicChain) chain_noMsb0 (b := .ofBytes signedBytes) (usual_of_bytes (by decide))
example := decodeStorageEntry32 storage_noMsb0 (key := .ofBytes keyBytes) (value := .ofBytes [2, 1, 0, 0]) (usual_of_bytes (by decide))
  (usual_of_bytes (by decide)) hashes entry
example := decode32_same (R := bytesReg) (noU64Bits_check (by decide)) bits_usual 2 0
example := functions32_same (M := extrinsicChain) chain_noBits payload_usual (some genesis) hashes payload_usual entry
example := with_decode (ME := Unit)
example : ¬ HasU64Bits bytesReg := noU64Bits_check (by decide)
example := decode32_misreads
example := decode32_panics

end Verif.Witness.Bounds
