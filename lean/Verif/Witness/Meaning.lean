import Verif.Props.Canonical
import Verif.Props.Versions
import Verif.Props.Legible
import Verif.Props.Base58
import Verif.Props.Shortened
import Verif.Props.Agree
import Verif.Props.Depth
import Verif.Props.Errors
import Verif.Props.TxErrors
import Verif.Witness.Values
import Verif.Witness.Transaction
/-!
# Every theorem applied to a concrete case: C49 to C56
-/
namespace Verif.Witness.Meaning
open Spec Example

/-! ### C49 -/

/-- `S` cut after the length of its list. -/
def cut : Buf := Buf.ofBytes (9 :: Example.sBytes.take 5)

theorem cut_error : decodeAsTypeAtPosition Example.good cut 4 1 = .error (.err (.buffer (.dataTooShort 6 1))) := rfl

example : TrueOf Example.good cut 1 (.buffer (.dataTooShort 6 1)) := decode_errors_true cut_error
example := decodeAll_errors_true (R := Example.good) (b := Buf.ofBytes (Example.sBytes ++ [3])) (id := 4)
  (e := .someDataNotUsedBlob 6) rfl
example : 1 ≤ 6 ∧ 6 ≤ cut.bytes.length := decode_errors_position cut_error (.inr (.inl ⟨_, rfl⟩))
example : chainTypes.length ≤ 99 :=
  decode_unresolved_true (ts := chainTypes) (b := payload) (id := 99) (pos := 0) rfl
example := decode_no_cycle Example.good_ranked (b := cut) (id := 4) (pos := 1) (j := 4) (by
  intro i h
  simp only [Example.good, Registry.portable] at h
  split at h <;> cases h)

/-! ### C50 -/

example : Example.sBytes = Example.sBytes :=
  firm_encoding_unique good_names good_signatures sValue_firm Example.s_enc Example.s_enc

theorem out_good : decode Example.good Values.inside (.symbol 4) 1 {} = .ok (Values.out, 7) := rfl
theorem out_all : decodeAllAsType Example.good (Buf.ofBytes Example.sBytes) 4 = .ok Values.out := rfl
theorem out_firm : Firm (edValue Values.out) := sValue_firm

example : between Values.inside 1 7 = between (Buf.ofBytes Example.sBytes) 0 6 :=
  decode_canonical (R := Example.good) good_names good_signatures (p := {}) (p' := {}) ⟨rfl, rfl⟩ ⟨rfl, rfl⟩ out_good
    (b' := Buf.ofBytes Example.sBytes) (pos' := 0) (q' := 6) (d' := Values.out) rfl out_firm rfl
example : Example.sBytes = Example.sBytes :=
  decodeAllAsType_canonical (b := Buf.ofBytes Example.sBytes) (b' := Buf.ofBytes Example.sBytes) good_names good_signatures
    out_all out_all out_firm rfl

/-! ### C51 -/

/-- The same chain with other errors. -/
def chain' : Metadata Nat where
  types := chain.types
  specNameVersion := .ok ⟨"9", "example"⟩
  callTy := .ok 2
  signedExtensions := .ok chainExtensions

theorem chain_alike : AlikeMetadata chain chain' :=
  ⟨rfl, Alike.refl _ , Alike.refl _, Alike.refl _⟩

example := parseTransactionUnmarked_alike chain_alike (Buf.ofBytes (callBytes ++ extBytes)) none
example := parseTransaction_alike chain_alike Transaction.parsed ⟨.ok _, .ok _, .ok _⟩
example := decodeUncheckedExtrinsic_alike (M := extrinsicChain) (M' := extrinsicChain)
  ⟨⟨rfl, Alike.refl _, Alike.refl _, Alike.refl _⟩, Alike.refl _, Alike.refl _⟩ (Buf.ofBytes signedBytes)
example := sameRuntime_alike (m := v14) (n := v15) ⟨rfl, rfl, rfl, rfl, rfl⟩
example := v14_v15_alike (m := v14) (n := v15) ⟨rfl, rfl, rfl, rfl, rfl⟩ payload none

/-! ### C52 -/

example : Values.out = Values.out :=
  decode_legible (P := printers) (specs := exampleSpecs) (specName := "example") good_names faithful (p := {}) ⟨rfl, rfl⟩
    out_good (b' := Buf.ofBytes Example.sBytes) (pos' := 0) (q' := 6) (i := 0) (i' := 0) (units := true) rfl rfl
example : Values.out = Values.out :=
  decodeAllAsType_legible (P := printers) (specs := exampleSpecs) (specName := "example") good_names faithful
    out_all out_all (i := 0) (i' := 0) (units := true) rfl
example : Example.sBytes = Example.sBytes :=
  decodeAllAsType_signs (P := printers) (specs := exampleSpecs) (specName := "example") good_names good_signatures faithful
    out_all out_all out_firm (i := 0) (i' := 0) (units := true) rfl
theorem out_lines : ∀ c ∈ Values.out.card printers exampleSpecs "example" 0 true, ∀ s ∈ freeTexts bitsText c.parserCard,
    OneLine s := by
  unfold OneLine; decide +kernel
example : Values.out = Values.out :=
  decodeAllAsType_show_legible (P := printers) (specs := exampleSpecs) (specName := "example") good_names faithful
    out_all out_all (i := 0) (i' := 0) (units := true) out_lines out_lines rfl

theorem call_firm : ∀ f ∈ fdsValue call.fields, Firm f.2 := by
  simp only [call, fdsValue, fdValue, edValue, pdValue, List.forall_mem_cons, List.not_mem_nil, false_imp_iff, implies_true, and_true]
  exact ⟨.uint _ _, .uint _ _⟩

theorem exts_firm : ∀ d ∈ Transaction.exts, Firm (edValue d) := by
  simp only [Transaction.exts, List.forall_mem_cons, List.not_mem_nil, false_imp_iff, implies_true, and_true,
      edValue, pdValue]
  have t : Firm (.tuple (edsValue [])) := .tuple (by simp [edsValue])
  exact ⟨t, t, .era _, .uint _ _, .hash _, .hash _⟩

/-- The genesis hash given by the caller or not. -/
theorem parsed' : parseTransaction chain payload none = .ok ⟨.ok call, Transaction.exts⟩ := rfl

example := parseTransaction_legible (P := printers) (specs := exampleSpecs) (specName := "example") chain_names faithful
  Transaction.parsed parsed' rfl rfl rfl rfl
example : payload.bytes = payload.bytes :=
  parseTransaction_signs (P := printers) (specs := exampleSpecs) (specName := "example") chain_names chain_signatures faithful
  Transaction.parsed parsed' rfl rfl call_firm exts_firm rfl rfl

theorem unmarked (g : Option Bytes) (h : g = none ∨ g = some genesis) :
    parseTransactionUnmarked chain (Buf.ofBytes (callBytes ++ extBytes)) g = .ok ⟨call, Transaction.exts⟩ := by
  rcases h with rfl | rfl <;> rfl

example := parseTransactionUnmarked_legible (P := printers) (specs := exampleSpecs) (specName := "example") chain_names
  faithful (unmarked _ (.inl rfl)) (unmarked _ (.inr rfl)) rfl rfl
example := parseTransactionUnmarked_signs (P := printers) (specs := exampleSpecs) (specName := "example") chain_names
  chain_signatures faithful (unmarked _ (.inl rfl)) (unmarked _ (.inr rfl)) call_firm exts_firm rfl rfl

theorem bits_shown : ShowsBits bitsText := by
  intro s o l
  unfold Example.bitsText
  rw [String.toList_ofList, List.filter_eq_self]
  intro c hc
  obtain ⟨b, _, rfl⟩ := List.mem_map.1 hc
  cases b <;> rfl

example := decodeAllAsType_signs_ss58 (R := Example.good) (checksum := fun _ => (29, 33)) (icon := fun _ => [])
  (specName := "example") good_names good_signatures (specs := exampleSpecs) (by decide) bits_shown out_all out_all out_firm
  (i := 0) (i' := 0) (units := true) rfl
example := parseTransaction_signs_ss58 (checksum := fun _ => (29, 33)) (icon := fun _ => [])
  (specName := "example") chain_names chain_signatures (specs := exampleSpecs) (by decide) bits_shown
  Transaction.parsed parsed' rfl rfl call_firm exts_firm rfl rfl

/-! ### C53 -/

example := decode_shortened (b := payload) short_whole.types whole_indices whole_arrays 2 1 {}
example := decodeAllAsType_shortened short_whole.types whole_indices whole_arrays (Buf.ofBytes callBytes) 2
example : decodeAsCall whole ⟨payload, 1, 8⟩ = .ok call :=
  decodeAsCall_shortened short_whole whole_indices whole_arrays ⟨payload, 1, 8⟩ _ rfl
example : parseTransactionUnmarked whole (Buf.ofBytes (callBytes ++ extBytes)) none = .ok ⟨call, Transaction.exts⟩ :=
  parseTransactionUnmarked_shortened short_whole whole_indices whole_arrays _ none _ rfl

/-! ### C54 -/

example := parseTransactionUnmarked_marked (reliable_ofBytes _) (unmarked _ (.inl rfl))
example : decodeAsCallUnmarked chain (Buf.ofBytes ([7, 7] ++ callBytes ++ [])) 2 = .ok (call, 9) :=
  decodeAsCallUnmarked_local (b := payload) (pos := 1) (q := 8) (reliable_ofBytes _) rfl ⟨[7, 7], [], rfl, rfl⟩
example : v14.metadata.callTy = .ok 1 := (call_types_agree (params := ⟨0, 1, 2, 3⟩)).1 v14 rfl

/-! ### C55 -/

example := decode_nesting (R := Example.good) Values.inside (.symbol 4) 1 {} (n := 200) (by decide)
example : edDepth Values.out ≤ 7 * 15 + 14 + 2 := decode_depth (R := Example.good) out_good
example := decode_nesting_unbounded 100000

/-! ### C56 -/

example := decodeExtensionsUnmarked_errors_true (M := chain) (b := payload) (pos := 8) (expected := some [1])
  (e := .wrongGenesisHash genesis [1]) rfl
example := decodeAsCallUnmarked_errors_true (M := chain) (b := payload) (pos := 0) (e := .parsing (.unexpectedEnumVariant 0)) rfl
example := decodeAsCall_errors_true (M := chain) (b := Buf.ofBytes ([32] ++ callBytes ++ [1] ++ extBytes))
  (e := .someDataNotUsedCall 8 9) (m := ⟨_, 1, 9⟩) rfl rfl
example := mark_errors_true (ME := Unit) (b := Buf.ofBytes [28, 1, 2]) (e := .cutSignable) rfl
example := parseTransaction_errors_true (M := chain) (b := payload) (expected := some [1])
  (e := .wrongGenesisHash genesis [1]) rfl
example := parseTransaction_call_errors_true (M := chain) (b := Buf.ofBytes ([32] ++ callBytes ++ [1] ++ extBytes))
  (expected := none) (t := ⟨.error (.someDataNotUsedCall 8 9), Transaction.exts⟩) rfl rfl
example := parseTransactionUnmarked_errors_true (M := chain) (b := Buf.ofBytes (callBytes ++ extBytes ++ [1])) (expected := none)
  (e := .someDataNotUsedExtensions 76) rfl
example := decodeUncheckedExtrinsic_errors_true (M := extrinsicChain) (b := Buf.ofBytes ([32, 5] ++ callBytes))
  (e := .versionMismatch 5 4) rfl
example := decodeStorageEntry_errors_true (H := hashes) (R := storageReg) (key := Buf.ofBytes (keyBytes ++ [0]))
  (value := Transaction.value) (entry := entry) (e := .keyPartsUnused) rfl

end Verif.Witness.Meaning
