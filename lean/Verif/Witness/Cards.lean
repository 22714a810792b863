import Verif.Props.CardsTx
import Verif.Props.Show
import Verif.Props.Text
import Verif.Props.Husk
import Verif.Props.Metadata
import Verif.Props.Versions
import Verif.Props.Legible
import Verif.Witness.Values
import Verif.Witness.Transaction
/-!
# Every theorem applied to a concrete case: C35 to C48
-/
namespace Verif.Witness.Cards
open Spec Example

/-! ### C35, C36 -/

example := balance_value 1234567890123456789 12 "DOT" (by decide) (by decide)
example : (1500000000000 : Nat) = 1500000000000 := balance_injective (d := 12) (unit := "DOT") (by decide) (by decide) (by decide) rfl
example := balance_form 1234567890123456789 12 "DOT" (by decide) (by decide)

/-! ### C37 to C39 -/

theorem call_ranged : ∀ f ∈ fdsValue call.fields, Ranged f.2 := Transaction.is_call.ranged

/-- `S { a: 7, b: 300, c: [1, 2] }` as decoded. -/
theorem out_ranged : Ranged (edValue Values.out) := enc_ranged (decode_sound (p := {}) ⟨rfl, rfl⟩ Values.out_eq)

example := card_drawn (P := examplePrinters) (specs := exampleSpecs) (specName := "westend") (by decide) out_ranged 2 true
example := card_leaves (P := examplePrinters) (specs := exampleSpecs) (specName := "westend") (by decide) out_ranged 2 true
example := call_leaves (P := examplePrinters) (specs := exampleSpecs) (specName := "westend") (by decide) call_ranged 3
example := decodeAllAsType_cards (P := examplePrinters) (specs := exampleSpecs) (specName := "westend") (by decide)
  (R := Example.reg) (b := Buf.ofBytes Example.sBytes) (d := Values.out) (id := 4) rfl 1 false
example := parseTransaction_cards (P := examplePrinters) (specs := exampleSpecs) (specName := "westend") (by decide)
  Transaction.parsed rfl
example := parseTransactionUnmarked_cards (P := examplePrinters) (specs := exampleSpecs) (specName := "westend") (by decide)
  (M := chain) (b := Buf.ofBytes (callBytes ++ extBytes)) (expected := none) (r := ⟨call, Transaction.exts⟩) rfl
example := card_indented (P := examplePrinters) (specs := exampleSpecs) (specName := "westend") (by decide) out_ranged 2 true
example := call_indented (P := examplePrinters) (specs := exampleSpecs) (specName := "westend") (by decide) call_ranged 3

/-- A balance. -/
def amount : ED := ⟨.uint .u32 1 .balance, []⟩
theorem amount_ranged : Ranged (edValue amount) := enc_ranged (R := Example.chain.types)
  (decodeAllAsType_sound (R := Example.chain.types) (id := 1) (b := Buf.ofBytes [1, 0, 0, 0]) (d := ⟨.uint .u32 1 .none, []⟩) rfl)

example : ∃ w v cur', (some ⟨"1", "pUNIT"⟩ : Option Currency) = some cur' ∧
    (true, .uint w v .balance) ∈ leaves true amount.data ∧ Printed exampleSpecs v cur' :=
  card_balance (P := examplePrinters) (specs := exampleSpecs) (specName := "westend") (by decide) amount_ranged (indent := 3)
    (valid := true) (c := ⟨.balance (some ⟨"1", "pUNIT"⟩), 3, []⟩) (by decide +kernel) rfl
example := call_balance (P := examplePrinters) (specs := exampleSpecs) (specName := "westend") (by decide) call_ranged
    (indent := 0) (c := ⟨.balance (some ⟨"1", "pUNIT"⟩), 3, []⟩) (by decide +kernel) rfl
example := card_amounts (P := examplePrinters) (specs := exampleSpecs) (specName := "westend") (by decide) amount_ranged 3 false
  (w := .u32) (v := 1) (s := .balance) (mark := false) (.head _)

/-! ### C40, C41 -/

example : Hint.fromField ⟨some "nonce", 0, some "Balance", []⟩ = .fieldNonce := (field_label_by_name _).1 rfl
example := field_label_by_type_name ⟨some "value", 0, some "T::Balance", []⟩ (by decide)
/-- `struct { nonce: u32, value: Balance }` -/
def noted : Registry := .portable [{ typeDef := .primitive .u32 },
  { path := ["N"], typeDef := .composite [{ name := some "nonce", ty := 0 }, { name := some "value", ty := 0, typeName := some "Balance" }] }]
example := struct_field_label (R := noted) (b := Buf.ofBytes [1, 0, 0, 0, 2, 0, 0, 0]) (id := 1) (pos := 0) (p := {}) rfl trivial rfl rfl
example := decode_shown Values.out_eq
example : decode Example.reg Values.inside (.symbol 3) 4 (Propagated.withHint {} .fieldNonce) =
    decode Example.reg Values.inside (.symbol 3) 4 (Propagated.withHint {} .fieldBalance) :=
  decode_label_dropped (t := { typeDef := .sequence 0 }) rfl trivial (.sequence 0) 4 {} _ _
example : decode Example.reg Values.inside (.symbol 4) 1 (Propagated.withHint {} .fieldNonce) =
    decode Example.reg Values.inside (.symbol 4) 1 (Propagated.withHint {} .fieldBalance) :=
  decode_label_several (t := sType) rfl trivial (.struct _ (by decide)) 1 {} (by decide) (by decide)
example : handed 2 .checkNonce = .none := handed_label 2 .checkNonce

/-! ### C42, C43 -/

theorem spec : specNameVersionOf v14.types v14.pallets = .ok ⟨"300", "ab"⟩ := rfl

example := specNameVersionOf_iff.1 spec
example := specNameVersionOf_sound spec
theorem is_version : IsVersionConstant v14.pallets ⟨"Version", 3, versionBytes⟩ :=
  ⟨[⟨"Balances", [⟨"Version", 0, [1]⟩]⟩], _, _, [⟨"Version", 0, [1]⟩], [], rfl, by simp, rfl, rfl, rfl, by simp⟩
example : specNameVersionOf v14.types [⟨"Balances", []⟩] = .error (.err .noSystemPallet) :=
  specNameVersionOf_errors.1 (by simp)
example : specNameVersionOf v14.types [⟨"Balances", []⟩, ⟨"System", []⟩] = .error (.err .noVersionInConstants) :=
  specNameVersionOf_errors.2.1 [⟨"Balances", []⟩] ⟨"System", []⟩ [] rfl (by simp) rfl (by simp)
example := (specNameVersionOf_errors (types := v14.types)).2.2 _ is_version
example : specNameVersionOf v14.types v14.pallets = .ok ⟨"300", "ab"⟩ := V14_specNameVersion_iff.1 rfl
example : specNameVersionOf v15.types v15.pallets = .ok ⟨"300", "ab"⟩ := V15_specNameVersion_iff.1 rfl
example := V14_metadata_calm v14
example := V15_metadata_calm v15

example := (V14_extrinsicTypeParams_iff (m := v14) (p := ⟨0, 1, 2, 3⟩)).1 rfl
/-- The type of extrinsics of the example. -/
theorem ext_core : Core (.portable v14.types) false v14.extrinsicTy false (metaTypes[4]) 4 0 := .stop rfl (by
  intro h; exact absurd h (by decide))
theorem ext_def : IsExtrinsicDef (.portable v14.types) (metaTypes[4]).typeDef := .inr ⟨_, _, rfl, rfl, _, _, rfl, rfl, rfl⟩
example := V14_extrinsicTypeParams_missing ext_core ext_def
/-- A list of bytes without parameters. -/
def v14' : V14 := { v14 with extrinsicTy := 5 }
theorem ext_core' : Core (.portable v14'.types) false v14'.extrinsicTy false { typeDef := .sequence 0 } 5 0 := .stop rfl (by
  intro h; exact ⟨by intro f; simp, by intro i; simp⟩)
example : v14'.extrinsicTypeParams = .error (.err .noAddressParam) :=
  (V14_extrinsicTypeParams_missing ext_core' (.inl ⟨_, _, rfl, rfl, rfl⟩)).1 rfl
/-- A list of numbers. -/
def v14'' : V14 := { v14 with extrinsicTy := 6 }
theorem ext_core'' : Core (.portable v14''.types) false v14''.extrinsicTy false { typeDef := .sequence 1 } 6 0 := .stop rfl (by
  intro h; exact ⟨by intro f; simp, by intro i; simp⟩)
example : v14''.extrinsicTypeParams = .error (.err (.unexpectedExtrinsicType 6)) :=
  V14_extrinsicTypeParams_unexpected ext_core'' (.inl ⟨_, _, rfl, rfl, by simp⟩)
example : ∃ p, v14.extrinsicTypeParams = .ok p ∧ p.callTy = 1 := V14_callTy_iff.1 rfl
example := processParams_eq [("Address", some 0), ("Call", some 1), ("Extra", some 2)]

/-! ### C44 to C46 -/

/-- What `struct W(S)` is inside. -/
def husked : HuskedType := ((huskType Example.good 8 Checker.new).toOption).getD ⟨[], Checker.new, { typeDef := .tuple [] }, 0⟩
theorem husked_eq : huskType Example.good 8 Checker.new = .ok husked := rfl
example := huskType_faithful husked_eq Example.sValue Example.sBytes
example := huskType_strips husked_eq
example : Known Example.good 8 := (huskType_iff 8).1 ⟨_, husked_eq⟩
example : ∃ j, j = 10 ∧ huskType Example.reg 10 Checker.new = .error (.err (.registry (.internal (.cyclicMetadata j)))) :=
  huskType_cyclic (S := (· = 10)) (by
    rintro id rfl
    exact ⟨10, ⟨{ path := ["X"], typeDef := .composite [{ ty := 10 }] }, { ty := 10 }, rfl, rfl, rfl, rfl⟩, rfl⟩) rfl
example := decode_unresolved (R := Example.reg) Values.inside 99 1 {} rfl
/-- A struct with an unresolved field. -/
def holed : Registry := .portable [{ typeDef := .primitive .u32 }, { path := ["N"], typeDef := .composite [{ ty := 0 }, { ty := 7 }] }]
example : ∃ e', decode holed (Buf.ofBytes [1, 0, 0, 0, 5]) (.symbol 1) 0 {} = .error (.err e') :=
  decode_needs ⟨rfl, rfl⟩ (j := 7) (.field (f := { ty := 7 }) rfl trivial rfl (.tail _ (.head _)) .self) rfl
example := decode_unbounded_output 4000000000 (by decide)

/-! ### C47, C48 -/

/-- A printer for bits. -/
def bits : BitStore → BitOrder → List Bool → String := fun _ _ l => String.ofList (l.map fun b => if b then '1' else '0')
/-- A card with a text of two lines. -/
def twoLines : ExtendedCard := ⟨.text "a\nBool: true", 2, [⟨some "Doc.", none⟩]⟩
/-- A card. -/
def oneLine : ExtendedCard := ⟨.text "abc", 2, []⟩
example : lineCount (twoLines.show bits) = 1 + breaks (freeTexts bits twoLines.parserCard) := show_lineCount twoLines
theorem oneLine_free : ∀ s ∈ freeTexts bits oneLine.parserCard, OneLine s := by
  simp [freeTexts, oneLine, OneLine]
example : OneLine (oneLine.show bits) := (show_oneLine_iff oneLine).2 oneLine_free
example := show_injective (showBits := bits) (c := twoLines) (c' := { twoLines with infoFlat := [] }) rfl
example := showAll_injective (showBits := bits) (l := [oneLine, oneLine]) (l' := [oneLine, { oneLine with infoFlat := [⟨none, none⟩] }])
  (by simpa using oneLine_free) (by simpa using oneLine_free) rfl
example := show_forged (showBits := bits) examplePrinters exampleSpecs "westend" true
example := show_prefix (showBits := bits) twoLines
example : oneLine.showWithDocs bits = oneLine.show bits := showWithDocs_eq oneLine rfl (by simp [oneLine]) (by simp [oneLine])
example := show_line (showBits := bits) twoLines (by simp [twoLines]) (by simp [twoLines])
example := showWithDocs_text (showBits := bits) twoLines
example := decodeAllAsType_shown (R := Example.reg) (b := Buf.ofBytes Example.sBytes) (d := Values.out) (id := 4) rfl
example : Info.flatten ⟨"Doc.", ["a", "B"]⟩ = flat "Doc." ["a", "B"] := flatten_flat _
example := decodeAsCallUnmarked_shown (b := payload) (pos := 1) (pos' := 8) (M := chain) (c := call) rfl
example := decodeAsCall_shown Transaction.called

end Verif.Witness.Cards
