import Verif.Props.Growth
import Verif.Props.Base58
import Verif.Props.Shift
import Verif.Props.OneVersion
import Verif.Props.Inside
import Verif.Props.Typed
import Verif.Props.Encoder
import Verif.Props.Proper
import Verif.Props.Node
import Verif.Props.CardsTx
import Verif.Witness.Values
import Verif.Witness.Transaction
/-!
# Every theorem applied to a concrete case: C68 to C76
-/
namespace Verif.Witness.Encoding
open Spec Verif.Example

/-! ### C68: errors that more data cannot mend -/

theorem notEnd : ¬ AtEnd [9, 7] (.typeFailure 1 "bool") := by intro h; cases h
example : decodeAsTypeAtPosition errReg (Buf.ofBytes [9, 7, 1, 0]) 0 1 = .error (.err (.typeFailure 1 "bool")) :=
  error_final (b := Buf.ofBytes [9, 7]) (b' := Buf.ofBytes [9, 7, 1, 0]) (reliable_ofBytes _) (reliable_ofBytes _) (more := [1, 0])
    rfl (by decide) rfl notEnd
example : decodeAsTypeAtPosition Example.reg (Buf.ofBytes [1, 2, 3]) 1 0 = .error (.err (.buffer (.dataTooShort 0 4))) :=
  error_tooShort (b := Buf.ofBytes [1]) (b' := Buf.ofBytes [1, 2, 3]) (reliable_ofBytes _) (reliable_ofBytes _) (more := [2, 3])
    rfl (by decide) rfl (by decide)
example : decodeAsTypeAtPosition Example.reg (Buf.ofBytes [1, 2, 3, 4]) 1 0 ≠ .error (.err (.buffer (.dataTooShort 0 4))) :=
  error_answered (b := Buf.ofBytes [1]) (b' := Buf.ofBytes [1, 2, 3, 4]) (reliable_ofBytes _) (more := [2, 3, 4]) rfl (by decide)
example : ∃ e, decodeAsTypeAtPosition Example.reg (Buf.ofBytes [9, 5, 1]) 4 1 = .error (.err e) ∧ AtEnd [9, 5, 1] e ∧
    AsksUpTo [9, 5, 1] 7 e :=
  error_of_beginning (b := Buf.ofBytes [9, 5, 1]) (b' := Buf.ofBytes ([9, 5, 1] ++ [1, 8, 1, 2])) (reliable_ofBytes _) rfl (by decide)
    (d := _) rfl (by decide)
example : decodeAllAsType errReg (Buf.ofBytes [7, 1, 0]) 0 = .error (.err (.typeFailure 0 "bool")) :=
  all_error_final (b := Buf.ofBytes [7]) (b' := Buf.ofBytes [7, 1, 0]) (reliable_ofBytes _) (reliable_ofBytes _) (more := [1, 0]) rfl
    rfl (by intro h; cases h)
example : decodeAsCallUnmarked chain (Buf.ofBytes [5, 77, 1, 0]) 0 = .error (.err (.parsing (.unexpectedEnumVariant 1))) :=
  call_error_final (b := Buf.ofBytes [5, 77]) (b' := Buf.ofBytes [5, 77, 1, 0]) (reliable_ofBytes _) (reliable_ofBytes _)
    (more := [1, 0]) rfl (by decide) rfl (by rintro _ ⟨⟩ h; cases h)
example := decode_never_outOfRange (R := Example.reg) (b := Buf.ofBytes [1, 2]) (id := 1) (pos := 2) (q := 7) (n := 2) (by decide)

/-! ### C69: addresses -/

/-- A checksum of two bytes. -/
def sum (bs : Bytes) : UInt8 × UInt8 := (bs.foldl (· + ·) 7, bs.foldl (· ^^^ ·) 9)
/-- Another key. -/
def bob : Bytes := List.replicate 32 7
example : ss58 sum alice 42 ≠ ss58 sum bob 42 := fun h => absurd (ss58_key sum h) (by decide)
example : ss58 sum alice 42 ≠ ss58 sum alice 69 := fun h =>
  absurd (ss58_injective sum (by decide) (by decide) h).2 (by decide)
example : base58 [0, 1] ≠ base58 [1] := fun h => absurd (base58_injective h) (by decide)
example : ss58 sum alice 16426 = ss58 sum alice 42 := ss58_prefix_mod sum alice 42
theorem bitsText_shows : ShowsBits bitsText := by
  intro s o l
  unfold bitsText
  rw [String.toList_ofList, List.filter_eq_self]
  intro c hc
  obtain ⟨b, _, rfl⟩ := List.mem_map.1 hc
  cases b <;> decide
example : Faithful (ss58Printers sum (fun _ => [])) exampleSpecs bitsText := ss58_faithful sum _ (by decide) bitsText_shows

/-! ### C70: what stands before -/

/-- The payload four bytes further on. -/
def further : Buf := Buf.ofBytes ([1, 2, 3, 4] ++ payload.bytes)
theorem behind : Behind 4 payload further := ⟨⟨[1, 2, 3, 4], rfl, rfl⟩, fun _ _ => rfl⟩
example : decodeAsTypeAtPosition errReg (Buf.ofBytes [9, 9, 7]) 0 2 = .error (.err (.typeFailure 2 "bool")) :=
  decode_shift (R := errReg) (tail := Buf.ofBytes [7]) (k := 2) ⟨⟨[9, 9], rfl, rfl⟩, fun _ _ => rfl⟩ 0 0
example : decodeAsTypeAtPosition errReg (Buf.ofBytes [9, 9, 7]) 0 2 = .error (.err (.typeFailure 2 "bool")) :=
  decode_from (R := errReg) (b := Buf.ofBytes [9, 9, 7]) (reliable_ofBytes _) (pos := 2) (by decide) 0
example := decode_before (R := Example.reg) [1, 2] [3, 4] Example.sBytes rfl 4
example : decodeAsCallUnmarked chain further 5 = .ok (call, 12) := call_shift (M := chain) behind 1
example : decodeExtensionsUnmarked chain further 12 (some genesis) = .ok Transaction.exts :=
  extensions_shift (M := chain) behind 8 (some genesis)
example : parseTransaction chain payload (some genesis) = .ok ⟨.ok call, Transaction.exts⟩ :=
  ((parseTransaction_parts (M := chain) (b := payload) (reliable_ofBytes _) (call := callBytes) (ext := extBytes) (by decide) rfl
    (some genesis)).2 _ rfl).1 _ rfl
example := (parseTransaction_parts (M := chain) (b := Buf.ofBytes (compactEncode 7 ++ callBytes ++ [7])) (reliable_ofBytes _)
  (call := callBytes) (ext := [7]) (by decide) rfl none).1 _ rfl
example : ∃ r', parseTransaction chain (Buf.ofBytes (compactEncode 1 ++ [250] ++ extBytes)) (some genesis) = .ok r' ∧
    r'.extensions = Transaction.exts :=
  transaction_any_call Transaction.calm (b := payload) (reliable_ofBytes _) (reliable_ofBytes _) (call := callBytes)
    (call' := [250]) (ext := extBytes) (by decide) (by decide) rfl rfl Transaction.parsed
/-- Extensions with another block hash and a mortal era. -/
def extBytes' : Bytes := [0x15, 0x01] ++ [9, 0, 0, 0] ++ genesis ++ List.replicate 32 0xbb
def tx' : TransactionParsed Unit :=
  (parseTransaction chain (Buf.ofBytes (compactEncode 7 ++ callBytes ++ extBytes')) none).toOption.getD ⟨.ok call, []⟩
theorem tx'_eq : parseTransaction chain (Buf.ofBytes (compactEncode 7 ++ callBytes ++ extBytes')) none = .ok tx' := rfl
example : (.ok call : Except _ _) = tx'.callResult :=
  transaction_any_extensions (b := payload) (reliable_ofBytes _) (reliable_ofBytes _) (call := callBytes) (ext := extBytes)
    (ext' := extBytes') (by decide) rfl rfl (g := none) (r := ⟨.ok call, Transaction.exts⟩) rfl tx'_eq
example : parseTransactionUnmarked chain (Buf.ofBytes (callBytes ++ extBytes)) none = .ok ⟨call, Transaction.exts⟩ :=
  (parseTransactionUnmarked_parts (M := chain) (b := Buf.ofBytes (callBytes ++ extBytes)) (reliable_ofBytes _) (c := call) (q := 7)
    rfl (by decide)).1 _ rfl

/-! ### C71: one version, one chain -/

example : SameExtensions id chain nextVersion := nextVersion_same
example : parseTransaction nextVersion payload none = .error (.err (.wrongSpecVersion "9" "10")) :=
  transaction_otherVersion nextVersion_same Transaction.parsed (v := ⟨"9", "example"⟩) (v' := ⟨"10", "x"⟩) rfl rfl (by decide)
/-- The same version, other calls. -/
def sameVersion : Metadata Unit := { nextVersion with specNameVersion := .ok ⟨"9", "x"⟩ }
theorem sameVersion_same : SameExtensions id chain sameVersion := nextVersion_same
example := transaction_oneVersion (M' := sameVersion) sameVersion_same Transaction.parsed (g' := none)
  (r' := (parseTransaction sameVersion payload none).toOption.getD ⟨.ok call, []⟩) rfl
/-- Another version with the same calls. -/
def bumped : Metadata Unit := { chain with specNameVersion := .ok ⟨"10", "x"⟩ }
theorem bumped_same : SameExtensions id chain bumped := nextVersion_same
example : parseTransactionUnmarked bumped (Buf.ofBytes (callBytes ++ extBytes)) none =
    .error (.err (.wrongSpecVersion "9" "10")) :=
  unmarked_otherVersion bumped_same (g := none) (r := ⟨call, Transaction.exts⟩) rfl (q := 7) (c := call) (c' := call) rfl rfl
    (v := ⟨"9", "example"⟩) (v' := ⟨"10", "x"⟩) rfl rfl (by decide)
example := transaction_oneChain Transaction.parsed
example := unmarked_oneChain (M := chain) (b := Buf.ofBytes (callBytes ++ extBytes)) (g := none) (r := ⟨call, Transaction.exts⟩) rfl

/-! ### C72: consumed bytes -/

example : decodeAsTypeAtPosition Example.reg (only 1 7 Values.inside.bytes) 4 1 = .ok (Values.out, 7) :=
  decode_reads_inside (b := Values.inside) rfl (only_answers 1 7 _)
/-- The memory fails for reads of the byte after the value. -/
example : decodeAsTypeAtPosition Example.reg (Buf.ofBytes Values.inside.bytes) 4 1 = .ok (Values.out, 7) :=
  decode_reads_inside_reliable (b := only 1 7 Values.inside.bytes) rfl
example : decodeAsCallUnmarked chain (only 1 8 payload.bytes) 1 = .ok (call, 8) :=
  call_reads_inside (M := chain) (b := payload) rfl (only_answers 1 8 _)
example : decodeAsCall chain ⟨only 1 8 payload.bytes, 1, 8⟩ = .ok call :=
  marked_call_reads_inside (M := chain) (m := ⟨payload, 1, 8⟩) rfl (only_answers 1 8 _)
example : decodeExtensionsUnmarked chain (only 8 payload.bytes.length payload.bytes) 8 none = .ok Transaction.exts :=
  extensions_reads_inside (M := chain) (b := payload) rfl (only_answers 8 _ _)
example : decodeExtensions chain ⟨only 8 payload.bytes.length payload.bytes, 1, 8⟩ none = .ok Transaction.exts :=
  marked_extensions_reads_inside (M := chain) (m := ⟨payload, 1, 8⟩) rfl (only_answers 8 _ _)
/-- Memory that holds back one byte. -/
def without (j : Nat) (bs : Bytes) : Buf := ⟨bs, fun p n => p ≤ j && j < p + n⟩
theorem without_blocked (j : Nat) (bs : Bytes) : Blocked j (without j bs) := fun p n h1 h2 => by simp [without, h1, h2]
example : 7 < 1 ∨ 7 ≤ 7 := decode_reads_every_byte (R := Example.reg) (without_blocked 7 Values.inside.bytes) (id := 4) (pos := 1)
  (d := Values.out) (q := 7) rfl
example (d : ED) : decodeAllAsType Example.reg (without 2 Example.sBytes) 4 ≠ .ok d := fun h =>
  absurd (decodeAll_reads_every_byte (without_blocked 2 _) h) (by decide)
example : 8 < 1 ∨ 8 ≤ 8 := call_reads_every_byte (M := chain) (without_blocked 8 payload.bytes) (pos := 1) (c := call) rfl
example : 3 < 8 ∨ payload.bytes.length ≤ 3 :=
  extensions_reads_every_byte (M := chain) (without_blocked 3 payload.bytes) (pos := 8) (g := none) (exts := Transaction.exts) rfl
example (t) : parseTransaction chain (without 3 payload.bytes) none ≠ .ok t := fun h =>
  absurd (parseTransaction_reads_every_byte (without_blocked 3 _) h) (by decide)
example (t) : parseTransactionUnmarked chain (without 3 payload.bytes) none ≠ .ok t := fun h =>
  absurd (parseTransactionUnmarked_reads_every_byte (without_blocked 3 _) h) (by decide)

/-! ### C73, C74: values and their bytes -/

/-- The struct, decoded. -/
def s : ED := ((decodeAllAsType good (Buf.ofBytes sBytes) 4).toOption).getD ⟨.tuple [], []⟩
theorem s_eq : decodeAllAsType good (Buf.ofBytes sBytes) 4 = .ok s := rfl
theorem s_at : decodeAsTypeAtPosition good (Buf.ofBytes ([9, 9] ++ sBytes ++ [1])) 4 2 = .ok (s, 8) := rfl
example : Typed good false 4 sValue := decode_typed s_at
example : ∃ bs, Enc good false 4 sValue bs := typed_encoded sValue_typed
example : Typed good false 4 sValue := encoded_typed s_enc
example : Typed good false 4 sValue := encode_iff_typed.1 ⟨4, sBytes, sValue_written⟩
example : ∃ n0, ∀ n, n0 ≤ n → Encoder.encode good n false 4 sValue = some sBytes :=
  encode_decode_inside good_names good_signatures s_at sValue_firm
example := encode_decode_same good_ranked.emptyArrays s_eq
example : Enc good false 4 sValue sBytes := Encoder'.encode_sound sValue_written
example : Encoder'.Written good false 4 sValue := Encoder'.typed_written sValue_typed

/-! ### C75: properly built transactions -/

example := (parseTransaction_exact (M := chain) chain_ranked.emptyArrays (reliable_ofBytes payload.bytes) (expected := some genesis)
  (c := transfer) (vs := extValues 9 genesis)).1 ⟨_, call, Transaction.parsed, rfl, rfl, rfl⟩
example := (parseTransactionUnmarked_exact (M := chain) chain_ranked.emptyArrays (reliable_ofBytes (callBytes ++ extBytes))
  (expected := none) (c := transfer) (vs := extValues 9 genesis)).1 ⟨⟨call, Transaction.exts⟩, rfl, rfl, rfl⟩
example : Proper chain.types (extItems chainExtensions) (extValues 9 genesis) "9" (some genesis) :=
  (wallet_decides (n := 4) (o := true) rfl (by decide +kernel)).1 rfl
example : ∃ r, parseTransactionUnmarked chain (Buf.ofBytes (callBytes ++ extBytes)) (some genesis) = .ok r ∧
    callOf r.call = transfer ∧ r.extensions.map edValue = extValues 9 genesis :=
  wallet_parsed_unmarked chain_ranked.emptyArrays transfer_written
example := parsed_written Transaction.parsed rfl
theorem shown_items : ShownItems chain.types (extItems chainExtensions) Transaction.exts := by
  obtain ⟨signed, spec, h1, _, _, h2, _⟩ := decodeExtensionsUnmarked_sound Transaction.decoded
  cases h1
  exact h2.shownItems
example : Accepted Transaction.exts "9" none ↔ Proper chain.types (extItems chainExtensions) (extValues 9 genesis) "9" none :=
  accepted_iff_proper shown_items "9" none

end Verif.Witness.Encoding
