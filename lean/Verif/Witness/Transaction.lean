import Verif.Props.Extensions
import Verif.Props.Extrinsic
import Verif.Props.Storage
/-!
# Every theorem applied to a concrete case: C22 to C34

The chain, the payload and the storage entry are those of `Verif/Props/Transaction.lean`, `Extrinsic.lean` and
`Storage.lean`.
-/
namespace Verif.Witness.Transaction
open Spec Example

/-! ### C22 to C24 -/

theorem marked : mark (ME := Unit) payload = .ok ⟨payload, 1, 8⟩ := rfl

example : ∃ call ext : Bytes, payload.bytes = compactEncode call.length ++ call ++ ext ∧ 8 = 1 + call.length :=
  let ⟨_, call, ext, _, h, _, h'⟩ := mark_partition marked; ⟨call, ext, h, h'⟩
example : mark (ME := Unit) payload = .ok ⟨payload, 1, 8⟩ :=
  mark_complete (reliable_ofBytes _) (call := callBytes) (ext := extBytes) (by decide) rfl
example := mark_cases (ME := Unit) (Buf.ofBytes [28, 1, 2])

theorem called : decodeAsCall chain ⟨payload, 1, 8⟩ = .ok call := rfl

theorem is_call : IsCall chain.types 2 call callBytes := by
  obtain ⟨id, h, h'⟩ := decodeAsCall_sound marked called
  cases h; exact h'

example := decodeAsCall_sound marked called

/-- The same length and call, other extensions. -/
def other : Buf := Buf.ofBytes ([28] ++ callBytes ++ [1, 2, 3])

example : decodeAsCall chain ⟨payload, 1, 8⟩ = decodeAsCall chain ⟨other, 1, 8⟩ :=
  decodeAsCall_confined (b := payload) (b' := other) marked rfl rfl rfl rfl
example : ∃ c', decodeAsCall chain ⟨payload, 1, 8⟩ = .ok c' ∧ c'.palletName = "Balances" ∧ c'.variantName = "transfer" ∧
    fdsValue c'.fields = fdsValue call.fields :=
  decodeAsCall_complete chain_ranked.emptyArrays (reliable_ofBytes _) marked (M := chain) rfl is_call
example : 8 < 9 ∧ decodeAsCall chain ⟨Buf.ofBytes ([32] ++ callBytes ++ [1] ++ extBytes), 1, 9⟩ =
    .error (.err (.someDataNotUsedCall 8 9)) :=
  decodeAsCall_not_all (M := chain) (b := Buf.ofBytes ([32] ++ callBytes ++ [1] ++ extBytes)) rfl (c := call) rfl (by decide)
theorem calm : CalmMetadata chain := ⟨.ok _, .ok _, .ok _⟩
example : Calm (decodeAsCall chain ⟨payload, 1, 8⟩) := decodeAsCall_calm calm marked

example : ∃ id, chain.callTy = .ok id ∧ IsCall chain.types id call callBytes ∧ At payload.bytes 1 callBytes ∧ 8 = 1 + 7 :=
  decodeAsCallUnmarked_sound (b := payload) (pos := 1) (pos' := 8) (M := chain) rfl
example : ∃ e, decodeAsCallUnmarked { chain with callTy := .ok 0 } (Buf.ofBytes [5, 1, 7, 1, 0, 0, 0]) 0 = .error (.err e) ∧
    (e = .notACall 0 ∨ ∃ e', e = .parsing e') :=
  decodeAsCallUnmarked_not_a_call (M := { chain with callTy := .ok 0 }) rfl (by
    rintro c bs ⟨t, i, j, inner, v, ps, hd, hp, _⟩
    cases hd
    obtain ⟨_, hx⟩ := hp
    simp at hx)
example : ∃ c', decodeAsCallUnmarked chain payload 1 = .ok (c', 1 + 7) ∧ c'.palletName = "Balances" ∧
    c'.variantName = "transfer" ∧ fdsValue c'.fields = fdsValue call.fields :=
  decodeAsCallUnmarked_complete chain_ranked.emptyArrays (reliable_ofBytes _) (M := chain) rfl is_call
    ⟨[28], extBytes, rfl, rfl⟩

/-! ### C25 to C29 -/

/-- The extensions of the example. -/
def exts : List ED :=
  [⟨.tuple [], []⟩, ⟨.tuple [], []⟩,
   ⟨.composite [⟨none, none, "", ⟨.era .immortal, [⟨"", ["sp_runtime", "generic", "era", "Era"]⟩]⟩⟩],
     [⟨"", ["frame_system", "CheckMortality"]⟩]⟩,
   ⟨.uint .u32 9 .specVersion, []⟩,
   ⟨.genesisHash genesis, [⟨"", ["primitive_types", "H256"]⟩]⟩,
   ⟨.blockHash genesis, [⟨"", ["primitive_types", "H256"]⟩]⟩]

theorem decoded : decodeExtensionsUnmarked chain payload 8 (some genesis) = .ok exts := rfl

/-- The era extension. -/
def era : ED := ⟨.composite [⟨none, none, "", ⟨.era .immortal, [⟨"", ["sp_runtime", "generic", "era", "Era"]⟩]⟩⟩],
  [⟨"", ["frame_system", "CheckMortality"]⟩]⟩

theorem enc_unit : Enc chain.types false 6 (edValue ⟨.tuple [], []⟩) [] :=
  decodeAllAsType_sound (R := chain.types) (id := 6) (b := Buf.ofBytes []) (d := ⟨.tuple [], []⟩) rfl
theorem enc_era : Enc chain.types false 7 (edValue era) [0] :=
  decodeAllAsType_sound (R := chain.types) (id := 7) (b := Buf.ofBytes [0]) (d := era) rfl
theorem enc_spec : Enc chain.types false 1 (.uint .u32 9) [9, 0, 0, 0] :=
  decodeAllAsType_sound (R := chain.types) (id := 1) (b := Buf.ofBytes [9, 0, 0, 0]) (d := ⟨.uint .u32 9 .none, []⟩) rfl
theorem enc_hash : Enc chain.types false 5 (edValue ⟨.genesisHash genesis, []⟩) genesis :=
  decodeAllAsType_sound (R := chain.types) (id := 5) (b := Buf.ofBytes genesis)
    (d := ⟨.h256 genesis, [⟨"", ["primitive_types", "H256"]⟩]⟩) rfl

/-- The values and bytes of the extensions. -/
def parts : Parts :=
  [(edValue ⟨.tuple [], []⟩, []), (edValue ⟨.tuple [], []⟩, []), (edValue era, [0]), (.uint .u32 9, [9, 0, 0, 0]),
   (edValue ⟨.genesisHash genesis, []⟩, genesis), (edValue ⟨.genesisHash genesis, []⟩, genesis)]

theorem parts_enc : ∀ x ∈ (extItems chainExtensions).zip parts, Enc chain.types false x.1.2 x.2.1 x.2.2 := by
  intro x hx
  simp only [extItems, chainExtensions, parts, List.map_cons, List.map_nil, List.cons_append, List.nil_append,
    List.zip_cons_cons, List.zip_nil_right, List.mem_cons, List.not_mem_nil, or_false] at hx
  rcases hx with rfl | rfl | rfl | rfl | rfl | rfl
  · exact enc_unit
  · exact enc_unit
  · exact enc_era
  · exact enc_spec
  · exact enc_hash
  · exact enc_hash

example : ∃ signed spec, chain.signedExtensions = .ok signed ∧ chain.specNameVersion = .ok spec ∧ 8 ≤ payload.len ∧
    ItemsAre chain.types (extItems signed) exts extBytes ∧ Accepted exts spec.printedSpecVersion (some genesis) :=
  decodeExtensionsUnmarked_sound decoded
example := decodeExtensionsUnmarked_complete (M := chain) (b := payload) (pos := 8) (expected := some genesis)
  chain_ranked.emptyArrays (reliable_ofBytes _) rfl rfl (vs := parts) rfl parts_enc rfl (by decide)
example : decodeExtensionsUnmarked chain (Buf.ofBytes extBytes) 0 (some genesis) = .ok exts :=
  decodeExtensionsUnmarked_local (b := payload) (b' := Buf.ofBytes extBytes) (reliable_ofBytes _) rfl (Nat.zero_le _) decoded
example : Calm (decodeExtensionsUnmarked chain payload 8 none) := decodeExtensionsUnmarked_calm calm 8 none
example : Accepted exts "9" (some genesis) := (checkExtensions_iff (ME := Unit)).1 rfl
example := decodeExtensionsUnmarked_bytes decoded
example := checkExtensions_noSpecVersion (ME := Unit) (exts := exts.take 3) (version := "9") (expected := none) rfl
example : checkExtensions (ME := Unit) exts "8" none = .error (.err (.wrongSpecVersion "9" "8")) :=
  checkExtensions_wrongSpecVersion (v := 9) rfl (by decide) (by decide) (by decide) (by decide)
example : checkExtensions (ME := Unit) exts "9" (some [1]) = .error (.err (.wrongGenesisHash genesis [1])) :=
  checkExtensions_wrongGenesisHash (v := 9) rfl rfl rfl (by decide) (by decide) (by decide)
example : checkExtensions (ME := Unit) (exts.take 5 ++ [⟨.blockHash [1], []⟩]) "9" none = .error (.err .immortalHashMismatch) :=
  checkExtensions_immortalMismatch (v := 9) (g := genesis) (h := [1]) rfl rfl rfl (by simp) rfl rfl (by decide)

theorem parsed : parseTransaction chain payload (some genesis) = .ok ⟨.ok call, exts⟩ := rfl

example := parseTransaction_sound parsed rfl
example := parseTransaction_complete (M := chain) (b := payload) (expected := some genesis) chain_ranked.emptyArrays
  (reliable_ofBytes _) rfl rfl rfl (callBytes := callBytes) (by decide) rfl is_call (vs := parts) rfl parts_enc
example := parseTransaction_iff.1 parsed
example : Calm (parseTransaction chain (Buf.ofBytes [28, 5, 1]) none) := parseTransaction_calm calm _ _
example := parseTransactionUnmarked_sound (M := chain) (b := Buf.ofBytes (callBytes ++ extBytes)) (expected := none)
  (r := ⟨call, exts⟩) rfl

/-! ### C30, C31 -/

example := decodeUncheckedExtrinsic_sound (M := extrinsicChain) (b := Buf.ofBytes unsignedBytes) (u := .unsigned call) rfl
example : decodeUncheckedExtrinsic extrinsicChain (Buf.ofBytes ([36, 4] ++ callBytes)) =
    .error (.err (.parsing (.buffer (.dataTooShort 9 1)))) :=
  decodeUncheckedExtrinsic_short (M := extrinsicChain) (b := Buf.ofBytes ([36, 4] ++ callBytes)) (reliable_ofBytes _) rfl
    (n := 9) (rest := 4 :: callBytes) (by decide) rfl (by decide)
example : decodeUncheckedExtrinsic extrinsicChain (Buf.ofBytes ([28, 4] ++ callBytes)) =
    .error (.err (.parsing (.someDataNotUsedBlob 8))) :=
  decodeUncheckedExtrinsic_long (M := extrinsicChain) (b := Buf.ofBytes ([28, 4] ++ callBytes)) (reliable_ofBytes _) rfl
    (n := 7) (rest := 4 :: callBytes) (by decide) rfl (by decide)
example : decodeUncheckedExtrinsic extrinsicChain (Buf.ofBytes ([32, 5] ++ callBytes)) =
    .error (.err (.versionMismatch 5 4)) :=
  decodeUncheckedExtrinsic_version (M := extrinsicChain) (b := Buf.ofBytes ([32, 5] ++ callBytes)) (reliable_ofBytes _) rfl
    rfl (vb := 5) (body := callBytes) (by decide) rfl (by decide)
example := decodeUncheckedExtrinsic_signed (M := extrinsicChain) (b := Buf.ofBytes signedBytes)
  (va := .uint .u8 77) chain_ranked.emptyArrays
  (reliable_ofBytes _) rfl rfl (vb := 132) (by decide) (by decide) (a := [77]) (s := genesis) (e := [0]) (cb := callBytes)
  (tail := [])
  (decodeAllAsType_sound (R := chain.types) (id := 0) (b := Buf.ofBytes [77]) (d := ⟨.uint .u8 77 .none, []⟩) rfl)
  enc_hash enc_era is_call (by decide) rfl
example := decodeUncheckedExtrinsic_unsigned (M := extrinsicChain) (b := Buf.ofBytes unsignedBytes) chain_ranked.emptyArrays
  (reliable_ofBytes _) rfl rfl (vb := 4) (by decide) (by decide) (cb := callBytes) (tail := []) is_call (by decide) rfl
example : decodeUncheckedExtrinsic extrinsicChain (Buf.ofBytes ([44, 4] ++ callBytes ++ [1, 2, 3])) = .ok (.unsigned call) :=
  decodeUncheckedExtrinsic_tail (b := Buf.ofBytes unsignedBytes) (body := 4 :: callBytes) (tail := [1, 2, 3])
    (reliable_ofBytes _) rfl rfl (by decide) rfl
example : Calm (decodeUncheckedExtrinsic extrinsicChain (Buf.ofBytes [9, 1])) :=
  decodeUncheckedExtrinsic_calm (.ok _) (.ok _) _
example := decodeUncheckedExtrinsic_not_all_used

/-! ### C32 to C34 -/

/-- The key. -/
def key : Buf := Buf.ofBytes keyBytes
/-- The value. -/
def value : Buf := Buf.ofBytes [2, 1, 0, 0]

example : StorageIs hashes storageReg entry keyBytes [2, 1, 0, 0] stored :=
  decodeStorageEntry_sound (key := key) (value := value) stored_decoded
example : ∃ s', decodeStorageEntry hashes storageReg key value entry = .ok s' ∧ SameStorage s' stored :=
  decodeStorageEntry_complete storageReg_ranked.emptyArrays (reliable_ofBytes _) (reliable_ofBytes _)
    (decodeStorageEntry_sound (key := key) (value := value) stored_decoded)
example : decodeStorageEntry hashes storageReg (Buf.ofBytes [1, 2, 3]) value entry = .error (.err .keyShorterThanPrefix) :=
  decodeStorageEntry_short (by decide)
example : decodeStorageEntry hashes storageReg key value { ty := .plain 1 } = .error (.err .plainKeyExceedsPrefix) :=
  decodeStorageEntry_plain_long rfl (by decide)

/-- The key is of this form after the prefix. -/
theorem key_is : ∃ data, KeyIs hashes storageReg [.blake2_128Concat, .twox128, .twox64Concat] 2 data (keyBytes.drop 32) := by
  obtain ⟨_, pre, rest, h1, h2, h3, _⟩ := decodeStorageEntry_sound (key := key) (value := value) stored_decoded
  have h1' : keyBytes = pre ++ rest := h1
  have : keyBytes.drop 32 = rest := by rw [h1', ← h2]; simp
  rw [this]; exact ⟨_, h3⟩

example : decodeStorageEntry hashes storageReg (Buf.ofBytes (keyBytes ++ [0])) value entry = .error (.err .keyPartsUnused) :=
  let ⟨_, h⟩ := key_is
  decodeStorageEntry_unused (key := Buf.ofBytes (keyBytes ++ [0])) storageReg_ranked.emptyArrays (reliable_ofBytes _) rfl
    (pre := prefixBytes) (rest := keyBytes.drop 32) (tail := [0]) rfl rfl h (by simp)
example : decodeStorageEntry hashes storageReg key value { ty := .map [.blake2_128Concat, .twox128] 2 1 } =
    .error (.err .multipleHashesNumberMismatch) :=
  (decodeStorageEntry_tuple (entry := { ty := .map [.blake2_128Concat, .twox128] 2 1 }) rfl (by decide) (by decide) rfl).2 _ rfl
    (by decide)
example : decodeStorageEntry hashes storageReg key value { ty := .map [.blake2_128Concat, .twox128] 1 1 } =
    .error (.err .multipleHashesNotATuple) :=
  (decodeStorageEntry_tuple (entry := { ty := .map [.blake2_128Concat, .twox128] 1 1 }) rfl (by decide) (by decide) rfl).1
    (by simp)

theorem enc_u8 : Enc storageReg false 0 (.uint .u8 7) [7] :=
  decodeAllAsType_sound (R := storageReg) (id := 0) (b := Buf.ofBytes [7]) (d := ⟨.uint .u8 7 .none, []⟩) rfl

example : decodeStorageEntry hashes storageReg (Buf.ofBytes (prefixBytes ++ (List.replicate 16 1 ++ [7]) ++ [])) value
    { ty := .map [.blake2_128Concat] 0 1 } = .error (.err .keyPartHashMismatch) :=
  decodeStorageEntry_mismatch storageReg_ranked.emptyArrays (reliable_ofBytes _) rfl (pre := prefixBytes)
    (hash := List.replicate 16 1) (k := [7]) (tail := []) rfl rfl enc_u8 (.inl ⟨rfl, rfl, by decide⟩)
example : checkHash storageReg 8 hashes.twox64 0 (Buf.ofBytes ([9, 9] ++ (List.replicate 8 1 ++ [7]) ++ [])) 2 =
    .error (.err .keyPartHashMismatch) :=
  checkHash_mismatch storageReg_ranked.emptyArrays (reliable_ofBytes _) (hash := List.replicate 8 1) enc_u8 rfl (by decide)
    ⟨[9, 9], [], rfl, rfl⟩
example : Calm (decodeStorageEntry hashes storageReg key value entry) := decodeStorageEntry_calm (reliable_ofBytes _) entry
example := decodeStorageEntry_panics

end Verif.Witness.Transaction
