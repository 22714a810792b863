import Verif.Spec.Stored
import Verif.Props.Node
import Verif.Props.Shift
/-!
# C77: what is shown of a storage entry tells the entry
-/
namespace Verif
open Spec

variable {R : Registry} {H : HashFns} {key key' value value' : Buf}

/-! ### The first 32 bytes -/

theorem sameFrom_tail {k : Nat} {b b' : Buf} (h : SameFrom k b b') (hk : k ≤ b.bytes.length) :
    Behind k ⟨b.bytes.drop k, fun p n => b.fault (p + k) n⟩ b ∧ Behind k ⟨b.bytes.drop k, fun p n => b.fault (p + k) n⟩ b' := by
  refine ⟨⟨⟨b.bytes.take k, by rw [List.length_take]; omega, (List.take_append_drop k _).symm⟩, fun _ _ => rfl⟩,
    ⟨⟨b'.bytes.take k, by rw [List.length_take, h.len]; omega, ?_⟩, fun p n => h.fault _ _ (by omega)⟩⟩
  show b'.bytes = b'.bytes.take k ++ b.bytes.drop k
  rw [← h.data, List.take_append_drop]

theorem readSlice_sameFrom (h : SameFrom 32 key key') (hk : 32 ≤ key.bytes.length) {pos : Nat} (hp : 32 ≤ pos) (n : Nat) :
    key'.readSlice pos n = key.readSlice pos n := by
  obtain ⟨h1, h2⟩ := sameFrom_tail h hk
  obtain ⟨p, rfl⟩ : ∃ p, pos = p + 32 := ⟨pos - 32, by omega⟩
  rw [readSlice_carried h1 p n, readSlice_carried h2 p n]

theorem decode_sameFrom (h : SameFrom 32 key key') (hk : 32 ≤ key.bytes.length) {pos : Nat} (hp : 32 ≤ pos) (id : Nat) :
    decode R key' (.symbol id) pos Propagated.new = decode R key (.symbol id) pos Propagated.new := by
  obtain ⟨h1, h2⟩ := sameFrom_tail h hk
  obtain ⟨p, rfl⟩ : ∃ p, pos = p + 32 := ⟨pos - 32, by omega⟩
  rw [decode_carried h1 (.symbol id) p _, decode_carried h2 (.symbol id) p _]

theorem checkHash_sameFrom (h : SameFrom 32 key key') (hk : 32 ≤ key.bytes.length) {pos : Nat} (hp : 32 ≤ pos)
    (n : Nat) (f : Bytes → Bytes) (ty : Nat) : checkHash R n f ty key' pos = checkHash R n f ty key pos := by
  unfold checkHash
  dsimp only
  rw [readSlice_sameFrom h hk hp, decode_sameFrom h hk (by omega)]
  congr 1
  funext slice
  split
  · rfl
  · congr 1
    funext x
    rw [readSlice_sameFrom h hk (by omega)]

theorem processHasher_sameFrom (h : SameFrom 32 key key') (hk : 32 ≤ key.bytes.length) {pos : Nat} (hp : 32 ≤ pos)
    (x : Hasher) (ty : Nat) : processHasher H R x ty key' pos = processHasher H R x ty key pos := by
  cases x <;>
    simp only [processHasher, cutHash, readSlice_sameFrom h hk hp, decode_sameFrom h hk hp, checkHash_sameFrom h hk hp]

theorem hashersLoop_sameFrom (h : SameFrom 32 key key') (hk : 32 ≤ key.bytes.length) :
    ∀ (hs : List Hasher) (tys : List Nat) (pos : Nat), 32 ≤ pos → pos ≤ key.len →
      hashersLoop H R key' hs tys pos = hashersLoop H R key hs tys pos
  | [], _, _, _, _ => by simp only [hashersLoop]
  | _ :: _, [], _, _, _ => by simp only [hashersLoop]
  | x :: hs, ty :: tys, pos, hp, hl => by
    simp only [hashersLoop]
    rw [processHasher_sameFrom h hk hp]
    cases hx : processHasher H R x ty key pos with
    | error e => rfl
    | ok a =>
      obtain ⟨part, q⟩ := a
      obtain ⟨bs, _, g2, rfl⟩ := processHasher_ok hl hx
      rw [eok_bind, eok_bind]
      dsimp only
      rw [hashersLoop_sameFrom h hk hs tys _ (by omega) g2.le]

/-- **C77.** The first 32 bytes of a key are not looked at: keys that differ only in them give the same outcome. Which
entry of which pallet the key belongs to is for the caller to know. -/
theorem storage_prefix_ignored (h : SameFrom 32 key key') (entry : Entry) :
    decodeStorageEntry H R key' value entry = decodeStorageEntry H R key value entry := by
  have hlen : key'.len = key.len := h.len
  unfold decodeStorageEntry
  dsimp only
  rw [hlen]
  split
  · rfl
  rename_i hk
  have hk : 32 ≤ key.len := by omega
  split
  · rfl
  · rename_i hashers keyTy valueTy _
    have e : processKeyMapped H R hashers keyTy key' 32 = processKeyMapped H R hashers keyTy key 32 := by
      by_cases hn : hashers.length = 1
      · obtain ⟨x, rfl⟩ := List.length_eq_one_iff.1 hn
        rw [processKeyMapped_one, processKeyMapped_one, processHasher_sameFrom h hk (Nat.le_refl _), hlen]
      · rw [processKeyMapped_many hn, processKeyMapped_many hn]
        congr 1
        funext t
        split
        · split
          · rfl
          · rw [hashersLoop_sameFrom h hk _ _ _ (Nat.le_refl _) hk, hlen]
        · rfl
    rw [e]

/-! ### The key and the value from what is shown -/

theorem part_shown (hn : NamesDistinct R) (hs : SignaturesDistinct R) {h : Hasher} {ty : Nat} {part : KeyPart} {bs : Bytes}
    (hp : KeyPartIs H R h ty part bs) (hf : (partOf part).Firm) :
    ∃ n0, ∀ n, n0 ≤ n → shownPart H R n h ty (partOf part) = some bs := by
  cases hp with
  | blake2_128 _ => exact ⟨0, fun _ _ => rfl⟩
  | blake2_256 _ => exact ⟨0, fun _ _ => rfl⟩
  | twox128 _ => exact ⟨0, fun _ _ => rfl⟩
  | twox256 _ => exact ⟨0, fun _ _ => rfl⟩
  | blake2_128Concat he _ =>
    obtain ⟨n0, hw⟩ := firm_written hn hs hf he
    exact ⟨n0, fun n hl => by simp only [partOf, shownPart, hw n hl]⟩
  | twox64Concat he _ =>
    obtain ⟨n0, hw⟩ := firm_written hn hs hf he
    exact ⟨n0, fun n hl => by simp only [partOf, shownPart, hw n hl]⟩
  | identity he =>
    obtain ⟨n0, hw⟩ := firm_written hn hs hf he
    exact ⟨n0, fun n hl => by simp only [partOf, shownPart, hw n hl]⟩

theorem parts_shown (hn : NamesDistinct R) (hs : SignaturesDistinct R) {hashers : List Hasher} {tys : List Nat}
    {parts : List KeyPart} {bs : Bytes} (hp : KeyPartsAre H R hashers tys parts bs)
    (hf : ∀ p ∈ parts.map partOf, p.Firm) :
    ∃ n0, ∀ n, n0 ≤ n → shownParts H R n hashers tys (parts.map partOf) = some bs := by
  induction hp with
  | nil => exact ⟨0, fun _ _ => rfl⟩
  | cons h1 _ ih =>
    rw [List.map_cons, List.forall_mem_cons] at hf
    obtain ⟨n1, w1⟩ := part_shown hn hs h1 hf.1
    obtain ⟨n2, w2⟩ := ih hf.2
    refine ⟨max n1 n2, fun n hl => ?_⟩
    rw [List.map_cons]
    simp only [shownParts]
    rw [w1 n (by omega), w2 n (by omega)]

/-- **C77.** What is shown of a storage entry gives back the key after its first 32 bytes, and the value: both can be
computed from it. -/
theorem storage_rebuilt (hn : NamesDistinct R) (hs : SignaturesDistinct R) {entry : Entry} {s : Storage}
    (h : decodeStorageEntry H R key value entry = .ok s) (hf : (keyOf s.key).Firm) (hv : Firm (edValue s.value)) :
    ∃ n0, ∀ n, n0 ≤ n → shownKey H R n entry (keyOf s.key) = some (key.bytes.drop 32) ∧
      Encoder.encode R n false (Node.valueTy entry) (edValue s.value) = some value.bytes := by
  have hst := (decodeStorageEntry_sound h).2
  obtain ⟨ty, docs⟩ := entry
  cases ty with
  | plain vty =>
    obtain ⟨h1, h2, h3⟩ := hst
    obtain ⟨n0, hw⟩ := firm_written hn hs hv h3
    refine ⟨n0, fun n hl => ⟨?_, hw n hl⟩⟩
    rw [h2, List.drop_eq_nil_of_le (by omega)]
    rfl
  | map hashers keyTy vty =>
    obtain ⟨pre, rest, h1, h2, h3, h4⟩ := hst
    obtain ⟨n0, hw⟩ := firm_written hn hs hv h4
    have e : key.bytes.drop 32 = rest := by rw [h1, ← h2, List.drop_left]
    rw [e]
    cases hkey : s.key with
    | plain => rw [hkey] at h3; exact h3.elim
    | singleHash part =>
      rw [hkey] at h3 hf
      obtain ⟨x, rfl, h3⟩ := h3
      obtain ⟨n1, w1⟩ := part_shown hn hs h3 hf
      exact ⟨max n0 n1, fun n hl => ⟨w1 n (by omega), hw n (by omega)⟩⟩
    | tupleHash parts info =>
      rw [hkey] at h3 hf
      obtain ⟨hl1, t, elems, hr, hd, _, h3⟩ := h3
      obtain ⟨n1, w1⟩ := parts_shown hn hs h3 hf
      refine ⟨max n0 n1, fun n hl => ⟨?_, hw n (by omega)⟩⟩
      simp only [shownKey, keyOf]
      rw [hr]
      obtain ⟨_, _, _, _⟩ := t
      dsimp only at hd
      subst hd
      exact w1 n (by omega)

/-- **C77.** Entries that show the same have the same key, up to its first 32 bytes, and the same value. -/
theorem storage_shown_determines (hn : NamesDistinct R) (hs : SignaturesDistinct R) {entry : Entry} {s s' : Storage}
    (h : decodeStorageEntry H R key value entry = .ok s) (h' : decodeStorageEntry H R key' value' entry = .ok s')
    (hf : (keyOf s.key).Firm) (hv : Firm (edValue s.value)) (e1 : keyOf s.key = keyOf s'.key)
    (e2 : edValue s.value = edValue s'.value) :
    key.bytes.drop 32 = key'.bytes.drop 32 ∧ value.bytes = value'.bytes := by
  obtain ⟨n0, w⟩ := storage_rebuilt hn hs h hf hv
  obtain ⟨n1, w'⟩ := storage_rebuilt hn hs h' (e1 ▸ hf) (e2 ▸ hv)
  obtain ⟨a, b⟩ := w (max n0 n1) (by omega)
  obtain ⟨a', b'⟩ := w' (max n0 n1) (by omega)
  rw [e1, a'] at a
  rw [e2, b'] at b
  exact ⟨(Option.some.inj a).symm, (Option.some.inj b).symm⟩

/-! ### Instances -/

namespace Example

theorem storageReg_names : NamesDistinct storageReg :=
  namesDistinct_of_check (ts := [{ typeDef := .primitive .u8 }, { typeDef := .primitive .u32 }, { typeDef := .tuple [0, 1, 0] }])
    (by decide)
theorem storageReg_signatures : SignaturesDistinct storageReg :=
  signaturesDistinct_of_check (ts := [{ typeDef := .primitive .u8 }, { typeDef := .primitive .u32 }, { typeDef := .tuple [0, 1, 0] }])
    (by decide)
theorem stored_firm : (keyOf stored.key).Firm := by
  show ∀ p ∈ stored.key |> fun | .tupleHash ps _ => ps.map partOf | _ => [], p.Firm
  simp only [stored, List.map_cons, List.map_nil, List.forall_mem_cons, partOf, PartOf.Firm]
  exact ⟨.uint _ _, trivial, .uint _ _, by simp⟩

/-- The key of the entry in another pallet. -/
def elsewhere : Bytes := List.replicate 32 0x77 ++ keyBytes.drop 32

theorem elsewhere_same : SameFrom 32 (Buf.ofBytes keyBytes) (Buf.ofBytes elsewhere) where
  len := by decide
  data := by decide
  fault _ _ _ := rfl

/-- The same is shown. -/
example : decodeStorageEntry hashes storageReg (Buf.ofBytes elsewhere) (Buf.ofBytes [2, 1, 0, 0]) entry = .ok stored :=
  (storage_prefix_ignored elsewhere_same entry).trans stored_decoded

example : ∃ n0, ∀ n, n0 ≤ n → shownKey hashes storageReg n entry (keyOf stored.key) = some (keyBytes.drop 32) ∧
    Encoder.encode storageReg n false 1 (.uint .u32 258) = some [2, 1, 0, 0] :=
  storage_rebuilt storageReg_names storageReg_signatures stored_decoded stored_firm (.uint _ _)

example : shownKey hashes storageReg 3 entry (keyOf stored.key) = some (keyBytes.drop 32) := rfl

example {key' value' : Buf} {s' : Storage} (h : decodeStorageEntry hashes storageReg key' value' entry = .ok s')
    (e1 : keyOf stored.key = keyOf s'.key) (e2 : .uint .u32 258 = edValue s'.value) :
    keyBytes.drop 32 = key'.bytes.drop 32 ∧ [2, 1, 0, 0] = value'.bytes :=
  storage_shown_determines storageReg_names storageReg_signatures stored_decoded h stored_firm (.uint _ _) e1 e2

end Example

end Verif
