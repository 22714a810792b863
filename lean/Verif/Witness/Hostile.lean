import Verif.Props.Hostile
import Verif.Witness.Device
/-! # Every theorem applied to a concrete case: C81 -/
namespace Verif.Witness.Hostile
open Spec Verif.Example Verif.HostileExample Verif.FlakyExample
open Verif.Witness.Device (ok_getD)

/-- Bytes that differ from the given ones from some access on. -/
def from_ (a b : Bytes) (n k : Nat) : Bytes := if k < n then a else b

theorem from_length {a b : Bytes} (h : a.length = b.length) (n k : Nat) : (from_ a b n k).length = a.length := by
  unfold from_; split <;> omega

/-- The number shown. -/
def number : PD → Option Nat
  | .uint _ v _ => some v
  | _ => none

/-! ### Values -/

theorem flip_untrusted : Untrusted (changing compacts 2 flips) := changing_untrusted compacts (fun k => by unfold flips; split <;> rfl) (by decide)
def zero : ED := ((decodeAllAsTypeD (changing compacts 2 flips) 1 0).1.toOption).getD ⟨.tuple [], []⟩
theorem zero_eq : (decodeAllAsTypeD (changing compacts 2 flips) 1 0).1 = .ok zero := ok_getD _ (by decide +kernel)

example := decodeAsTypeAtPositionD_untrusted flip_untrusted 1 0 0
example := decodeAllAsTypeD_untrusted flip_untrusted 1 2
example : ValueAs compacts 1 (.uint .u32 0) := decodeAsTypeAtPositionD_valueOf (d := zero) (q := 2) flip_untrusted (changing_types _ _ _) (s := 0) (pos := 0) rfl
example : ValueAs compacts 1 (.uint .u32 0) := decodeAllAsTypeD_valueOf flip_untrusted (changing_types _ _ _) zero_eq

/-! ### Transactions -/

/-- Another destination and amount. -/
def payload2 : Bytes := [28] ++ [5, 1, 8, 2, 0, 0, 0] ++ extBytes
/-- The content changes while the call is decoded. -/
def tx (n : Nat) : Device Nat := changing chain.types payload.bytes.length (from_ payload.bytes payload2 n)
theorem tx_untrusted (n : Nat) : Untrusted (tx n) := changing_untrusted _ (from_length (by decide) n) (by decide)
theorem tx_prefix (n : Nat) : PrefixFits (tx n) := .inr (by show payload.bytes.length + 2 ^ 32 ≤ 2 ^ 64; decide)

def seen : TransactionParsed Unit := ((parseTransactionD (tx 19) chain (some genesis) 0).1.toOption).getD ⟨.error .cutSignable, []⟩
theorem seen_eq : (parseTransactionD (tx 19) chain (some genesis) 0).1 = .ok seen := ok_getD _ (by decide +kernel)

/-- Shown is the first destination with the second amount: a call that was at no time in the memory. -/
example : seen.callResult.toOption.map (fun c => c.fields.map (fun f => number f.data.data)) = some [some 7, some 2] := by decide +kernel

example := parseTransactionD_untrusted (M := chain) (tx_untrusted 19) chain_calm (tx_prefix _) (some genesis) 0
example := parseTransactionD_accepted (tx_untrusted 19) chain_calm (tx_prefix _) seen_eq
example := parseTransactionD_valuesOf (tx_untrusted 19) (changing_types _ _ _) chain_calm (tx_prefix _) seen_eq

def plain : Bytes := callBytes ++ extBytes
def plain2 : Bytes := [5, 1, 8, 2, 0, 0, 0] ++ extBytes
def un (n : Nat) : Device Nat := changing chain.types plain.length (from_ plain plain2 n)
theorem un_untrusted (n : Nat) : Untrusted (un n) := changing_untrusted _ (from_length (by decide) n) (by decide)
def seenUn : TransactionUnmarkedParsed := ((parseTransactionUnmarkedD (un 7) chain (some genesis) 0).1.toOption).getD ⟨call, []⟩
theorem seenUn_eq : (parseTransactionUnmarkedD (un 7) chain (some genesis) 0).1 = .ok seenUn := ok_getD _ (by decide +kernel)

example := parseTransactionUnmarkedD_untrusted (M := chain) (un_untrusted 7) chain_calm (some genesis) 0
example := parseTransactionUnmarkedD_accepted (un_untrusted 7) chain_calm seenUn_eq
example := parseTransactionUnmarkedD_valuesOf (un_untrusted 7) (changing_types _ _ _) chain_calm seenUn_eq

/-! ### Extrinsics -/

def ex (n : Nat) : Device Nat := changing chain.types signedBytes.length (from_ signedBytes (signedBytes.set 40 9) n)
theorem ex_untrusted (n : Nat) : Untrusted (ex n) := changing_untrusted _ (from_length (by decide) n) (by decide)
theorem ex_prefix (n : Nat) : PrefixFits (ex n) := .inr (by show signedBytes.length + 2 ^ 32 ≤ 2 ^ 64; decide)
def seenEx : UncheckedExtrinsic := ((decodeUncheckedExtrinsicD (ex 6) extrinsicChain 0).1.toOption).getD (.unsigned call)
theorem seenEx_eq : (decodeUncheckedExtrinsicD (ex 6) extrinsicChain 0).1 = .ok seenEx := ok_getD _ (by decide +kernel)

example := decodeUncheckedExtrinsicD_untrusted (MC := extrinsicChain) (ex_untrusted 6) (.ok _) (.ok _) (ex_prefix _) 0
example := decodeUncheckedExtrinsicD_valuesOf (MC := extrinsicChain) (ex_untrusted 6) (changing_types _ _ _) (.ok _) (.ok _) (ex_prefix _) seenEx_eq

/-! ### Storage -/

/-- The content differs at one access only. -/
def at_ (a b : Bytes) (n k : Nat) : Bytes := if k = n then b else a
theorem at_length {a b : Bytes} (h : a.length = b.length) (n k : Nat) : (at_ a b n k).length = a.length := by
  unfold at_; split <;> omega

def key (n : Nat) : Device Nat := changing storageReg keyBytes.length (at_ keyBytes (keyBytes.set 48 8) n)
theorem key_untrusted (n : Nat) : Untrusted (key n) := changing_untrusted _ (at_length (by decide) n) (by decide)
def value : Device Nat := changing storageReg 4 (fun _ => [2, 1, 0, 0])
theorem value_untrusted : Untrusted value := changing_untrusted _ (fun _ => rfl) (by decide)

def seenSt : Storage := ((decodeStorageEntryD hashes (key 3) value entry 0).1.toOption).getD ⟨.plain, zero, ""⟩
theorem seenSt_eq : (decodeStorageEntryD hashes (key 3) value entry 0).1 = .ok seenSt := ok_getD _ (by decide +kernel)

def firstPart : KeyData → Option Nat
  | .tupleHash (.parsed d :: _) _ => number d.data
  | _ => none

/-- The key is read twice, first to decode and then to hash it. Shown is 8 beside the hash of 7: the hash in the key
does not vouch for what is shown, if the memory is not to be trusted. -/
example : firstPart seenSt.key = some 8 := by decide +kernel
example : keyBytes.drop 32 = hashes.blake2_128 [7] ++ [7] ++ List.replicate 16 0xab ++ (List.replicate 7 1 ++ [9] ++ [9]) := rfl

example := decodeStorageEntryD_valuesOf (key_untrusted 3) value_untrusted (changing_types _ _ _) (changing_types _ _ _) seenSt_eq
/-- An entry whose hashers keep no key. -/
def entry2 : Entry := { ty := .map [.twox128] 1 1, docs := [] }
example := decodeStorageEntryD_untrusted (H := hashes) (entry := entry2) (key_untrusted 3) value_untrusted
  (by rintro ⟨h, hm, hc⟩; simp only [List.mem_singleton] at hm; subst hm; rcases hc with hc | hc <;> cases hc) 0

end Verif.Witness.Hostile
