import Verif.Props.Retry
import Verif.Props.Checkers
import Verif.Witness.Device
/-!
# Every theorem applied to a concrete case: C89
-/
namespace Verif.Witness.Retry
open Spec Verif.Example Verif.Witness.Device Verif.FlakyExample

/-! ### Calls during which nothing fails, in memories that do fail later -/

/-- The memory of `Witness/Device.lean` in which every access from the thirtieth on fails, watched. -/
theorem late_counts {data : Bytes} (h : data.length < 2 ^ 60) :
    Counts (watching (lateTx data)) chain.types data (fun s => (s.2 : Int)) := watching_counts (late_flaky h)

/-- Reading a value from watched memory, in which the third access fails: one failure is counted if the
call makes three accesses, none if it began after the failure. -/
example : ((decodeAsTypeAtPositionD (watching third) 2 0 (0, 0)).2.2, (decodeAsTypeAtPositionD (watching third) 2 0 (3, 0)).2.2) = (1, 0) := by
  decide +kernel
example : (decodeAsTypeAtPositionD (watching third) 2 0 (3, 0)).1 =
    decodeAsTypeAtPosition DeviceExample.reg (Buf.ofBytes DeviceExample.call) 2 0 :=
  quiet_value (watching_counts third_flaky) (by decide +kernel)
example : (decodeAllAsTypeD (watching third) 2 (3, 0)).1 = .ok good :=
  (quiet_all (watching_counts third_flaky) (by decide +kernel)).trans good_all

/-- The same from the count of failures to come. -/
example : (decodeAsTypeAtPositionD (RetryExample.chainMemory callBytes [2, 100]) 2 0 3).1 =
    decodeAsTypeAtPosition chain.types (Buf.ofBytes callBytes) 2 0 :=
  quiet_value (scripted_tires chain.types (RetryExample.fits (by decide)) [2, 100]) (by decide +kernel)

/-- Memory of the example chain that fails once, at the second access. -/
def once (data : Bytes) : Device Nat := RetryExample.chainMemory data [1]
theorem once_flaky {data : Bytes} (h : data.length < 2 ^ 60) : Flaky (once data) chain.types data :=
  scripted_flaky _ (RetryExample.fits h) _
theorem once_tires {data : Bytes} (h : data.length < 2 ^ 60) : Tires (once data) chain.types data (failuresFrom [1]) :=
  scripted_tires _ (RetryExample.fits h) [1]

example : (parseTransactionD (once payload.bytes) chain (some genesis) 2).1 = parseTransaction chain payload (some genesis) :=
  quiet_transaction (once_tires (by decide)) (.inr (usize64_fits _ _)) (by decide +kernel)
example : (parseTransactionUnmarkedD (once plain) chain none 2).1 = parseTransactionUnmarked chain (Buf.ofBytes plain) none :=
  quiet_unmarked (once_tires (by decide)) (by decide +kernel)
example : (decodeUncheckedExtrinsicD (once signedBytes) extrinsicChain 2).1 =
    decodeUncheckedExtrinsic extrinsicChain (Buf.ofBytes signedBytes) :=
  quiet_extrinsic (MC := extrinsicChain) (once_tires (by decide)) (usize64_fits _ _) (by decide +kernel)

def plainKey : Bytes := List.replicate 48 7

/-- Key and value of a storage entry in memory that fails at the given times. -/
def keyAt (fails : List Nat) : Device Nat := scripted (usize64 false) storageReg plainKey fails.contains
def valueAt (fails : List Nat) : Device Nat := scripted (usize64 false) storageReg [2, 1, 0, 0] fails.contains
theorem keyAt_flaky (fails : List Nat) : Flaky (keyAt fails) storageReg plainKey := scripted_flaky _ (RetryExample.fits (by decide)) _
theorem valueAt_flaky (fails : List Nat) : Flaky (valueAt fails) storageReg [2, 1, 0, 0] :=
  scripted_flaky _ (RetryExample.fits (by decide)) _
theorem keyAt_tires (fails : List Nat) : Tires (keyAt fails) storageReg plainKey (failuresFrom fails) :=
  scripted_tires _ (RetryExample.fits (by decide)) fails
theorem valueAt_tires (fails : List Nat) : Tires (valueAt fails) storageReg [2, 1, 0, 0] (failuresFrom fails) :=
  scripted_tires _ (RetryExample.fits (by decide)) fails

/-- An entry whose hasher does not keep the key. -/
def plainEntry : Entry := { ty := .map [.twox128] 0 1, docs := ["Doc."] }
theorem plainEntry_plain : ¬ UsesConcat plainEntry := by
  intro h
  obtain ⟨x, hx, hc⟩ : ∃ x ∈ [Hasher.twox128], Concat x := h
  cases List.mem_singleton.mp hx
  rcases hc with hc | hc <;> cases hc
def plainStored : Storage :=
  ((decodeStorageEntry hashes storageReg (Buf.ofBytes plainKey) (Buf.ofBytes [2, 1, 0, 0]) plainEntry).toOption).getD ⟨.plain, shown, ""⟩
theorem plainStored_eq : decodeStorageEntry hashes storageReg (Buf.ofBytes plainKey) (Buf.ofBytes [2, 1, 0, 0]) plainEntry =
    .ok plainStored := ok_getD _ (by decide +kernel)

example : (decodeStorageEntryD hashes (keyAt [0]) (valueAt [0]) plainEntry 1).1 = .ok plainStored :=
  (quiet_storage (keyAt_tires [0]) (valueAt_tires [0]) (by decide +kernel)).trans plainStored_eq

/-! ### Any finite schedule of failures: that many further attempts are enough -/

/-- The call of the example transaction. -/
def callValue : ED := ((decodeAllAsType chain.types (Buf.ofBytes callBytes) 2).toOption).getD ⟨.tuple [], []⟩

example (fails : List Nat) : ∃ d', (attempts unlessFailed
      (decodeAsTypeAtPositionD (RetryExample.chainMemory callBytes fails) 2 0) (failuresFrom fails 0) 0).1 =
      .ok (d', callBytes.length) ∧ SameButLabels (edValue callValue) (edValue d') :=
  retry_value (scripted_flaky _ (RetryExample.fits (by decide)) _) (scripted_tires _ (RetryExample.fits (by decide)) fails)
    chain_regular (Nat.zero_le _) (chain_none _) (d := callValue) rfl (Nat.le_refl _)

/-- The transaction of the examples, as reliable memory shows it. -/
def txShown : TransactionParsed Unit := ((parseTransaction chain payload (some genesis)).toOption).getD ⟨.error .cutSignable, []⟩
theorem txShown_eq : parseTransaction chain payload (some genesis) = .ok txShown := ok_getD _ (by decide +kernel)
def txCall : Call := (txShown.callResult.toOption).getD call
theorem txCall_eq : txShown.callResult = .ok txCall := ok_getD _ (by decide +kernel)

example (fails : List Nat) : ∃ r' c', (attempts (unlessError hasCall)
      (parseTransactionD (RetryExample.chainMemory payload.bytes fails) chain (some genesis)) (failuresFrom fails 0) 0).1 = .ok r' ∧
      r'.extensions = txShown.extensions ∧ r'.callResult = .ok c' ∧ SameCall txCall c' :=
  retry_transaction (scripted_flaky _ (RetryExample.fits (by decide)) _) (scripted_tires _ (RetryExample.fits (by decide)) fails)
    chain_calm chain_regular chain_labelFree txShown_eq txCall_eq (fun ⟨_, _, h⟩ => chain_none _ h) (Nat.le_refl _)

/-- The caller who tries again only after errors, and not if the call is missing, may end with no call. -/
example : ((attempts (unlessError fun _ => true)
      (parseTransactionD (RetryExample.chainMemory payload.bytes [13]) chain (some genesis)) 5 0).1.toOption.map hasCall) = some false := by
  decide +kernel

def unShown : TransactionUnmarkedParsed := ((parseTransactionUnmarked chain (Buf.ofBytes plain) none).toOption).getD ⟨call, []⟩
theorem unShown_eq : parseTransactionUnmarked chain (Buf.ofBytes plain) none = .ok unShown := ok_getD _ (by decide +kernel)

example (fails : List Nat) : ∃ r', (attempts (unlessError fun _ => true)
      (parseTransactionUnmarkedD (RetryExample.chainMemory plain fails) chain none) (failuresFrom fails 0) 0).1 = .ok r' ∧
      SameUnmarked unShown r' :=
  retry_unmarked (scripted_flaky _ (RetryExample.fits (by decide)) _) (scripted_tires _ (RetryExample.fits (by decide)) fails)
    chain_calm chain_regular chain_labelFree unShown_eq (fun ⟨_, _, h⟩ => chain_none _ h) (Nat.le_refl _)

def extShown : UncheckedExtrinsic :=
  ((decodeUncheckedExtrinsic extrinsicChain (Buf.ofBytes signedBytes)).toOption).getD (.unsigned call)
theorem extShown_eq : decodeUncheckedExtrinsic extrinsicChain (Buf.ofBytes signedBytes) = .ok extShown :=
  ok_getD _ (by decide +kernel)

example (fails : List Nat) : ∃ u', (attempts (unlessError fun _ => true)
      (decodeUncheckedExtrinsicD (RetryExample.chainMemory signedBytes fails) extrinsicChain) (failuresFrom fails 0) 0).1 = .ok u' ∧
      SameExtrinsic extShown u' :=
  retry_extrinsic (MC := extrinsicChain) (scripted_flaky _ (RetryExample.fits (by decide)) _)
    (scripted_tires _ (RetryExample.fits (by decide)) fails)
    chain_regular (.ok _) (.ok _) extShown_eq (by
      intro h
      generalize extShown = u at h
      cases u with
      | unsigned c => obtain ⟨_, _, h⟩ := h; exact chain_none _ h
      | signed a s x c =>
        rcases h with h | h | h | ⟨_, _, h⟩
        all_goals exact chain_none _ h) (Nat.le_refl _)

example (fails : List Nat) : ∃ r', (attempts (unlessError fun _ => true)
      (decodeStorageEntryD hashes (keyAt fails) (valueAt fails) plainEntry) (failuresFrom fails 0) 0).1 = .ok r' ∧
      StorageButLabels plainStored r' :=
  retry_storage (keyAt_flaky _) (valueAt_flaky _) (keyAt_tires _) (valueAt_tires _) storage_regular
    plainEntry_plain plainStored_eq (by
    rintro (h | h)
    · generalize plainStored.key = k at h
      cases k with
      | plain => exact h
      | singleHash p => cases p <;> first | exact h | exact storage_none _ h
      | tupleHash ps i => obtain ⟨p, _, h⟩ := h; cases p <;> first | exact h | exact storage_none _ h
    · exact storage_none _ h) (Nat.le_refl _)

/-- The position set back or not. -/
example := carryOn_wrong
example := watching_counts third_flaky
example := scripted_tires chain.types (data := payload.bytes) (w := usize64 false) (RetryExample.fits (by decide)) [3, 7]

end Verif.Witness.Retry
