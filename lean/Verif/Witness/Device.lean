import Verif.Props.Device
import Verif.Props.Words
import Verif.Props.FlakyTx
import Verif.Props.Checkers
import Verif.Props.Agree
import Verif.Witness.Values
import Verif.Witness.Transaction
/-!
# Every theorem applied to a concrete case: C57 to C61

Memories whose accesses fail according to a script. Whole transactions are evaluated by the kernel.
-/
namespace Verif.Witness.Device
open Spec Verif.Example

theorem ok_getD {ε α : Type} {x : Except ε α} (a : α) (h : x.toOption.isSome = true) : x = .ok (x.toOption.getD a) := by
  cases x with
  | ok a => rfl
  | error e => cases h

/-! ### C57, C58: one value -/

/-- The third access fails. -/
def third : Device Nat := scripted (usize64 false) DeviceExample.reg DeviceExample.call (fun k => k == 2)

theorem third_flaky : Flaky third DeviceExample.reg DeviceExample.call :=
  scripted_flaky _ ⟨by decide, by decide⟩ _

/-- What is decoded: the failure meets the recognition of the call, which is shown as an enum. -/
def shown : ED := ((decodeAllAsTypeD third 2 0).1.toOption).getD ⟨.tuple [], []⟩
theorem shown_all : (decodeAllAsTypeD third 2 0).1 = .ok shown := ok_getD _ (by decide +kernel)
theorem shown_at : (decodeAsTypeAtPositionD third 2 0 0).1 = .ok (shown, 3) := rfl

/-- What a reliable memory gives. -/
def good : ED := ((decodeAllAsType DeviceExample.reg (Buf.ofBytes DeviceExample.call) 2).toOption).getD ⟨.tuple [], []⟩
theorem good_all : decodeAllAsType DeviceExample.reg (Buf.ofBytes DeviceExample.call) 2 = .ok good := rfl
theorem good_at : decodeAsTypeAtPosition DeviceExample.reg (Buf.ofBytes DeviceExample.call) 2 0 = .ok (good, 3) := rfl
example : edValue good = .pallet .call "Balances" "transfer" [(some "amount", .uint .u8 42)] ∧
    edValue shown = .variant "Balances" [(none, .variant "transfer" [(some "amount", .uint .u8 42)])] := ⟨rfl, rfl⟩

theorem none_empty (v : Value) : ¬ TellsEmpty DeviceExample.reg v := not_tellsEmpty_of_nonempty DeviceExample.reg_nonempty v

example := decodeAsTypeAtPositionD_ends third_flaky 2 1 0
example := decodeAllAsTypeD_ends third_flaky 2 0
example : 0 ≤ 3 ∧ EncLoose DeviceExample.reg false 2 (edValue shown) [3, 5, 42] :=
  decodeAsTypeAtPositionD_sound third_flaky shown_at
example : EncLoose DeviceExample.reg false 2 (edValue shown) [3, 5, 42] := decodeAllAsTypeD_sound third_flaky shown_all
example := scripted_flaky DeviceExample.reg (data := DeviceExample.call) (w := usize64 false) ⟨by decide, by decide⟩ (fun k => k == 2)

/-- Nothing fails. -/
def fine : Device Nat := scripted (usize64 false) DeviceExample.reg DeviceExample.call (fun _ => false)
theorem fine_steady : Steady fine DeviceExample.reg (Buf.ofBytes DeviceExample.call) :=
  ⟨rfl, rfl, ⟨by decide, by decide⟩, fun _ _ _ => rfl, fun _ _ => rfl⟩
example := decodeD_steady fine_steady (.symbol 2) 0 {} 0
example : (decodeAllAsTypeD fine 2 0).1 = .ok good := (decodeAllAsTypeD_steady fine_steady 2 0).trans good_all

example := decodeAsTypeAtPositionD_plain third_flaky DeviceExample.reg_ranked.emptyArrays DeviceExample.reg_nameless
  DeviceExample.reg_noCompactArray (Nat.zero_le _) shown_at
example : (∃ e, MemoryError e ∧ (decodeAsTypeAtPositionD third 2 0 0).1 = .error e) ∨
    ∃ d', (decodeAsTypeAtPositionD third 2 0 0).1 = .ok (d', 3) ∧ SameButLabels (edValue good) (edValue d') :=
  decodeAsTypeAtPositionD_agrees third_flaky DeviceExample.reg_ranked.emptyArrays DeviceExample.reg_nameless
    DeviceExample.reg_noCompactArray (Nat.zero_le _) (none_empty _) good_at 0
example := decodeAllAsTypeD_agrees third_flaky DeviceExample.reg_ranked.emptyArrays DeviceExample.reg_nameless
    DeviceExample.reg_noCompactArray (none_empty _) good_all 0
example : ∃ d, decodeAsTypeAtPosition DeviceExample.reg (Buf.ofBytes DeviceExample.call) 2 0 = .ok (d, 3) ∧
    SameButLabels (edValue d) (edValue shown) :=
  decodeAsTypeAtPositionD_converse third_flaky DeviceExample.reg_ranked.emptyArrays DeviceExample.reg_nameless
    DeviceExample.reg_noCompactArray (by
      intro id h
      simp only [DeviceExample.reg, Registry.portable] at h
      split at h <;> cases h) (Nat.zero_le _) (none_empty _) shown_at

theorem good_noLabels : NoLabels Example.good := by
  intro id t vs h hd
  have hi : (Example.types.set 10 { typeDef := .primitive .u8 })[id]? = some t := by
    simp only [Example.good, Registry.portable] at h
    cases hx : (Example.types.set 10 { typeDef := .primitive .u8 })[id]? with
    | none => rw [hx] at h; cases h
    | some t' => rw [hx] at h; cases h; rfl
  have hall : ∀ t ∈ Example.types.set 10 { typeDef := .primitive .u8 },
      special t.path ≠ some .multiSignature ∧ special t.path ≠ some (.pallet .call) ∧ special t.path ≠ some (.pallet .event) := by
    decide
  have := hall t (List.mem_of_getElem? hi)
  exact ⟨this.1, fun item => by cases item; exact this.2.1; exact this.2.2⟩

/-- Memory with `S`, where the accesses from the 40th on fail. -/
def late : Device Nat := scripted (usize64 false) Example.good Values.inside.bytes (fun k => 40 ≤ k)
example : ∃ d0, decodeAsTypeAtPosition Example.good Values.inside 4 1 = .ok (d0, 7) ∧ edValue d0 = edValue Values.out :=
  decodeAsTypeAtPositionD_exact (D := late) (s := 0) (scripted_flaky _ ⟨by decide, by decide⟩ _) Example.good_ranked.emptyArrays
    good_noLabels (by decide) (d := Values.out) rfl

theorem zero_labelFree : LabelFree DeviceExample.reg 0 := by
  have h0 : ∀ id', Reaches DeviceExample.reg 0 id' → id' = 0 := by
    intro id' h
    induction h with
    | self => rfl
    | part _ hr _ hx ih =>
      subst ih
      cases hr
      cases hx
  intro id' t vs h hr hd
  rw [h0 id' h] at hr
  cases hr
  cases hd
example := decodeAsTypeAtPositionD_labelFree third_flaky zero_labelFree 2 1

/-! ### C59: words -/

open WordsExample in
example := decodeAsTypeAtPositionD_words (memory_steady (data := payload.bytes) (payload_fits (wraps := false))) 2 1 0
open WordsExample in
example := parseTransactionD_words (M := chain) (memory_steady (data := payload.bytes) (payload_fits (wraps := true))) (.inl rfl) none 0
open WordsExample in
example := parseTransactionUnmarkedD_words (M := chain) (memory_steady (data := payload.bytes) (payload_fits (wraps := false))) none 0

/-- No prefix overflows here. -/
theorem signed_fits : ¬ PrefixOverflows (usize32 false) signedBytes := by
  rintro ⟨n, rest, h1, h2, h3⟩
  have h4 := getCompact_complete (w := .u32) (b := Buf.ofBytes signedBytes) (reliable_ofBytes _) (pos := 0) (v := n)
    (by simpa [UW.bytes] using h1) ⟨[], rest, h2, rfl⟩
  have h5 : getCompact (compactUInt .u32) (Buf.ofBytes signedBytes) 0 = .ok (42, 1) := rfl
  rw [h5] at h4
  simp only [Except.ok.injEq, Prod.mk.injEq] at h4
  obtain ⟨rfl, h4⟩ := h4
  rw [show (usize32 false).cap = 2 ^ 32 from rfl] at h3
  omega

theorem signed_steady (wraps : Bool) : Steady (WordsExample.memory (usize32 wraps) signedBytes) chain.types (Buf.ofBytes signedBytes) :=
  WordsExample.memory_steady ⟨Nat.le_refl _, show 43 + 2 ^ 30 ≤ 2 ^ 32 by decide⟩

example := decodeUncheckedExtrinsicD_words (MC := extrinsicChain) (signed_steady false) signed_fits 0

/-- Storage memory that fails according to a script. -/
def keyMemory (fails : Nat → Bool) : Device Nat := scripted (usize64 false) storageReg keyBytes fails
/-- The same for the value. -/
def valueMemory (fails : Nat → Bool) : Device Nat := scripted (usize64 false) storageReg [2, 1, 0, 0] fails

example : (decodeStorageEntryD hashes (keyMemory fun _ => false) (valueMemory fun _ => false) entry 0).1 = .ok stored :=
  (decodeStorageEntryD_words (R := storageReg) (k := Buf.ofBytes keyBytes) (v := Buf.ofBytes [2, 1, 0, 0])
    ⟨rfl, rfl, ⟨by decide, by decide⟩, fun _ _ _ => rfl, fun _ _ => rfl⟩
    ⟨rfl, rfl, ⟨by decide, by decide⟩, fun _ _ _ => rfl, fun _ _ => rfl⟩ entry 0).trans stored_decoded
example := usize64_fits true payload.bytes

open WordsExample in
theorem huge_steady (wraps : Bool) : Steady (memory (usize32 wraps) huge) chain.types (Buf.ofBytes huge) :=
  memory_steady ⟨Nat.le_refl _, show 5 + 2 ^ 30 ≤ 2 ^ 32 by decide⟩
open WordsExample in
example := markD_overflow (ME := Unit) (huge_steady false) (reliable_ofBytes _) (huge_overflows false) 0
open WordsExample in
example := decodeUncheckedExtrinsicD_overflow (MC := extrinsicChain) rfl (huge_steady true) (reliable_ofBytes _) (huge_overflows true) 0
example : ∃ u, (decodeUncheckedExtrinsicD (WordsExample.memory (usize32 false) signedBytes) extrinsicChain 0).1 = .ok u ∧ u.call = call :=
  ⟨_, (decodeUncheckedExtrinsicD_success (MC := extrinsicChain) (signed_steady false) (reliable_ofBytes _) 0 _).2 rfl, rfl⟩

/-! ### C60, C61: transactions, extrinsics, storage entries -/

open FlakyExample

/-- The 14th access fails, while the call is decoded. -/
def atCall : Device Nat := memory payload.bytes (fun k => k == 13)
theorem atCall_flaky : Flaky atCall chain.types payload.bytes := memory_flaky (by decide) _
/-- The extensions are shown, and an error for the call. -/
def tx : TransactionParsed Unit := ((parseTransactionD atCall chain (some genesis) 0).1.toOption).getD ⟨.error .cutSignable, []⟩
theorem tx_eq : (parseTransactionD atCall chain (some genesis) 0).1 = .ok tx := ok_getD _ (by decide +kernel)
example : tx.callResult.toOption.isSome = false ∧ tx.extensions.length = 6 := by decide +kernel

/-- Accesses from the 30th on fail. -/
def lateTx (data : Bytes) : Device Nat := memory data (fun k => 30 ≤ k)
theorem late_flaky {data : Bytes} (h : data.length < 2 ^ 60) : Flaky (lateTx data) chain.types data := memory_flaky h _
/-- Both are shown. -/
def tx' : TransactionParsed Unit := ((parseTransactionD (lateTx payload.bytes) chain none 0).1.toOption).getD ⟨.error .cutSignable, []⟩
theorem tx'_eq : (parseTransactionD (lateTx payload.bytes) chain none 0).1 = .ok tx' := ok_getD _ (by decide +kernel)
example : tx'.callResult.toOption.isSome = true := by decide +kernel

/-- The call and the extensions without length. -/
def plain : Bytes := callBytes ++ extBytes
def un : TransactionUnmarkedParsed := ((parseTransactionUnmarkedD (lateTx plain) chain none 0).1.toOption).getD ⟨call, []⟩
theorem un_eq : (parseTransactionUnmarkedD (lateTx plain) chain none 0).1 = .ok un := ok_getD _ (by decide +kernel)

def ext : UncheckedExtrinsic := ((decodeUncheckedExtrinsicD (lateTx signedBytes) extrinsicChain 0).1.toOption).getD (.unsigned call)
theorem ext_eq : (decodeUncheckedExtrinsicD (lateTx signedBytes) extrinsicChain 0).1 = .ok ext := ok_getD _ (by decide +kernel)

/-- Accesses of the key from the 30th on fail. -/
theorem key_flaky (fails : Nat → Bool) : Flaky (keyMemory fails) storageReg keyBytes := scripted_flaky _ ⟨by decide, by decide⟩ _
theorem value_flaky (fails : Nat → Bool) : Flaky (valueMemory fails) storageReg [2, 1, 0, 0] :=
  scripted_flaky _ ⟨by decide, by decide⟩ _
def st : Storage := ((decodeStorageEntryD hashes (keyMemory (30 ≤ ·)) (valueMemory (40 ≤ ·)) entry 0).1.toOption).getD ⟨.plain, shown, ""⟩
theorem st_eq : (decodeStorageEntryD hashes (keyMemory (30 ≤ ·)) (valueMemory (40 ≤ ·)) entry 0).1 = .ok st :=
  ok_getD _ (by decide +kernel)

theorem chain_nonempty : PalletsNonempty chain.types := palletsNonempty_check (ts := chainTypes) (by decide)
theorem storage_nonempty : PalletsNonempty storageReg := palletsNonempty_check (by decide)
theorem chain_none (v : Value) : ¬ TellsEmpty chain.types v := not_tellsEmpty_of_nonempty chain_nonempty v
theorem storage_none (v : Value) : ¬ TellsEmpty storageReg v := not_tellsEmpty_of_nonempty storage_nonempty v

example := parseTransactionD_ends atCall_flaky chain_calm (some genesis) 3
example := parseTransactionD_sound atCall_flaky chain_calm tx_eq
example := parseTransactionUnmarkedD_ends (M := chain) (late_flaky (data := plain) (by decide)) chain_calm none 20
example := parseTransactionUnmarkedD_sound (late_flaky (data := plain) (by decide)) chain_calm un_eq
example := decodeUncheckedExtrinsicD_ends (MC := extrinsicChain) (late_flaky (data := signedBytes) (by decide)) (.ok _) (.ok _) 20
example := decodeUncheckedExtrinsicD_sound (late_flaky (data := signedBytes) (by decide)) (.ok _) (.ok _) ext_eq
example := decodeStorageEntryD_ends (H := hashes) (key_flaky (· == 4)) (value_flaky (· == 4)) entry 0
example := decodeStorageEntryD_sound (key_flaky _) (value_flaky _) st_eq
example := parseTransactionD_checks atCall_flaky chain_calm tx_eq

example := parseTransactionD_agrees atCall_flaky chain_calm chain_regular chain_labelFree none 0
example := parseTransactionD_converse (late_flaky (data := payload.bytes) (by decide)) chain_calm chain_regular chain_labelFree tx'_eq
example := parseTransactionUnmarkedD_agrees (M := chain) (late_flaky (data := plain) (by decide)) chain_regular chain_labelFree none 20
example := decodeUncheckedExtrinsicD_agrees (MC := extrinsicChain) (late_flaky (data := signedBytes) (by decide)) chain_regular 20
example := decodeStorageEntryD_agrees (H := hashes) (key_flaky (· == 4)) (value_flaky (· == 4)) storage_regular entry 0
example := decodeExtensionsUnmarkedD_exact atCall_flaky chain_labelFree 8 (some genesis) 5
example := parseTransactionUnmarkedD_converse (late_flaky (data := plain) (by decide)) chain_regular chain_labelFree un_eq
  (fun ⟨_, _, h⟩ => chain_none _ h)
example : ∃ u, decodeUncheckedExtrinsic extrinsicChain (Buf.ofBytes signedBytes) = .ok u ∧ SameExtrinsic u ext :=
  decodeUncheckedExtrinsicD_converse (MC := extrinsicChain) (late_flaky (data := signedBytes) (by decide)) chain_regular ext_eq (by
    intro h
    generalize ext = u at h
    cases u with
    | unsigned c => obtain ⟨_, _, h⟩ := h; exact chain_none _ h
    | signed a s x c =>
      rcases h with h | h | h | ⟨_, _, h⟩
      all_goals exact chain_none _ h)
example : ∃ r, decodeStorageEntry hashes storageReg (Buf.ofBytes keyBytes) (Buf.ofBytes [2, 1, 0, 0]) entry = .ok r ∧
    StorageButLabels r st :=
  decodeStorageEntryD_converse (key_flaky _) (value_flaky _) storage_regular st_eq (by
    rintro (h | h)
    · generalize st.key = k at h
      cases k with
      | plain => exact h
      | singleHash p => cases p <;> first | exact h | exact storage_none _ h
      | tupleHash ps i => obtain ⟨p, _, h⟩ := h; cases p <;> first | exact h | exact storage_none _ h
    · exact storage_none _ h)

end Verif.Witness.Device
