import Verif.Props.Accounts
import Verif.Witness.Screen
import Verif.Witness.Polkadot
/-! # Every theorem applied to a concrete case: C92

The storage key of the well-known account of Alice. -/
namespace Verif.Witness.Accounts
open Spec

def alice : Bytes := [212, 53, 147, 199, 21, 253, 211, 28, 97, 20, 26, 189, 4, 169, 159, 214, 130, 44, 133, 88, 133, 76, 205, 227, 154, 86,
  132, 231, 165, 109, 162, 125]

/-- The hash of Alice, the only one needed. -/
def H : HashFns := ⟨fun b => if b = alice then [222, 30, 134, 169, 168, 199, 57, 134, 76, 243, 204, 94, 194, 190, 165, 159] else [], fun _ => []⟩

/-- Hashes of `System` and `Account`. -/
def entry : Bytes := [38, 170, 57, 78, 234, 86, 48, 224, 124, 72, 174, 12, 149, 88, 206, 247, 185, 157, 136, 14, 198, 129, 121, 156, 12, 243,
  14, 136, 134, 55, 29, 169]

def key : Bytes := entry ++ [222, 30, 134, 169, 168, 199, 57, 134, 76, 243, 204, 94, 194, 190, 165, 159] ++ alice

def info : AccountInfo := ⟨5, 1, 2, 0, 1500000000000, 7, 20000000, 9⟩

theorem key_is : IsAccountKey H alice key := ⟨by decide +kernel, by decide +kernel, entry, by decide +kernel, by decide +kernel⟩
theorem info_valid : info.Valid := ⟨by decide, by decide, by decide, by decide, by decide, by decide, by decide, by decide⟩

/-- The account of Alice on Westend. -/
theorem westend_alice : ∃ s, decodeStorageEntry H westend.types (.ofBytes key) (.ofBytes info.bytes) systemAccount = .ok s ∧
    ShowsAccount "misc_frozen" "fee_frozen" s alice info :=
  (westend_account (reliable_ofBytes _) (reliable_ofBytes _)).2 ⟨key_is, info_valid, rfl⟩

/-- The account of Alice on Polkadot. -/
theorem polkadot_alice : ∃ s, decodeStorageEntry H polkadot.types (.ofBytes key) (.ofBytes info.bytes) systemAccount = .ok s ∧
    ShowsAccount "frozen" "flags" s alice info :=
  (polkadot_account (reliable_ofBytes _) (reliable_ofBytes _)).2 ⟨key_is, info_valid, rfl⟩

/-- It is shown with no other balance. -/
example : ¬ ∃ s, decodeStorageEntry H westend.types (.ofBytes key) (.ofBytes info.bytes) systemAccount = .ok s ∧
    ShowsAccount "misc_frozen" "fee_frozen" s alice { info with free := 1500000000001 } := by
  intro h
  have := ((westend_account (reliable_ofBytes _) (reliable_ofBytes _)).1 h).2.2
  exact absurd this (by decide +kernel)

example : ¬ ∃ s, decodeStorageEntry H polkadot.types (.ofBytes key) (.ofBytes info.bytes) systemAccount = .ok s ∧
    ShowsAccount "frozen" "flags" s alice { info with free := 1500000000001 } := by
  intro h
  have := ((polkadot_account (reliable_ofBytes _) (reliable_ofBytes _)).1 h).2.2
  exact absurd this (by decide +kernel)

example : ∃ s a x, decodeStorageEntry H westend.types (.ofBytes key) (.ofBytes info.bytes) systemAccount = .ok s ∧
    ShowsAccount "misc_frozen" "fee_frozen" s a x := by
  obtain ⟨s, h, -⟩ := westend_alice
  obtain ⟨a, x, hs⟩ := westend_account_only h
  exact ⟨s, a, x, h, hs⟩

example : ∃ s a x, decodeStorageEntry H polkadot.types (.ofBytes key) (.ofBytes info.bytes) systemAccount = .ok s ∧
    ShowsAccount "frozen" "flags" s a x := by
  obtain ⟨s, h, -⟩ := polkadot_alice
  obtain ⟨a, x, hs⟩ := polkadot_account_only h
  exact ⟨s, a, x, h, hs⟩

/-- A byte more or less is refused. -/
example : ¬ ∃ s, decodeStorageEntry H westend.types (.ofBytes key) (.ofBytes (info.bytes ++ [0])) systemAccount = .ok s := by
  intro h
  exact absurd ((westend_account_accepted (reliable_ofBytes _) (reliable_ofBytes _)).1 h).1 (by decide +kernel)

example : ¬ ∃ s, decodeStorageEntry H polkadot.types (.ofBytes key) (.ofBytes (info.bytes.drop 1)) systemAccount = .ok s := by
  intro h
  exact absurd ((polkadot_account_accepted (reliable_ofBytes _) (reliable_ofBytes _)).1 h).1 (by decide +kernel)

/-- Any 80 bytes are accepted as a value. -/
example : ∃ s, decodeStorageEntry H westend.types (.ofBytes key) (.ofBytes (List.replicate 80 255)) systemAccount = .ok s :=
  (westend_account_accepted (reliable_ofBytes _) (reliable_ofBytes _)).2 ⟨by decide +kernel, alice, key_is⟩

/-! ### The screen -/

abbrev printers : Printers := ss58Printers (fun _ => (29, 33)) (fun _ => [])

theorem address : printers.base58 .id alice 42 = "5GrwvaEF5zXb26Fz9rcQpDWS57CtERHpNehXCPcNoHGKutQY" := by
  unfold printers ss58Printers ss58 Spec.base58
  dsimp only
  rw [Screen.digits_eq 64 _ (by decide +kernel)]
  decide +kernel

theorem westend_text : accountScreen Screen.specs true "misc_frozen" "fee_frozen" (balanceLine Screen.specs true 9) info =
    ["Struct: 5 field(s)",
     "  Field Name: nonce",
     "    Nonce: 5",
     "  Field Name: consumers",
     "    u32: 1",
     "  Field Name: providers",
     "    u32: 2",
     "  Field Name: sufficients",
     "    u32: 0",
     "  Field Name: data",
     "    Struct: 4 field(s)",
     "      Field Name: free",
     "        Balance: 1.500000000000 WND",
     "      Field Name: reserved",
     "        Balance: 7 pWND",
     "      Field Name: misc_frozen",
     "        Balance: 20.000000 uWND",
     "      Field Name: fee_frozen",
     "        Balance: 9 pWND"] := by decide +kernel

/-- The screen on Westend. -/
example : ∃ s, decodeStorageEntry H westend.types (.ofBytes key) (.ofBytes info.bytes) systemAccount = .ok s ∧
    keyScreen printers Screen.specs "westend" Example.bitsText true s = ["Id: 5GrwvaEF5zXb26Fz9rcQpDWS57CtERHpNehXCPcNoHGKutQY"] ∧
    valueScreen printers Screen.specs "westend" Example.bitsText true s =
      ["Struct: 5 field(s)",
       "  Field Name: nonce",
       "    Nonce: 5",
       "  Field Name: consumers",
       "    u32: 1",
       "  Field Name: providers",
       "    u32: 2",
       "  Field Name: sufficients",
       "    u32: 0",
       "  Field Name: data",
       "    Struct: 4 field(s)",
       "      Field Name: free",
       "        Balance: 1.500000000000 WND",
       "      Field Name: reserved",
       "        Balance: 7 pWND",
       "      Field Name: misc_frozen",
       "        Balance: 20.000000 uWND",
       "      Field Name: fee_frozen",
       "        Balance: 9 pWND"] := by
  obtain ⟨s, h, hs⟩ := westend_alice
  obtain ⟨h1, h2⟩ := westend_account_screen (P := printers) (specs := Screen.specs) (chain := "westend") (showBits := Example.bitsText) true h hs
  refine ⟨s, h, ?_, h2.trans westend_text⟩
  rw [h1, show Screen.specs.base58prefix = 42 from rfl, address]
  decide +kernel

/-- The screen on Polkadot, without units; the flags are a mere number. -/
example : ∃ s, decodeStorageEntry H polkadot.types (.ofBytes key) (.ofBytes info.bytes) systemAccount = .ok s ∧
    (valueScreen printers Screen.specs "polkadot" Example.bitsText false s).drop 11 =
      ["      Field Name: free",
       "        Balance Raw: 1500000000000",
       "      Field Name: reserved",
       "        Balance Raw: 7",
       "      Field Name: frozen",
       "        Balance Raw: 20000000",
       "      Field Name: flags",
       "        u128: 9"] := by
  obtain ⟨s, h, hs⟩ := polkadot_alice
  obtain ⟨h1, h2⟩ := polkadot_account_screen (P := printers) (specs := Screen.specs) (chain := "polkadot") (showBits := Example.bitsText) false h hs
  exact ⟨s, h, by rw [h2]; decide +kernel⟩

/-- Only this account has this screen. -/
example {k v : Bytes} {s : Storage} (h : decodeStorageEntry H westend.types (.ofBytes k) (.ofBytes v) systemAccount = .ok s)
    (hk : keyScreen printers Screen.specs "westend" Example.bitsText true s = ["Id: " ++ ss58 (fun _ => (29, 33)) alice 42])
    (hv : valueScreen printers Screen.specs "westend" Example.bitsText true s =
      accountScreen Screen.specs true "misc_frozen" "fee_frozen" (balanceLine Screen.specs true 9) info) :
    IsAccountKey H alice k ∧ v = info.bytes :=
  (westend_account_screen_only (specs := Screen.specs) (by decide) (reliable_ofBytes k) (reliable_ofBytes v) info_valid true).1 ⟨s, h, hk, hv⟩

example {k v : Bytes} {s : Storage} (h : decodeStorageEntry H polkadot.types (.ofBytes k) (.ofBytes v) systemAccount = .ok s)
    (hk : keyScreen printers Screen.specs "polkadot" Example.bitsText false s = ["Id: " ++ ss58 (fun _ => (29, 33)) alice 42])
    (hv : valueScreen printers Screen.specs "polkadot" Example.bitsText false s =
      accountScreen Screen.specs false "frozen" "flags" ("        u128: " ++ toString 9) info) :
    IsAccountKey H alice k ∧ v = info.bytes :=
  (polkadot_account_screen_only (specs := Screen.specs) (by decide) (reliable_ofBytes k) (reliable_ofBytes v) info_valid false).1 ⟨s, h, hk, hv⟩

end Verif.Witness.Accounts
