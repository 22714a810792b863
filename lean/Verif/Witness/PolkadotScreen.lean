import Verif.Props.PolkadotScreen
import Verif.Witness.Polkadot
/-! # Every theorem applied to a concrete case: C93 -/
namespace Verif.Witness.PolkadotScreen
open Spec Verif.Polkadot Spec.Polkadot Witness.Polkadot
open Witness.Westend (account)
open Spec.Westend (screen callScreen)

def specs : ShortSpecs := ⟨0, 10, "DOT"⟩

/-- Printers with any checksum; the address is not spelled out. -/
abbrev printers : Printers := ss58Printers (fun _ => (29, 33)) (fun _ => [])

/-- A hash that is no text. -/
def opaque32 : Bytes := 0xff :: List.replicate 31 0xab

/-- Extensions with this hash. -/
def hashed : Extensions := { extensions with metadataHash := some opaque32 }

theorem hashed_valid : hashed.Valid (some genesis) := extensions_valid true _ (by intro x h; cases h; rfl)

theorem call_text (address : String) : callScreen specs address 30000000000 =
    ["Pallet: Balances",
     "  Call: transfer_keep_alive",
     "    Field Name: dest",
     "      Enum",
     "        Enum Variant Name: Id",
     "          Id: " ++ address,
     "    Field Name: value",
     "      Balance: 3.0000000000 DOT"] := by
  unfold callScreen
  have e : "      Balance: " ++ Spec.Westend.amountText specs 30000000000 = "      Balance: 3.0000000000 DOT" := by decide +kernel
  rw [e]

theorem extensions_text : extensionsScreen specs hashed =
    ["Era: Immortal",
     "Nonce: 7",
     "Tip: 100.0 nDOT",
     "Struct: 1 field(s)",
     "  Field Name: mode",
     "    Enum",
     "      Enum Variant Name: Enabled",
     "Chain: polkadot1003003",
     "Tx Version: 26",
     "Genesis Hash: 91b171bb158e2d3848fa23a9f1c25182fb8e20313b2c1eb49219da7a70ce90c3",
     "Block Hash: 91b171bb158e2d3848fa23a9f1c25182fb8e20313b2c1eb49219da7a70ce90c3",
     "Enum",
     "  Enum Variant Name: Some",
     "    Sequence u8: ffababababababababababababababababababababababababababababababab"] := by decide +kernel

/-- The transfer of 3 DOT, immortal, with the hash of the metadata. -/
example : ∃ r k, parseTransaction polkadot.toMetadata (.ofBytes (payload (transferKeepAlive account 30000000000) hashed)) (some genesis) = .ok r ∧
    r.callResult = .ok k ∧
    screen Example.bitsText (k.card printers specs "polkadot" 0) =
      ["Pallet: Balances",
       "  Call: transfer_keep_alive",
       "    Field Name: dest",
       "      Enum",
       "        Enum Variant Name: Id",
       "          Id: " ++ printers.base58 .id account 0,
       "    Field Name: value",
       "      Balance: 3.0000000000 DOT"] ∧
    screen Example.bitsText (r.card printers specs "polkadot").extensions =
      ["Era: Immortal",
       "Nonce: 7",
       "Tip: 100.0 nDOT",
       "Struct: 1 field(s)",
       "  Field Name: mode",
       "    Enum",
       "      Enum Variant Name: Enabled",
       "Chain: polkadot1003003",
       "Tx Version: 26",
       "Genesis Hash: 91b171bb158e2d3848fa23a9f1c25182fb8e20313b2c1eb49219da7a70ce90c3",
       "Block Hash: 91b171bb158e2d3848fa23a9f1c25182fb8e20313b2c1eb49219da7a70ce90c3",
       "Enum",
       "  Enum Variant Name: Some",
       "    Sequence u8: ffababababababababababababababababababababababababababababababab"] := by
  have := polkadot_screen (b := .ofBytes (payload (transferKeepAlive account 30000000000) hashed)) printers specs Example.bitsText
    (reliable_ofBytes _) (by decide : account.length = 32) (by decide : 30000000000 < 2 ^ 128) hashed_valid rfl
  rwa [call_text, extensions_text] at this

/-- No other payload shows them. -/
example (b' : Buf) (hr : Reliable b') : (∃ r k, parseTransaction polkadot.toMetadata b' (some genesis) = .ok r ∧ r.callResult = .ok k ∧
    screen Example.bitsText (k.card printers specs "polkadot" 0) = callScreen specs (printers.base58 .id account specs.base58prefix) 30000000000 ∧
    screen Example.bitsText (r.card printers specs "polkadot").extensions = extensionsScreen specs hashed) ↔
    b'.bytes = payload (transferKeepAlive account 30000000000) hashed :=
  polkadot_screen_only (by decide) Meaning.bits_shown hr (by decide) (by decide) hashed_valid

/-- Not every hash is shown in digits: this one is shown as the text it happens to spell, with a line break in it (finding on
forged lines). -/
def spelling : Bytes := [0x30, 0x30, 0x30, 0x30, 0x0a, 0x4e, 0x6f, 0x6e, 0x63, 0x65, 0x3a, 0x20, 0x31, 0x30, 0x30, 0x30, 0x30, 0x30, 0x30, 0x30, 0x30, 0x30, 0x30, 0x30, 0x30, 0x30, 0x30, 0x30, 0x30, 0x30, 0x30, 0x30]

example : spelling.length = 32 ∧ hashScreen (some spelling) =
    ["Enum", "  Enum Variant Name: Some", "    Text: 0000\nNonce: 10000000000000000000"] := by decide +kernel

example : ∃ r k, parseTransaction polkadot.toMetadata
    (.ofBytes (payload (transferKeepAlive account 5) { extensions with metadataHash := some spelling })) (some genesis) = .ok r ∧
    r.callResult = .ok k ∧ screen Example.bitsText (k.card printers specs "polkadot" 0) = callScreen specs (printers.base58 .id account 0) 5 ∧
    screen Example.bitsText (r.card printers specs "polkadot").extensions =
      extensionsScreen specs { extensions with metadataHash := some spelling } :=
  polkadot_screen printers specs Example.bitsText (reliable_ofBytes _) (by decide) (by decide)
    (extensions_valid true _ (by intro x h; cases h; decide +kernel)) rfl

end Verif.Witness.PolkadotScreen
