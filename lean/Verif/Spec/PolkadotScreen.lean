import Verif.Spec.Polkadot
import Verif.Spec.Screen
/-!
# What a screen shows of a Polkadot transfer (specification)

The lines of the call are those of Westend (`Spec.Westend.callScreen`): the pallet, the call and its arguments have the same names.
-/
namespace Verif.Spec.Polkadot
open Westend (amountText eraText)

/-- The lines of the mode. -/
def modeScreen (m : Bool) : List String :=
  ["Struct: 1 field(s)",
   "  Field Name: mode",
   "    Enum",
   "      Enum Variant Name: " ++ (if m then "Enabled" else "Disabled")]

/-- The lines of the hash of the metadata. The crate does not know it for a hash: 32 bytes that happen to be a text are shown as
that text, others in hexadecimal digits. -/
def hashScreen : Option Bytes → List String
  | none => ["Enum", "  Enum Variant Name: None"]
  | some h => ["Enum", "  Enum Variant Name: Some",
      match stringFromUtf8 h with
      | some text => "    Text: " ++ text
      | none => "    Sequence u8: " ++ hexBytes h]

/-- The lines of the extensions. -/
def extensionsScreen (specs : ShortSpecs) (x : Extensions) : List String :=
  ["Era: " ++ eraText x.era,
   "Nonce: " ++ toString x.nonce,
   "Tip: " ++ amountText specs x.tip] ++
  modeScreen x.mode ++
  ["Chain: polkadot1003003",
   "Tx Version: " ++ toString x.txVersion,
   "Genesis Hash: " ++ hexBytes x.genesis,
   "Block Hash: " ++ hexBytes x.blockHash] ++
  hashScreen x.metadataHash

end Verif.Spec.Polkadot
