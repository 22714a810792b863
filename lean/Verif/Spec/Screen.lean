import Verif.Spec.Westend
import Verif.Spec.Balance
import Verif.Model.Show
/-!
# What a screen shows of a Westend transfer (specification)
-/
namespace Verif.Spec.Westend

/-- `text` tells the amount `n` in units of `10 ^ -decimals`: a decimal number, a blank, a metric prefix, the name of
the unit. -/
def Money (specs : ShortSpecs) (n : Nat) (text : String) : Prop :=
  ∃ number pre num den whole fraction, text = number ++ " " ++ (pre ++ specs.unit) ∧ (pre, num, den) ∈ metricPrefixes ∧
    Decimal number whole fraction ∧
    mantissa whole fraction * num * 10 ^ specs.decimals = n * (10 ^ fraction.length * den)

/-- The crate's text for the amount. -/
def amountText (specs : ShortSpecs) (n : Nat) : String := currencyText (convertBalancePretty n specs.decimals specs.unit)

/-- Text of an era. -/
def eraText : Era → String
  | .immortal => "Immortal"
  | .mortal period phase => "Mortal, phase: " ++ toString phase ++ ", period: " ++ toString period

/-- The lines of the call, `address` being the text for the account. -/
def callScreen (specs : ShortSpecs) (address : String) (amount : Nat) : List String :=
  ["Pallet: Balances",
   "  Call: transfer_keep_alive",
   "    Field Name: dest",
   "      Enum",
   "        Enum Variant Name: Id",
   "          Id: " ++ address,
   "    Field Name: value",
   "      Balance: " ++ amountText specs amount]

/-- The lines of the extensions. -/
def extensionsScreen (specs : ShortSpecs) (x : Extensions) : List String :=
  ["Era: " ++ eraText x.era,
   "Nonce: " ++ toString x.nonce,
   "Tip: " ++ amountText specs x.tip,
   "Chain: westend9111",
   "Tx Version: " ++ toString x.txVersion,
   "Genesis Hash: " ++ hexBytes x.genesis,
   "Block Hash: " ++ hexBytes x.blockHash]

/-- The lines of cards. -/
def screen (showBits : BitStore → BitOrder → List Bool → String) (cards : List ExtendedCard) : List String :=
  cards.map fun c => c.show showBits

end Verif.Spec.Westend
