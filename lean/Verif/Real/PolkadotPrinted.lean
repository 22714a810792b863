import Verif.Real.PolkadotNames
import Verif.Real.WestendPrinted
/-!
# No line breaks in the names of Polkadot 1003003
-/
set_option Elab.async false
namespace Verif.Polkadot
open Spec

theorem unbrokenNames : UnbrokenNames registry := Verif.Westend.names_unbroken (by decide +kernel)

end Verif.Polkadot
