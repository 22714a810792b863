import Verif.Real.PolkadotNames
/-!
# The types of Polkadot 1003003 are as the theorems assume

The checks of `Spec/Checkers.lean`, run by the kernel on all 968 types.
-/
set_option Elab.async false
namespace Verif.Polkadot
open Spec

theorem signaturesDistinct : SignaturesDistinct registry := signaturesDistinct_check (by decide +kernel)
theorem leavesNameless : LeavesNameless registry := (leavesNameless_check (by decide +kernel)).1
theorem noCompactArray : NoCompactArray registry := noCompactArray_check (by decide +kernel)
theorem emptyArraysGrounded : EmptyArraysGrounded registry := emptyArrays_check (by decide +kernel)
theorem solidVectors : SolidVectors registry := solidVectors_check (by decide +kernel)
theorem noU64Bits : ¬ HasU64Bits registry := noU64Bits_check (by decide +kernel)

/-- How deep the type is nested. -/
def rank (id : Nat) : Nat := ranks.getD id 0

theorem ranked : Ranked registry rank := ranked_check (by decide +kernel)

end Verif.Polkadot
