import Verif.Real.Polkadot
import Verif.Real.WestendChecks
/-!
# Variants of the enums of Polkadot 1003003 are told apart by name and by index
-/
set_option Elab.async false
namespace Verif.Polkadot
open Spec
open Verif.Westend (apart apart_distinct enums enums_mem code)

theorem names_apart : (enums types).all (fun vs => apart (vs.map (fun v => code v.name))) = true := by decide +kernel
theorem indices_apart : (enums types).all (fun vs => apart (vs.map (·.index.toNat))) = true := by decide +kernel

/-- The registry of Polkadot. -/
abbrev registry : Registry := .portable types

/-- Variants of an enum have different names. -/
theorem namesDistinct : NamesDistinct registry := fun _ _ _ h hd v hv w hw e =>
  apart_distinct (List.all_eq_true.1 names_apart _ (enums_mem h hd)) v hv w hw (by rw [e])

/-- Variants of an enum have different indices. -/
theorem indicesDistinct : IndicesDistinct registry := fun _ _ _ h hd v hv w hw e =>
  apart_distinct (List.all_eq_true.1 indices_apart _ (enums_mem h hd)) v hv w hw (by rw [e])

end Verif.Polkadot
