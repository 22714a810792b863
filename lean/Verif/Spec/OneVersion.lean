import Verif.Spec.Renaming
/-!
# Metadata of several versions (specification)
-/
namespace Verif.Spec

/-- The signed extensions are the same in both metadata: the same names, and types that say the
same, up to the numbers (`f`) of the types. Calls and all other types may differ. -/
def SameExtensions {ME : Type} (f : Nat → Nat) (M M' : Metadata ME) : Prop :=
  ∃ es, M.signedExtensions = .ok es ∧ M'.signedExtensions = .ok (es.map (renExt f)) ∧
    ∀ e ∈ es, Renumbered f M.types M'.types e.ty ∧ Renumbered f M.types M'.types e.additionalSigned

end Verif.Spec
