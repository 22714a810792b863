import Verif.Model.Data
/-!
# Depth of parsed data (specification)
-/
namespace Verif.Spec

mutual
/-- Depth of parsed data: structs, enums, calls, events, tuples and lists are one deeper than the
deepest of their parts; single values and packed lists of numbers have depth one. -/
def pdDepth : PD → Nat
  | .composite fs => fdsDepth fs + 1
  | .variant _ _ fs => fdsDepth fs + 1
  | .pallet _ _ _ _ _ fs => fdsDepth fs + 1
  | .tuple l => edsDepth l + 1
  | .sequenceRaw _ l => pdsDepth l + 1
  | _ => 1

/-- Depth of data with info. -/
def edDepth : ED → Nat
  | ⟨d, _⟩ => pdDepth d

/-- Greatest depth of the elements of a list. -/
def pdsDepth : List PD → Nat
  | [] => 0
  | d :: l => max (pdDepth d) (pdsDepth l)

/-- Greatest depth of the elements of a tuple. -/
def edsDepth : List ED → Nat
  | [] => 0
  | d :: l => max (edDepth d) (edsDepth l)

/-- Greatest depth of the fields. -/
def fdsDepth : List FD → Nat
  | [] => 0
  | ⟨_, _, _, d⟩ :: l => max (edDepth d) (fdsDepth l)
end

end Verif.Spec
