import Verif.Model.Types
/-!
# Shortened registries (specification)
-/
namespace Verif.Spec

/-- `s` is the type `t`, perhaps with fewer variants. An enum that is shortened keeps at least one
variant. -/
def ShortTyp (s t : Typ) : Prop :=
  s = t ∨ ∃ vs ws, s.typeDef = .variant vs ∧ vs ≠ [] ∧ t = { s with typeDef := .variant ws } ∧ ∀ v ∈ vs, v ∈ ws

/-- `S` is `R` with types left out, and enums with variants left out. -/
def Shortened (S R : Registry) : Prop :=
  ∀ id s, S.resolve id = .ok s → ∃ t, R.resolve id = .ok t ∧ ShortTyp s t

/-- In every enum of the registry, the index byte selects at most one variant. -/
def IndicesDistinct (R : Registry) : Prop :=
  ∀ id t vs, R.resolve id = .ok t → t.typeDef = .variant vs → ∀ v ∈ vs, ∀ w ∈ vs, v.index = w.index → v = w

/-- Array types have no name, as everywhere in Rust. -/
def ArraysNameless (R : Registry) : Prop :=
  ∀ id t len elem, R.resolve id = .ok t → t.typeDef = .array len elem → t.path = []

end Verif.Spec
