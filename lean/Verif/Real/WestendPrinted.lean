import Verif.Real.WestendChecks
import Verif.Spec.Printed
/-!
# No line breaks in the names of Westend 9111
-/
set_option Elab.async false
namespace Verif.Westend
open Spec

/-- No byte of the text is that of a line break. -/
def unbrokenBytes (s : String) : Bool := s.toByteArray.data.toList.all (· != 10)

theorem unbroken_of_bytes {s : String} (h : unbrokenBytes s = true) : Unbroken s := by
  intro hm
  have e : s.toList.utf8Encode = s.toByteArray := by simp
  have := List.all_eq_true.1 h 10 (by
    rw [← e, List.utf8Encode]
    simp
    exact ⟨_, hm, by decide⟩)
  exact absurd this (by decide)

/-- The names of the fields. -/
def fieldsUnbroken (fields : List Field) : Bool := fields.all fun f => match f.name with | some n => unbrokenBytes n | none => true

/-- The names in a type. -/
def typUnbroken (t : Typ) : Bool :=
  match t.typeDef with
  | .composite fields => fieldsUnbroken fields
  | .variant vs => vs.all fun v => unbrokenBytes v.name && fieldsUnbroken v.fields
  | _ => true

theorem fields_unbroken {fields : List Field} (h : fieldsUnbroken fields = true) : UnbrokenFields fields := by
  intro f hf n hn
  have := List.all_eq_true.1 h f hf
  rw [hn] at this
  exact unbroken_of_bytes this

theorem names_unbroken {ts : List Typ} (h : ts.all typUnbroken = true) : UnbrokenNames (.portable ts) := by
  intro id t ht
  have := List.all_eq_true.1 h t (portable_typ ht)
  unfold typUnbroken at this
  constructor
  · intro fields e
    rw [e] at this
    exact fields_unbroken this
  · intro vs e v hv
    rw [e] at this
    have := List.all_eq_true.1 this v hv
    rw [Bool.and_eq_true] at this
    exact ⟨unbroken_of_bytes this.1, fields_unbroken this.2⟩

theorem unbrokenNames : UnbrokenNames registry := names_unbroken (by decide +kernel)

end Verif.Westend
