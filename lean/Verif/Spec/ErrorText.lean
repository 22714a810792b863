import Verif.Model.ErrorText
/-!
# What is needed of texts from outside of the crate (specification)
-/
namespace Verif.Spec

/-- The text of a buffer error (made by the crate `external_memory_tools`) is not the text
of another parser error. -/
def Clear (o : OuterTexts) : Prop :=
  ∀ (x : BufErr) (e : PErr), e.text o = o.buffer x → e = .buffer x

/-- Different values have different texts. -/
def TellsApart {α : Type} (text : α → String) : Prop := ∀ a b, text a = text b → a = b

end Verif.Spec
