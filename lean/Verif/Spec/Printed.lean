import Verif.Model.Show
import Verif.Spec.Value
/-!
# Displays as printed text (specification)

A display is printed as the lines of its cards, one below the other. A text inside of the data may contain line breaks and
so print lines of its own.
-/
namespace Verif.Spec

/-- The cards as one text, line breaks between them. -/
def printout (showBits : BitStore → BitOrder → List Bool → String) (cards : List ExtendedCard) : String :=
  "\n".intercalate (cards.map (·.show showBits))

/-- The card shows a text or a character from the data as it is. -/
def Wordy : ParserCard → Prop
  | .text _ => True
  | .char _ => True
  | .specName _ => True
  | .sequenceU8 _ (some _) _ => True
  | _ => False

/-- A display without texts from the data: names, numbers, amounts, addresses, digits only. -/
def Wordless (cards : List ExtendedCard) : Prop := ∀ c ∈ cards, ¬ Wordy c.parserCard

/-- No line break in the text. -/
def Unbroken (s : String) : Prop := '\n' ∉ s.toList

/-- Every card is printed as one line: no line break in the texts that are shown. -/
def EachOneLine (showBits : BitStore → BitOrder → List Bool → String) (cards : List ExtendedCard) : Prop :=
  ∀ c ∈ cards, Unbroken (c.show showBits)

/-- No line break in the names of fields. -/
def UnbrokenFields (fields : List Field) : Prop := ∀ f ∈ fields, ∀ n, f.name = some n → Unbroken n

/-- No line break in the names of variants and fields of the metadata. -/
def UnbrokenNames (R : Registry) : Prop := ∀ (id : Nat) (t : Typ), R.resolve id = .ok t →
  (∀ fields, t.typeDef = .composite fields → UnbrokenFields fields) ∧
  (∀ vs, t.typeDef = .variant vs → ∀ v ∈ vs, Unbroken v.name ∧ UnbrokenFields v.fields)

/-- No line break in what the wallet gives and other crates print: the unit, the name of the chain, addresses, lists of bits. -/
structure UnbrokenPrinters (P : Printers) (specs : ShortSpecs) (specName : String)
    (showBits : BitStore → BitOrder → List Bool → String) : Prop where
  base58 : ∀ k bs, Unbroken (P.base58 k bs specs.base58prefix)
  bits : ∀ s o l, Unbroken (showBits s o l)
  unit : Unbroken specs.unit
  chain : Unbroken specName

end Verif.Spec
