import Verif.Model.Show
/-!
# When cards can be read back (specification)

The printers of other crates are arbitrary functions in the model; here is what is needed
of them.
-/
namespace Verif.Spec

/-- What is assumed of the printers of other crates: different keys of one kind have different
base58 texts, different bits of one layout have different texts. -/
structure Faithful (P : Printers) (specs : ShortSpecs) (showBits : BitStore → BitOrder → List Bool → String) : Prop where
  keys : ∀ (k : FixedKind) (a b : Bytes), a.length = k.len → b.length = k.len →
    P.base58 k a specs.base58prefix = P.base58 k b specs.base58prefix → a = b
  bits : ∀ s o l l', showBits s o l = showBits s o l' → l = l'
  decimals : specs.decimals < 256

/-- Label and payload of every card. Indents, docs, paths and identicons are left out. -/
def cardLines (showBits : BitStore → BitOrder → List Bool → String) (cards : List ExtendedCard) :
    List (String × Option String) := cards.map fun c => c.parserCard.line showBits

/-- How one item of type information is printed. -/
def infoText (i : InfoFlat) : String :=
  let docs := match i.docs with | some d => d | none => "None"
  let path := match i.pathFlat with | some p => p | none => "None"
  "(docs: " ++ docs ++ ", path: " ++ path ++ ")"

/-- Information on the elements, only in cards of sequences. -/
def elementInfo : ParserCard → List InfoFlat
  | .sequenceAnnounced _ info => info
  | .sequenceU8 _ _ info => info
  | _ => []

/-- Addition of `show_with_docs` to the line of the card: information on the elements. -/
def elementText : List InfoFlat → String
  | [] => ""
  | i :: l => ", element info: [" ++ infoText i ++ String.join (l.map fun j => "," ++ infoText j) ++ "]"

end Verif.Spec
