import Verif.Model.Cards
import Verif.Spec.Leaf
import Verif.Spec.Meaning
/-!
# Texts in the data and texts on the cards (specification)
-/
namespace Verif.Spec

/-- The value is a text, or a character. -/
inductive IsText (s : String) : Value → Prop
  | str : IsText s (.str s)
  | char (c : Char) : s = String.singleton c → IsText s (.char c)

/-- The value is a list of bytes, which are the text in UTF-8. -/
inductive IsBytesOf (s : String) : Value → Prop
  | mk : IsBytesOf s (.seq ((utf8 s).map fun b => .uint .u8 b.toNat))

/-- The value, or a value inside of it, is such. -/
inductive Somewhere (p : Value → Prop) : Value → Prop
  | here {v : Value} : p v → Somewhere p v
  | seq {l : List Value} {v : Value} : v ∈ l → Somewhere p v → Somewhere p (.seq l)
  | tuple {l : List Value} {v : Value} : v ∈ l → Somewhere p v → Somewhere p (.tuple l)
  | record {l : List (Option String × Value)} {f : Option String × Value} : f ∈ l → Somewhere p f.2 → Somewhere p (.record l)
  | variant {n : String} {l : List (Option String × Value)} {f : Option String × Value} : f ∈ l → Somewhere p f.2 → Somewhere p (.variant n l)
  | pallet {i : PalletItem} {m n : String} {l : List (Option String × Value)} {f : Option String × Value} : f ∈ l → Somewhere p f.2 →
      Somewhere p (.pallet i m n l)

/-- Somewhere in the value there is this text, or a character that makes this text. -/
def Says (s : String) (v : Value) : Prop := Somewhere (IsText s) v

/-- Somewhere in the value there is this text, as text, character, or bytes. -/
def MaySay (s : String) (v : Value) : Prop := Somewhere (fun x => IsText s x ∨ IsBytesOf s x) v

/-- The text from the data that a card quotes. -/
def quote : ParserCard → Option String
  | .text s => some s
  | .specName s => some s
  | .char c => some (String.singleton c)
  | .sequenceU8 _ t _ => t
  | _ => none

/-- One of the cards quotes the text. -/
def Quotes (cards : List ExtendedCard) (s : String) : Prop := ∃ c ∈ cards, quote c.parserCard = some s

/-- The arguments of the call and the extensions. -/
def argsAndExtensions (c : Call) (extensions : List ED) : List Value := (fdsValue c.fields).map (·.2) ++ extensions.map edValue

end Verif.Spec
