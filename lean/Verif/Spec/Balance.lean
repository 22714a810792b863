/-!
# Decimal numbers with metric prefixes
-/
namespace Verif.Spec

/-- Metric prefixes and the factor `num / den` they stand for. -/
def metricPrefixes : List (String × Nat × Nat) :=
  [("T", 10 ^ 12, 1), ("G", 10 ^ 9, 1), ("M", 10 ^ 6, 1), ("k", 10 ^ 3, 1), ("", 1, 1),
   ("m", 1, 10 ^ 3), ("u", 1, 10 ^ 6), ("n", 1, 10 ^ 9), ("p", 1, 10 ^ 12), ("f", 1, 10 ^ 15),
   ("a", 1, 10 ^ 18)]

/-- `s` is a plain decimal number: digits `whole`, and if there are `fraction` digits a
point and the fraction. -/
def Decimal (s : String) (whole fraction : List Char) : Prop :=
  whole ≠ [] ∧ (∀ c ∈ whole ++ fraction, c.isDigit = true) ∧
  s.toList = if fraction = [] then whole else whole ++ '.' :: fraction

/-- The digits as one integer: `whole.fraction` is `mantissa / 10 ^ fraction.length`. -/
def mantissa (whole fraction : List Char) : Nat := Nat.ofDigitChars 10 (whole ++ fraction) 0

end Verif.Spec
