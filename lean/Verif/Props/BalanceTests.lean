import Verif.Model.Balance
/-! The 42 unit tests of `src/printing_balance.rs:366-665` replayed on the model (they check
the model against the program's own expectations; the theorems are in `Verif.Props.Balance`). -/
namespace Verif

example : convertBalancePretty 0 0 "X" = some ⟨"0", "X"⟩ := by decide
example : convertBalancePretty 0 1 "X" = some ⟨"0.0", "X"⟩ := by decide
example : convertBalancePretty 0 2 "X" = some ⟨"0.00", "X"⟩ := by decide
example : convertBalancePretty 0 3 "X" = some ⟨"0", "mX"⟩ := by decide
example : convertBalancePretty 0 4 "X" = some ⟨"0.0", "mX"⟩ := by decide
example : convertBalancePretty 0 20 "X" = some ⟨"0.00", "aX"⟩ := by decide
example : convertBalancePretty 0 24 "X" = some ⟨"0.000000", "aX"⟩ := by decide
example : convertBalancePretty 0xffffffffffffffffffffffffffffffff 0 "X" = some ⟨"340282366920938463463374607.431768211455", "TX"⟩ := by decide
example : convertBalancePretty 1 0 "X" = some ⟨"1", "X"⟩ := by decide
example : convertBalancePretty 1 1 "X" = some ⟨"100", "mX"⟩ := by decide
example : convertBalancePretty 1 2 "X" = some ⟨"10", "mX"⟩ := by decide
example : convertBalancePretty 1 3 "X" = some ⟨"1", "mX"⟩ := by decide
example : convertBalancePretty 1 4 "X" = some ⟨"100", "uX"⟩ := by decide
example : convertBalancePretty 12 0 "X" = some ⟨"12", "X"⟩ := by decide
example : convertBalancePretty 12 1 "X" = some ⟨"1.2", "X"⟩ := by decide
example : convertBalancePretty 12 2 "X" = some ⟨"120", "mX"⟩ := by decide
example : convertBalancePretty 12 3 "X" = some ⟨"12", "mX"⟩ := by decide
example : convertBalancePretty 12 4 "X" = some ⟨"1.2", "mX"⟩ := by decide
example : convertBalancePretty 123 0 "X" = some ⟨"123", "X"⟩ := by decide
example : convertBalancePretty 123 1 "X" = some ⟨"12.3", "X"⟩ := by decide
example : convertBalancePretty 123 2 "X" = some ⟨"1.23", "X"⟩ := by decide
example : convertBalancePretty 123 3 "X" = some ⟨"123", "mX"⟩ := by decide
example : convertBalancePretty 123 4 "X" = some ⟨"12.3", "mX"⟩ := by decide
example : convertBalancePretty 1 40 "X" = some ⟨"0.0000000000000000000001", "aX"⟩ := by decide
example : convertBalancePretty 12345 21 "X" = some ⟨"12.345", "aX"⟩ := by decide
example : convertBalancePretty 12345 18 "X" = some ⟨"12.345", "fX"⟩ := by decide
example : convertBalancePretty 12345 15 "X" = some ⟨"12.345", "pX"⟩ := by decide
example : convertBalancePretty 12345 12 "X" = some ⟨"12.345", "nX"⟩ := by decide
example : convertBalancePretty 12345 10 "X" = some ⟨"1.2345", "uX"⟩ := by decide
example : convertBalancePretty 12345 9 "X" = some ⟨"12.345", "uX"⟩ := by decide
example : convertBalancePretty 12345 6 "X" = some ⟨"12.345", "mX"⟩ := by decide
example : convertBalancePretty 12345 3 "X" = some ⟨"12.345", "X"⟩ := by decide
example : convertBalancePretty 12345 0 "X" = some ⟨"12.345", "kX"⟩ := by decide
example : convertBalancePretty 123450000 0 "X" = some ⟨"123.450000", "MX"⟩ := by decide
example : convertBalancePretty 1234500000 0 "X" = some ⟨"1.234500000", "GX"⟩ := by decide
example : convertBalancePretty 1234500000000 0 "X" = some ⟨"1.234500000000", "TX"⟩ := by decide
example : convertBalancePretty 10000000000000001 0 "X" = some ⟨"10000.000000000001", "TX"⟩ := by decide
example : convertBalancePretty 1234 24 "X" = some ⟨"0.001234", "aX"⟩ := by decide
example : convertBalancePretty 0xffffffffffffffffffffffffffffffff 15 "X" = some ⟨"340282366920.938463463374607431768211455", "TX"⟩ := by decide
example : convertBalancePretty 0xffffffffffffffffffffffffffffffff 18 "X" = some ⟨"340282366.920938463463374607431768211455", "TX"⟩ := by decide
example : convertBalancePretty 0xffffffffffffffffffffffffffffffff 9 "X" = some ⟨"340282366920938463.463374607431768211455", "TX"⟩ := by decide
example : convertBalancePretty 0xffffffffffffffffffffffffffffffff 27 "X" = some ⟨"340.282366920938463463374607431768211455", "GX"⟩ := by decide

end Verif
