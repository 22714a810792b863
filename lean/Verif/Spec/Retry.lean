import Verif.Spec.Device
import Verif.Model.DeviceTx
/-!
# Repeating a call after a failure (specification)
-/
namespace Verif.Spec

/-- `bad` counts what goes wrong in the memory that should hold `data` and the types of `R`: it never
goes down, and an access that leaves it as it was is answered truly. (Failures need not be counted one by
one; and a false answer may be counted, too.) -/
structure Counts {σ : Type} (D : Device σ) (R : Registry) (data : Bytes) (bad : σ → Int) : Prop where
  len : D.len = data.length
  size : D.size = R.size
  word : Fits D.word D.len
  read : ∀ pos n s, bad s ≤ bad (D.read pos n s).2 ∧
    (bad (D.read pos n s).2 = bad s → (D.read pos n s).1 = (Buf.ofBytes data).readSlice pos n)
  resolve : ∀ id s, bad s ≤ bad (D.resolve id s).2 ∧
    (bad (D.resolve id s).2 = bad s → (D.resolve id s).1 = R.resolve id)

/-- Memory in state `s` has at most `left s` failures before it: each failure uses one up. -/
def Tires {σ : Type} (D : Device σ) (R : Registry) (data : Bytes) (left : σ → Nat) : Prop :=
  Counts D R data (fun s => -(left s : Int))

/-- Any memory, with a count of its failures beside its own state. -/
def watching {σ : Type} (D : Device σ) : Device (σ × Nat) where
  word := D.word
  len := D.len
  size := D.size
  read pos n s :=
    ((D.read pos n s.1).1, (D.read pos n s.1).2,
      match (D.read pos n s.1).1 with
      | .error (.err (.buffer .external)) => s.2 + 1
      | _ => s.2)
  resolve id s :=
    ((D.resolve id s.1).1, (D.resolve id s.1).2,
      match (D.resolve id s.1).1 with
      | .error .external => s.2 + 1
      | _ => s.2)

/-- Memory that fails at accesses of the given numbers, of which there are finitely many: state is the
number of accesses so far. -/
def failuresFrom (fails : List Nat) (k : Nat) : Nat := (fails.filter (k ≤ ·)).length

/-- A caller that repeats a call, with the same arguments, until it is content with the outcome, but at
most `n` times more. -/
def attempts {σ ρ : Type} (content : ρ → Bool) (call : σ → ρ × σ) : Nat → σ → ρ × σ
  | 0, s => call s
  | n + 1, s => if content (call s).1 then call s else attempts content call n (call s).2

/-- A caller that passes the same `&mut position` again, as the failed call left it. -/
def carryOn {σ α : Type} (call : Nat → σ → (Res α × Nat) × σ) : Nat → Nat → σ → (Res α × Nat) × σ
  | 0, pos, s => call pos s
  | n + 1, pos, s =>
    match call pos s with
    | ((.ok a, q), s') => ((.ok a, q), s')
    | ((.error _, q), s') => carryOn call n q s'

/-- Content with a result for which `good` holds. Errors of the crate are a reason to try again; after a
panic there is nobody to do so. -/
def unlessError {ε α : Type} (good : α → Bool) : Except (Out ε) α → Bool
  | .ok a => good a
  | .error (.err _) => false
  | .error _ => true

/-- Content with every outcome but an error of the memory. -/
def unlessMemoryError {α : Type} : Res α → Bool
  | .error (.err (.buffer .external)) => false
  | .error (.err (.registry .external)) => false
  | _ => true

/-- Content with a result, for calls that report parser errors. -/
def unlessFailed {α : Type} : Res α → Bool
  | .ok _ => true
  | .error (.err _) => false
  | .error _ => true

/-- A transaction with a call in it. -/
def hasCall {ME : Type} (t : TransactionParsed ME) : Bool :=
  match t.callResult with
  | .ok _ => true
  | .error _ => false

end Verif.Spec
