import Verif.Model.Metadata
import Verif.Proof.Fix
/-! Outcomes of functions with other errors than `ParserError`. -/
namespace Verif
open Spec

theorem ebind_ok {ε α β : Type} {x : Except ε α} {f : α → Except ε β} {c : β} :
    (x >>= f) = .ok c ↔ ∃ a, x = .ok a ∧ f a = .ok c := by
  cases x with
  | error e => simp [bind, Except.bind]
  | ok a => simp [bind, Except.bind]

theorem eok_bind {ε α β : Type} (a : α) (f : α → Except ε β) : ((.ok a : Except ε α) >>= f) = f a := rfl
theorem eerror_bind {ε α β : Type} (e : ε) (f : α → Except ε β) :
    ((.error e : Except ε α) >>= f) = .error e := rfl

theorem mapErr_ok {ε α : Type} {f : PErr → ε} {r : Res α} {a : α} : r.mapErr f = .ok a ↔ r = .ok a := by
  unfold Res.mapErr
  split <;> simp

theorem mapOut_ok {ε ε' α : Type} {f : ε → ε'} {r : Except (Out ε) α} {a : α} :
    mapOut f r = .ok a ↔ r = .ok a := by
  unfold mapOut
  split <;> simp

/-- The outcome is a value or an error: no panic, no exhausted recursion bound. -/
def Calm {ε α : Type} (r : Except (Out ε) α) : Prop := (∃ a, r = .ok a) ∨ (∃ e, r = .error (.err e))

theorem Calm.ok {ε α : Type} (a : α) : Calm (.ok a : Except (Out ε) α) := .inl ⟨a, rfl⟩
theorem Calm.err {ε α : Type} (e : ε) : Calm (.error (.err e) : Except (Out ε) α) := .inr ⟨e, rfl⟩

theorem Calm.bind {ε α β : Type} {x : Except (Out ε) α} {f : α → Except (Out ε) β} (hx : Calm x)
    (hf : ∀ a, x = .ok a → Calm (f a)) : Calm (x >>= f) := by
  rcases hx with ⟨a, rfl⟩ | ⟨e, rfl⟩
  · exact hf a rfl
  · exact .err e

theorem Fine.mapErr {ε α : Type} {r : Res α} (h : Fine r) (f : PErr → ε) : Calm (r.mapErr f) := by
  rcases h.cases with ⟨a, rfl⟩ | ⟨e, rfl⟩
  · exact .ok a
  · exact .err _

theorem Calm.mapOut {ε ε' α : Type} {r : Except (Out ε) α} (h : Calm r) (f : ε → ε') :
    Calm (mapOut f r) := by
  rcases h with ⟨a, rfl⟩ | ⟨e, rfl⟩
  · exact .ok a
  · exact .err _

end Verif
