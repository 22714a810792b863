import Verif.Spec.Sizes
/-!
# Sizes of the basic types are the documented ones
-/
namespace Verif
open Spec

/-- C16. The sizes and limits used everywhere are the documented ones. -/
theorem sizes_documented :
    (∀ k n, (k, n) ∈ fixedSizes ↔ n = k.len) ∧
    (∀ w n, (w, n) ∈ uintBits ↔ n = 8 * w.bytes) ∧
    (∀ w n, (w, n) ∈ intBits ↔ n = 8 * w.bytes) ∧
    (∀ s n, (s, n) ∈ storeBits ↔ n = 8 * s.bytes) ∧
    (∀ k n w, (k, n, w) ∈ perThings ↔ n = k.accuracy ∧ w = k.inner) := by
  refine ⟨?_, ?_, ?_, ?_, ?_⟩
  · intro k n; cases k <;> simp [fixedSizes, FixedKind.len]
  · intro w n; cases w <;> simp [uintBits, UW.bytes]
  · intro w n; cases w <;> simp [intBits, IW.bytes]
  · intro s n; cases s <;> simp [storeBits, BitStore.bytes]
  · intro k n w; cases k <;> simp [perThings, PerKind.accuracy, PerKind.inner]

end Verif
