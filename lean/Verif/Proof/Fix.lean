import Verif.Proof.Fuel
/-!
The decoder is a fixpoint of one call, and follows the buffer-free relation `Run`.
-/
namespace Verif
open Spec

variable {R : Registry} {b : Buf}

theorem decodeF_le_decode (n : Nat) : RecLe (decodeF R b n) (decode R b) := by
  intro tyIn pos p
  have hm := measure_le (R := R) (b := b) pos p.checker
  rcases decodeF_le (R := R) (b := b) n (depthBound R b pos) tyIn pos p with h | h
  · exact .inl h
  · exact .inr (h.trans (decodeF_eq_decode _ tyIn pos p (by omega)))

/-- `decode_with_type` is what one call makes of its recursive calls. -/
theorem decode_fix (tyIn : TyIn) (pos : Nat) (p : Propagated) :
    decode R b tyIn pos p = decodeStep R b (decode R b) tyIn pos p := by
  have hm := measure_le (R := R) (b := b) pos p.checker
  have h1 : decodeF R b (depthBound R b pos + 1) tyIn pos p = decode R b tyIn pos p :=
    decodeF_eq_decode _ tyIn pos p (by omega)
  rw [← h1]
  show decodeStep R b (decodeF R b (depthBound R b pos)) tyIn pos p = _
  rcases decodeStep_le (R := R) (b := b) (decodeF_le_decode (depthBound R b pos)) tyIn pos p with h | h
  · exfalso
    have : decodeF R b (depthBound R b pos + 1) tyIn pos p = .error .fuel := h
    rw [h1] at this
    obtain ⟨e, he⟩ := decode_fine (R := R) (b := b) tyIn pos p _ this
    cases he
  · exact h

/-- The bytes are decoded into the data, by some number of nested calls. -/
def Run (R : Registry) : Rel := fun tyIn p d bs => ∃ n, RunN R n tyIn p d bs

theorem decode_parses (R : Registry) (b : Buf) : RecParses b (decode R b) (Run R) := by
  intro tyIn p
  constructor
  · intro pos d pos' h
    obtain ⟨bs, h1, h2, h3⟩ := (decodeF_parses R b (depthBound R b pos) tyIn p).sound h
    exact ⟨bs, h1, h2, _, h3⟩
  · rintro hr pos d bs ⟨n, hn⟩ hat
    exact decodeF_ok_decode ((decodeF_parses R b n tyIn p).complete hr hn hat)

theorem reliable_ofBytes (bs : Bytes) : Reliable (Buf.ofBytes bs) := fun _ _ => rfl

theorem at_self (bs : Bytes) : At bs 0 bs := ⟨[], [], by simp, rfl⟩

/-- Two relations followed by the same function are equal. -/
theorem parses_unique {α : Type} {f : Bytes → Nat → Res (α × Nat)} {Q Q' : α → Bytes → Prop}
    (h : ∀ bs, Parses (Buf.ofBytes bs) (f bs) Q) (h' : ∀ bs, Parses (Buf.ofBytes bs) (f bs) Q')
    (a : α) (bs : Bytes) : Q a bs → Q' a bs := by
  intro hq
  have h1 := (h bs).complete (reliable_ofBytes bs) (pos := 0) hq (at_self bs)
  obtain ⟨bs', h2, h3, h4⟩ := (h' bs).sound h1
  have h5 : At bs 0 bs' := h2.at (Nat.zero_le _)
  have : bs = bs' := (at_self bs).unique h5 (by omega)
  exact this ▸ h4

/-- `Run` is a fixpoint. -/
theorem run_iff {tyIn : TyIn} {p : Propagated} {d : ED} {bs : Bytes} :
    Run R tyIn p d bs ↔ StepRel R (Run R) tyIn p d bs := by
  have h1 : ∀ bs, Parses (Buf.ofBytes bs) (fun pos => decode R (Buf.ofBytes bs) tyIn pos p)
      (Run R tyIn p) := fun bs => decode_parses R _ tyIn p
  have h2 : ∀ bs, Parses (Buf.ofBytes bs) (fun pos => decode R (Buf.ofBytes bs) tyIn pos p)
      (StepRel R (Run R) tyIn p) := fun bs =>
    (decodeStep_parses (R := R) (decode_parses R _) tyIn p).funCongr (fun pos => decode_fix tyIn pos p)
  exact ⟨parses_unique h1 h2 d bs, parses_unique h2 h1 d bs⟩

end Verif
