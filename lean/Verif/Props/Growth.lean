import Verif.Proof.Growth
import Verif.Props.Errors
import Verif.Props.Position
/-!
# C68: broken data are told apart from incomplete data

`b` is the beginning of `b'`. Only errors that blame the end of the data
(`Spec.AtEnd`) can go away when more data come.
-/
namespace Verif
open Spec

variable {R : Registry} {b b' : Buf}

/-- From a position in the data, no later position is past their end. -/
theorem decode_never_outOfRange {id pos q n : Nat} (hpos : pos ≤ b.bytes.length) :
    decodeAsTypeAtPosition R b id pos ≠ .error (.err (.buffer (.outOfRange q n))) := by
  intro h
  obtain ⟨stop, hs⟩ := ((position_outcome R b id pos).2 _).2 h
  have hf := position_forward R b id pos
  rw [hs] at hf
  have h1 := hf.2 hpos
  have ht := decode_errors_true h
  have hl := position_after_error hs
  cases hl with
  | outOfRange => cases ht with
    | outOfRange _ h3 => dsimp only at h1; omega

/-- What happens when more data come. -/
theorem grown_cases (hr : Reliable b) (hr' : Reliable b') {more : Bytes} (hb : b'.bytes = b.bytes ++ more)
    {id pos : Nat} (hpos : pos ≤ b.bytes.length) :
    decodeAsTypeAtPosition R b id pos = decodeAsTypeAtPosition R b' id pos ∨
    ∃ e, decodeAsTypeAtPosition R b id pos = .error (.err e) ∧ AtEnd b.bytes e ∧ AsksUpTo b.bytes b'.bytes.length e := by
  rcases decode_grown (R := R) ⟨hr, hr', more, hb⟩ (.symbol id) pos Propagated.new with
    h | ⟨q, n, h, h1, h2, h3⟩ | ⟨q, v, x, h, h1, h2, h3, h4, h5⟩ | ⟨q, n, h, h1⟩
  · exact .inl h
  · exact .inr ⟨_, h, .tooShort h1 h2, .tooShort h2 h3⟩
  · exact .inr ⟨_, h, .compact h1 h2 h3 h4, .compact h3 h4 h5⟩
  · exact absurd h (decode_never_outOfRange hpos)

/-- **C68.** An error that does not blame the end of the data is final: whatever more data
come, the error stays the same. -/
theorem error_final (hr : Reliable b) (hr' : Reliable b') {more : Bytes} (hb : b'.bytes = b.bytes ++ more)
    {id pos : Nat} (hpos : pos ≤ b.bytes.length) {e : PErr}
    (h : decodeAsTypeAtPosition R b id pos = .error (.err e)) (he : ¬ AtEnd b.bytes e) :
    decodeAsTypeAtPosition R b' id pos = .error (.err e) := by
  rcases grown_cases (R := R) hr hr' hb (id := id) hpos with h' | ⟨e', h', hat, _⟩
  · rw [← h', h]
  · rw [h] at h'; cases h'; exact absurd hat he

/-- **C68.** `DataTooShort` tells how many bytes are needed at least: with fewer, the error
stays the same. -/
theorem error_tooShort (hr : Reliable b) (hr' : Reliable b') {more : Bytes} (hb : b'.bytes = b.bytes ++ more)
    {id pos : Nat} (hpos : pos ≤ b.bytes.length) {p n : Nat}
    (h : decodeAsTypeAtPosition R b id pos = .error (.err (.buffer (.dataTooShort p n))))
    (hn : b'.bytes.length < p + n) :
    decodeAsTypeAtPosition R b' id pos = .error (.err (.buffer (.dataTooShort p n))) := by
  rcases grown_cases (R := R) hr hr' hb (id := id) hpos with h' | ⟨e', h', _, hup⟩
  · rw [← h', h]
  · rw [h] at h'; cases h'
    cases hup with
    | tooShort _ h2 => omega

/-- **C68.** The beginning of good data is never reported as broken: if the data decode up
to the position `q`, every shorter beginning of them gives an error that blames the end,
and asks for bytes before `q` only. -/
theorem error_of_beginning (hr : Reliable b) {more : Bytes} (hb : b'.bytes = b.bytes ++ more)
    {id pos q : Nat} (hpos : pos ≤ b.bytes.length) {d : ED}
    (h : decodeAsTypeAtPosition R b' id pos = .ok (d, q)) (hq : b.bytes.length < q) :
    ∃ e, decodeAsTypeAtPosition R b id pos = .error (.err e) ∧ AtEnd b.bytes e ∧ AsksUpTo b.bytes q e := by
  have hp := decode_position h
  have hq' : q ≤ b'.bytes.length := hp.2.1 (by simp only [Buf.len, hb, List.length_append]; omega)
  have hlen : (b'.bytes.take q).length = q := by simp only [List.length_take]; omega
  -- the data up to `q` are enough
  have hcut : decodeAsTypeAtPosition R (Buf.ofBytes (b'.bytes.take q)) id pos = .ok (d, q) := by
    have hat : At (Buf.ofBytes (b'.bytes.take q)).bytes pos (between b' pos q) := by
      refine ⟨b'.bytes.take pos, [], ?_, ?_⟩
      · show b'.bytes.take q = _
        rw [List.append_nil]
        unfold between
        rw [show q = pos + (q - pos) by omega, List.take_add, show pos + (q - pos) - pos = q - pos by omega]
      · simp only [List.length_take]; omega
    have := decode_local (R := R) (reliable_ofBytes _) h hat
    rwa [show pos + (q - pos) = q by omega] at this
  have hpre : (Buf.ofBytes (b'.bytes.take q)).bytes = b.bytes ++ more.take (q - b.bytes.length) := by
    show b'.bytes.take q = _
    rw [hb, List.take_append, List.take_of_length_le (by omega)]
  rcases grown_cases (R := R) hr (reliable_ofBytes _) hpre (id := id) hpos with h' | ⟨e, h', hat, hup⟩
  · exfalso
    rw [hcut] at h'
    have := (decode_position h').2.1 hpos
    unfold Buf.len at this
    omega
  · refine ⟨e, h', hat, ?_⟩
    have : (Buf.ofBytes (b'.bytes.take q)).bytes.length = q := hlen
    rwa [this] at hup

/-- **C68.** An error that asks for bytes is no longer given once they are there, or it asks
for later ones: when the data reach up to what was asked for, the same error does not come
again. -/
theorem error_answered (hr' : Reliable b') {more : Bytes} (hb : b'.bytes = b.bytes ++ more)
    {id pos : Nat} {p n : Nat} (hn : p + n ≤ b'.bytes.length) :
    decodeAsTypeAtPosition R b' id pos ≠ .error (.err (.buffer (.dataTooShort p n))) := by
  intro h
  have := decode_errors_true h
  cases this with
  | tooShort _ _ h3 => omega

/-- **C68** for `decode_all_as_type`: an error that does not blame the end of the data stays
the same when more data come. -/
theorem all_error_final (hr : Reliable b) (hr' : Reliable b') {more : Bytes} (hb : b'.bytes = b.bytes ++ more)
    {id : Nat} {e : PErr} (h : decodeAllAsType R b id = .error (.err e)) (he : ¬ AtEnd b.bytes e) :
    decodeAllAsType R b' id = .error (.err e) := by
  have hlen : b.len ≤ b'.len := by simp [Buf.len, hb]
  rcases grown_cases (R := R) hr hr' hb (id := id) (Nat.zero_le _) with h' | ⟨e', h', hat, _⟩
  · unfold decodeAllAsType at h ⊢
    rw [← h']
    cases hd : decodeAsTypeAtPosition R b id 0 with
    | error f => first | exact h | (rw [hd] at h; exact h)
    | ok x =>
      obtain ⟨d, q⟩ := x
      rw [hd] at h
      rw [ok_bind] at h ⊢
      dsimp only at h ⊢
      have hq := (decode_position hd).2.1 (Nat.zero_le _)
      split at h
      · rename_i hne
        rw [if_pos (by omega), h]
      · cases h
  · unfold decodeAllAsType at h
    rw [h', error_bind] at h
    cases h; exact absurd hat he

variable {ME : Type} {M : Metadata ME}

/-- **C68** for `decode_as_call_unmarked`. -/
theorem call_error_final (hr : Reliable b) (hr' : Reliable b') {more : Bytes} (hb : b'.bytes = b.bytes ++ more)
    {pos : Nat} (hpos : pos ≤ b.bytes.length) {e : SErr ME}
    (h : decodeAsCallUnmarked M b pos = .error (.err e)) (he : ∀ e', e = .parsing e' → ¬ AtEnd b.bytes e') :
    decodeAsCallUnmarked M b' pos = .error (.err e) := by
  unfold decodeAsCallUnmarked at h ⊢
  cases hc : mapOut SErr.metaStructure M.callTy with
  | error f => rw [hc, eerror_bind] at h; rw [eerror_bind]; exact h
  | ok id =>
    rw [hc, eok_bind] at h
    rw [eok_bind]
    have hg := grown_cases (R := M.types) hr hr' hb (id := id) hpos
    unfold decodeAsTypeAtPosition at hg
    generalize decode M.types b (.symbol id) pos Propagated.new = r at h hg
    generalize decode M.types b' (.symbol id) pos Propagated.new = r' at hg ⊢
    rcases hg with h' | ⟨e', h', hat, _⟩
    · rw [← h']; exact h
    · subst h'
      cases h
      exact absurd hat (he e' rfl)

/-! ### Examples -/

example : decodeAsTypeAtPosition errReg (Buf.ofBytes [9, 7]) 0 1 = .error (.err (.typeFailure 1 "bool")) ∧
    ¬ AtEnd (Buf.ofBytes [9, 7]).bytes (.typeFailure 1 "bool") := ⟨rfl, by intro h; cases h⟩

/-- A broken compact is final. -/
example : ¬ AtEnd [3, 1, 1, 1, 0] (.noCompact 0) := by
  intro h
  cases h with
  | compact _ hv hm h =>
    rename_i v more _
    have hd := compactDecode_complete (w := .u128) [] (v := v) hv
    rw [List.append_nil, h] at hd
    simp [compactDecode, UW.bytes, leNat] at hd

/-- The first byte of a two-byte compact, alone, is not. -/
example : decodeAsTypeAtPosition Example.reg (Buf.ofBytes [5, 1]) 4 0 = .error (.err (.noCompact 1)) ∧
    AtEnd [5, 1] (.noCompact 1) ∧
    ∃ d, decodeAsTypeAtPosition Example.reg (Buf.ofBytes ([5, 1] ++ [1, 4, 7])) 4 0 = .ok (d, 5) :=
  ⟨rfl, .compact (v := 64) (more := [1]) (by decide) (by decide) (by simp) rfl, _, rfl⟩

example : decodeAsTypeAtPosition Example.reg (Buf.ofBytes [1, 2, 3]) 1 0 = .error (.err (.buffer (.dataTooShort 0 4))) ∧
    AtEnd [1, 2, 3] (.buffer (.dataTooShort 0 4)) ∧ AsksUpTo [1, 2, 3] 4 (.buffer (.dataTooShort 0 4)) :=
  ⟨rfl, .tooShort (by decide) (by decide), .tooShort (by decide) (by decide)⟩

end Verif
