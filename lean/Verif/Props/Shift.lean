import Verif.Proof.Shift
import Verif.Props.Extensions
import Verif.Props.Example
import Verif.Props.Errors
/-!
# C70: only what follows the position matters, errors included

C06 tells this for data that decode. Here for every outcome: what stands before the position
changes neither the value nor the error, only the positions told are moved.
-/
namespace Verif
open Spec

variable {R : Registry} {b tail : Buf} {k : Nat}

/-- **C70.** The same data `k` bytes further on: the same outcome, moved by `k`. Also where the
memory fails, if it fails for the same bytes. -/
theorem decode_shift (hb : Behind k tail b) (id pos : Nat) :
    decodeAsTypeAtPosition R b id (pos + k) = shiftRes k (decodeAsTypeAtPosition R tail id pos) := by
  rw [← carry_later]
  exact decode_carried hb (.symbol id) pos Propagated.new

/-- The data from a position on. -/
theorem behind_drop (hr : Reliable b) {pos : Nat} (hpos : pos ≤ b.bytes.length) :
    Behind pos (Buf.ofBytes (b.bytes.drop pos)) b where
  data := ⟨b.bytes.take pos, by simp only [List.length_take]; omega, (List.take_append_drop pos b.bytes).symm⟩
  fault := fun p n => hr _ _

/-- **C70.** The outcome at a position is the outcome of the data from there on, standing alone. -/
theorem decode_from (hr : Reliable b) {pos : Nat} (hpos : pos ≤ b.bytes.length) (id : Nat) :
    decodeAsTypeAtPosition R b id pos =
      shiftRes pos (decodeAsTypeAtPosition R (Buf.ofBytes (b.bytes.drop pos)) id 0) := by
  have := decode_shift (R := R) (behind_drop hr hpos) id 0
  rwa [Nat.zero_add] at this

/-- **C70.** Bytes before the position do not matter. -/
theorem decode_before (pre pre' data : Bytes) (h : pre.length = pre'.length) (id : Nat) :
    decodeAsTypeAtPosition R (Buf.ofBytes (pre ++ data)) id pre.length =
      decodeAsTypeAtPosition R (Buf.ofBytes (pre' ++ data)) id pre'.length := by
  have key : ∀ x : Bytes, decodeAsTypeAtPosition R (Buf.ofBytes (x ++ data)) id x.length =
      shiftRes x.length (decodeAsTypeAtPosition R (Buf.ofBytes data) id 0) := by
    intro x
    have := decode_from (R := R) (b := Buf.ofBytes (x ++ data)) (reliable_ofBytes _) (pos := x.length)
      (by simp [Buf.ofBytes]) id
    rwa [show (Buf.ofBytes (x ++ data)).bytes.drop x.length = data from List.drop_left] at this
  rw [key, key, h]

/-! ### Transactions -/

variable {ME : Type} {M : Metadata ME}

theorem mapErr_shift {α : Type} (r : Res (α × Nat)) :
    (shiftRes k r).mapErr (SErr.parsing (ME := ME)) = shiftOut k (later k) (r.mapErr .parsing) := by
  cases r with
  | ok a => rfl
  | error e => cases e <;> rfl

theorem shiftOut_bind {α β : Type} {g : α → α} {h : β → β} {x x' : SRes ME α} {f f' : α → SRes ME β}
    (hx : x' = shiftOut k g x) (hf : ∀ a, f' (g a) = shiftOut k h (f a)) :
    (x' >>= f') = shiftOut k h (x >>= f) := by
  subst hx
  cases x with
  | ok a => exact hf a
  | error e => cases e <;> rfl

/-- Errors about metadata have no positions. -/
theorem metaStructure_shift {α : Type} (x : Except (Out ME) α) :
    mapOut SErr.metaStructure x = shiftOut k id (mapOut SErr.metaStructure x) := by
  cases x with
  | ok a => rfl
  | error e => cases e <;> rfl

/-- **C70** for `decode_as_call_unmarked`. -/
theorem call_shift (hb : Behind k tail b) (pos : Nat) :
    decodeAsCallUnmarked M b (pos + k) = shiftOut k (later k) (decodeAsCallUnmarked M tail pos) := by
  unfold decodeAsCallUnmarked
  refine shiftOut_bind (metaStructure_shift _) fun id => ?_
  refine shiftOut_bind (g := later k) ?_ fun x => ?_
  · rw [← mapErr_shift]
    exact congrArg _ (decode_shift hb id pos)
  · obtain ⟨d, q⟩ := x
    simp only [later]
    cases d.data.asCall <;> rfl

theorem extensionsLoop_shift (hb : Behind k tail b) (sel : SignedExt → Nat) (es : List SignedExt) (pos : Nat) :
    extensionsLoop (ME := ME) R b sel es (pos + k) = shiftOut k (later k) (extensionsLoop R tail sel es pos) := by
  induction es generalizing pos with
  | nil => rfl
  | cons e es ih =>
    unfold extensionsLoop
    refine shiftOut_bind (g := later k) ?_ fun x => ?_
    · rw [← mapErr_shift, ← carry_later]
      exact congrArg _ (decode_carried hb _ pos _)
    · obtain ⟨d, q⟩ := x
      exact shiftOut_bind (ih q) fun x => rfl

theorem checkExtensions_shift (exts : List ED) (version : String) (g : Option Bytes) :
    checkExtensions (ME := ME) exts version g = shiftOut k id (checkExtensions exts version g) := by
  unfold checkExtensions
  split
  · unfold checkCollected checkImmortal
    repeat' split
    all_goals rfl
  · rfl

/-- **C70** for `decode_extensions_unmarked`. -/
theorem extensions_shift (hb : Behind k tail b) (pos : Nat) (g : Option Bytes) :
    decodeExtensionsUnmarked M b (pos + k) g = shiftOut k id (decodeExtensionsUnmarked M tail pos g) := by
  unfold decodeExtensionsUnmarked
  refine shiftOut_bind (metaStructure_shift _) fun signed => ?_
  refine shiftOut_bind (extensionsLoop_shift hb _ _ _) fun x => ?_
  obtain ⟨first, q⟩ := x
  refine shiftOut_bind (extensionsLoop_shift hb _ _ _) fun x => ?_
  obtain ⟨second, q⟩ := x
  have hl := Behind_len hb
  show (if q + k ≠ b.len then _ else _) = shiftOut k id (if q ≠ tail.len then _ else _)
  by_cases hq : q ≠ tail.len
  · rw [if_pos hq, if_pos (by omega)]; rfl
  · rw [if_neg hq, if_neg (by omega)]
    refine shiftOut_bind (metaStructure_shift _) fun spec => ?_
    exact shiftOut_bind (checkExtensions_shift _ _ _) fun _ => rfl

/-- Outcome of the bytes of a call, standing alone: they must be used up. -/
def callAlone (M : Metadata ME) (call : Bytes) : SRes ME Call :=
  match decodeAsCallUnmarked M (Buf.ofBytes call) 0 with
  | .ok (c, q) => if q = call.length then .ok c else .error (.err (.someDataNotUsedCall q call.length))
  | .error e => .error e

theorem decodeAsCall_alone {call ext : Bytes} {start : Nat} {pre : Bytes} (hs : pre.length = start) (hr : Reliable b)
    (hb : b.bytes = pre ++ call ++ ext) :
    decodeAsCall M ⟨b, start, start + call.length⟩ = shiftOut start id (callAlone M call) := by
  unfold decodeAsCall Marked.dataNoExtensions Buf.limitLength callAlone
  dsimp only
  have hlen : ¬ b.len < start + call.length := by
    simp only [Buf.len, hb, List.length_append]; omega
  rw [if_neg hlen]
  dsimp only
  rw [eok_bind]
  have htake : b.bytes.take (start + call.length) = pre ++ call := by
    rw [hb, List.take_append_of_le_length (by simp only [List.length_append]; omega), List.take_of_length_le]
    simp only [List.length_append]; omega
  have hbeh : Behind start (Buf.ofBytes call) { b with bytes := b.bytes.take (start + call.length) } :=
    ⟨⟨pre, hs, htake⟩, fun p n => hr _ _⟩
  have := call_shift (M := M) hbeh 0
  rw [Nat.zero_add] at this
  rw [this]
  cases decodeAsCallUnmarked M (Buf.ofBytes call) 0 with
  | error e => cases e <;> rfl
  | ok x =>
    obtain ⟨c, q⟩ := x
    show (if q + start ≠ start + call.length then _ else _) = shiftOut start id (if q = call.length then _ else _)
    by_cases hq : q = call.length
    · rw [if_pos hq, if_neg (by omega)]; rfl
    · rw [if_neg hq, if_pos (by omega)]
      show Except.error _ = Except.error _
      simp only [shiftSErr]
      rw [Nat.add_comm start]
      rfl

theorem decodeExtensions_alone {call ext : Bytes} {start : Nat} {pre : Bytes} (hs : pre.length = start)
    (hr : Reliable b) (hb : b.bytes = pre ++ call ++ ext) (g : Option Bytes) :
    decodeExtensions M ⟨b, start, start + call.length⟩ g =
      shiftOut (start + call.length) id (decodeExtensionsUnmarked M (Buf.ofBytes ext) 0 g) := by
  unfold decodeExtensions
  dsimp only
  have hbeh : Behind (start + call.length) (Buf.ofBytes ext) b :=
    ⟨⟨pre ++ call, by simp only [List.length_append]; omega, hb⟩, fun p n => hr _ _⟩
  have := extensions_shift (M := M) hbeh 0 g
  rwa [Nat.zero_add] at this

/-- **C70** for `parse_transaction`: the outcome is put together from the outcomes of the
extensions, standing alone, and of the call, standing alone. -/
theorem parseTransaction_parts (hr : Reliable b) {call ext : Bytes} (hl : call.length < 2 ^ 32)
    (hb : b.bytes = compactEncode call.length ++ call ++ ext) (g : Option Bytes) :
    (∀ e, decodeExtensionsUnmarked M (Buf.ofBytes ext) 0 g = .error (.err e) →
      parseTransaction M b g =
        .error (.err (shiftSErr ((compactEncode call.length).length + call.length) e))) ∧
    (∀ exts, decodeExtensionsUnmarked M (Buf.ofBytes ext) 0 g = .ok exts →
      (∀ c, callAlone M call = .ok c → parseTransaction M b g = .ok ⟨.ok c, exts⟩) ∧
      (∀ e, callAlone M call = .error (.err e) →
        parseTransaction M b g = .ok ⟨.error (shiftSErr (compactEncode call.length).length e), exts⟩)) := by
  have hm := mark_complete (ME := ME) hr hl hb
  have hc := decodeAsCall_alone (M := M) rfl hr hb
  have he := decodeExtensions_alone (M := M) rfl hr hb g
  refine ⟨fun e h => ?_, fun exts h => ⟨fun c h' => ?_, fun e h' => ?_⟩⟩
  · rw [h] at he
    unfold parseTransaction
    rw [hm, eok_bind, he]; rfl
  · rw [h] at he; rw [h'] at hc
    unfold parseTransaction
    rw [hm, eok_bind, he]
    show (match decodeAsCall M _ with | .ok call => _ | .error (.err e) => _ | .error .panic => _ | .error .fuel => _) = _
    rw [hc]; rfl
  · rw [h] at he; rw [h'] at hc
    unfold parseTransaction
    rw [hm, eok_bind, he]
    show (match decodeAsCall M _ with | .ok call => _ | .error (.err e) => _ | .error .panic => _ | .error .fuel => _) = _
    rw [hc]; rfl

/-- **C70.** Whatever the call is, broken or not, the extensions are accepted or not, and shown the
same. -/
theorem transaction_any_call (hM : CalmMetadata M) {b' : Buf} (hr : Reliable b) (hr' : Reliable b')
    {call call' ext : Bytes} (hl : call.length < 2 ^ 32) (hl' : call'.length < 2 ^ 32)
    (hb : b.bytes = compactEncode call.length ++ call ++ ext)
    (hb' : b'.bytes = compactEncode call'.length ++ call' ++ ext) {g : Option Bytes} {r : TransactionParsed ME}
    (h : parseTransaction M b g = .ok r) :
    ∃ r', parseTransaction M b' g = .ok r' ∧ r'.extensions = r.extensions := by
  obtain ⟨m, h1, h2, _⟩ := parseTransaction_iff.1 h
  rw [mark_complete hr hl hb] at h1
  cases h1
  rw [decodeExtensions_alone rfl hr hb] at h2
  cases he : decodeExtensionsUnmarked M (Buf.ofBytes ext) 0 g with
  | error e => rw [he] at h2; cases e <;> cases h2
  | ok exts =>
    rw [he] at h2
    cases h2
    have he' := decodeExtensions_alone (M := M) rfl hr' hb' g
    rw [he] at he'
    rcases parseTransaction_calm hM b' g with ⟨r', hr''⟩ | ⟨e, hr''⟩
    · refine ⟨r', hr'', ?_⟩
      obtain ⟨m', k1, k2, _⟩ := parseTransaction_iff.1 hr''
      rw [mark_complete hr' hl' hb'] at k1
      cases k1
      rw [he'] at k2
      injection k2 with k2
      exact k2.symm
    · exfalso
      unfold parseTransaction at hr''
      rw [mark_complete hr' hl' hb', eok_bind, he'] at hr''
      change (match decodeAsCall M _ with | .ok call => _ | .error (.err e) => _ | .error .panic => _ | .error .fuel => _) = _ at hr''
      split at hr'' <;> cases hr''

/-- **C70.** Whatever accepted extensions follow, the call is shown the same, or the same error is
reported for it. -/
theorem transaction_any_extensions {b' : Buf} (hr : Reliable b) (hr' : Reliable b')
    {call ext ext' : Bytes} (hl : call.length < 2 ^ 32)
    (hb : b.bytes = compactEncode call.length ++ call ++ ext)
    (hb' : b'.bytes = compactEncode call.length ++ call ++ ext') {g : Option Bytes} {r r' : TransactionParsed ME}
    (h : parseTransaction M b g = .ok r) (h' : parseTransaction M b' g = .ok r') :
    r.callResult = r'.callResult := by
  obtain ⟨m, h1, _, h2⟩ := parseTransaction_iff.1 h
  obtain ⟨m', h1', _, h2'⟩ := parseTransaction_iff.1 h'
  rw [mark_complete hr hl hb] at h1
  rw [mark_complete hr' hl hb'] at h1'
  cases h1; cases h1'
  rw [decodeAsCall_alone rfl hr hb] at h2
  rw [decodeAsCall_alone rfl hr' hb'] at h2'
  rcases h2 with ⟨c, h2, h3⟩ | ⟨e, h2, h3⟩ <;> rcases h2' with ⟨c', h2', h3'⟩ | ⟨e', h2', h3'⟩ <;>
    first | (rw [h2] at h2'; cases h2'; rw [h3, h3']; done) | (rw [h2] at h2'; cases h2'; done)

/-- **C70** for `parse_transaction_unmarked`: after the call, the outcome is that of the rest,
standing alone. -/
theorem parseTransactionUnmarked_parts (hr : Reliable b) {c : Call} {q : Nat} {g : Option Bytes}
    (h : decodeAsCallUnmarked M b 0 = .ok (c, q)) (hq : q ≤ b.bytes.length) :
    (∀ exts, decodeExtensionsUnmarked M (Buf.ofBytes (b.bytes.drop q)) 0 g = .ok exts →
      parseTransactionUnmarked M b g = .ok ⟨c, exts⟩) ∧
    (∀ e, decodeExtensionsUnmarked M (Buf.ofBytes (b.bytes.drop q)) 0 g = .error (.err e) →
      parseTransactionUnmarked M b g = .error (.err (shiftSErr q e))) := by
  have he := extensions_shift (M := M) (behind_drop hr hq) 0 g
  rw [Nat.zero_add] at he
  unfold parseTransactionUnmarked
  rw [h, eok_bind]
  refine ⟨fun exts h' => ?_, fun e h' => ?_⟩
  · rw [h'] at he
    dsimp only
    rw [he]; rfl
  · rw [h'] at he
    dsimp only
    rw [he]; rfl

/-! ### Examples -/

example : Behind 2 (Buf.ofBytes [7]) (Buf.ofBytes [9, 9, 7]) := ⟨⟨[9, 9], rfl, rfl⟩, fun _ _ => rfl⟩

/-- An error, two bytes further on. -/
example : decodeAsTypeAtPosition errReg (Buf.ofBytes [7]) 0 0 = .error (.err (.typeFailure 0 "bool")) ∧
    decodeAsTypeAtPosition errReg (Buf.ofBytes [9, 9, 7]) 0 2 = .error (.err (.typeFailure 2 "bool")) := ⟨rfl, rfl⟩

/-- A memory that fails for the same bytes. -/
example : Behind 1 ⟨[1, 2, 3, 4], fun p _ => p == 0⟩ ⟨[9, 1, 2, 3, 4], fun p _ => p == 1⟩ :=
  ⟨⟨[9], rfl, rfl⟩, fun p n => by show (p + 1 == 1) = (p == 0); simp⟩

example : Example.payload.bytes = compactEncode Example.callBytes.length ++ Example.callBytes ++ Example.extBytes ∧
    callAlone Example.chain Example.callBytes = .ok Example.call ∧
    (decodeExtensionsUnmarked Example.chain (Buf.ofBytes Example.extBytes) 0 none).toOption.isSome = true :=
  ⟨rfl, rfl, rfl⟩

/-- A broken call with the same extensions. -/
example : callAlone Example.chain [250] = .error (.err (.parsing (.unexpectedEnumVariant 0))) ∧
    (parseTransaction Example.chain (Buf.ofBytes (compactEncode 1 ++ [250] ++ Example.extBytes)) none).toOption.isSome =
      true := ⟨rfl, rfl⟩

end Verif
