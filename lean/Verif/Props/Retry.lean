import Verif.Proof.Repaired
import Verif.Spec.Retry
import Verif.Props.Words
import Verif.Props.FlakyTx
import Verif.Props.PosDevice
/-!
# Property theorems about repeated calls (C89)
-/
namespace Verif
open Spec

variable {σ α ε ME : Type} {D : Device σ} {R : Registry} {data : Bytes} {bad : σ → Int} {left : σ → Nat}
  {M : Metadata ME} {MC : CompleteMetadata ME}

/-- The memory with all its faults repaired. -/
abbrev repaired (D : Device σ) (R : Registry) (data : Bytes) : Device σ :=
  D.with (fun pos n s => ((Buf.ofBytes data).readSlice pos n, (D.read pos n s).2))
    (fun id s => (R.resolve id, (D.resolve id s).2))

theorem Spec.Counts.repairs (h : Counts D R data bad) : Repairs bad D
    (fun pos n s => ((Buf.ofBytes data).readSlice pos n, (D.read pos n s).2))
    (fun id s => (R.resolve id, (D.resolve id s).2)) where
  read := fun pos n s => ⟨(h.read pos n s).1, fun he => by
    have := (h.read pos n s).2 he
    rw [← this]⟩
  resolve := fun id s => ⟨(h.resolve id s).1, fun he => by
    have := (h.resolve id s).2 he
    rw [← this]⟩

theorem Spec.Counts.steady (h : Counts D R data bad) : Steady (repaired D R data) R (Buf.ofBytes data) :=
  ⟨h.len, h.size, h.word, fun _ _ _ => rfl, fun _ _ => rfl⟩

/-! ### A call during which nothing fails -/

/-- C89. A call during which the count did not go up has exactly the outcome on reliable memory:
value with all labels and annotations, end position, or error. -/
theorem quiet_value (h : Counts D R data bad) {id pos : Nat} {s : σ}
    (hq : bad (decodeAsTypeAtPositionD D id pos s).2 = bad s) :
    (decodeAsTypeAtPositionD D id pos s).1 = decodeAsTypeAtPosition R (Buf.ofBytes data) id pos := by
  have := (decodeD_concurs h.repairs (.symbol id) pos Propagated.new s).2 hq
  show (decodeD D (.symbol id) pos Propagated.new s).1 = _
  rw [this]
  exact decodeAsTypeAtPositionD_words h.steady id pos s

/-- C89, `decode_all_as_type`. -/
theorem quiet_all (h : Counts D R data bad) {id : Nat} {s : σ} (hq : bad (decodeAllAsTypeD D id s).2 = bad s) :
    (decodeAllAsTypeD D id s).1 = decodeAllAsType R (Buf.ofBytes data) id := by
  rw [(decodeAllAsTypeD_concurs h.repairs id s).2 hq]
  exact decodeAllAsTypeD_steady h.steady id s

/-- C89, `parse_transaction`. The condition on the length prefix is about 32-bit machines only (C59). -/
theorem quiet_transaction (h : Counts D M.types data bad) (hw : D.word.wraps = true ∨ ¬ PrefixOverflows D.word data)
    {expected : Option Bytes} {s : σ} (hq : bad (parseTransactionD D M expected s).2 = bad s) :
    (parseTransactionD D M expected s).1 = parseTransaction M (Buf.ofBytes data) expected := by
  rw [(parseTransactionD_concurs h.repairs M expected s).2 hq]
  exact parseTransactionD_words h.steady hw expected s

/-- C89, `parse_transaction_unmarked`. -/
theorem quiet_unmarked (h : Counts D M.types data bad) {expected : Option Bytes} {s : σ}
    (hq : bad (parseTransactionUnmarkedD D M expected s).2 = bad s) :
    (parseTransactionUnmarkedD D M expected s).1 = parseTransactionUnmarked M (Buf.ofBytes data) expected := by
  rw [(parseTransactionUnmarkedD_concurs h.repairs M expected s).2 hq]
  exact parseTransactionUnmarkedD_words h.steady expected s

/-- C89, `decode_as_unchecked_extrinsic`. -/
theorem quiet_extrinsic (h : Counts D MC.types data bad) (hw : ¬ PrefixOverflows D.word data) {s : σ}
    (hq : bad (decodeUncheckedExtrinsicD D MC s).2 = bad s) :
    (decodeUncheckedExtrinsicD D MC s).1 = decodeUncheckedExtrinsic MC (Buf.ofBytes data) := by
  rw [(decodeUncheckedExtrinsicD_concurs h.repairs MC s).2 hq]
  exact decodeUncheckedExtrinsicD_words h.steady hw s

/-- C89, `decode_as_storage_entry`: key and value are two buffers in one memory. -/
theorem quiet_storage {F : HashFns} {DK DV : Device σ} {k v : Bytes} (hk : Counts DK R k bad) (hv : Counts DV R v bad)
    {entry : Entry} {s : σ} (hq : bad (decodeStorageEntryD F DK DV entry s).2 = bad s) :
    (decodeStorageEntryD F DK DV entry s).1 = decodeStorageEntry F R (Buf.ofBytes k) (Buf.ofBytes v) entry := by
  rw [(decodeStorageEntryD_concurs hk.repairs hv.repairs F entry s).2 hq]
  exact decodeStorageEntryD_words hk.steady hv.steady entry s

/-- C89. Every memory that tells the truth or fails can be watched: every access does what it did, and the
failures are counted. -/
theorem watching_counts (h : Flaky D R data) : Counts (watching D) R data (fun s => (s.2 : Int)) where
  len := h.len
  size := h.size
  word := h.word
  read := fun pos n s => by
    have := h.read pos n s.1
    unfold watching
    dsimp only
    rcases this with he | he
    · constructor
      · split <;> omega
      · intro _; exact he
    · rw [he]; dsimp only; constructor <;> omega
  resolve := fun id s => by
    have := h.resolve id s.1
    unfold watching
    dsimp only
    rcases this with he | he
    · constructor
      · split <;> omega
      · intro _; exact he
    · rw [he]; dsimp only; constructor <;> omega

/-! ### Trying again -/

/-- If the caller would be content with the outcome without failures, and there are not more failures
than further attempts, then the caller gets an outcome to be content with, and it is the outcome of a
call. -/
theorem attempts_content {ρ : Type} {content : ρ → Bool} {call fair : σ → ρ × σ} {r : ρ}
    (h : Concurs (fun s => -(left s : Int)) call fair) (hf : ∀ s, (fair s).1 = r) (hr : content r = true) :
    ∀ (n : Nat) (s : σ), left s ≤ n →
      content (attempts content call n s).1 = true ∧ ∃ s', (attempts content call n s) = call s' := by
  intro n
  induction n with
  | zero =>
    intro s hs
    refine ⟨?_, s, rfl⟩
    obtain ⟨h1, h2⟩ := h s
    dsimp only at h1 h2
    show content (call s).1 = true
    rw [h2 (by omega), hf]; exact hr
  | succ n ih =>
    intro s hs
    unfold attempts
    split
    · rename_i hc; exact ⟨hc, s, rfl⟩
    · rename_i hc
      refine ih _ ?_
      obtain ⟨h1, h2⟩ := h s
      dsimp only at h1 h2
      by_cases he : left (call s).2 = left s
      · exfalso; apply hc
        rw [h2 (by omega), hf]; exact hr
      · omega

/-- C89. A value that reliable memory gives is got after at most as many further attempts as there are
failures: the same value but for labels, and the same end position. -/
theorem retry_value (h : Flaky D R data) (ht : Tires D R data left) (hR : Regular R) {id pos pos' : Nat}
    (hp : pos ≤ data.length) {d : ED} (hne : ¬ TellsEmpty R (edValue d))
    (ho : decodeAsTypeAtPosition R (Buf.ofBytes data) id pos = .ok (d, pos')) {n : Nat} {s : σ} (hn : left s ≤ n) :
    ∃ d', (attempts unlessFailed (decodeAsTypeAtPositionD D id pos) n s).1 = .ok (d', pos') ∧
      SameButLabels (edValue d) (edValue d') := by
  obtain ⟨h1, s', h2⟩ := attempts_content (content := unlessFailed) (decodeD_concurs (Counts.repairs ht) (.symbol id) pos Propagated.new)
    (fun s => decodeAsTypeAtPositionD_words (Counts.steady ht) id pos s) (by rw [ho]; rfl) n s hn
  have h2 : attempts unlessFailed (decodeAsTypeAtPositionD D id pos) n s = decodeAsTypeAtPositionD D id pos s' := h2
  have h1 : unlessFailed (attempts unlessFailed (decodeAsTypeAtPositionD D id pos) n s).1 = true := h1
  rw [h2] at h1 ⊢
  rcases decodeAsTypeAtPositionD_agrees h hR.emptyArrays hR.nameless hR.noCompactArray hp hne ho s' with ⟨e, he, h3⟩ | h3
  · rw [h3] at h1
    rcases he with rfl | rfl <;> cases h1
  · exact h3

/-- C89. A type in which no call, event or signature takes part: a caller that tries again after errors of
the memory, and only then, gets exactly the outcome on reliable memory, also if that is an error. -/
theorem retry_labelFree (h : Flaky D R data) (ht : Tires D R data left) (hR : ∀ id, R.resolve id ≠ .error .external)
    {id : Nat} (hl : LabelFree R id) (pos : Nat) {n : Nat} {s : σ} (hn : left s ≤ n) :
    (attempts unlessMemoryError (decodeAsTypeAtPositionD D id pos) n s).1 =
      decodeAsTypeAtPosition R (Buf.ofBytes data) id pos := by
  have hc : unlessMemoryError (decodeAsTypeAtPosition R (Buf.ofBytes data) id pos) = true := by
    cases hd : decodeAsTypeAtPosition R (Buf.ofBytes data) id pos with
    | ok a => rfl
    | error f =>
      cases f with
      | panic => rfl
      | fuel => rfl
      | err e =>
        by_cases h1 : e = .buffer .external
        · subst h1
          cases decode_errors_true hd with
          | memory _ hf => cases hf
        · by_cases h2 : e = .registry .external
          · subst h2
            cases decode_errors_true hd with
            | registry ht => cases ht with
              | unresolved hr => exact absurd hr (hR _)
          · unfold unlessMemoryError
            split
            · rename_i h; cases h; exact absurd rfl h1
            · rename_i h; cases h; exact absurd rfl h2
            · rfl
  obtain ⟨h1, s', h2⟩ := attempts_content (content := unlessMemoryError) (decodeD_concurs (Counts.repairs ht) (.symbol id) pos Propagated.new)
    (fun s => decodeAsTypeAtPositionD_words (Counts.steady ht) id pos s) hc n s hn
  have h2 : attempts unlessMemoryError (decodeAsTypeAtPositionD D id pos) n s = decodeAsTypeAtPositionD D id pos s' := h2
  have h1 : unlessMemoryError (attempts unlessMemoryError (decodeAsTypeAtPositionD D id pos) n s).1 = true := h1
  rw [h2] at h1 ⊢
  rcases decodeAsTypeAtPositionD_labelFree h hl pos s' with ⟨e, he, h3⟩ | h3
  · rw [h3] at h1
    rcases he with rfl | rfl <;> cases h1
  · exact h3

/-- What an accepted transaction begins with fits machine words. -/
theorem accepted_fits {w : Word} (hw : Fits w data.length) {expected : Option Bytes} {r : TransactionParsed ME} {c : Call}
    (ho : parseTransaction M (Buf.ofBytes data) expected = .ok r) (hc : r.callResult = .ok c) :
    ¬ PrefixOverflows w data := by
  rintro ⟨n, rest, h1, h2, h3⟩
  obtain ⟨id, signed, spec, cb, eb, -, -, -, h4, h5, -⟩ := parseTransaction_sound_length ho hc
  have h4 : data = compactEncode cb.length ++ cb ++ eb := h4
  have h6 : compactEncode n ++ rest = compactEncode cb.length ++ (cb ++ eb) := by
    rw [← h2, h4, List.append_assoc]
  have h7 := (compactEncode_inj (v := n) (v' := cb.length) (by omega) (by omega) h6).1
  rw [h7] at h3
  have := hw.room
  have h8 := congrArg List.length h4
  simp only [List.length_append] at h8
  omega

/-- C89. A transaction that reliable memory shows is shown after at most as many further attempts as there
are failures, to a caller who tries again after any error and if there is no call in the result: the same
extensions, and the same call but for labels. -/
theorem retry_transaction (h : Flaky D M.types data) (ht : Tires D M.types data left) (hM : CalmMetadata M)
    (hR : Regular M.types) (hl : ExtensionsLabelFree M) {expected : Option Bytes} {r : TransactionParsed ME} {c : Call}
    (ho : parseTransaction M (Buf.ofBytes data) expected = .ok r) (hc : r.callResult = .ok c)
    (hne : ¬ EmptyCall M.types c) {n : Nat} {s : σ} (hn : left s ≤ n) :
    ∃ r' c', (attempts (unlessError hasCall) (parseTransactionD D M expected) n s).1 = .ok r' ∧
      r'.extensions = r.extensions ∧ r'.callResult = .ok c' ∧ SameCall c c' := by
  have hw : ¬ PrefixOverflows D.word data := accepted_fits (by have := h.word; rwa [h.len] at this) ho hc
  have hg : unlessError hasCall (parseTransaction M (Buf.ofBytes data) expected) = true := by
    rw [ho]; show hasCall r = true; unfold hasCall; rw [hc]
  obtain ⟨h1, s', h2⟩ := attempts_content (parseTransactionD_concurs (Counts.repairs ht) M expected)
    (fun s => parseTransactionD_words (Counts.steady ht) (.inr hw) expected s) hg n s hn
  rw [h2] at h1 ⊢
  have hlive : ∀ e, (parseTransactionD D M expected s').1 ≠ .error (.err e) := by
    intro e he; rw [he] at h1; cases h1
  rcases parseTransactionD_ends h hM expected s' with ⟨r', h3⟩ | ⟨e, h3⟩ | ⟨⟨-, h3⟩, -⟩
  · rcases parseTransactionD_agrees h hM hR hl expected s' with ⟨e, h4, _⟩ | ⟨a, a', h4, h5, h6⟩ | ⟨⟨e, h4⟩ | ⟨_, _, h4⟩, _⟩
    · rw [h3] at h4; cases h4
    · rw [ho] at h4; rw [h3] at h5
      cases h4; cases h5
      rcases h6.2 with ⟨e, h7, _⟩ | ⟨c1, c', h7, h8, h9⟩ | ⟨⟨e, h7⟩ | ⟨c1, h7, h8⟩, _⟩
      · rw [h3] at h1; unfold unlessError hasCall at h1; dsimp only at h1; rw [h7] at h1; cases h1
      · rw [hc] at h7; cases h7
        exact ⟨r', c', h3, h6.1.symm, h8, h9⟩
      · rw [hc] at h7; cases h7
      · rw [hc] at h7; cases h7; exact absurd h8 hne
    · rw [ho] at h4; cases h4
    · exact h4.elim
  · exact absurd h3 (hlive e)
  · exact absurd h3 hw

/-- Calls that agree with reliable memory but for errors that failures cause, and do not panic. -/
theorem retry_agrees {caused : Out ε → Prop} {same : α → α → Prop} {empty : α → Prop} {reliable : Except (Out ε) α}
    {call fair : DevO σ ε α} (h : Concurs (fun s => -(left s : Int)) call fair) (hf : ∀ s, (fair s).1 = reliable)
    (ha : ∀ s, AgreesBut caused same empty reliable (call s).1)
    (hp : ∀ s, (∃ a, (call s).1 = .ok a) ∨ ∃ e, (call s).1 = .error (.err e)) {a : α} (ho : reliable = .ok a)
    (hne : ¬ empty a) {n : Nat} {s : σ} (hn : left s ≤ n) :
    ∃ a', (attempts (unlessError fun _ => true) call n s).1 = .ok a' ∧ same a a' := by
  obtain ⟨h1, s', h2⟩ := attempts_content (content := unlessError fun _ => true) h hf (by rw [ho]; rfl) n s hn
  rw [h2] at h1 ⊢
  rcases hp s' with ⟨a', h3⟩ | ⟨e, h3⟩
  · rcases ha s' with ⟨e, h4, _⟩ | ⟨a1, a2, h4, h5, h6⟩ | ⟨⟨e, h4⟩ | ⟨a1, h4, h5⟩, _⟩
    · rw [h3] at h4; cases h4
    · rw [ho] at h4; cases h4; exact ⟨a2, h5, h6⟩
    · rw [ho] at h4; cases h4
    · rw [ho] at h4; cases h4; exact absurd h5 hne
  · rw [h3] at h1; cases h1

/-- C89. Unmarked transactions. -/
theorem retry_unmarked (h : Flaky D M.types data) (ht : Tires D M.types data left) (hM : CalmMetadata M)
    (hR : Regular M.types) (hl : ExtensionsLabelFree M) {expected : Option Bytes} {r : TransactionUnmarkedParsed}
    (ho : parseTransactionUnmarked M (Buf.ofBytes data) expected = .ok r) (hne : ¬ EmptyCall M.types r.call)
    {n : Nat} {s : σ} (hn : left s ≤ n) :
    ∃ r', (attempts (unlessError fun _ => true) (parseTransactionUnmarkedD D M expected) n s).1 = .ok r' ∧ SameUnmarked r r' :=
  retry_agrees (parseTransactionUnmarkedD_concurs (Counts.repairs ht) M expected)
    (fun s => parseTransactionUnmarkedD_words (Counts.steady ht) expected s)
    (fun s => parseTransactionUnmarkedD_agrees h hR hl expected s)
    (fun s => parseTransactionUnmarkedD_ends h hM expected s) ho hne hn

/-- C89. Extrinsics. -/
theorem retry_extrinsic (h : Flaky D MC.types data) (ht : Tires D MC.types data left) (hR : Regular MC.types)
    (h1 : Calm MC.extrinsicTypeParams) (h2 : Calm MC.extrinsicVersion)
    {u : UncheckedExtrinsic} (ho : decodeUncheckedExtrinsic MC (Buf.ofBytes data) = .ok u)
    (hne : ¬ EmptyExtrinsic MC.types u) {n : Nat} {s : σ} (hn : left s ≤ n) :
    ∃ u', (attempts (unlessError fun _ => true) (decodeUncheckedExtrinsicD D MC) n s).1 = .ok u' ∧ SameExtrinsic u u' := by
  have hw : ¬ PrefixOverflows D.word data := by
    intro hov
    cases hp : MC.extrinsicTypeParams with
    | error e =>
      unfold decodeUncheckedExtrinsic at ho
      rw [hp] at ho
      cases e <;> cases ho
    | ok params =>
      obtain ⟨⟨n, h3⟩, -⟩ := decodeUncheckedExtrinsicD_overflow hp (Counts.steady ht) (reliable_ofBytes data) hov s
      rw [ho] at h3; cases h3
  exact retry_agrees (decodeUncheckedExtrinsicD_concurs (Counts.repairs ht) MC)
    (fun s => decodeUncheckedExtrinsicD_words (Counts.steady ht) hw s)
    (fun s => decodeUncheckedExtrinsicD_agrees h hR s)
    (fun s => by
      rcases decodeUncheckedExtrinsicD_ends h h1 h2 s with h | h | ⟨⟨-, h⟩, -⟩
      · exact .inl h
      · exact .inr h
      · exact absurd h hw) ho hne hn

/-- C89. Storage entries, if no hasher keeps the key beside the hash. -/
theorem retry_storage {F : HashFns} {DK DV : Device σ} {k v : Bytes} (hk : Flaky DK R k) (hv : Flaky DV R v)
    (htk : Tires DK R k left) (htv : Tires DV R v left) (hR : Regular R) {entry : Entry} (hu : ¬ UsesConcat entry)
    {r : Storage} (ho : decodeStorageEntry F R (Buf.ofBytes k) (Buf.ofBytes v) entry = .ok r) (hne : ¬ EmptyStorage R r)
    {n : Nat} {s : σ} (hn : left s ≤ n) :
    ∃ r', (attempts (unlessError fun _ => true) (decodeStorageEntryD F DK DV entry) n s).1 = .ok r' ∧ StorageButLabels r r' :=
  retry_agrees (decodeStorageEntryD_concurs (Counts.repairs htk) (Counts.repairs htv) F entry)
    (fun s => decodeStorageEntryD_words (Counts.steady htk) (Counts.steady htv) entry s)
    (fun s => decodeStorageEntryD_agrees hk hv hR entry s)
    (fun s => by
      rcases decodeStorageEntryD_ends hk hv entry s with h | h | ⟨h, -⟩
      · exact .inl h
      · exact .inr h
      · exact absurd h hu) ho hne hn

/-! ### Finitely many failures -/

theorem failuresFrom_step (fails : List Nat) (k : Nat) :
    failuresFrom fails (k + 1) ≤ failuresFrom fails k ∧
      (fails.contains k = true → failuresFrom fails (k + 1) < failuresFrom fails k) := by
  unfold failuresFrom
  induction fails with
  | nil => simp
  | cons x xs ih =>
    obtain ⟨ih1, ih2⟩ := ih
    have e : ∀ j, (List.filter (fun y => decide (j ≤ y)) (x :: xs)).length =
        (if j ≤ x then 1 else 0) + (List.filter (fun y => decide (j ≤ y)) xs).length := by
      intro j
      by_cases hj : j ≤ x
      · rw [List.filter_cons_of_pos (by simpa using hj), List.length_cons, if_pos hj]; omega
      · rw [List.filter_cons_of_neg (by simpa using hj), if_neg hj]; omega
    rw [e, e]
    constructor
    · split <;> split <;> omega
    · intro hc
      rw [List.contains_cons, Bool.or_eq_true] at hc
      rcases hc with hc | hc
      · have : k = x := by simpa using hc
        subst this
        rw [if_neg (by omega), if_pos (by omega)]; omega
      · have := ih2 hc
        split <;> split <;> omega

/-- C89. Memory whose accesses fail at finitely many, arbitrary times. -/
theorem scripted_tires (R : Registry) {w : Word} {data : Bytes} (hw : Fits w data.length) (fails : List Nat) :
    Tires (scripted w R data fails.contains) R data (failuresFrom fails) where
  len := rfl
  size := rfl
  word := hw
  read := fun pos n k => by
    obtain ⟨h1, h2⟩ := failuresFrom_step fails k
    unfold scripted
    dsimp only
    refine ⟨by omega, fun he => ?_⟩
    rw [if_neg]
    intro hc
    have := h2 hc
    omega
  resolve := fun id k => by
    obtain ⟨h1, h2⟩ := failuresFrom_step fails k
    unfold scripted
    dsimp only
    refine ⟨by omega, fun he => ?_⟩
    rw [if_neg]
    intro hc
    have := h2 hc
    omega

/-! ### The position must be set back -/

namespace RetryExample

/-- Pairs of bytes. -/
def pairs : Registry := Registry.portable [{ typeDef := .primitive .u8 }, { typeDef := .tuple [0, 0] }]

/-- Memory of the example chain, which fails at the given times. -/
def chainMemory (data : Bytes) (fails : List Nat) : Device Nat :=
  scripted (usize64 false) Example.chain.types data fails.contains

theorem fits {data : Bytes} (h : data.length < 2 ^ 60) : Fits (usize64 false) data.length :=
  ⟨by decide, by have : (usize64 false).cap = 2 ^ 64 := rfl; omega⟩

end RetryExample

open RetryExample

/-- C89. The attempts above begin where the first one began. A caller that just passes the same
`&mut position` again begins where the failed call left it, and may get a wrong value without any error:
here `(2, 3)` in place of `(1, 2)`. -/
theorem carryOn_wrong : ∃ (R : Registry) (data : Bytes) (fails : List Nat) (id : Nat) (d d' : ED),
    Flaky (scripted (usize64 false) R data fails.contains) R data ∧
    decodeAsTypeAtPosition R (Buf.ofBytes data) id 0 = .ok (d, 2) ∧
    edValue d = .tuple [.uint .u8 1, .uint .u8 2] ∧
    (carryOn (posAsTypeD (scripted (usize64 false) R data fails.contains) id) 1 0 0).1 = (.ok d', 3) ∧
    edValue d' = .tuple [.uint .u8 2, .uint .u8 3] :=
  ⟨pairs, [1, 2, 3, 4], [4], 1, _, _, scripted_flaky _ (fits (by decide)) _, rfl, rfl, rfl, rfl⟩

/-! ### Examples -/

namespace RetryExample

/-- The same schedule, with the position set back: one more attempt is enough. -/
example : (attempts unlessFailed (decodeAsTypeAtPositionD (scripted (usize64 false) pairs [1, 2, 3, 4] [4].contains) 1 0) 0 0).1 =
    .error (.err (.buffer .external)) := rfl
example : (attempts unlessFailed (decodeAsTypeAtPositionD (scripted (usize64 false) pairs [1, 2, 3, 4] [4].contains) 1 0) 1 0).1 =
    decodeAsTypeAtPosition pairs (Buf.ofBytes [1, 2, 3, 4]) 1 0 := rfl

theorem pairs_labelFree : LabelFree pairs 1 := by
  have key : ∀ id', Reaches pairs 1 id' → id' = 1 ∨ id' = 0 := by
    intro id' h
    induction h with
    | self => exact .inl rfl
    | part _ hr _ hx ih =>
      rcases ih with rfl | rfl
      · cases hr
        have hx : _ ∈ [0, 0] := hx
        simp only [List.mem_cons, List.not_mem_nil, or_false, or_self] at hx
        exact .inr hx
      · cases hr; cases hx
  intro id' t vs h hr hd
  rcases key id' h with rfl | rfl <;> (cases hr; cases hd)

/-- Any finite schedule of failures: with that many further attempts the outcome is right. -/
example (fails : List Nat) :
    (attempts unlessMemoryError (decodeAsTypeAtPositionD (scripted (usize64 false) pairs [1, 2, 3, 4] fails.contains) 1 0)
      (failuresFrom fails 0) 0).1 = decodeAsTypeAtPosition pairs (Buf.ofBytes [1, 2, 3, 4]) 1 0 :=
  retry_labelFree (scripted_flaky _ (fits (by decide)) _) (scripted_tires _ (fits (by decide)) fails)
    (fun id => by
      show Registry.resolve (Registry.portable _) id ≠ _
      simp only [Registry.portable]
      split <;> simp) pairs_labelFree 0 (Nat.le_refl _)

end RetryExample

end Verif
