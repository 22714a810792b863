import Verif.Proof.ErrorText
import Verif.Props.TxErrors
/-!
# C64: the text of an error tells the error

`Display` of errors (`src/error.rs`) loses nothing: from the text one knows which error it was,
the position, the type, the versions, the hashes in it.
-/
namespace Verif
open Spec

variable {ME : Type}

/-! ### Errors without parts from outside of the crate -/

/-- **C64.** Errors about the extensions, about the metadata, about the types registry: different
errors have different texts. -/
theorem error_text_inner :
    TellsApart ExtErr.text ∧ TellsApart RegInternal.text ∧ TellsApart VersionErr.text ∧ TellsApart V14Err.text :=
  ⟨extErr_tells, regInternal_tells, versionErr_tells, v14Err_tells⟩

/-! ### Errors of the decoder -/

/-- **C64.** Different parser errors have different texts, whatever the texts of errors from outside,
unless a buffer error is there. -/
theorem error_text_parser_own (o : OuterTexts) {a b : PErr} (ha : ∀ x, a ≠ .buffer x) (hb : ∀ x, b ≠ .buffer x)
    (h : a.text o = b.text o) : a = b := by
  cases a with
  | buffer x => exact absurd rfl (ha x)
  | _ =>
    cases b with
    | buffer x => exact absurd rfl (hb x)
    | _ => exact perr_tells_own rfl rfl h

/-- **C64.** Different parser errors have different texts if that of a buffer error is clear. -/
theorem error_text_parser {o : OuterTexts} (ho : Clear o) : TellsApart (PErr.text o) := clear_tells ho

/-- **C64.** Different errors of storage entries have different texts. -/
theorem error_text_storage {o : OuterTexts} (ho : Clear o) : TellsApart (StErr.text o) := stErr_tells ho

/-- **C64.** Different errors of unchecked extrinsics have different texts. -/
theorem error_text_extrinsic {o : OuterTexts} {m : ME → String} (ho : Clear o) (hm : TellsApart m) :
    TellsApart (UErr.text o m) := uerr_tells ho hm

/-- **C64.** Different errors of signable transactions have different texts, provided apparent spec
versions are written as numbers. -/
theorem error_text_signable {o : OuterTexts} {m : ME → String} (ho : Clear o) (hm : TellsApart m) {a b : SErr ME}
    (ha : ∀ v k, a = .wrongSpecVersion v k → ∃ n : Nat, v = toString n)
    (hb : ∀ v k, b = .wrongSpecVersion v k → ∃ n : Nat, v = toString n) (h : a.text o m = b.text o m) : a = b := by
  have key : ∀ {e : SErr ME}, (∀ v k, e = .wrongSpecVersion v k → ∃ n : Nat, v = toString n) → e.numeral := by
    intro e he
    unfold SErr.numeral
    split
    · exact he _ _ rfl
    · trivial
  exact serr_tells ho hm (key ha) (key hb) h

/-! ### Errors that are returned -/

theorem trueOfExtensions_numeral {M : Metadata ME} {b : Buf} {pos : Nat} {expected : Option Bytes} {e : SErr ME}
    (h : TrueOfExtensions M b pos expected e) : ∀ v k, e = .wrongSpecVersion v k → ∃ n : Nat, v = toString n := by
  rintro v k rfl
  cases h with
  | content _ _ _ _ h =>
    cases h with
    | wrongSpecVersion _ _ => exact ⟨_, rfl⟩

theorem trueOfCall_numeral {M : Metadata ME} {b : Buf} {pos : Nat} {e : SErr ME} (h : TrueOfCall M b pos e) :
    ∀ v k, e = .wrongSpecVersion v k → ∃ n : Nat, v = toString n := by
  rintro v k rfl
  cases h

/-- **C64.** If two calls of `parse_transaction`, with whatever metadata, data and genesis hashes,
return errors of equal text, then these are the same error. -/
theorem error_text_transaction {o : OuterTexts} {m : ME → String} (ho : Clear o) (hm : TellsApart m)
    {M M' : Metadata ME} {b b' : Buf} {expected expected' : Option Bytes} {e e' : SErr ME}
    (h : parseTransaction M b expected = .error (.err e)) (h' : parseTransaction M' b' expected' = .error (.err e'))
    (ht : e.text o m = e'.text o m) : e = e' := by
  have key : ∀ {M : Metadata ME} {b : Buf} {expected : Option Bytes} {e : SErr ME},
      parseTransaction M b expected = .error (.err e) →
      ∀ v k, e = .wrongSpecVersion v k → ∃ n : Nat, v = toString n := by
    intro M b expected e h
    cases parseTransaction_errors_true h with
    | cut _ => intro v k he; cases he
    | extensions _ h => exact trueOfExtensions_numeral h
  exact error_text_signable ho hm (key h) (key h') ht

/-- **C64.** Same, for `parse_transaction_unmarked`. -/
theorem error_text_transaction_unmarked {o : OuterTexts} {m : ME → String} (ho : Clear o) (hm : TellsApart m)
    {M M' : Metadata ME} {b b' : Buf} {expected expected' : Option Bytes} {e e' : SErr ME}
    (h : parseTransactionUnmarked M b expected = .error (.err e))
    (h' : parseTransactionUnmarked M' b' expected' = .error (.err e'))
    (ht : e.text o m = e'.text o m) : e = e' := by
  have key : ∀ {M : Metadata ME} {b : Buf} {expected : Option Bytes} {e : SErr ME},
      parseTransactionUnmarked M b expected = .error (.err e) →
      ∀ v k, e = .wrongSpecVersion v k → ∃ n : Nat, v = toString n := by
    intro M b expected e h
    rcases parseTransactionUnmarked_errors_true h with h | ⟨_, _, _, _, _, _, _, h⟩
    · exact trueOfCall_numeral h
    · exact trueOfExtensions_numeral h
  exact error_text_signable ho hm (key h) (key h') ht

/-- **C64.** Same, for the error of the call inside of a parsed transaction. -/
theorem error_text_transaction_call {o : OuterTexts} {m : ME → String} (ho : Clear o) (hm : TellsApart m)
    {M M' : Metadata ME} {b b' : Buf} {expected expected' : Option Bytes} {t t' : TransactionParsed ME}
    {e e' : SErr ME} (h : parseTransaction M b expected = .ok t) (he : t.callResult = .error e)
    (h' : parseTransaction M' b' expected' = .ok t') (he' : t'.callResult = .error e')
    (ht : e.text o m = e'.text o m) : e = e' := by
  have key : ∀ {M : Metadata ME} {b : Buf} {expected : Option Bytes} {t : TransactionParsed ME} {e : SErr ME},
      parseTransaction M b expected = .ok t → t.callResult = .error e →
      ∀ v k, e = .wrongSpecVersion v k → ∃ n : Nat, v = toString n := by
    intro M b expected t e h he
    obtain ⟨_, _, _, h⟩ := parseTransaction_call_errors_true h he
    cases h with
    | call h => exact trueOfCall_numeral h
    | notUsed _ _ _ _ => intro v k he; cases he
  exact error_text_signable ho hm (key h he) (key h' he') ht

/-! ### The hypotheses are met, and needed -/

/-- Texts of buffer errors, for examples. -/
def plainTexts : OuterTexts where
  buffer
    | .outOfRange p t => "Position " ++ toString p ++ " is out of range for data length " ++ toString t ++ "."
    | .dataTooShort p n => "Data too short at position " ++ toString p ++ ", expected at least " ++ toString n ++ "."
    | .external => "External memory failed."
  external := "No answer."

def plainHeads : List String := parserHeads ++
  ["Position ", "Data too short at position ", "External memory failed."]

theorem plainHeads_apart : apart plainHeads = true := by decide +kernel

theorem plain_head : ∀ x : BufErr, Heads plainHeads
    (match x with | .outOfRange _ _ => 11 | .dataTooShort _ _ => 12 | .external => 13) (plainTexts.buffer x)
  | .outOfRange p t => Heads.four rfl
  | .dataTooShort p n => Heads.four rfl
  | .external => Heads.whole rfl

theorem plainTexts_clear : Clear plainTexts := by
  intro x e h
  cases e with
  | buffer y =>
    have h : plainTexts.buffer y = plainTexts.buffer x := h
    have hc := Heads.same plainHeads_apart (h ▸ plain_head y) (plain_head x)
    cases x <;> cases y <;> first
      | rfl
      | (simp at hc; done)
      | skip
    · obtain ⟨h1, h2⟩ := two_numbers (by decide +kernel) h
      rw [h1, h2]
    · obtain ⟨h1, h2⟩ := two_numbers (by decide +kernel) h
      rw [h1, h2]
  | registry r =>
    have hc := Heads.same plainHeads_apart (h ▸ (PErr.text_head plainTexts _ rfl).append) (plain_head x)
    have hi : ∀ e : RegInternal, e.cls < 6 := by intro e; cases e <;> simp [RegInternal.cls]
    cases r with
    | external => cases x <;> simp [PErr.cls] at hc
    | internal r =>
      have := hi r
      cases x <;> simp only [PErr.cls] at hc <;> omega
  | _ =>
    have hc := Heads.same plainHeads_apart (h ▸ (PErr.text_head plainTexts _ rfl).append) (plain_head x)
    cases x <;> simp [PErr.cls] at hc

/-- Texts as in the code. -/
example : (SErr.text plainTexts V14Err.text (.parsing (.typeFailure 5 "Era"))) =
    "Parsing error. Unable to decode data starting at position 5 as Era." := by decide +kernel

example : (SErr.text plainTexts V14Err.text (.wrongSpecVersion "9111" "9110")) =
    "Wrong metadata spec version. When decoding extensions data with metadata version 9110, the apparent spec version in extensions is 9111." := by
  decide +kernel

/-- Whatever transaction gives this text, the versions are known from it. -/
example {M : Metadata Unit} {b : Buf} {expected : Option Bytes} {e : SErr Unit}
    (h : parseTransaction M b expected = .error (.err e))
    (ht : e.text plainTexts (fun _ => "") = "Wrong metadata spec version. When decoding extensions data with metadata version 9, the apparent spec version in extensions is 8.") :
    e = .wrongSpecVersion "8" "9" :=
  error_text_transaction plainTexts_clear (m := fun _ : Unit => "") (fun _ _ _ => rfl) h
    (M' := Example.chain) (b' := Buf.ofBytes ([28] ++ Example.callBytes ++ [0] ++ [8, 0, 0, 0] ++
      Example.genesis ++ Example.genesis)) (expected' := none) rfl
    (ht.trans (by decide +kernel))

/-- With these texts, and metadata V14, all different errors of extrinsics have different texts. -/
example : TellsApart (UErr.text plainTexts V14Err.text) := error_text_extrinsic plainTexts_clear v14Err_tells

/-- Without `Clear`: a text of a buffer error that is also the text of another error. -/
example : (PErr.buffer .external).text ⟨fun _ => "Expected compact starting at position 0, not found one.", ""⟩ =
    (PErr.noCompact 0).text ⟨fun _ => "Expected compact starting at position 0, not found one.", ""⟩ := by
  decide +kernel

/-- Without numbers as versions: two errors with the same text. -/
example : (SErr.text plainTexts V14Err.text (.wrongSpecVersion "3" "1, the apparent spec version in extensions is 2")) =
    SErr.text plainTexts V14Err.text (.wrongSpecVersion "2, the apparent spec version in extensions is 3" "1") := by
  decide +kernel

end Verif
