import Verif.Spec.ErrorText
import Verif.Proof.Legible
/-! Texts of errors: pieces. -/
namespace Verif
open Spec

/-! ### Different heads -/

/-- The lists differ before either ends. -/
def clash : List Char → List Char → Bool
  | a :: x, b :: y => a != b || clash x y
  | _, _ => false

theorem clash_ne : ∀ {x y : List Char} (s t : List Char), clash x y = true → x ++ s ≠ y ++ t
  | a :: x, b :: y, s, t, h, e => by
    simp only [List.cons_append, List.cons.injEq] at e
    simp only [clash, Bool.or_eq_true, bne_iff_ne, ne_eq] at h
    rcases h with h | h
    · exact h e.1
    · exact clash_ne s t h e.2
  | [], _, _, _, h, _ => by simp [clash] at h
  | _ :: _, [], _, _, h, _ => by simp [clash] at h

theorem heads_ne {p q s t : String} (h : clash p.toList q.toList = true) : p ++ s ≠ q ++ t := by
  intro e
  have e := congrArg String.toList e
  simp only [String.toList_append] at e
  exact clash_ne _ _ h e

/-- Any two of the texts differ before either ends. -/
def apart : List String → Bool
  | [] => true
  | p :: l => l.all (fun q => clash p.toList q.toList) && apart l

theorem clash_symm : ∀ {x y : List Char}, clash x y = true → clash y x = true
  | a :: x, b :: y, h => by
    simp only [clash, Bool.or_eq_true, bne_iff_ne, ne_eq] at *
    rcases h with h | h
    · exact .inl fun e => h e.symm
    · exact .inr (clash_symm h)
  | [], _, h => by simp [clash] at h
  | _ :: _, [], h => by simp [clash] at h

theorem apart_get : ∀ {l : List String} {i j : Nat} {p q : String}, apart l = true → l[i]? = some p →
    l[j]? = some q → i ≠ j → clash p.toList q.toList = true
  | [], i, j, p, q, _, hi, _, _ => by simp at hi
  | x :: l, 0, 0, p, q, _, _, _, hne => absurd rfl hne
  | x :: l, 0, j + 1, p, q, h, hi, hj, _ => by
    simp only [apart, Bool.and_eq_true, List.all_eq_true] at h
    simp only [List.getElem?_cons_zero, Option.some.injEq] at hi
    simp only [List.getElem?_cons_succ] at hj
    subst hi
    exact h.1 q (List.mem_of_getElem? hj)
  | x :: l, i + 1, 0, p, q, h, hi, hj, _ => by
    simp only [apart, Bool.and_eq_true, List.all_eq_true] at h
    simp only [List.getElem?_cons_zero, Option.some.injEq] at hj
    simp only [List.getElem?_cons_succ] at hi
    subst hj
    exact clash_symm (h.1 p (List.mem_of_getElem? hi))
  | x :: l, i + 1, j + 1, p, q, h, hi, hj, hne => by
    simp only [apart, Bool.and_eq_true] at h
    simp only [List.getElem?_cons_succ] at hi hj
    exact apart_get h.2 hi hj (fun e => hne (by rw [e]))

/-- The text starts with the head number `i`. -/
def Heads (l : List String) (i : Nat) (s : String) : Prop := ∃ p t, l[i]? = some p ∧ s = p ++ t

theorem Heads.same {l : List String} (hl : apart l = true) {i j : Nat} {s : String} (hi : Heads l i s)
    (hj : Heads l j s) : i = j := by
  refine Classical.byContradiction fun hne => ?_
  obtain ⟨p, t, hp, rfl⟩ := hi
  obtain ⟨q, u, hq, e⟩ := hj
  exact heads_ne (apart_get hl hp hq hne) e

theorem Heads.whole {l : List String} {i : Nat} {s : String} (h : l[i]? = some s) : Heads l i s :=
  ⟨s, "", h, String.append_empty.symm⟩

theorem Heads.one {l : List String} {i : Nat} {p a : String} (h : l[i]? = some p) : Heads l i (p ++ a) :=
  ⟨p, a, h, rfl⟩

theorem Heads.two {l : List String} {i : Nat} {p a b : String} (h : l[i]? = some p) : Heads l i (p ++ a ++ b) :=
  ⟨p, a ++ b, h, String.append_assoc⟩

theorem Heads.four {l : List String} {i : Nat} {p a b c d : String} (h : l[i]? = some p) :
    Heads l i (p ++ a ++ b ++ c ++ d) :=
  ⟨p, a ++ (b ++ (c ++ d)), h, by
    rw [String.append_assoc, String.append_assoc, String.append_assoc]⟩

theorem Heads.append {l l' : List String} {i : Nat} {s : String} (h : Heads l i s) : Heads (l ++ l') i s := by
  obtain ⟨p, t, hp, e⟩ := h
  refine ⟨p, t, ?_, e⟩
  rw [List.getElem?_append_left (List.getElem?_eq_some_iff.1 hp).1]
  exact hp

/-! ### Numbers inside texts -/

/-- The text starts with a character that is not a digit. -/
def stops (s : String) : Bool :=
  match s.toList with
  | c :: _ => !c.isDigit
  | [] => false

theorem stops_append {s t : String} (h : stops s = true) : stops (s ++ t) = true := by
  unfold stops at *
  rw [String.toList_append]
  split at h
  · rename_i c r e
    rw [e]; exact h
  · cases h

theorem number_inside {p a b : String} {n m : Nat} (ha : stops a = true) (hb : stops b = true)
    (h : p ++ toString n ++ a = p ++ toString m ++ b) : n = m ∧ a = b := by
  have h := congrArg String.toList h
  simp only [String.toList_append, List.append_assoc, List.append_cancel_left_eq] at h
  unfold stops at ha hb
  split at ha
  · rename_i c r e
    split at hb
    · rename_i c' r' e'
      rw [e, e'] at h
      have key := split_kind (p := Char.isDigit) (digits_toString n) (digits_toString m) (by simpa using ha)
        (by simpa using hb) h
      have hn := toString_nat_inj (String.toList_inj.1 key.1)
      subst hn
      simp only [List.append_cancel_left_eq] at h
      exact ⟨rfl, by rw [← String.toList_inj, e, e', h]⟩
    · cases hb
  · cases ha

theorem number_then {p a : String} {n m : Nat} (ha : stops a = true)
    (h : p ++ toString n ++ a = p ++ toString m ++ a) : n = m := (number_inside ha ha h).1

theorem cancel_head {p a b : String} (h : p ++ a = p ++ b) : a = b := by
  have h := congrArg String.toList h
  simpa [String.toList_append, String.toList_inj] using h

theorem cancel_tail {p a b : String} (h : a ++ p = b ++ p) : a = b := by
  have h := congrArg String.toList h
  simpa [String.toList_append, String.toList_inj] using h

theorem two_numbers {p q r : String} {n k n' k' : Nat} (hq : stops q = true)
    (h : p ++ toString n ++ q ++ toString k ++ r = p ++ toString n' ++ q ++ toString k' ++ r) : n = n' ∧ k = k' := by
  have h := cancel_tail h
  rw [String.append_assoc (s₁ := p ++ toString n), String.append_assoc (s₁ := p ++ toString n')] at h
  obtain ⟨h1, h2⟩ := number_inside (stops_append hq) (stops_append hq) h
  exact ⟨h1, toString_nat_inj (cancel_head h2)⟩

/-! ### Errors of the registry -/

def RegInternal.cls : RegInternal → Nat
  | .cyclicMetadata _ => 0
  | .extrinsicNoCallParam => 1
  | .notBitOrderType _ => 2
  | .notBitStoreType _ => 2
  | .typeNotResolved _ => 3
  | .unexpectedCompactInsides _ => 4
  | .unexpectedExtrinsicType _ => 5

def parserHeads : List String :=
  ["Resolving type id ", "Extrinsic type in provided metadata has no specified call parameter.", "BitVec type ",
    "Unable to resolve type id ", "Compact type ",
    "Decoding is based on assumption that extrinsic type resolves into a SCALE-encoded opaque `Vec<u8>`. Unexpected type description is found for type ",
    "Error accessing type from external memory. ", "Expected compact starting at position ",
    "Some data (input positions [", "Unable to decode data starting at position ",
    "Encountered unexpected enum variant at position "]

theorem parserHeads_apart : apart parserHeads = true := by decide +kernel

theorem RegInternal.text_head (e : RegInternal) : Heads parserHeads e.cls e.text := by
  cases e with
  | extrinsicNoCallParam => exact Heads.whole rfl
  | cyclicMetadata id => exact Heads.two rfl
  | notBitOrderType id => exact Heads.two rfl
  | notBitStoreType id => exact Heads.two rfl
  | typeNotResolved id => exact Heads.two rfl
  | unexpectedCompactInsides id => exact Heads.two rfl
  | unexpectedExtrinsicType id => exact Heads.two rfl

theorem regInternal_tells : TellsApart RegInternal.text := by
  intro a b h
  have hc := Heads.same parserHeads_apart (h ▸ RegInternal.text_head a) (RegInternal.text_head b)
  have hne : clash " in metadata type registry has unexpected BitOrder type.".toList
      " in metadata type registry has unexpected BitStore type.".toList = true := by decide +kernel
  cases a <;> cases b <;> first
    | rfl
    | (simp [RegInternal.cls] at hc; done)
    | skip
  all_goals unfold RegInternal.text at h
  case notBitOrderType.notBitStoreType =>
    have := (number_inside (by decide +kernel) (by decide +kernel) h).2
    have := congrArg (· ++ "") this
    exact absurd this (heads_ne hne)
  case notBitStoreType.notBitOrderType =>
    have := (number_inside (by decide +kernel) (by decide +kernel) h).2
    have := congrArg (· ++ "") this.symm
    exact absurd this (heads_ne hne)
  all_goals (rw [number_then (by decide +kernel) h])

/-! ### Errors of the decoder -/

def PErr.cls : PErr → Nat
  | .buffer _ => 20
  | .registry .external => 6
  | .registry (.internal e) => e.cls
  | .noCompact _ => 7
  | .someDataNotUsedBlob _ => 8
  | .typeFailure _ _ => 9
  | .unexpectedEnumVariant _ => 10

/-- Errors that are not of the buffer. -/
def PErr.own : PErr → Bool
  | .buffer _ => false
  | _ => true

theorem PErr.text_head (o : OuterTexts) (e : PErr) (he : e.own = true) : Heads parserHeads e.cls (e.text o) := by
  rcases e with _ | ⟨_ | e⟩ | _ | _ | _ | _
  · cases he
  · exact Heads.one rfl
  · exact RegInternal.text_head e
  · exact Heads.two rfl
  · exact Heads.two rfl
  · exact Heads.four rfl
  · exact Heads.two rfl

theorem perr_tells_own {o : OuterTexts} {a b : PErr} (ha : a.own = true) (hb : b.own = true)
    (h : a.text o = b.text o) : a = b := by
  have hc := Heads.same parserHeads_apart (h ▸ PErr.text_head o a ha) (PErr.text_head o b hb)
  have hi : ∀ e : RegInternal, e.cls < 6 := by intro e; cases e <;> simp [RegInternal.cls]
  rcases a with _ | ⟨_ | e⟩ | _ | _ | _ | _ <;> rcases b with _ | ⟨_ | e'⟩ | _ | _ | _ | _
  all_goals first
    | (simp [PErr.own] at ha; done)
    | (simp [PErr.own] at hb; done)
    | (simp [PErr.cls] at hc; done)
    | (have := hi e'; simp only [PErr.cls] at hc; omega)
    | (have := hi e; simp only [PErr.cls] at hc; omega)
    | skip
  · rfl
  · rw [regInternal_tells _ _ h]
  · unfold PErr.text at h; rw [number_then (by decide +kernel) h]
  · unfold PErr.text at h; rw [number_then (by decide +kernel) h]
  · rename_i p ty p' ty'
    unfold PErr.text at h
    have e : ∀ (p : Nat) (t : String), "Unable to decode data starting at position " ++ toString p ++ " as " ++ t ++ "."
        = "Unable to decode data starting at position " ++ toString p ++ (" as " ++ (t ++ ".")) := by
      intro p t
      rw [String.append_assoc, String.append_assoc]
    dsimp only at h
    rw [e, e] at h
    have hs : stops " as " = true := by decide +kernel
    obtain ⟨h1, h2⟩ := number_inside (stops_append hs) (stops_append hs) h
    rw [h1, cancel_tail (cancel_head h2)]
  · unfold PErr.text at h; rw [number_then (by decide +kernel) h]

/-! ### Errors of transactions, extrinsics, storage entries and metadata -/

theorem clear_tells {o : OuterTexts} (ho : Clear o) : TellsApart (PErr.text o) := by
  intro a b h
  cases a with
  | buffer x => exact (ho x b h.symm).symm
  | _ =>
    cases b with
    | buffer x => exact ho x _ h
    | _ => exact perr_tells_own rfl rfl h

def extHeads : List String :=
  ["Signable transaction extensions contain more than one block hash entry.",
    "Signable transaction extensions contain more than one `Era` entry.",
    "Signable transaction extensions contain more than one genesis hash entry. Unable to verify that correct chain is used for parsing.",
    "Signable transaction extensions do not include chain genesis hash. Unable to verify that correct chain is used for parsing.",
    "Signable transaction extensions do not include metadata spec version. Unable to verify that correct metadata version is used for parsing.",
    "Signable transaction extensions contain more than one metadata spec version. Unable to verify that correct metadata version is used for parsing."]

def ExtErr.cls : ExtErr → Nat
  | .blockHashTwice => 0
  | .eraTwice => 1
  | .genesisHashTwice => 2
  | .noGenesisHash => 3
  | .noSpecVersion => 4
  | .specVersionTwice => 5

theorem ExtErr.text_head (e : ExtErr) : Heads extHeads e.cls e.text := by
  cases e <;> exact Heads.whole rfl

theorem extHeads_apart : apart extHeads = true := by decide +kernel

theorem extErr_tells : TellsApart ExtErr.text := by
  intro a b h
  have hc := Heads.same extHeads_apart (h ▸ ExtErr.text_head a) (ExtErr.text_head b)
  cases a <;> cases b <;> first
    | rfl
    | (simp [ExtErr.cls] at hc; done)

def metaHeads : List String :=
  ["No spec name found in decoded `Version` constant.", "No spec version found in decoded `Version` constant.",
    "No `System` pallet in metadata.", "No `Version` constant in metadata `System` pallet.",
    "`Version` constant from metadata `System` pallet could not be decoded.",
    "Spec name associated identifier found twice when decoding `Version` constant.",
    "Spec version associated identifier found twice when decoding `Version` constant.",
    "Decoded `Version` constant is not a composite.",
    "Unable to resolve in registry the chain extrinsic type. ",
    "Unchecked extrinsic type in provided metadata has no specified address parameter.",
    "Unchecked extrinsic type in provided metadata has no specified call parameter.",
    "Unchecked extrinsic type in provided metadata has no specified extra parameter.",
    "Unchecked extrinsic type in provided metadata has no specified signature parameter.",
    "Decoding is based on assumption that extrinsic type resolves into a SCALE-encoded opaque `Vec<u8>`. Unexpected type description is found for type "]

theorem metaHeads_apart : apart metaHeads = true := by decide +kernel

def VersionErr.cls : VersionErr → Nat
  | .noSpecName => 0
  | .noSpecVersion => 1
  | .noSystemPallet => 2
  | .noVersionInConstants => 3
  | .runtimeVersionNotDecodeable => 4
  | .specNameTwice => 5
  | .specVersionTwice => 6
  | .unexpectedRuntimeVersionFormat => 7

theorem VersionErr.text_head (e : VersionErr) : Heads metaHeads e.cls e.text := by
  cases e <;> exact Heads.whole rfl

theorem versionErr_tells : TellsApart VersionErr.text := by
  intro a b h
  have hc := Heads.same metaHeads_apart (h ▸ VersionErr.text_head a) (VersionErr.text_head b)
  cases a <;> cases b <;> first
    | rfl
    | (simp [VersionErr.cls] at hc; done)

def V14Err.cls : V14Err → Nat
  | .version e => e.cls
  | .extrinsicTypeNotResolved _ => 8
  | .noAddressParam => 9
  | .noCallParam => 10
  | .noExtraParam => 11
  | .noSignatureParam => 12
  | .unexpectedExtrinsicType _ => 13

theorem V14Err.text_head (e : V14Err) : Heads metaHeads e.cls e.text := by
  cases e with
  | version e => exact VersionErr.text_head e
  | extrinsicTypeNotResolved e => exact Heads.one rfl
  | noAddressParam => exact Heads.whole rfl
  | noCallParam => exact Heads.whole rfl
  | noExtraParam => exact Heads.whole rfl
  | noSignatureParam => exact Heads.whole rfl
  | unexpectedExtrinsicType id => exact Heads.two rfl

theorem v14Err_tells : TellsApart V14Err.text := by
  intro a b h
  have hc := Heads.same metaHeads_apart (h ▸ V14Err.text_head a) (V14Err.text_head b)
  have hi : ∀ e : VersionErr, e.cls < 8 := by intro e; cases e <;> simp [VersionErr.cls]
  rcases a with e | _ | _ | _ | _ | _ | e <;> rcases b with e' | _ | _ | _ | _ | _ | e'
  all_goals first
    | rfl
    | (simp [V14Err.cls] at hc; done)
    | (have := hi e'; simp only [V14Err.cls] at hc; omega)
    | (have := hi e; simp only [V14Err.cls] at hc; omega)
    | skip
  · rw [regInternal_tells _ _ (cancel_head h)]
  · unfold V14Err.text at h; rw [number_then (by decide +kernel) h]
  · rw [versionErr_tells _ _ h]

/-- A number at the end, before a common last character. -/
theorem number_last {a b q r : String} {n m : Nat} (hq : ∃ l c, q.toList = l ++ [c] ∧ c.isDigit = false)
    (h : a ++ q ++ toString n ++ r = b ++ q ++ toString m ++ r) : a = b ∧ n = m := by
  have h := cancel_tail h
  obtain ⟨l, c, hl, hc⟩ := hq
  have h := congrArg (fun s : String => s.toList.reverse) h
  simp only [String.toList_append, List.reverse_append, hl, List.reverse_cons, List.reverse_nil, List.nil_append,
    List.singleton_append, List.cons_append] at h
  have key := split_kind (p := Char.isDigit) (fun x hx => digits_toString n x (List.mem_reverse.1 hx))
    (fun x hx => digits_toString m x (List.mem_reverse.1 hx)) hc hc h
  refine ⟨?_, toString_nat_inj (String.toList_inj.1 (List.reverse_inj.1 key.1))⟩
  have h2 := key.2
  rw [List.append_cancel_left_eq] at h2
  exact String.toList_inj.1 (List.reverse_inj.1 h2)

def signableHeads : List String := extHeads ++
  ["Unable to separate signable transaction data into call data and extensions data.",
    "Extensions error. Block hash does not match the chain genesis hash in transaction with immortal `Era`.",
    "Unexpected structure of the metadata. ",
    "Decoded signable transaction is not a call. Unexpected structure of calls descriptor type ",
    "Parsing error. ", "Some call data (input positions [", "Some extensions data (input positions [",
    "Wrong chain. Apparent genesis hash in extensions ",
    "Wrong metadata spec version. When decoding extensions data with metadata version "]

theorem signableHeads_apart : apart signableHeads = true := by decide +kernel

variable {ME : Type}

def SErr.cls : SErr ME → Nat
  | .extensionsList e => e.cls
  | .cutSignable => 6
  | .immortalHashMismatch => 7
  | .metaStructure _ => 8
  | .notACall _ => 9
  | .parsing _ => 10
  | .someDataNotUsedCall _ _ => 11
  | .someDataNotUsedExtensions _ => 12
  | .wrongGenesisHash _ _ => 13
  | .wrongSpecVersion _ _ => 14

theorem SErr.text_head (o : OuterTexts) (m : ME → String) (e : SErr ME) :
    Heads signableHeads e.cls (e.text o m) := by
  cases e with
  | cutSignable => exact Heads.whole rfl
  | extensionsList e => exact (ExtErr.text_head e).append
  | immortalHashMismatch => exact Heads.whole rfl
  | metaStructure e => exact Heads.one rfl
  | notACall id => exact Heads.two rfl
  | parsing e => exact Heads.one rfl
  | someDataNotUsedCall a b => exact Heads.four rfl
  | someDataNotUsedExtensions a => exact Heads.two rfl
  | wrongGenesisHash a b => exact Heads.four rfl
  | wrongSpecVersion a b => exact Heads.four rfl

theorem hex_chars {s : List Char} {l : List Nat} (h : HexText s l) : ∀ c ∈ s, c ≠ ' ' := by
  induction h with
  | nil => intro c hc; cases hc
  | cons a b _ ih =>
    have key : ∀ {c : Char} {i : Nat}, HexDigit c i → c ≠ ' ' := by
      intro c i h
      cases h with | mk _ _ h =>
      rintro rfl
      have e : "0123456789abcdef".toList =
        ['0','1','2','3','4','5','6','7','8','9','a','b','c','d','e','f'] := rfl
      rw [e] at h
      exact absurd (List.mem_of_getElem? h) (by decide)
    intro c hc
    rcases List.mem_cons.1 hc with rfl | hc
    · exact key a
    · rcases List.mem_cons.1 hc with rfl | hc
      · exact key b
      · exact ih c hc

theorem hex_inside {p q t : String} {a b a' b' : Bytes} (hq : ∃ l, q.toList = ' ' :: l)
    (h : p ++ hexBytes a ++ q ++ hexBytes b ++ t = p ++ hexBytes a' ++ q ++ hexBytes b' ++ t) : a = a' ∧ b = b' := by
  have h := cancel_tail h
  obtain ⟨l, hl⟩ := hq
  have h := congrArg String.toList h
  simp only [String.toList_append, List.append_assoc, List.append_cancel_left_eq, hl, List.cons_append] at h
  have nosp : ∀ (x : Bytes), ∀ c ∈ (hexBytes x).toList, (c != ' ') = true := fun x c hc => by
    simpa using hex_chars (hexText_bytes x) c hc
  obtain ⟨h1, h2⟩ := split_kind (p := fun c => c != ' ') (nosp a) (nosp a') (by decide) (by decide) h
  rw [List.append_cancel_left_eq] at h2
  exact ⟨hexBytes_inj (String.toList_inj.1 h1), hexBytes_inj (String.toList_inj.1 h2)⟩

/-- The apparent spec version is written as a number. -/
def SErr.numeral : SErr ME → Prop
  | .wrongSpecVersion a _ => ∃ n : Nat, a = toString n
  | _ => True

theorem serr_tells {o : OuterTexts} {m : ME → String} (ho : Clear o) (hm : TellsApart m) {a b : SErr ME}
    (ha : a.numeral) (hb : b.numeral) (h : a.text o m = b.text o m) : a = b := by
  have hc := Heads.same signableHeads_apart (h ▸ SErr.text_head o m a) (SErr.text_head o m b)
  have hi : ∀ e : ExtErr, e.cls < 6 := by intro e; cases e <;> simp [ExtErr.cls]
  rcases a with _ | e | _ | _ | _ | _ | _ | _ | _ | _ <;> rcases b with _ | e' | _ | _ | _ | _ | _ | _ | _ | _
  all_goals first
    | (simp [SErr.cls] at hc; done)
    | (have := hi e'; simp only [SErr.cls] at hc; omega)
    | (have := hi e; simp only [SErr.cls] at hc; omega)
    | skip
  · rfl
  · rw [extErr_tells _ _ h]
  · rfl
  · rw [hm _ _ (cancel_head h)]
  · unfold SErr.text at h; rw [number_then (by decide +kernel) h]
  · rw [clear_tells ho _ _ (cancel_head h)]
  · rename_i x y x' y'
    unfold SErr.text at h
    obtain ⟨h1, h2⟩ := two_numbers (by decide +kernel) h
    rw [h1, h2]
  · unfold SErr.text at h; rw [number_then (by decide +kernel) h]
  · unfold SErr.text at h
    obtain ⟨h1, h2⟩ := hex_inside ⟨_, rfl⟩ h
    rw [h1, h2]
  · obtain ⟨n, rfl⟩ := ha
    obtain ⟨n', rfl⟩ := hb
    unfold SErr.text at h
    have hq : ∃ l c, ", the apparent spec version in extensions is ".toList = l ++ [c] ∧ c.isDigit = false :=
      ⟨", the apparent spec version in extensions is".toList, ' ', by decide +kernel, by decide⟩
    obtain ⟨h1, h2⟩ := number_last hq h
    rw [cancel_head h1, h2]

def storageHeads : List String :=
  ["Hash part of the storage key does not match the key data.",
    "During the storage key parsing a part of the key remained unused.",
    "Provided storage key is shorter than the expected prefix.",
    "Hashers length is not 1, but the key type is not a tuple.",
    "Hashers length does not match the number of fields in a tuple key type.",
    "Error parsing the storage key. ", "Error parsing the storage value. ",
    "Plain storage key contains data other than the prefix."]

theorem storageHeads_apart : apart storageHeads = true := by decide +kernel

def StErr.cls : StErr → Nat
  | .keyPartHashMismatch => 0
  | .keyPartsUnused => 1
  | .keyShorterThanPrefix => 2
  | .multipleHashesNotATuple => 3
  | .multipleHashesNumberMismatch => 4
  | .parsingKey _ => 5
  | .parsingValue _ => 6
  | .plainKeyExceedsPrefix => 7

theorem StErr.text_head (o : OuterTexts) (e : StErr) : Heads storageHeads e.cls (e.text o) := by
  cases e with
  | parsingKey e => exact Heads.one rfl
  | parsingValue e => exact Heads.one rfl
  | _ => exact Heads.whole rfl

theorem stErr_tells {o : OuterTexts} (ho : Clear o) : TellsApart (StErr.text o) := by
  intro a b h
  have hc := Heads.same storageHeads_apart (h ▸ StErr.text_head o a) (StErr.text_head o b)
  cases a <;> cases b
  all_goals first
    | rfl
    | (simp [StErr.cls] at hc; done)
    | (rw [clear_tells ho _ _ (cancel_head h)])

def extrinsicHeads : List String :=
  ["Unchecked extrinsic was expected to be a SCALE-encoded opaque `Vec<u8>`. Have not found a compact indicating vector length.",
    "Unexpected structure of the metadata. ", "Error parsing unchecked extrinsic data. ",
    "Version byte in unchecked extrinsic ", "Parameter type for call "]

theorem extrinsicHeads_apart : apart extrinsicHeads = true := by decide +kernel

def UErr.cls : UErr ME → Nat
  | .formatNoCompact => 0
  | .metaStructure _ => 1
  | .parsing _ => 2
  | .versionMismatch _ _ => 3
  | .unexpectedCallTy _ => 4

theorem UErr.text_head (o : OuterTexts) (m : ME → String) (e : UErr ME) :
    Heads extrinsicHeads e.cls (e.text o m) := by
  cases e with
  | formatNoCompact => exact Heads.whole rfl
  | metaStructure e => exact Heads.one rfl
  | parsing e => exact Heads.one rfl
  | versionMismatch a b => exact Heads.four rfl
  | unexpectedCallTy id => exact Heads.two rfl

theorem uerr_tells {o : OuterTexts} {m : ME → String} (ho : Clear o) (hm : TellsApart m) :
    TellsApart (UErr.text o m) := by
  intro a b h
  have hc := Heads.same extrinsicHeads_apart (h ▸ UErr.text_head o m a) (UErr.text_head o m b)
  rcases a with _ | _ | _ | ⟨x, y⟩ | _ <;> rcases b with _ | _ | _ | ⟨x', y'⟩ | _
  all_goals first
    | (simp [UErr.cls] at hc; done)
    | skip
  · rfl
  · rw [hm _ _ (cancel_head h)]
  · rw [clear_tells ho _ _ (cancel_head h)]
  · unfold UErr.text at h
    obtain ⟨h1, h2⟩ := two_numbers (by decide +kernel) h
    rw [UInt8.toNat_inj.1 h1, UInt8.toNat_inj.1 h2]
  · unfold UErr.text at h; rw [number_then (by decide +kernel) h]

end Verif
