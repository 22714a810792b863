import Verif.Model.Show
import Verif.Spec.Legible
import Verif.Props.CardsTx
/-!
# C47: the text of the cards
-/
namespace Verif
open Spec

variable {showBits : BitStore → BitOrder → List Bool → String}

/-- Number of lines of a text. -/
def lineCount (s : String) : Nat := s.toList.count '\n' + 1

/-- The text has no line break. -/
def OneLine (s : String) : Prop := '\n' ∉ s.toList

/-- Texts shown by a card as they are: texts, characters and byte strings from the data,
names from the metadata, address, name of the chain, unit. -/
def freeTexts (showBits : BitStore → BitOrder → List Bool → String) : ParserCard → List String
  | .balance a => [currencyText a]
  | .balanceRaw a => [a]
  | .bitVec s o l => [showBits s o l]
  | .callName a => [a]
  | .enumVariantName a => [a]
  | .eventName a => [a]
  | .fieldName a => [a]
  | .key _ a => [a.base58]
  | .nameSpecVersion name version => [name, version]
  | .nonce a => [a]
  | .palletName a => [a]
  | .char a => [String.singleton a]
  | .sequenceU8 _ (some t) _ => [t]
  | .sequenceU8 hex none _ => [hex]
  | .specName a => [a]
  | .text a => [a]
  | .tip a => [currencyText a]
  | .tipAsset a => [a]
  | .txVersion a => [a]
  | _ => []

theorem nl_digits (n : Nat) : (Nat.toDigits 10 n).count '\n' = 0 := by
  rw [List.count_eq_zero]
  intro h
  exact absurd (isDigit_digits h) (by decide)

theorem nl_toString (n : Nat) : (toString n).toList.count '\n' = 0 := by
  rw [show (toString n).toList = Nat.toDigits 10 n from by simp]
  exact nl_digits n

theorem nl_int (n : Int) : n.repr.toList.count '\n' = 0 := by
  cases n with
  | ofNat n => exact nl_toString n
  | negSucc n =>
    show ("-" ++ Nat.repr (n + 1)).toList.count '\n' = 0
    rw [String.toList_append, List.count_append, Nat.toList_repr, nl_digits]
    decide

theorem nl_hexDigit (n : Nat) (h : n < 16) : hexDigit n ≠ '\n' := by
  have : ∀ i : Fin 16, hexDigit i.1 ≠ '\n' := by decide
  exact this ⟨n, h⟩

theorem nl_hexBytes (h : Bytes) : (hexBytes h).toList.count '\n' = 0 := by
  unfold hexBytes hexEncode
  rw [String.toList_ofList, List.count_eq_zero]
  simp only [List.mem_flatMap, List.mem_map]
  rintro ⟨b, ⟨x, -, rfl⟩, h1⟩
  have := x.toNat_lt
  simp only [List.mem_cons, List.not_mem_nil, or_false] at h1
  rcases h1 with h1 | h1
  · exact nl_hexDigit _ (by omega) h1.symm
  · exact nl_hexDigit _ (by omega) h1.symm

/-- Line breaks in a list of texts. -/
def breaks (l : List String) : Nat := (l.map fun s => s.toList.count '\n').sum

theorem nl_indentation (n : Nat) : (indentation n).toList.count '\n' = 0 := by
  unfold indentation
  rw [String.toList_ofList, List.count_replicate]
  rfl

theorem nl_line (c : ParserCard) : (c.line showBits).1.toList.count '\n' = 0 ∧
    (((c.line showBits).2.getD "").toList.count '\n' = breaks (freeTexts showBits c)) := by
  cases c with
  | era e => cases e <;> simp [ParserCard.line, freeTexts, breaks, nl_digits, String.toList_append] <;> decide
  | sequenceU8 hex t i => cases t <;> simp [ParserCard.line, freeTexts, breaks] <;> decide
  | bitVec s o l => cases s <;> cases o <;> simp [ParserCard.line, freeTexts, breaks] <;> decide
  | raw k h => cases k <;> simp [ParserCard.line, freeTexts, breaks, nl_hexBytes] <;> decide
  | key k h => cases k <;> simp [ParserCard.line, freeTexts, breaks] <;> decide
  | int w h => cases w <;> simp [ParserCard.line, freeTexts, breaks, nl_int] <;> decide
  | uint w h => cases w <;> simp [ParserCard.line, freeTexts, breaks, nl_digits] <;> decide
  | perThing w h => cases w <;> simp [ParserCard.line, freeTexts, breaks, nl_digits] <;> decide
  | bool v => cases v <;> simp [ParserCard.line, freeTexts, breaks] <;> decide
  | _ => simp [ParserCard.line, freeTexts, breaks, nl_digits, nl_hexBytes, String.toList_append] <;> decide

/-- C47. The text of a card has as many extra lines as there are line breaks in the texts
it shows. -/
theorem show_lineCount (c : ExtendedCard) :
    lineCount (c.show showBits) = 1 + breaks (freeTexts showBits c.parserCard) := by
  obtain ⟨h1, h2⟩ := nl_line (showBits := showBits) c.parserCard
  unfold ExtendedCard.show lineCount
  split
  · rename_i t p he
    rw [he] at h1 h2
    have h3 : List.count '\n' ": ".toList = 0 := by decide
    simp only [readable, String.toList_append, List.count_append, nl_indentation]
    simp at h1 h2
    omega
  · rename_i t he
    rw [he] at h1 h2
    simp only [String.toList_append, List.count_append, nl_indentation]
    simp at h1 h2
    omega

/-- A card is shown on one line when its texts have no line breaks, and only then. -/
theorem show_oneLine_iff (c : ExtendedCard) :
    OneLine (c.show showBits) ↔ ∀ s ∈ freeTexts showBits c.parserCard, OneLine s := by
  have h := show_lineCount (showBits := showBits) c
  unfold lineCount at h
  unfold OneLine
  rw [← List.count_eq_zero, show List.count '\n' (c.show showBits).toList = breaks (freeTexts showBits c.parserCard)
    by omega]
  unfold breaks
  generalize freeTexts showBits c.parserCard = l
  induction l with
  | nil => simp
  | cons a l ih =>
    simp only [List.map_cons, List.sum_cons, Nat.add_eq_zero_iff, ih, List.mem_cons, forall_eq_or_imp,
      List.count_eq_zero]

/-! ### The text tells the cards -/

theorem line_label (c : ParserCard) : (c.line showBits).1.toList ≠ [] ∧
    (c.line showBits).1.toList.head? ≠ some ' ' ∧ ':' ∉ (c.line showBits).1.toList := by
  cases c with
  | era e => cases e <;> (simp only [ParserCard.line]; decide)
  | sequenceU8 hex t i => cases t <;> (simp only [ParserCard.line]; decide)
  | bitVec s o l => cases s <;> cases o <;> (simp only [ParserCard.line]; decide)
  | raw k h => cases k <;> (simp only [ParserCard.line]; decide)
  | key k h => cases k <;> (simp only [ParserCard.line]; decide)
  | int w h => cases w <;> (simp only [ParserCard.line]; decide)
  | uint w h => cases w <;> (simp only [ParserCard.line]; decide)
  | perThing w h => cases w <;> (simp only [ParserCard.line]; decide)
  | _ => simp only [ParserCard.line]; decide

theorem strip_spaces {a b : Nat} {x y : List Char} (hx : x.head? ≠ some ' ') (hy : y.head? ≠ some ' ')
    (h : List.replicate a ' ' ++ x = List.replicate b ' ' ++ y) : a = b ∧ x = y := by
  induction a generalizing b with
  | zero =>
    cases b with
    | zero => exact ⟨rfl, by simpa using h⟩
    | succ b =>
      simp [List.replicate_succ] at h
      rw [h] at hx
      simp at hx
  | succ a ih =>
    cases b with
    | zero =>
      simp [List.replicate_succ] at h
      rw [← h] at hy
      simp at hy
    | succ b =>
      simp [List.replicate_succ] at h
      obtain ⟨h1, h2⟩ := ih h
      exact ⟨by rw [h1], h2⟩

/-- What follows the label. -/
def afterLabel : Option String → List Char
  | some p => ':' :: ' ' :: p.toList
  | none => []

theorem label_unique {x y : List Char} {p q : Option String} (hx : ':' ∉ x) (hy : ':' ∉ y)
    (h : x ++ afterLabel p = y ++ afterLabel q) : x = y ∧ p = q := by
  induction x generalizing y with
  | nil =>
    cases y with
    | nil =>
      refine ⟨rfl, ?_⟩
      cases p <;> cases q <;> simp [afterLabel] at h ⊢
      exact String.toList_inj.1 h
    | cons b y =>
      cases p with
      | none => simp [afterLabel] at h
      | some p =>
        simp [afterLabel] at h
        exact absurd (by simp [← h.1]) hy
  | cons a x ih =>
    cases y with
    | nil =>
      cases q with
      | none => simp [afterLabel] at h
      | some q =>
        simp [afterLabel] at h
        exact absurd (by simp [h.1]) hx
    | cons b y =>
      simp at h
      obtain ⟨h1, h2⟩ := ih (fun h => hx (by simp [h])) (fun h => hy (by simp [h])) h.2
      exact ⟨by rw [h.1, h1], h2⟩

theorem show_toList (c : ExtendedCard) : (c.show showBits).toList =
    List.replicate (2 * c.indent) ' ' ++ ((c.parserCard.line showBits).1.toList ++
      afterLabel (c.parserCard.line showBits).2) := by
  unfold ExtendedCard.show
  split <;> rename_i h <;> rw [h] <;>
    simp [readable, indentation, String.toList_append, afterLabel, List.append_assoc]

/-- The text of a card tells its indent, its type and its payload. -/
theorem show_injective {c c' : ExtendedCard} (h : c.show showBits = c'.show showBits) :
    c.indent = c'.indent ∧ c.parserCard.line showBits = c'.parserCard.line showBits := by
  have h := congrArg String.toList h
  rw [show_toList, show_toList] at h
  obtain ⟨a1, a2, a3⟩ := line_label (showBits := showBits) c.parserCard
  obtain ⟨b1, b2, b3⟩ := line_label (showBits := showBits) c'.parserCard
  have hd : ∀ (x r : List Char), x ≠ [] → x.head? ≠ some ' ' → (x ++ r).head? ≠ some ' ' := by
    intro x r h1 h2
    cases x with
    | nil => exact absurd rfl h1
    | cons a x => simpa using h2
  obtain ⟨h1, h2⟩ := strip_spaces (hd _ _ a1 a2) (hd _ _ b1 b2) h
  obtain ⟨h3, h4⟩ := label_unique a3 b3 h2
  exact ⟨by omega, Prod.ext (String.toList_inj.1 h3) h4⟩

theorem intercalate_injective {l l' : List String} (h1 : ∀ s ∈ l, OneLine s ∧ s ≠ "")
    (h2 : ∀ s ∈ l', OneLine s ∧ s ≠ "") (h : "\n".intercalate l = "\n".intercalate l') : l = l' := by
  have h := congrArg String.toList h
  rw [String.toList_intercalate, String.toList_intercalate] at h
  have e : "\n".toList = ['\n'] := rfl
  rw [e] at h
  have ne : ∀ m : List String, (∀ s ∈ m, OneLine s ∧ s ≠ "") → m ≠ [] →
      ['\n'].intercalate (m.map String.toList) ≠ [] := by
    intro m hm hne h0
    match m with
    | [] => exact hne rfl
    | [a] =>
      rw [List.map_cons, List.map_nil, List.intercalate_singleton] at h0
      exact (hm a (by simp)).2 (String.toList_inj.1 h0)
    | a :: b :: m => simp [List.intercalate] at h0
  by_cases hl : l = []
  · by_cases hl' : l' = []
    · rw [hl, hl']
    · rw [hl] at h
      exact absurd h.symm (by simpa using ne l' h2 hl')
  · by_cases hl' : l' = []
    · rw [hl'] at h
      exact absurd h (by simpa using ne l h1 hl)
    · have a1 := List.splitOn_intercalate (ls := l.map String.toList) '\n'
        (by simp only [List.mem_map]; rintro _ ⟨s, hs, rfl⟩; exact (h1 s hs).1) (by simpa using hl)
      have a2 := List.splitOn_intercalate (ls := l'.map String.toList) '\n'
        (by simp only [List.mem_map]; rintro _ ⟨s, hs, rfl⟩; exact (h2 s hs).1) (by simpa using hl')
      rw [h, a2] at a1
      exact (List.map_inj_right fun a b hab => String.toList_inj.1 hab).1 a1.symm

/-- C47. When the texts in the cards have no line breaks, the lines of the shown text tell
the cards: two texts are the same only if all indents, types and payloads are the same. -/
theorem showAll_injective {l l' : List ExtendedCard}
    (h1 : ∀ c ∈ l, ∀ s ∈ freeTexts showBits c.parserCard, OneLine s)
    (h2 : ∀ c ∈ l', ∀ s ∈ freeTexts showBits c.parserCard, OneLine s)
    (h : "\n".intercalate (l.map (·.show showBits)) = "\n".intercalate (l'.map (·.show showBits))) :
    l.map (fun c => (c.indent, c.parserCard.line showBits)) =
      l'.map (fun c => (c.indent, c.parserCard.line showBits)) := by
  have ne : ∀ c : ExtendedCard, c.show showBits ≠ "" := by
    intro c h0
    have := congrArg String.toList h0
    rw [show_toList] at this
    have h3 := (line_label (showBits := showBits) c.parserCard).1
    simp at this
    exact h3 (by simpa using this.2.1)
  replace h := intercalate_injective
    (by simp only [List.mem_map]; rintro _ ⟨c, hc, rfl⟩; exact ⟨(show_oneLine_iff c).2 (h1 c hc), ne c⟩)
    (by simp only [List.mem_map]; rintro _ ⟨c, hc, rfl⟩; exact ⟨(show_oneLine_iff c).2 (h2 c hc), ne c⟩) h
  clear h1 h2
  induction l generalizing l' with
  | nil =>
    cases l' with
    | nil => rfl
    | cons c l' => simp at h
  | cons c l ih =>
    cases l' with
    | nil => simp at h
    | cons c' l' =>
      simp only [List.map_cons, List.cons.injEq] at h
      obtain ⟨e1, e2⟩ := show_injective h.1
      simp only [List.map_cons, e1, e2, ih h.2]

/-- `show_with_docs` prints everything `show` prints, first. -/
theorem show_prefix (c : ExtendedCard) :
    (c.show showBits).toList <+: (c.showWithDocs showBits).toList := by
  have key : ∀ (a b : String), a.toList <+: (a ++ b).toList := fun a b => by
    rw [String.toList_append]; exact List.prefix_append _ _
  unfold ExtendedCard.showWithDocs
  simp only [String.toList_append]
  refine List.IsPrefix.trans ?_ (List.prefix_append _ _)
  split
  · rename_i len info he
    unfold ExtendedCard.show
    rw [he]
    simp only [ParserCard.line]
    split
    · exact List.prefix_refl _
    · simp only [readable, String.toList_append, List.append_assoc]
      simp only [List.prefix_append_right_inj]
      exact List.IsPrefix.trans (by decide) (List.prefix_append _ _)
  · rename_i hex text info he
    unfold ExtendedCard.show
    rw [he]
    cases text <;> simp only [ParserCard.line] <;> split
    · exact List.prefix_refl _
    · simp only [readable, String.toList_append, List.append_assoc, List.prefix_append_right_inj]
      exact List.prefix_append _ _
    · exact List.prefix_refl _
    · simp only [readable, String.toList_append, List.append_assoc, List.prefix_append_right_inj]
      exact List.prefix_append _ _
  · exact List.prefix_refl _

/-- Without type information there is nothing to add: `show_with_docs` is `show`. -/
theorem showWithDocs_eq (c : ExtendedCard) (h : c.infoFlat = [])
    (h1 : ∀ len info, c.parserCard = .sequenceAnnounced len info → info = [])
    (h2 : ∀ hex t info, c.parserCard = .sequenceU8 hex t info → info = []) :
    c.showWithDocs showBits = c.show showBits := by
  unfold ExtendedCard.showWithDocs
  rw [h]
  simp only [List.map_nil, String.join_nil, String.append_empty]
  split
  · rename_i len info he
    rw [h1 _ _ he]
    unfold ExtendedCard.show
    rw [he]
    simp [ParserCard.line, elementInfoPrinted]
  · rename_i hex text info he
    rw [h2 _ _ _ he]
    unfold ExtendedCard.show
    rw [he]
    cases text <;> simp [ParserCard.line, elementInfoPrinted]
  · rfl

theorem display_eq (i : InfoFlat) : i.display = infoText i := by
  obtain ⟨d, p⟩ := i
  cases d <;> cases p <;> rfl

theorem intercalate_join (s a : String) (l : List String) :
    s.intercalate (a :: l) = a ++ String.join (l.map fun b => s ++ b) := by
  apply String.toList_inj.1
  induction l generalizing a with
  | nil => simp
  | cons b l ih =>
    have e : (s.intercalate (a :: b :: l)).toList = a.toList ++ s.toList ++ (s.intercalate (b :: l)).toList := by
      simp [String.toList_intercalate, List.intercalate]
    rw [e, ih]
    simp

/-- C47. The text of `show_with_docs` is the text of `show`, the information on the elements of a
sequence, and one more line for each type the value went through, with its docs and its path, in
order. -/
theorem showWithDocs_text (c : ExtendedCard) :
    c.showWithDocs showBits = c.show showBits ++ elementText (elementInfo c.parserCard) ++
      String.join (c.infoFlat.map fun i => "\n" ++ indentation c.indent ++ infoText i) := by
  have key : ∀ l : List InfoFlat, (elementInfoPrinted l).isEmpty = true ∧ elementText l = "" ∨
      (elementInfoPrinted l).isEmpty = false ∧ elementText l = ", element info: [" ++ elementInfoPrinted l ++ "]" := by
    intro l
    cases l with
    | nil => exact .inl ⟨rfl, rfl⟩
    | cons i l =>
      right
      unfold elementInfoPrinted
      rw [List.map_cons, intercalate_join, display_eq, List.map_map]
      constructor
      · rw [← Bool.not_eq_true, String.isEmpty_iff, ← String.toList_inj]
        simp [infoText]
      · have e : ∀ a b c d : String, a ++ b ++ c ++ d = a ++ (b ++ c) ++ d := fun a b c d => by
          simp only [String.append_assoc]
        unfold elementText
        dsimp only
        rw [e]
        simp only [Function.comp_def, display_eq]
  unfold ExtendedCard.showWithDocs
  simp only [display_eq]
  congr 1
  split
  · rename_i len info he
    unfold ExtendedCard.show
    rw [he]
    simp only [ParserCard.line, elementInfo]
    rcases key info with ⟨k1, k2⟩ | ⟨k1, k2⟩ <;> rw [k2, k1]
    · simp [readable, String.append_assoc]
    · apply String.toList_inj.1
      simp [readable]
  · rename_i hex text info he
    unfold ExtendedCard.show
    rw [he]
    cases text <;> simp only [ParserCard.line, elementInfo] <;>
    rcases key info with ⟨k1, k2⟩ | ⟨k1, k2⟩ <;> rw [k2, k1] <;> simp [readable, String.append_assoc]
  · rename_i h1 h2
    have e : elementInfo c.parserCard = [] := by
      generalize c.parserCard = x at h1 h2
      unfold elementInfo
      split
      · exact absurd rfl (h1 _ _)
      · exact absurd rfl (h2 _ _ _)
      · rfl
    rw [e]
    exact (String.append_empty).symm

example : (⟨.bool true, 1, [⟨some "Doc.", none⟩, ⟨none, some "c::D"⟩]⟩ : ExtendedCard).showWithDocs showBits =
    "  Bool: true\n  (docs: Doc., path: None)\n  (docs: None, path: c::D)" := by
  rw [showWithDocs_text]
  have e : (⟨.bool true, 1, [⟨some "Doc.", none⟩, ⟨none, some "c::D"⟩]⟩ : ExtendedCard).show showBits = readable 1 "Bool" "true" := rfl
  rw [e]
  decide

/-- Example of a text with a line break that looks like two cards. -/
example : lineCount ((⟨.text "a\nBool: true", 0, []⟩ : ExtendedCard).show showBits) = 2 := by
  rw [show_lineCount]
  show 1 + breaks ["a\nBool: true"] = 2
  decide

/-- A struct with two texts. -/
def twoTexts (f g : String) : ED :=
  ⟨.composite [⟨some "f", none, "", ⟨.text f .none, []⟩⟩, ⟨some "g", none, "", ⟨.text g .none, []⟩⟩], []⟩

/-- C47, refutation without the hypothesis: two different values of one type are shown as
the same text. -/
theorem show_forged (P : Printers) (specs : ShortSpecs) (specName : String) (valid : Bool) :
    ∃ d d' : ED, edValue d ≠ edValue d' ∧
      (∃ f g f' g', d = twoTexts f g ∧ d' = twoTexts f' g') ∧
      d.show showBits P specs specName 0 valid = d'.show showBits P specs specName 0 valid := by
  refine ⟨twoTexts "x\n  Field Name: g\n    Text: y" "z", twoTexts "x" "y\n  Field Name: g\n    Text: z", ?_,
    ⟨_, _, _, _, rfl, rfl⟩, ?_⟩
  · simp [twoTexts, edValue, pdValue, fdsValue, fdValue, recordValue]
  · unfold ED.show
    simp only [twoTexts, ED.card, PD.card, cardFieldSet, FD.cardInSet, singleUnnamed, List.map]
    simp [ExtendedCard.show, ParserCard.line, readable]
    decide

end Verif
