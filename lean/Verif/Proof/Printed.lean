import Verif.Spec.Printed
import Verif.Spec.Shown
import Verif.Props.Show
/-!
# Displays as printed text
-/
namespace Verif
open Spec

variable {showBits : BitStore → BitOrder → List Bool → String}

/-! ### Lines of displays without texts -/

theorem show_ne_empty (c : ExtendedCard) : (c.show showBits).toList ≠ [] := by
  intro h
  rw [show_toList] at h
  have h3 := (line_label (showBits := showBits) c.parserCard).1
  simp at h
  exact h3 (by simpa using h.2.1)

/-- What is printed behind the first card. -/
def below (showBits : BitStore → BitOrder → List Bool → String) : List ExtendedCard → List Char
  | [] => []
  | c :: cs => '\n' :: (printout showBits (c :: cs)).toList

theorem printed_cons (c : ExtendedCard) (cs : List ExtendedCard) :
    (printout showBits (c :: cs)).toList = (c.show showBits).toList ++ below showBits cs := by
  unfold printout
  rw [String.toList_intercalate]
  cases cs with
  | nil => simp [below]
  | cons d cs =>
    rw [below, printout, String.toList_intercalate]
    simp [List.intercalate]

/-- Labels of cards with texts from the data. -/
theorem wordy_label {c c' : ParserCard} (h : (c.line showBits).1 = (c'.line showBits).1) (hc : Wordy c) : Wordy c' := by
  have key : ∀ c' : ParserCard, (c'.line showBits).1 = "Text" ∨ (c'.line showBits).1 = "Char" ∨ (c'.line showBits).1 = "Spec Name" → Wordy c' := by
    intro c' hc'
    cases c' with
    | era e => cases e <;> simp [ParserCard.line] at hc'
    | sequenceU8 hex t i => cases t <;> simp [ParserCard.line, Wordy] at hc' ⊢
    | bitVec s o l => revert hc'; cases s <;> cases o <;> simp [ParserCard.line, bitVecCardName]
    | raw k h => revert hc'; cases k <;> simp [ParserCard.line, FixedKind.cardName]
    | key k h => revert hc'; cases k <;> simp [ParserCard.line, FixedKind.cardName]
    | int w h => revert hc'; cases w <;> simp [ParserCard.line, IW.name]
    | uint w h => revert hc'; cases w <;> simp [ParserCard.line, UW.name]
    | perThing w h => revert hc'; cases w <;> simp [ParserCard.line, PerKind.name]
    | text => trivial
    | char => trivial
    | specName => trivial
    | _ => simp [ParserCard.line] at hc'
  refine key c' ?_
  rw [← h]
  cases c with
  | text => exact .inl rfl
  | char => exact .inr (.inl rfl)
  | specName => exact .inr (.inr rfl)
  | sequenceU8 hex t i => cases t with
    | none => cases hc
    | some => exact .inl rfl
  | _ => cases hc

theorem wordy_payload {c : ParserCard} (hc : Wordy c) : ∃ p, (c.line showBits).2 = some p := by
  cases c with
  | text => exact ⟨_, rfl⟩
  | char => exact ⟨_, rfl⟩
  | specName => exact ⟨_, rfl⟩
  | sequenceU8 hex t i => cases t with
    | none => cases hc
    | some => exact ⟨_, rfl⟩
  | _ => cases hc

theorem cut_at {x y r s : List Char} (hx : '\n' ∉ x) (hy : '\n' ∉ y) (hr : r = [] ∨ r.head? = some '\n') (hs : s = [] ∨ s.head? = some '\n')
    (h : x ++ r = y ++ s) : x = y ∧ r = s := by
  induction x generalizing y with
  | nil =>
    cases y with
    | nil => exact ⟨rfl, h⟩
    | cons a y =>
      rcases hr with rfl | hr
      · cases h
      · rw [List.nil_append] at h
        rw [h] at hr
        simp only [List.cons_append, List.head?_cons, Option.some.injEq] at hr
        exact absurd (by simp [hr]) hy
  | cons a x ih =>
    cases y with
    | nil =>
      rcases hs with rfl | hs
      · cases h
      · rw [List.nil_append] at h
        rw [← h] at hs
        simp only [List.cons_append, List.head?_cons, Option.some.injEq] at hs
        exact absurd (by simp [hs]) hx
    | cons b y =>
      simp only [List.cons_append, List.cons.injEq] at h
      obtain ⟨rfl, h⟩ := h
      obtain ⟨rfl, e⟩ := ih (by simp at hx; exact hx.2) (by simp at hy; exact hy.2) h
      exact ⟨rfl, e⟩

theorem below_head (cs : List ExtendedCard) : below showBits cs = [] ∨ (below showBits cs).head? = some '\n' := by
  cases cs with
  | nil => exact .inl rfl
  | cons => exact .inr rfl

/-- A text up to its first line break. -/
theorem first_line (l : List Char) : ∃ x r, l = x ++ r ∧ '\n' ∉ x ∧ (r = [] ∨ r.head? = some '\n') := by
  induction l with
  | nil => exact ⟨[], [], rfl, by simp, .inl rfl⟩
  | cons a l ih =>
    by_cases h : a = '\n'
    · exact ⟨[], a :: l, rfl, by simp, .inr (by simp [h])⟩
    · obtain ⟨x, r, rfl, h1, h2⟩ := ih
      exact ⟨a :: x, r, rfl, by simp [h1, Ne.symm h], h2⟩

/-- The first line of a card with a text is not the line of a card without one. -/
theorem wordy_apart {c c' : ExtendedCard} {x r : List Char} (hc : ¬ Wordy c.parserCard) (hc' : Wordy c'.parserCard)
    (h : (c'.show showBits).toList = x ++ r) (hx : '\n' ∉ x) (hr : r = [] ∨ r.head? = some '\n') (e : (c.show showBits).toList = x) : False := by
  obtain ⟨p, hp⟩ := wordy_payload (showBits := showBits) hc'
  obtain ⟨y, s, hy, h1, h2⟩ := first_line p.toList
  have hl := (nl_line (showBits := showBits) c'.parserCard).1
  rw [show_toList, hp] at h
  have e1 : List.replicate (2 * c'.indent) ' ' ++ ((c'.parserCard.line showBits).1.toList ++ afterLabel (some (String.ofList y))) ++ s =
      List.replicate (2 * c'.indent) ' ' ++ ((c'.parserCard.line showBits).1.toList ++ afterLabel (some p)) := by
    simp [afterLabel, hy]
  have h : List.replicate (2 * c'.indent) ' ' ++ ((c'.parserCard.line showBits).1.toList ++ afterLabel (some (String.ofList y))) ++ s = x ++ r := by
    rw [e1]; exact h
  obtain ⟨e2, -⟩ := cut_at (by
    simp only [List.mem_append, List.mem_replicate, afterLabel, List.mem_cons, String.toList_ofList, not_or]
    refine ⟨by simp, ?_, by decide, by decide, h1⟩
    rw [← List.count_eq_zero]; exact hl) hx h2 hr h
  rw [← e, show_toList] at e2
  obtain ⟨a1, a2, a3⟩ := line_label (showBits := showBits) c.parserCard
  obtain ⟨b1, b2, b3⟩ := line_label (showBits := showBits) c'.parserCard
  have hd : ∀ (x r : List Char), x ≠ [] → x.head? ≠ some ' ' → (x ++ r).head? ≠ some ' ' := by
    intro x r h1 h2
    cases x with
    | nil => exact absurd rfl h1
    | cons a x => simpa using h2
  obtain ⟨-, e3⟩ := strip_spaces (hd _ _ b1 b2) (hd _ _ a1 a2) e2
  obtain ⟨e4, -⟩ := label_unique b3 a3 e3
  exact hc (wordy_label (String.toList_inj.1 e4) hc')

/-- Card whose only line breaks are in texts from the data. -/
def Tidy (showBits : BitStore → BitOrder → List Bool → String) (c : ExtendedCard) : Prop :=
  Wordy c.parserCard ∨ ∀ s ∈ freeTexts showBits c.parserCard, OneLine s

theorem printed_lines {l l' : List ExtendedCard} (hw : Wordless l) (hl : ∀ c ∈ l, Tidy showBits c) (hl' : ∀ c ∈ l', Tidy showBits c)
    (h : printout showBits l = printout showBits l') :
    l.map (fun c => (c.indent, c.parserCard.line showBits)) = l'.map (fun c => (c.indent, c.parserCard.line showBits)) := by
  induction l generalizing l' with
  | nil =>
    cases l' with
    | nil => rfl
    | cons c' l' =>
      have h := congrArg String.toList h
      rw [printed_cons] at h
      exact absurd (List.append_eq_nil_iff.1 h.symm).1 (show_ne_empty c')
  | cons c l ih =>
    cases l' with
    | nil =>
      have h := congrArg String.toList h
      rw [printed_cons] at h
      exact absurd (List.append_eq_nil_iff.1 h).1 (show_ne_empty c)
    | cons c' l' =>
      have h := congrArg String.toList h
      rw [printed_cons, printed_cons] at h
      have hc : ¬ Wordy c.parserCard := hw c (by simp)
      have h1 : OneLine (c.show showBits) := (show_oneLine_iff c).2 ((hl c (by simp)).resolve_left hc)
      by_cases hc' : Wordy c'.parserCard
      · obtain ⟨x, r, e, hx, hr⟩ := first_line (c'.show showBits).toList
        rw [e, List.append_assoc] at h
        have hr' : r ++ below showBits l' = [] ∨ (r ++ below showBits l').head? = some '\n' := by
          rcases hr with rfl | hr
          · exact below_head l'
          · cases r with
            | nil => cases hr
            | cons => exact .inr hr
        exact (wordy_apart hc hc' e hx hr (cut_at h1 hx (below_head l) hr' h).1).elim
      · have h2 : OneLine (c'.show showBits) := (show_oneLine_iff c').2 ((hl' c' (by simp)).resolve_left hc')
        obtain ⟨e1, e2⟩ := cut_at h1 h2 (below_head l) (below_head l') h
        obtain ⟨e3, e4⟩ := show_injective (String.toList_inj.1 e1)
        have e5 : printout showBits l = printout showBits l' := by
          cases l with
          | nil => cases l' with
            | nil => rfl
            | cons => cases e2
          | cons => cases l' with
            | nil => cases e2
            | cons =>
              rw [below, below] at e2
              injection e2 with _ e2
              exact String.toList_inj.1 e2
        rw [List.map_cons, List.map_cons, e3, e4,
          ih (fun c hc => hw c (by simp [hc])) (fun c hc => hl c (by simp [hc])) (fun c hc => hl' c (by simp [hc])) e5]

/-! ### Cards of decoded data are tidy -/

theorem oneLine_append {a b : String} (ha : OneLine a) (hb : OneLine b) : OneLine (a ++ b) := by
  unfold OneLine at *
  rw [String.toList_append, List.mem_append, not_or]
  exact ⟨ha, hb⟩

theorem oneLine_nat (n : Nat) : OneLine (toString n) := List.count_eq_zero.1 (nl_toString n)

/-- Characters of a cut number: those of the number, and zeros. -/
def FromDigits (b : List Char) (o : Option CutNumber) : Prop := ∀ c, o = some c → ∀ x ∈ c.beforePoint ++ c.afterPoint.getD [], x ∈ b ∨ x = '0'

theorem fromDigits_none {b : List Char} : FromDigits b none := fun _ h => by cases h
theorem fromDigits_some {b : List Char} {c : CutNumber} (h : ∀ x ∈ c.beforePoint ++ c.afterPoint.getD [], x ∈ b ∨ x = '0') : FromDigits b (some c) :=
  fun _ e => by cases e; exact h
theorem fromDigits_bind {α : Type} {b : List Char} {o : Option α} {f : α → Option CutNumber} (h : ∀ a, o = some a → FromDigits b (f a)) :
    FromDigits b (o >>= f) := by
  cases o with
  | none => exact fromDigits_none
  | some a => exact h a rfl

theorem sliceTo_from {s t : List Char} {n : Nat} (h : sliceTo s n = some t) : ∀ x ∈ t, x ∈ s := by
  unfold sliceTo at h
  split at h
  · cases h; exact fun x hx => List.mem_of_mem_take hx
  · cases h
theorem sliceFrom_from {s t : List Char} {n : Nat} (h : sliceFrom s n = some t) : ∀ x ∈ t, x ∈ s := by
  unfold sliceFrom at h
  split at h
  · cases h; exact fun x hx => List.mem_of_mem_drop hx
  · cases h

theorem cutAt_from {b : List Char} {n : Nat} {m : Int} : FromDigits b (cutAt b n m) := by
  unfold cutAt
  refine fromDigits_bind fun k _ => fromDigits_bind fun x hx => fromDigits_bind fun y hy => fromDigits_some fun z hz => .inl ?_
  rcases List.mem_append.1 hz with hz | hz
  · exact sliceTo_from hx z hz
  · exact sliceFrom_from hy z hz

theorem assistFor_from {b : List Char} {d o : Nat} : FromDigits b (assistFor b d o) := by
  unfold assistFor
  refine fromDigits_bind fun _ _ => fromDigits_bind fun _ _ => fromDigits_bind fun _ _ => fromDigits_bind fun _ _ => ?_
  unfold assist
  refine fromDigits_some fun x hx => ?_
  simp only [Option.getD_some, List.mem_append, List.mem_singleton, List.mem_replicate] at hx
  rcases hx with h | ⟨_, h⟩ | h
  · exact .inr h
  · exact .inr h
  · exact .inl h

theorem whole_from {b : List Char} {m : Int} (l : List Char) (hl : ∀ x ∈ l, x = '0') : FromDigits b (some ⟨b ++ l, none, m⟩) :=
  fromDigits_some fun x hx => by
    simp only [Option.getD_none, List.append_nil, List.mem_append] at hx
    exact hx.imp_right (hl x)

theorem point_from {b l : List Char} {m : Int} (hl : ∀ x ∈ l, x = '0') : FromDigits b (some ⟨b, some l, m⟩) :=
  fromDigits_some fun x hx => by
    simp only [Option.getD_some, List.mem_append] at hx
    exact hx.imp_right (hl x)

theorem just_from {b : List Char} {m : Int} : FromDigits b (some ⟨b, none, m⟩) :=
  fromDigits_some fun x hx => (.inl (by simpa using hx))

theorem parts_from {b : List Char} {m : Int} {n n' : Nat} :
    FromDigits b (do let x ← sliceTo b n; let y ← sliceFrom b n'; some ⟨x, some y, m⟩) :=
  fromDigits_bind fun x hx => fromDigits_bind fun y hy => fromDigits_some fun z hz => .inl (by
    rcases List.mem_append.1 hz with hz | hz
    · exact sliceTo_from hx z hz
    · exact sliceFrom_from hy z hz)

theorem cutNumber_from {b : List Char} {d : Nat} : FromDigits b (cutNumber b d) := by
  unfold cutNumber
  refine fromDigits_bind fun order _ => ?_
  have zero : ∀ {k}, ∀ x ∈ List.replicate k '0', x = '0' := fun x hx => (List.mem_replicate.1 hx).2
  split
  · split
    · unfold cutZero
      refine fromDigits_bind fun m _ => ?_
      split
      · split
        · exact just_from
        · exact point_from (zero (k := 1))
        · exact point_from (zero (k := 2))
        · exact fromDigits_none
      · exact assistFor_from
    · unfold cutOne
      refine fromDigits_bind fun m _ => ?_
      split
      · split
        · exact just_from
        · exact fromDigits_bind fun _ _ => whole_from _ (zero (k := 2))
        · exact fromDigits_bind fun _ _ => whole_from _ (zero (k := 1))
        · exact fromDigits_none
      · exact assistFor_from
  · unfold cutTwo
    split
    · refine fromDigits_bind fun _ _ => fromDigits_bind fun _ _ => ?_
      split
      · refine fromDigits_bind fun _ _ => ?_
        split
        · exact parts_from
        · exact fromDigits_bind fun _ _ => whole_from _ (zero (k := 1))
        · exact just_from
        · exact fromDigits_none
      · exact assistFor_from
    · exact just_from
  · unfold cutThree
    split
    · refine fromDigits_bind fun _ _ => fromDigits_bind fun _ _ => ?_
      split
      · refine fromDigits_bind fun _ _ => ?_
        split
        · exact parts_from
        · exact just_from
        · exact parts_from
        · exact fromDigits_none
      · exact assistFor_from
    · split
      · exact just_from
      · exact parts_from
  · unfold cutMany
    split
    · refine fromDigits_bind fun _ _ => fromDigits_bind fun _ _ => ?_
      split
      · split
        · exact cutAt_from
        · exact fromDigits_bind fun _ _ => fromDigits_bind fun _ _ => cutAt_from
        · exact fromDigits_bind fun _ _ => fromDigits_bind fun _ _ => cutAt_from
        · exact fromDigits_none
      · exact assistFor_from
    · refine fromDigits_bind fun _ _ => fromDigits_bind fun _ _ => ?_
      split
      · exact fromDigits_bind fun _ _ => fromDigits_bind fun _ _ => cutAt_from
      · exact fromDigits_bind fun _ _ => fromDigits_bind fun _ _ => cutAt_from

theorem unitPrefix_oneLine {m : Int} {p : String} (h : unitPrefix m = some p) : OneLine p := by
  unfold unitPrefix at h
  split at h <;> cases h <;> (unfold OneLine; decide)

theorem currency_oneLine {v d : Nat} {unit : String} (hu : OneLine unit) : OneLine (currencyText (convertBalancePretty v d unit)) := by
  cases h : convertBalancePretty v d unit with
  | none => unfold OneLine currencyText; decide
  | some cur =>
    unfold convertBalancePretty convertBalanceString at h
    cases hc : cutNumber (Nat.toDigits 10 v) d with
    | none => rw [hc] at h; cases h
    | some c =>
      rw [hc] at h
      cases hp : unitPrefix c.mag with
      | none => simp [hp] at h
      | some p =>
        simp [hp] at h
        subst h
        unfold currencyText
        refine oneLine_append (oneLine_append ?_ (by unfold OneLine; decide)) (oneLine_append (unitPrefix_oneLine hp) hu)
        have hd : ∀ x ∈ c.beforePoint ++ c.afterPoint.getD [], x ≠ '\n' := by
          intro x hx e
          subst e
          rcases cutNumber_from c hc _ hx with h | h
          · exact absurd (isDigit_digits h) (by decide)
          · exact absurd h (by decide)
        unfold CutNumber.number OneLine
        cases ha : c.afterPoint with
        | none => rw [ha] at hd; simp at hd; simpa using fun h => hd _ h rfl
        | some y =>
          rw [ha] at hd
          simp only [Option.getD_some, List.mem_append] at hd
          simp only [String.toList_ofList, List.mem_append, List.mem_cons, not_or]
          exact ⟨fun h => hd _ (.inl h) rfl, by decide, fun h => hd _ (.inr h) rfl⟩

theorem hexEncode_oneLine (l : List Nat) : OneLine (hexEncode l) := by
  unfold OneLine hexEncode
  have hd : ∀ n, hexDigit n ≠ '\n' := by
    intro n
    by_cases h : n < 16
    · exact nl_hexDigit n h
    · unfold hexDigit Nat.digitChar
      repeat rw [if_neg (by omega)]
      decide
  rw [String.toList_ofList]
  simp only [List.mem_flatMap, not_exists, not_and, List.mem_cons, List.not_mem_nil, or_false, not_or]
  exact fun b _ => ⟨(hd _).symm, (hd _).symm⟩

variable {P : Printers} {specs : ShortSpecs} {specName : String} {R : Registry}

/-- A card without texts of its own is tidy. -/
theorem tidy_nil {c : ExtendedCard} (h : freeTexts showBits c.parserCard = []) : Tidy showBits c := .inr (by rw [h]; simp)

theorem tidy_one {c : ExtendedCard} {s : String} (h : freeTexts showBits c.parserCard = [s]) (hs : OneLine s) : Tidy showBits c :=
  .inr (by rw [h]; simpa using hs)

theorem sequenceU8_tidy {l : List Nat} {is : List InfoFlat} {i : Nat} {info : List InfoFlat} : Tidy showBits ⟨sequenceU8Card l is, i, info⟩ := by
  unfold sequenceU8Card
  cases stringFromUtf8 (natBytes l) with
  | none => exact tidy_one rfl (hexEncode_oneLine l)
  | some t => exact .inl trivial

theorem sequence_tidy {is : List Info} {s : Sequence} {info : List InfoFlat} {i : Nat} : ∀ c ∈ sequenceCards is s info i, Tidy showBits c := by
  unfold sequenceCards
  split
  · intro c hc
    obtain rfl := List.mem_singleton.1 hc
    exact sequenceU8_tidy
  · intro c hc
    rcases List.mem_cons.1 hc with rfl | hc
    · exact tidy_nil rfl
    · obtain ⟨v, -, rfl⟩ := List.mem_map.1 hc
      exact tidy_nil rfl
  · intro c hc
    rcases List.mem_cons.1 hc with rfl | hc
    · exact tidy_nil rfl
    · obtain ⟨v, -, rfl⟩ := List.mem_map.1 hc
      exact sequenceU8_tidy

theorem fieldSet_tidy {fields : List FD} {n i : Nat} {db : Bool} (hn : ∀ f ∈ fields, ∀ s, f.fieldName = some s → OneLine s)
    (h : ∀ f ∈ fields, ∀ info i db, ∀ c ∈ f.data.data.card P specs specName info i db, Tidy showBits c) :
    ∀ c ∈ cardFieldSet P specs specName fields n i db, Tidy showBits c := by
  induction fields generalizing n with
  | nil => intro c hc; rw [cardFieldSet] at hc; cases hc
  | cons f fields ih =>
    intro c hc
    rw [cardFieldSet, List.mem_append] at hc
    rcases hc with hc | hc
    · obtain ⟨fn, tn, docs, ⟨x, j⟩⟩ := f
      simp only [FD.cardInSet, ED.card] at hc
      rcases List.mem_cons.1 hc with rfl | hc
      · cases fn with
        | none => exact tidy_nil rfl
        | some s => exact tidy_one rfl (hn _ (List.mem_cons_self ..) s rfl)
      · exact h _ (List.mem_cons_self ..) _ _ _ c hc
    · exact ih (fun f hf => hn f (List.mem_cons_of_mem _ hf)) (fun f hf => h f (List.mem_cons_of_mem _ hf)) c hc

theorem firstUnnamed_tidy {fields : List FD} {info : List InfoFlat} {i : Nat} {db : Bool}
    (h : ∀ f ∈ fields, ∀ info i db, ∀ c ∈ f.data.data.card P specs specName info i db, Tidy showBits c) :
    ∀ c ∈ cardFirstUnnamed P specs specName fields info i db, Tidy showBits c := by
  cases fields with
  | nil => intro c hc; rw [cardFirstUnnamed] at hc; cases hc
  | cons f fields =>
    intro c hc
    obtain ⟨fn, tn, docs, ⟨x, j⟩⟩ := f
    rw [cardFirstUnnamed, FD.cardUnnamed] at hc
    exact h _ (List.mem_cons_self ..) _ _ _ c hc

theorem elements_tidy {l : List PD} {i : Nat} {db : Bool} (h : ∀ x ∈ l, ∀ info i db, ∀ c ∈ x.card P specs specName info i db, Tidy showBits c) :
    ∀ c ∈ cardElements P specs specName l i db, Tidy showBits c := by
  induction l with
  | nil => intro c hc; rw [cardElements] at hc; cases hc
  | cons x l ih =>
    intro c hc
    rw [cardElements, List.mem_append] at hc
    rcases hc with hc | hc
    · exact h x (List.mem_cons_self ..) _ _ _ c hc
    · exact ih (fun x hx => h x (List.mem_cons_of_mem _ hx)) c hc

theorem tuple_tidy {l : List ED} {i : Nat} {db : Bool} (h : ∀ x ∈ l, ∀ info i db, ∀ c ∈ x.data.card P specs specName info i db, Tidy showBits c) :
    ∀ c ∈ cardTuple P specs specName l i db, Tidy showBits c := by
  induction l with
  | nil => intro c hc; rw [cardTuple] at hc; cases hc
  | cons x l ih =>
    intro c hc
    rw [cardTuple, List.mem_append] at hc
    rcases hc with hc | hc
    · obtain ⟨y, j⟩ := x
      rw [ED.card] at hc
      exact h _ (List.mem_cons_self ..) _ _ _ c hc
    · exact ih (fun x hx => h x (List.mem_cons_of_mem _ hx)) c hc

theorem zip_snd {α β : Type} : ∀ {l : List α} {m : List β}, m.length = l.length → ∀ y ∈ m, ∃ x, (x, y) ∈ l.zip m
  | [], [], _, _, h => by cases h
  | a :: l, b :: m, e, y, h => by
    rcases List.mem_cons.1 h with rfl | h
    · exact ⟨a, by simp⟩
    · obtain ⟨x, hx⟩ := zip_snd (l := l) (by simpa using e) y h
      exact ⟨x, by simp [hx]⟩
  | [], _ :: _, e, _, _ => by cases e

/-- Cards of a rightly annotated tree have line breaks only in texts from the data. -/
theorem shown_tidy (hn : UnbrokenNames R) (F : UnbrokenPrinters P specs specName showBits) {h : Hint} {is : List Info} {id : Nat} {d : ED}
    (a : Shown R h is id d) : ∀ info i db, ∀ c ∈ d.data.card P specs specName info i db, Tidy showBits c := by
  have names : ∀ {fields : List Field} {ds : List FD}, UnbrokenFields fields → ds.length = fields.length →
      (∀ x ∈ fields.zip ds, x.2.fieldName = x.1.name ∧ x.2.typeName = x.1.typeName ∧ x.2.fieldDocs = lines x.1.docs) →
      ∀ f ∈ ds, ∀ s, f.fieldName = some s → OneLine s := by
    intro fields ds hf hl hx f hfm s hs
    obtain ⟨g, hg⟩ := zip_snd hl f hfm
    exact hf g (List.of_mem_zip hg).1 s ((hx _ hg).1.symm.trans hs)
  have fields_tidy : ∀ {fields : List Field} {ds : List FD} {info : List InfoFlat} {i : Nat} {db : Bool}, UnbrokenFields fields →
      ds.length = fields.length →
      (∀ x ∈ fields.zip ds, x.2.fieldName = x.1.name ∧ x.2.typeName = x.1.typeName ∧ x.2.fieldDocs = lines x.1.docs) →
      (∀ x ∈ fields.zip ds, ∀ info i db, ∀ c ∈ x.2.data.data.card P specs specName info i db, Tidy showBits c) →
      (∀ c ∈ cardFirstUnnamed P specs specName ds info i db, Tidy showBits c) ∧
      (∀ c ∈ cardFieldSet P specs specName ds 0 i db, Tidy showBits c) := by
    intro fields ds info i db hf hl hx ih
    have ih' : ∀ f ∈ ds, ∀ info i db, ∀ c ∈ f.data.data.card P specs specName info i db, Tidy showBits c := by
      intro f hfm
      obtain ⟨g, hg⟩ := zip_snd hl f hfm
      exact ih _ hg
    exact ⟨firstUnnamed_tidy ih', fieldSet_tidy (names hf hl hx) ih'⟩
  have single : ∀ {c : ExtendedCard}, Tidy showBits c → ∀ c' ∈ [c], Tidy showBits c' := fun h c' hc' => by
    obtain rfl := List.mem_singleton.1 hc'; exact h
  have fixed : ∀ (k : FixedKind) (bs : Bytes) (i : Nat) (info : List InfoFlat), Tidy showBits ⟨fixedCard P specs k bs, i, info⟩ := by
    intro k bs i info
    cases k <;> first | exact tidy_nil rfl | exact tidy_one rfl (F.base58 _ _)
  induction a with
  | fixed => intro info i db; rw [PD.card]; exact single (fixed _ _ _ _)
  | hash =>
    intro info i db
    unfold labelledHash
    dsimp only
    split
    · rw [PD.card]; exact single (tidy_nil rfl)
    · split <;> rw [PD.card] <;> exact single (tidy_nil rfl)
  | era => intro info i db; rw [PD.card]; exact single (tidy_nil rfl)
  | per => intro info i db; rw [PD.card]; exact single (tidy_nil rfl)
  | struct r s e l n sh ih =>
    intro info i db
    rw [PD.card]
    split
    · intro c hc; cases hc
    · obtain ⟨h1, h2⟩ := fields_tidy (info := info) (i := i) (db := db) ((hn _ _ r).1 _ e) l n ih
      obtain ⟨-, h3⟩ := fields_tidy (info := info) (i := i + 1) (db := db) ((hn _ _ r).1 _ e) l n ih
      split
      · exact h1
      · intro c hc
        rcases List.mem_cons.1 hc with rfl | hc
        · exact tidy_nil rfl
        · exact h3 c hc
  | never => intro info i db; rw [PD.card]; exact single (tidy_nil rfl)
  | variant r s e m l n sh ih =>
    intro info i db c hc
    rw [PD.card] at hc
    obtain ⟨hv, hf⟩ := (hn _ _ r).2 _ e _ m
    obtain ⟨h1, h2⟩ := fields_tidy (info := []) (i := i + 2) (db := db) hf l n ih
    rcases List.mem_cons.1 hc with rfl | hc
    · exact tidy_nil rfl
    rcases List.mem_cons.1 hc with rfl | hc
    · exact tidy_one rfl hv
    split at hc
    · exact h1 c hc
    · exact h2 c hc
  | signature => intro info i db; rw [PD.card]; exact single (fixed _ _ _ _)
  | @pallet h is id t t' vs inner wv v f item ds r sp e m hf rt st dt mv l n sh ih =>
    intro info i db c hc
    simp only [PD.card] at hc
    obtain ⟨hv, hvf⟩ := (hn _ _ rt).2 _ dt _ mv
    obtain ⟨h1, h2⟩ := fields_tidy (info := []) (i := i + 2) (db := isBalanceDisplay wv.name) hvf l n ih
    rcases List.mem_cons.1 hc with rfl | hc
    · exact tidy_one rfl ((hn _ _ r).2 _ e _ m).1
    rcases List.mem_cons.1 hc with rfl | hc
    · cases item <;> exact tidy_one rfl hv
    split at hc
    · exact h1 c hc
    · exact h2 c hc
  | list r s e p sh nc ih =>
    intro info i db c hc
    rw [PD.card] at hc
    rcases List.mem_cons.1 hc with rfl | hc
    · exact tidy_nil rfl
    · refine elements_tidy ?_ c hc
      intro x hx
      obtain ⟨y, hy, rfl⟩ := List.mem_map.1 hx
      exact ih y hy
  | collected => intro info i db; rw [PD.card]; exact sequence_tidy
  | @tuple h is id t ids ds r s e l res sh ih =>
    intro info i db
    rw [PD.card]
    split
    · intro c hc; cases hc
    · intro c hc
      rcases List.mem_cons.1 hc with rfl | hc
      · exact tidy_nil rfl
      · refine tuple_tidy ?_ c hc
        intro x hx
        obtain ⟨y, hy⟩ := zip_snd l x hx
        obtain ⟨u, hu⟩ := res y (List.of_mem_zip hy).1
        exact ih _ hy u hu
  | @uint h is id t p w v r s e iu =>
    intro info i db
    rw [PD.card]
    refine single ?_
    unfold specialtyCard
    cases uintLabel h with
    | none => exact tidy_nil rfl
    | balance =>
      dsimp only
      split
      · exact tidy_one rfl (currency_oneLine F.unit)
      · exact tidy_one rfl (oneLine_nat _)
    | tip => exact tidy_one rfl (currency_oneLine F.unit)
    | tipAsset => exact tidy_one rfl (oneLine_nat _)
    | nonce => exact tidy_one rfl (oneLine_nat _)
    | specVersion =>
      refine .inr ?_
      simp only [freeTexts, List.forall_mem_cons, List.not_mem_nil, false_implies, implies_true, and_true]
      exact ⟨F.chain, oneLine_nat _⟩
    | txVersion => exact tidy_one rfl (oneLine_nat _)
  | @text h is id t s r st e =>
    intro info i db
    generalize textLabel h = sp
    cases sp <;> simp only [PD.card] <;> exact single (.inl trivial)
  | bool => intro info i db; rw [PD.card]; exact single (tidy_nil rfl)
  | char => intro info i db; rw [PD.card]; exact single (.inl trivial)
  | u256 => intro info i db; rw [PD.card]; exact single (tidy_nil rfl)
  | int => intro info i db; rw [PD.card]; exact single (tidy_nil rfl)
  | compact r s e _ ih => exact ih
  | bits => intro info i db; rw [PD.card]; exact single (tidy_one rfl (F.bits _ _ _))

end Verif
