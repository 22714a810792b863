import Verif.Proof.Printed
import Verif.Proof.Legible
import Verif.Props.Cards
/-!
# A display without line breaks in its texts is told by its printed text

The lines of a display are those of a forest: every card is followed by deeper cards, then by the rest. If a text with line breaks
takes the place of the rest, then what is left for the rest is too short.
-/
namespace Verif
open Spec

variable {showBits : BitStore → BitOrder → List Bool → String} {P : Printers} {specs : ShortSpecs} {specName : String} {R : Registry}

/-! ### Printed cards -/

section
variable (showBits)

/-- Cards as text, a line break before each. -/
def typed (l : List ExtendedCard) : List Char := l.flatMap fun c => '\n' :: (c.show showBits).toList

/-- The card is one line. -/
def Clean (c : ExtendedCard) : Prop := '\n' ∉ (c.show showBits).toList

/-- `l`, without line breaks in its cards, is printed like `l'`, with line breaks in texts only. -/
structure Printed (l l' : List ExtendedCard) : Prop where
  clean : ∀ c ∈ l, Clean showBits c
  tidy : ∀ c ∈ l', Tidy showBits c
  same : typed showBits l = typed showBits l'

/-- No part behind some first cards of `l` is printed like `l'`. -/
def Late (l l' : List ExtendedCard) : Prop := ∀ x y, l = x ++ y → typed showBits y = typed showBits l' → x = []
end

theorem typed_append (a b : List ExtendedCard) : typed showBits (a ++ b) = typed showBits a ++ typed showBits b := List.flatMap_append

theorem typed_cons (c : ExtendedCard) (b : List ExtendedCard) :
    typed showBits (c :: b) = '\n' :: ((c.show showBits).toList ++ typed showBits b) := rfl

theorem typed_head (l : List ExtendedCard) : typed showBits l = [] ∨ (typed showBits l).head? = some '\n' := by
  cases l with
  | nil => exact .inl rfl
  | cons => exact .inr rfl

theorem typed_nil {l : List ExtendedCard} (h : typed showBits l = []) : l = [] := by
  cases l with
  | nil => rfl
  | cons => cases h

/-- A part that begins with a line break begins with a card. -/
theorem typed_split {l : List ExtendedCard} (hc : ∀ c ∈ l, Clean showBits c) {j z : List Char} (h : typed showBits l = j ++ '\n' :: z) :
    ∃ x y, l = x ++ y ∧ typed showBits x = j ∧ typed showBits y = '\n' :: z := by
  induction l generalizing j with
  | nil => cases j <;> cases h
  | cons c l ih =>
    cases j with
    | nil => exact ⟨[], c :: l, rfl, rfl, h⟩
    | cons a j =>
      rw [typed_cons, List.cons_append, List.cons.injEq] at h
      obtain ⟨rfl, h⟩ := h
      have hcc : '\n' ∉ (c.show showBits).toList := hc c (List.mem_cons_self ..)
      rcases List.append_eq_append_iff.1 h with ⟨k, h1, h2⟩ | ⟨k, h1, h2⟩
      · obtain ⟨x, y, rfl, h3, h4⟩ := ih (fun c h => hc c (List.mem_cons_of_mem _ h)) h2
        exact ⟨c :: x, y, rfl, by rw [typed_cons, h3, h1], h4⟩
      · cases k with
        | nil =>
          obtain ⟨x, y, rfl, h3, h4⟩ := ih (j := []) (fun c h => hc c (List.mem_cons_of_mem _ h)) h2.symm
          refine ⟨c :: x, y, rfl, ?_, h4⟩
          rw [typed_cons, h3, h1]
          simp
        | cons b k =>
          simp only [List.cons_append, List.cons.injEq] at h2
          exact absurd (by rw [h1, ← h2.1]; simp) hcc

theorem line_of_show {c c' : ExtendedCard} (h : (c.show showBits).toList = (c'.show showBits).toList) :
    c.parserCard.line showBits = c'.parserCard.line showBits := (show_injective (String.toList_inj.1 h)).2

/-- A tidy card without text is a line. -/
theorem tidy_clean {c : ExtendedCard} (h : Tidy showBits c) (hw : ¬ Wordy c.parserCard) : Clean showBits c :=
  (show_oneLine_iff c).2 (h.resolve_left hw)

/-- The first cards of both, if they are not both texts. -/
theorem Printed.head {c c' : ExtendedCard} {l l' : List ExtendedCard} (h : Printed showBits (c :: l) (c' :: l'))
    (hw : ¬ (Wordy c.parserCard ∧ Wordy c'.parserCard)) :
    c.parserCard.line showBits = c'.parserCard.line showBits ∧ Printed showBits l l' := by
  obtain ⟨h1, h2, h3⟩ := h
  rw [typed_cons, typed_cons, List.cons.injEq] at h3
  replace h3 := h3.2
  have hc : '\n' ∉ (c.show showBits).toList := h1 c (List.mem_cons_self ..)
  have main : Clean showBits c' → c.parserCard.line showBits = c'.parserCard.line showBits ∧ Printed showBits l l' := by
    intro hc'
    obtain ⟨e1, e2⟩ := cut_at hc hc' (typed_head l) (typed_head l') h3
    exact ⟨line_of_show e1, fun c h => h1 c (List.mem_cons_of_mem _ h), fun c h => h2 c (List.mem_cons_of_mem _ h), e2⟩
  by_cases w : Wordy c'.parserCard
  · exfalso
    have w' : ¬ Wordy c.parserCard := fun w' => hw ⟨w', w⟩
    obtain ⟨x, r, e, hx, hr⟩ := first_line (c'.show showBits).toList
    rw [e, List.append_assoc] at h3
    have hr' : r ++ typed showBits l' = [] ∨ (r ++ typed showBits l').head? = some '\n' := by
      rcases hr with rfl | hr
      · exact typed_head l'
      · cases r with
        | nil => cases hr
        | cons => exact .inr hr
    obtain ⟨e1, -⟩ := cut_at hc hx (typed_head l) hr' h3
    exact wordy_apart w' w e hx hr e1
  · exact main (tidy_clean (h2 c' (List.mem_cons_self ..)) w)

/-- The first cards of both, if what follows is long enough. -/
theorem Printed.leaf {c c' : ExtendedCard} {l l' : List ExtendedCard} (h : Printed showBits (c :: l) (c' :: l')) (hl : Late showBits l l') :
    c.parserCard.line showBits = c'.parserCard.line showBits ∧ Printed showBits l l' := by
  obtain ⟨h1, h2, h3⟩ := h
  rw [typed_cons, typed_cons, List.cons.injEq] at h3
  replace h3 := h3.2
  have hc : '\n' ∉ (c.show showBits).toList := h1 c (List.mem_cons_self ..)
  have hcl : ∀ c ∈ l, Clean showBits c := fun c h => h1 c (List.mem_cons_of_mem _ h)
  obtain ⟨x, r, e, hx, hr⟩ := first_line (c'.show showBits).toList
  rw [e, List.append_assoc] at h3
  have hr' : r ++ typed showBits l' = [] ∨ (r ++ typed showBits l').head? = some '\n' := by
    rcases hr with rfl | hr
    · exact typed_head l'
    · cases r with
      | nil => cases hr
      | cons => exact .inr hr
  obtain ⟨e1, e2⟩ := cut_at hc hx (typed_head l) hr' h3
  have hr0 : r = [] := by
    cases hl' : l' with
    | nil =>
      subst hl'
      have := hl l [] (by simp) rfl
      subst this
      simpa [typed] using e2.symm
    | cons a l'' =>
      rw [hl', typed_cons] at e2
      obtain ⟨y, z, rfl, h4, h5⟩ := typed_split hcl e2
      have := hl y z rfl (by rw [h5, hl', typed_cons])
      subst this
      exact h4.symm
  subst hr0
  rw [List.append_nil] at e
  exact ⟨line_of_show (by rw [e1, e]), hcl, fun c h => h2 c (List.mem_cons_of_mem _ h), e2⟩

/-- Nothing, or a card followed by deeper ones. -/
def Tall (i : Nat) (l : List ExtendedCard) : Prop := l = [] ∨ ∃ c cs, l = c :: cs ∧ c.indent = i ∧ ∀ x ∈ cs, i < x.indent

theorem Late.append {l l' a a' : List ExtendedCard} {i : Nat} (h : Late showBits l l') (hc : ∀ c ∈ a ++ l, Clean showBits c)
    (ha : Tall i a) (ha' : Tall i a') (he : a' = [] → a = []) : Late showBits (a ++ l) (a' ++ l') := by
  rcases ha' with rfl | ⟨b, bs, rfl, hb, -⟩
  · rw [he rfl]; exact h
  have late : ∀ x y, l = x ++ y → typed showBits y ≠ typed showBits (b :: bs ++ l') := by
    rintro x y rfl e
    have hy : ∀ c ∈ y, Clean showBits c := fun c h => hc c (by simp [h])
    cases l' with
    | nil =>
      have := h (x ++ y) [] (by simp) rfl
      have : y = [] := (List.append_eq_nil_iff.1 this).2
      subst this
      cases e
    | cons d l' =>
      rw [typed_append, typed_cons d] at e
      obtain ⟨y1, y2, rfl, h3, h4⟩ := typed_split hy e
      have := h (x ++ y1) y2 (by simp) (by rw [h4, typed_cons])
      have : y1 = [] := (List.append_eq_nil_iff.1 this).2
      subst this
      cases h3
  intro x y e e'
  rcases ha with rfl | ⟨c, cs, rfl, hi, hcs⟩
  · exact absurd e' (late x y e)
  cases x with
  | nil => rfl
  | cons x0 x =>
    exfalso
    rw [List.cons_append, List.cons_append, List.cons.injEq] at e
    replace e := e.2
    rcases List.append_eq_append_iff.1 e with ⟨k, h1, h2⟩ | ⟨k, h1, h2⟩
    · exact late k y h2 e'
    · cases k with
      | nil => exact late [] y (by simpa using h2.symm) e'
      | cons z k =>
        have hz := hcs z (by rw [h1]; simp)
        have hzc : '\n' ∉ (z.show showBits).toList := hc z (by rw [h1]; simp)
        rw [h2, List.cons_append, List.cons_append, typed_cons, typed_cons, List.cons.injEq] at e'
        replace e' := e'.2
        obtain ⟨x1, r, e1, hx, hr⟩ := first_line (b.show showBits).toList
        have : z.indent = b.indent := by
          rw [show_toList, show_toList] at e'
          obtain ⟨a1, a2, -⟩ := line_label (showBits := showBits) z.parserCard
          obtain ⟨b1, b2, -⟩ := line_label (showBits := showBits) b.parserCard
          have hd : ∀ (x r : List Char), x ≠ [] → x.head? ≠ some ' ' → (x ++ r).head? ≠ some ' ' := by
            intro x r h1 h2
            cases x with
            | nil => exact absurd rfl h1
            | cons a x => simpa using h2
          rw [List.append_assoc, List.append_assoc, List.append_assoc, List.append_assoc] at e'
          have := (strip_spaces (hd _ _ a1 a2) (hd _ _ b1 b2) e').1
          omega
        omega

/-! ### Shape of the cards of data -/

theorem drawn_one {valid : Bool} {d : PD} {above : List InfoFlat} {ts : List Tree} (h : Drawn P specs specName valid d above ts) :
    ts.length ≤ 1 := by
  match h with
  | .newtype h => exact drawn_one h
  | .leaf _ => simp
  | .unitStruct => simp
  | .unitTuple => simp
  | .struct .. => simp
  | .tuple .. => simp
  | .list .. => simp
  | .uints .. => simp
  | .byteStrings .. => simp
  | .variant .. => simp
  | .call .. => simp
  | .event .. => simp

theorem tall_of_trees {i : Nat} {ts : List Tree} (h : ts.length ≤ 1) : Tall i (listTrees i ts) := by
  match ts, h with
  | [], _ => exact .inl rfl
  | [.node c info b], _ =>
    refine .inr ⟨⟨c, i, info⟩, listTrees (i + 1) b, by simp [listTrees, Tree.list], rfl, ?_⟩
    exact fun x hx => (trees_indented b (i + 1)).least x hx

theorem data_tall (hd : specs.decimals < 256) (d : PD) (h : Ranged (pdValue d)) (info : List InfoFlat) (i : Nat) (db : Bool) :
    Tall i (d.card P specs specName info i db) := by
  obtain ⟨ts, h1, h2⟩ := pd_drawn (P := P) (specName := specName) hd d db info h
  rw [h2]
  exact tall_of_trees (drawn_one h1)

theorem Late.many {i : Nat} {l l' : List ExtendedCard} (h : Late showBits l l') : ∀ {xs ys : List (List ExtendedCard)}, xs.length = ys.length →
    (∀ x ∈ xs, Tall i x) → (∀ y ∈ ys, Tall i y) → (∀ p ∈ xs.zip ys, p.2 = [] → p.1 = []) → (∀ c ∈ xs.flatten ++ l, Clean showBits c) →
    Late showBits (xs.flatten ++ l) (ys.flatten ++ l')
  | [], [], _, _, _, _, _ => h
  | x :: xs, y :: ys, hl, hx, hy, he, hc => by
    simp only [List.flatten_cons, List.append_assoc] at hc ⊢
    simp only [List.zip_cons_cons, List.forall_mem_cons] at hx hy he
    refine Late.append (Late.many h (by simpa using hl) hx.2 hy.2 he.2 fun c m => hc c ?_) hc hx.1 hy.1 he.1
    exact List.mem_append_right _ m
  | [], _ :: _, hl, _, _, _, _ => by simp at hl
  | _ :: _, [], hl, _, _, _, _ => by simp at hl

theorem sequenceCards_ne {is : List Info} {s : Sequence} {info : List InfoFlat} {i : Nat} : sequenceCards is s info i ≠ [] := by
  unfold sequenceCards
  split <;> simp

/-- Whether anything is drawn depends on the type only. -/
theorem empty_same {h' : Hint} {is' : List Info} {id : Nat} {d' : ED} (b : Shown R h' is' id d') :
    ∀ {h : Hint} {is : List Info} {d : ED}, Shown R h is id d → ∀ {info info' : List InfoFlat} {i i' : Nat} {db : Bool},
      d'.data.card P specs specName info' i' db = [] → d.data.card P specs specName info i db = [] := by
  induction b with
  | @compact h is id t inner d r s e _ ih =>
    intro h is d a info info' i i' db hc
    exact ih (shown_compact a r s e) hc
  | @struct h is id t fields ds r s e l n sh ih =>
    intro h is d a info info' i i' db hc
    obtain ⟨ds', f', hd'⟩ := inv_struct a r s e
    rw [hd']
    have f : FieldsShown R (fun f => first (handed fields.length h) (fieldLabel f)) fields ds' := f'
    rw [PD.card] at hc ⊢
    match ds, ds', fields, l, n, f.length, f.texts, f.shown, ih with
    | [], [], _, _, _, _, _, _, _ => rfl
    | [], _ :: _, [], _, _, h, _, _, _ => simp at h
    | _ :: _, _, [], h, _, _, _, _, _ => simp at h
    | _ :: _, [], _ :: _, _, _, h, _, _, _ => simp at h
    | _ :: _ :: _, _ :: _, [_], h, _, _, _, _, _ => simp at h
    | _ :: _ :: _, _, _ :: _ :: _, _, _, _, _, _, _ => simp [singleUnnamed] at hc
    | [x], _ :: _ :: _, [_], _, _, h, _, _, _ => simp at h
    | [x], [y], [g], _, t1, _, t2, s2, ih =>
      simp only [List.zip_cons_cons, List.zip_nil_right, List.mem_singleton, forall_eq] at t1 t2 s2 ih
      obtain ⟨xn, xt, xd, ⟨x, xi⟩⟩ := x
      obtain ⟨yn, yt, yd, ⟨y, yi⟩⟩ := y
      obtain ⟨q1, -, -⟩ := t1
      obtain ⟨q2, -, -⟩ := t2
      simp only at q1 q2
      subst q1 q2
      cases hg : g.name with
      | some => simp [singleUnnamed, hg] at hc
      | none =>
        simp only [singleUnnamed, hg, Option.isNone_none, List.isEmpty_cons, Bool.false_eq_true, if_false, if_true, cardFirstUnnamed,
          FD.cardUnnamed] at hc ⊢
        exact ih s2 hc
    | [x], _ , _ :: _ :: _, h, _, _, _, _, _ => simp at h
  | @tuple h is id t ids ds r s e l rs sh ih =>
    intro h is d a info info' i i' db hc
    obtain ⟨ds', l', sh', hd'⟩ := inv_tuple a r s e
    rw [hd']
    rw [PD.card] at hc ⊢
    cases ds with
    | cons => simp at hc
    | nil =>
      cases ds' with
      | nil => rfl
      | cons => have := l'.trans l.symm; simp at this
  | list => intro h is d a info info' i i' db hc; simp [PD.card] at hc
  | collected => intro h is d a info info' i i' db hc; simp only [PD.card] at hc; exact absurd hc sequenceCards_ne
  | hash =>
    intro h is d a info info' i i' db hc
    unfold labelledHash at hc
    dsimp only at hc
    split at hc
    · simp [PD.card] at hc
    · split at hc <;> simp [PD.card] at hc
  | text =>
    intro h is d a info info' i i' db hc
    dsimp only at hc
    generalize textLabel _ = sp at hc
    cases sp <;> simp [PD.card] at hc
  | _ => intro h is d a info info' i i' db hc; simp [PD.card] at hc

/-! ### The printed text tells the tree -/

section
variable (P specs specName showBits)

/-- The printed text of `d`, without line breaks in its texts, tells `d`, among trees of its type. -/
def Told (R : Registry) (h : Hint) (id : Nat) (d : ED) : Prop :=
  ∀ (is' : List Info) (d' : ED), Shown R h is' id d' → Ranged (edValue d) → Ranged (edValue d') →
    ∀ (info info' : List InfoFlat) (i : Nat) (db : Bool) (rest rest' : List ExtendedCard),
      Printed showBits (d.data.card P specs specName info i db ++ rest) (d'.data.card P specs specName info' i db ++ rest') →
      Late showBits rest rest' → d.data = d'.data ∧ Printed showBits rest rest'
end

theorem ed_tall (hd : specs.decimals < 256) {d : ED} (h : Ranged (edValue d)) {info : List InfoFlat} {i : Nat} {db : Bool} :
    Tall i (d.data.card P specs specName info i db) := data_tall hd d.data (by rw [← edValue_eq]; exact h) info i db

theorem cardInSet_tall (hd : specs.decimals < 256) {f : FD} (h : Ranged (edValue f.data)) {n i : Nat} {db : Bool} :
    Tall i (f.cardInSet P specs specName n i db) := by
  obtain ⟨fn, tn, docs, ⟨x, j⟩⟩ := f
  simp only [FD.cardInSet, ED.card]
  refine .inr ⟨_, _, rfl, rfl, fun c hc => ?_⟩
  rcases ed_tall (P := P) (specName := specName) hd h (info := j.map Info.flatten) (i := i + 1) (db := db) with e | ⟨c0, cs, e, e1, e2⟩
  · simp only at e; rw [e] at hc; cases hc
  · simp only at e
    rw [e] at hc
    rcases List.mem_cons.1 hc with rfl | hc
    · omega
    · have := e2 c hc; omega

theorem late_fieldSet (hd : specs.decimals < 256) {i : Nat} {db : Bool} {l l' : List ExtendedCard} (h : Late showBits l l') :
    ∀ {ds ds' : List FD} {n : Nat}, ds.length = ds'.length → (∀ d ∈ ds, Ranged (edValue d.data)) → (∀ d ∈ ds', Ranged (edValue d.data)) →
      (∀ c ∈ cardFieldSet P specs specName ds n i db ++ l, Clean showBits c) →
      Late showBits (cardFieldSet P specs specName ds n i db ++ l) (cardFieldSet P specs specName ds' n i db ++ l')
  | [], [], _, _, _, _, _ => by simpa [cardFieldSet] using h
  | d :: ds, d' :: ds', n, hl, g, g', hc => by
    simp only [cardFieldSet, List.append_assoc] at hc ⊢
    simp only [List.forall_mem_cons] at g g'
    refine Late.append (late_fieldSet hd h (by simpa using hl) g.2 g'.2 fun c m => hc c (List.mem_append_right _ m)) hc
      (cardInSet_tall hd g.1) (cardInSet_tall hd g'.1) ?_
    intro e
    obtain ⟨fn, tn, docs, ⟨x, j⟩⟩ := d'
    simp [FD.cardInSet] at e
  | [], _ :: _, _, hl, _, _, _ => by simp at hl
  | _ :: _, [], _, hl, _, _, _ => by simp at hl

theorem fieldHead_plain (o : Option String) (n : Nat) : ¬ Wordy (match o with | some a => .fieldName a | none => .fieldNumber n) := by
  cases o <;> exact fun h => h

/-- Fields of one list are told by their lines. -/
theorem fieldSet_told (hd : specs.decimals < 256) {lab : Field → Hint} {fields : List Field} {ds ds' : List FD}
    (a : FieldsShown R lab fields ds) (b : FieldsShown R lab fields ds')
    (ih : ∀ x ∈ fields.zip ds, Told showBits P specs specName R (lab x.1) x.1.ty x.2.data)
    (g : ∀ d ∈ ds, Ranged (edValue d.data)) (g' : ∀ d ∈ ds', Ranged (edValue d.data))
    {n i : Nat} {db : Bool} {rest rest' : List ExtendedCard}
    (h : Printed showBits (cardFieldSet P specs specName ds n i db ++ rest) (cardFieldSet P specs specName ds' n i db ++ rest'))
    (hl : Late showBits rest rest') : ds = ds' ∧ Printed showBits rest rest' := by
  obtain ⟨a1, a2, a3⟩ := a
  obtain ⟨b1, b2, b3⟩ := b
  induction fields generalizing ds ds' n with
  | nil =>
    cases List.eq_nil_of_length_eq_zero a1
    cases List.eq_nil_of_length_eq_zero b1
    exact ⟨rfl, by simpa [cardFieldSet] using h⟩
  | cons f fields ihf =>
    cases ds with
    | nil => simp at a1
    | cons d ds =>
      cases ds' with
      | nil => simp at b1
      | cons d' ds' =>
        simp only [List.length_cons, Nat.add_right_cancel_iff] at a1 b1
        simp only [List.zip_cons_cons, List.mem_cons, forall_eq_or_imp] at a2 a3 b2 b3 ih g g'
        obtain ⟨dn, dt, dd, ⟨x, xi⟩⟩ := d
        obtain ⟨dn', dt', dd', ⟨x', xi'⟩⟩ := d'
        obtain ⟨⟨q1, q2, q3⟩, a2⟩ := a2
        obtain ⟨⟨q1', q2', q3'⟩, b2⟩ := b2
        simp only at q1 q2 q3 q1' q2' q3'
        subst q1 q2 q3 q1' q2' q3'
        simp only [cardFieldSet, FD.cardInSet, ED.card, List.cons_append, List.append_assoc] at h
        obtain ⟨-, h⟩ := h.head (fun hw => fieldHead_plain _ _ hw.1)
        have late := late_fieldSet (P := P) (specName := specName) (showBits := showBits) hd (i := i) (db := db) hl (n := n + 1) (a1.trans b1.symm) g.2 g'.2
          (fun c m => h.clean c (List.mem_append_right _ m))
        obtain ⟨e1, e2⟩ := ih.1 _ _ b3.1 g.1 g'.1 _ _ _ _ _ _ h late
        obtain ⟨e3, e4⟩ := ihf ih.2 g.2 g'.2 e2 a1 a2 a3.2 b1 b2 b3.2
        have e5 := shown_info a3.1 b3.1
        simp only at e1 e5
        subst e1 e3 e5
        exact ⟨rfl, e4⟩

/-- Fields, also a single one. -/
theorem fields_told (hd : specs.decimals < 256) {lab : Field → Hint} {fields : List Field} {ds ds' : List FD}
    (a : FieldsShown R lab fields ds) (b : FieldsShown R lab fields ds')
    (ih : ∀ x ∈ fields.zip ds, Told showBits P specs specName R (lab x.1) x.1.ty x.2.data)
    (g : ∀ d ∈ ds, Ranged (edValue d.data)) (g' : ∀ d ∈ ds', Ranged (edValue d.data))
    {n i j : Nat} {db : Bool} {info info' : List InfoFlat} {rest rest' : List ExtendedCard}
    (h : Printed showBits ((if singleUnnamed ds then cardFirstUnnamed P specs specName ds info j db
          else cardFieldSet P specs specName ds n i db) ++ rest)
      ((if singleUnnamed ds' then cardFirstUnnamed P specs specName ds' info' j db
          else cardFieldSet P specs specName ds' n i db) ++ rest')) (hl : Late showBits rest rest') : ds = ds' ∧ Printed showBits rest rest' := by
  rw [← singleUnnamed_eq a b] at h
  split at h
  · rename_i hs
    have hs' := hs
    rw [singleUnnamed_eq a b] at hs'
    obtain ⟨a1, a2, a3⟩ := a
    obtain ⟨b1, b2, b3⟩ := b
    obtain ⟨⟨dn, dt, dd, ⟨x, xi⟩⟩, rfl⟩ := singleUnnamed_one hs
    obtain ⟨⟨dn', dt', dd', ⟨x', xi'⟩⟩, rfl⟩ := singleUnnamed_one hs'
    match fields with
    | [] => simp at a1
    | _ :: _ :: _ => simp at a1
    | [f] =>
      simp only [List.zip_cons_cons, List.zip_nil_right, List.mem_singleton, forall_eq] at a2 a3 b2 b3 ih g g'
      obtain ⟨q1, q2, q3⟩ := a2
      obtain ⟨q1', q2', q3'⟩ := b2
      subst q1 q2 q3 q1' q2' q3'
      simp only [cardFirstUnnamed, FD.cardUnnamed] at h
      obtain ⟨e1, e2⟩ := ih _ _ b3 g g' _ _ _ _ _ _ h hl
      have e5 := shown_info a3 b3
      simp only at e1 e5
      subst e1 e5
      exact ⟨rfl, e2⟩
  · exact fieldSet_told hd a b ih g g' h hl

theorem late_tuple (hd : specs.decimals < 256) {i : Nat} {db : Bool} {l l' : List ExtendedCard} {lab : Typ → Hint} (h : Late showBits l l') :
    ∀ {ids : List Nat} {ds ds' : List ED}, (∀ i ∈ ids, ∃ u, R.resolve i = .ok u) → ds.length = ids.length → ds'.length = ids.length →
      (∀ x ∈ ids.zip ds, ∀ u, R.resolve x.1 = .ok u → Shown R (lab u) [] x.1 x.2) →
      (∀ x ∈ ids.zip ds', ∀ u, R.resolve x.1 = .ok u → Shown R (lab u) [] x.1 x.2) →
      (∀ d ∈ ds, Ranged (edValue d)) → (∀ d ∈ ds', Ranged (edValue d)) →
      (∀ c ∈ cardTuple P specs specName ds i db ++ l, Clean showBits c) →
      Late showBits (cardTuple P specs specName ds i db ++ l) (cardTuple P specs specName ds' i db ++ l')
  | [], [], [], _, _, _, _, _, _, _, _ => by simpa [cardTuple] using h
  | k :: ids, d :: ds, d' :: ds', r, l1, l2, s1, s2, g, g', hc => by
    simp only [List.zip_cons_cons, List.forall_mem_cons] at r s1 s2 g g'
    obtain ⟨⟨u, hu⟩, r⟩ := r
    obtain ⟨x, xi⟩ := d
    obtain ⟨x', xi'⟩ := d'
    simp only [cardTuple, ED.card, List.append_assoc] at hc ⊢
    exact Late.append (late_tuple hd h r (by simpa using l1) (by simpa using l2) s1.2 s2.2 g.2 g'.2 fun c m => hc c (List.mem_append_right _ m)) hc
      (ed_tall hd g.1) (ed_tall hd g'.1) (fun e => empty_same (s2.1 u hu) (s1.1 u hu) e)
  | [], _ :: _, _, _, l1, _, _, _, _, _, _ => by simp at l1
  | [], [], _ :: _, _, _, l2, _, _, _, _, _ => by simp at l2
  | _ :: _, [], _, _, l1, _, _, _, _, _, _ => by simp at l1
  | _ :: _, _ :: _, [], _, _, l2, _, _, _, _, _ => by simp at l2

theorem tuple_told (hd : specs.decimals < 256) {lab : Typ → Hint} {ids : List Nat} {ds ds' : List ED}
    (r : ∀ i ∈ ids, ∃ u, R.resolve i = .ok u)
    (a1 : ds.length = ids.length) (b1 : ds'.length = ids.length)
    (a3 : ∀ x ∈ ids.zip ds, ∀ u, R.resolve x.1 = .ok u → Shown R (lab u) [] x.1 x.2)
    (b3 : ∀ x ∈ ids.zip ds', ∀ u, R.resolve x.1 = .ok u → Shown R (lab u) [] x.1 x.2)
    (ih : ∀ x ∈ ids.zip ds, ∀ u, R.resolve x.1 = .ok u → Told showBits P specs specName R (lab u) x.1 x.2)
    (g : ∀ d ∈ ds, Ranged (edValue d)) (g' : ∀ d ∈ ds', Ranged (edValue d))
    {i : Nat} {db : Bool} {rest rest' : List ExtendedCard}
    (h : Printed showBits (cardTuple P specs specName ds i db ++ rest) (cardTuple P specs specName ds' i db ++ rest'))
    (hl : Late showBits rest rest') : ds = ds' ∧ Printed showBits rest rest' := by
  induction ids generalizing ds ds' with
  | nil =>
    cases List.eq_nil_of_length_eq_zero a1
    cases List.eq_nil_of_length_eq_zero b1
    exact ⟨rfl, by simpa [cardTuple] using h⟩
  | cons f fields ihf =>
    cases ds with
    | nil => simp at a1
    | cons d ds =>
      cases ds' with
      | nil => simp at b1
      | cons d' ds' =>
        simp only [List.length_cons, Nat.add_right_cancel_iff] at a1 b1
        simp only [List.zip_cons_cons, List.mem_cons, forall_eq_or_imp] at a3 b3 ih g g' r
        obtain ⟨⟨u, hu⟩, r⟩ := r
        obtain ⟨x, xi⟩ := d
        obtain ⟨x', xi'⟩ := d'
        simp only [cardTuple, ED.card, List.append_assoc] at h
        have late := late_tuple (P := P) (specName := specName) (showBits := showBits) hd (i := i) (db := db) hl r a1 b1 a3.2 b3.2 g.2 g'.2
          (fun c m => h.clean c (List.mem_append_right _ m))
        obtain ⟨e1, e2⟩ := ih.1 u hu _ _ (b3.1 u hu) g.1 g'.1 _ _ _ _ _ _ h late
        obtain ⟨e3, e4⟩ := ihf r a1 b1 a3.2 b3.2 ih.2 g.2 g'.2 e2
        have e5 := shown_info (a3.1 u hu) (b3.1 u hu)
        simp only at e1 e5
        subst e1 e3 e5
        exact ⟨rfl, e4⟩

theorem elements_flatten {l : List PD} {i : Nat} {db : Bool} :
    cardElements P specs specName l i db = (l.map fun d => d.card P specs specName [] i db).flatten := by
  induction l with
  | nil => rw [cardElements]; rfl
  | cons d l ih => rw [cardElements, ih]; rfl

theorem elements_told (hd : specs.decimals < 256) {h : Hint} {core : Nat} {es es' : List ED} (l : es.length = es'.length)
    (a : ∀ e ∈ es, Shown R h [] core e) (b : ∀ e ∈ es', Shown R h [] core e)
    (ih : ∀ e ∈ es, Told showBits P specs specName R h core e)
    (g : ∀ d ∈ es, Ranged (edValue d)) (g' : ∀ d ∈ es', Ranged (edValue d))
    {i : Nat} {db : Bool} {rest rest' : List ExtendedCard}
    (e : Printed showBits (cardElements P specs specName (es.map (·.data)) i db ++ rest)
      (cardElements P specs specName (es'.map (·.data)) i db ++ rest')) (hl : Late showBits rest rest') :
    es.map (·.data) = es'.map (·.data) ∧ Printed showBits rest rest' := by
  induction es generalizing es' with
  | nil =>
    cases es' with
    | nil => exact ⟨rfl, by simpa [cardElements] using e⟩
    | cons => simp at l
  | cons d es ihe =>
    cases es' with
    | nil => simp at l
    | cons d' es' =>
      simp only [List.length_cons, Nat.add_right_cancel_iff] at l
      simp only [List.mem_cons, forall_eq_or_imp] at a b ih g g'
      simp only [List.map_cons, cardElements, List.append_assoc] at e
      have late : Late showBits (cardElements P specs specName (es.map (·.data)) i db ++ rest)
          (cardElements P specs specName (es'.map (·.data)) i db ++ rest') := by
        have hc := fun c m => e.clean c (List.mem_append_right _ m)
        rw [elements_flatten] at hc
        rw [elements_flatten, elements_flatten]
        refine Late.many hl (i := i) (by simpa using l) ?_ ?_ ?_ hc
        · intro x hx
          simp only [List.map_map, List.mem_map] at hx
          obtain ⟨y, hy, rfl⟩ := hx
          exact ed_tall hd (g.2 y hy)
        · intro x hx
          simp only [List.map_map, List.mem_map] at hx
          obtain ⟨y, hy, rfl⟩ := hx
          exact ed_tall hd (g'.2 y hy)
        · intro p hp hp'
          rw [List.map_map, List.map_map, List.zip_map, List.mem_map] at hp
          obtain ⟨q, hq, rfl⟩ := hp
          obtain ⟨h1, h2⟩ := List.of_mem_zip hq
          exact empty_same (b.2 _ h2) (a.2 _ h1) hp'
      obtain ⟨e1, e2⟩ := ih.1 _ _ b.1 g.1 g'.1 _ _ _ _ _ _ e late
      obtain ⟨e3, e4⟩ := ihe l a.2 b.2 ih.2 g.2 g'.2 e2
      exact ⟨by simp [e1, e3], e4⟩

theorem u8_show_info {a : List Nat} {k k' : List InfoFlat} {i : Nat} {info : List InfoFlat} :
    ((⟨sequenceU8Card a k, i, info⟩ : ExtendedCard).show showBits) = (⟨sequenceU8Card a k', i, info⟩ : ExtendedCard).show showBits := by
  unfold sequenceU8Card
  cases stringFromUtf8 (natBytes a) <;> rfl

theorem tidy_info {a : List Nat} {k k' : List InfoFlat} {i : Nat} {info : List InfoFlat}
    (h : Tidy showBits ⟨sequenceU8Card a k, i, info⟩) : Tidy showBits ⟨sequenceU8Card a k', i, info⟩ := by
  revert h
  unfold sequenceU8Card
  cases stringFromUtf8 (natBytes a) <;> exact fun h => h

/-- The ways to draw a list, as cards. -/
inductive CardForm (P : Printers) (specs : ShortSpecs) (specName : String) (is : List Info) (ds : List PD) : Prop
  | plain : (∀ (l : List (List Nat)) (i : List Info), ¬ Collected ds (.vecU8 l i)) → (∀ info i db, ∃ j,
      (listData is ds).card P specs specName info i db =
        ⟨.sequenceAnnounced ds.length j, i, info⟩ :: cardElements P specs specName ds (i + 1) db) → CardForm P specs specName is ds
  | bytes (l : List Nat) : ds = l.map (fun v => .uint .u8 v .none) → (∀ info i db, ∃ j,
      (listData is ds).card P specs specName info i db = [⟨sequenceU8Card l j, i, info⟩]) → CardForm P specs specName is ds
  | many (l : List (List Nat)) (a : List Nat) (j : List Info) : Collected ds (.vecU8 l j) →
      ds.length = l.length → l.head? = some a →
      ds.head? = some (.sequence j (.uints .u8 a)) → (∀ info i db, ∃ k k',
      (listData is ds).card P specs specName info i db =
        ⟨.sequenceAnnounced ds.length k, i, info⟩ :: l.map fun x => ⟨sequenceU8Card x k', i + 1, []⟩) → CardForm P specs specName is ds

theorem cardForm (is : List Info) (ds : List PD) : CardForm P specs specName is ds := by
  cases hw : wrapSequence ds with
  | none =>
    refine .plain (fun l i c => ?_) fun info i db => ?_
    · rw [collected_iff.2 c] at hw; cases hw
    · simp only [listData, hw, PD.card]; exact ⟨_, rfl⟩
  | some s =>
    have c := collected_iff.1 hw
    cases c with
    | @uints w l hl =>
      by_cases h8 : w = .u8
      · subst h8
        refine .bytes l rfl fun info i db => ?_
        simp only [listData, hw, PD.card, sequenceCards]
        exact ⟨_, rfl⟩
      · refine .plain (fun l' i c' => ?_) fun info i db => ?_
        · exact absurd (collected_unique c' (.uints hl)) (by simp)
        · have e : (l.map fun v => (⟨.uint w v, i + 1, []⟩ : ExtendedCard)) =
              cardElements P specs specName (l.map fun v => .uint w v .none) (i + 1) db := by
            clear hl hw
            induction l with
            | nil => simp [cardElements]
            | cons v l ih => simp only [List.map_cons, cardElements, PD.card, specialtyCard,
                List.cons_append, List.nil_append, ih]
          cases w <;> first | exact absurd rfl h8 | skip
          all_goals
            simp only [listData, hw, PD.card, sequenceCards, List.length_map]
            rw [e]; exact ⟨_, rfl⟩
    | @bytes j l ds hh hl hz =>
      obtain ⟨a, ha⟩ := hh
      have c : Collected ds (.vecU8 l j) := .bytes ⟨a, ha⟩ hl hz
      cases ds with
      | nil => cases ha
      | cons d ds =>
        cases l with
        | nil => simp at hl
        | cons a' l =>
          have := hz (d, a') (by simp)
          simp only [List.head?_cons, Option.some.injEq] at ha
          subst ha
          have e : a' = a := by
            rcases this with h | ⟨_, h, _⟩
            · simp at h; exact h.symm
            · cases h
          subst e
          refine .many (a' :: l) a' j c hl rfl rfl fun info i db => ?_
          simp only [listData, hw, PD.card, sequenceCards, hl]
          exact ⟨_, _, rfl⟩

theorem singles_flatten (l : List ExtendedCard) : l = (l.map fun c => [c]).flatten := by
  induction l with
  | nil => rfl
  | cons c l ih => rw [List.map_cons, List.flatten_cons, ← ih]; rfl

theorem tall_singles {i : Nat} {l : List ExtendedCard} (h : ∀ c ∈ l, c.indent = i) : ∀ x ∈ l.map (fun c => [c]), Tall i x := by
  intro x hx
  obtain ⟨c, hc, rfl⟩ := List.mem_map.1 hx
  exact .inr ⟨c, [], rfl, h c hc, by simp⟩

theorem tall_elements (hd : specs.decimals < 256) {es : List ED} (g : ∀ d ∈ es, Ranged (edValue d)) {i : Nat} {db : Bool} :
    ∀ x ∈ (es.map (·.data)).map (fun d => d.card P specs specName [] i db), Tall i x := by
  intro x hx
  simp only [List.map_map, List.mem_map] at hx
  obtain ⟨y, hy, rfl⟩ := hx
  exact ed_tall hd (g y hy)

theorem u8s_told {l l' : List (List Nat)} (g : ∀ x ∈ l, ∀ b ∈ x, b < 256) (g' : ∀ x ∈ l', ∀ b ∈ x, b < 256)
    (e : l.length = l'.length) {i : Nat} {k k' : List InfoFlat} {rest rest' : List ExtendedCard}
    (h : Printed showBits ((l.map fun x => (⟨sequenceU8Card x k, i, []⟩ : ExtendedCard)) ++ rest)
      ((l'.map fun x => (⟨sequenceU8Card x k', i, []⟩ : ExtendedCard)) ++ rest')) (hl : Late showBits rest rest') :
    l = l' ∧ Printed showBits rest rest' := by
  induction l generalizing l' with
  | nil =>
    cases l' with
    | nil => exact ⟨rfl, by simpa using h⟩
    | cons => simp at e
  | cons a l ih =>
    cases l' with
    | nil => simp at e
    | cons a' l' =>
      simp only [List.map_cons, List.cons_append, List.length_cons, Nat.add_right_cancel_iff,
        List.mem_cons, forall_eq_or_imp] at h e g g'
      have late : Late showBits ((l.map fun x => (⟨sequenceU8Card x k, i, []⟩ : ExtendedCard)) ++ rest)
          ((l'.map fun x => (⟨sequenceU8Card x k', i, []⟩ : ExtendedCard)) ++ rest') := by
        have hc := fun c m => h.clean c (List.mem_cons_of_mem _ m)
        rw [singles_flatten (l.map _)] at hc ⊢
        rw [singles_flatten (l'.map _)]
        refine Late.many hl (i := i) (by simpa using e) (tall_singles (by simp)) (tall_singles (by simp)) ?_ hc
        intro p hp e0
        have := (List.of_mem_zip hp).2
        simp only [List.map_map, List.mem_map] at this
        obtain ⟨_, _, h⟩ := this
        rw [e0] at h; cases h
      obtain ⟨h1, h2⟩ := h.leaf late
      obtain ⟨e1, e2⟩ := ih g.2 g'.2 e h2
      rw [sequenceU8_inj g.1 g'.1 h1, e1]
      exact ⟨rfl, e2⟩

theorem announced_plain {n : Nat} {j : List InfoFlat} {q : Prop} : ¬ (Wordy (.sequenceAnnounced n j) ∧ q) := fun h => h.1
theorem announced_plain' {n : Nat} {j : List InfoFlat} {q : Prop} : ¬ (q ∧ Wordy (.sequenceAnnounced n j)) := fun h => h.2

theorem list_told (hd : specs.decimals < 256) {h : Hint} {core : Nat} {is : List Info} {es es' : List ED}
    (a : ∀ e ∈ es, Shown R h [] core e) (b : ∀ e ∈ es', Shown R h [] core e)
    (ih : ∀ e ∈ es, Told showBits P specs specName R h core e)
    (g : Ranged (pdValue (listData is (es.map (·.data))))) (g' : Ranged (pdValue (listData is (es'.map (·.data)))))
    {info info' : List InfoFlat} {i : Nat} {db : Bool} {rest rest' : List ExtendedCard}
    (e : Printed showBits ((listData is (es.map (·.data))).card P specs specName info i db ++ rest)
      ((listData is (es'.map (·.data))).card P specs specName info' i db ++ rest')) (hl : Late showBits rest rest') :
    listData is (es.map (·.data)) = listData is (es'.map (·.data)) ∧ Printed showBits rest rest' := by
  have q := listData_ranged g
  have q' := listData_ranged g'
  have p : ∀ d ∈ es, Ranged (edValue d) := fun d hd => by
    rw [edValue_eq]; exact q _ (List.mem_map_of_mem hd)
  have p' : ∀ d ∈ es', Ranged (edValue d) := fun d hd => by
    rw [edValue_eq]; exact q' _ (List.mem_map_of_mem hd)
  cases cardForm (P := P) (specs := specs) (specName := specName) is (es.map (·.data)) with
  | plain n1 l1 =>
    obtain ⟨j1, l1⟩ := l1 info i db
    cases cardForm (P := P) (specs := specs) (specName := specName) is (es'.map (·.data)) with
    | plain n2 l2 =>
      obtain ⟨j2, l2⟩ := l2 info' i db
      rw [l1, l2, List.cons_append, List.cons_append] at e
      have k1 := (e.head announced_plain).1
      replace e := (e.head announced_plain).2
      obtain ⟨e1, e2⟩ := elements_told hd (by simpa using announced_inj k1) a b ih p p' e hl
      rw [e1]; exact ⟨rfl, e2⟩
    | bytes l' m2 l2 =>
      obtain ⟨j2, l2⟩ := l2 info' i db
      rw [l1, l2, List.cons_append, List.cons_append] at e
      exact absurd (e.head announced_plain).1 u8_not_announced
    | many l' a' j c2 n2 h2 h3 l2 =>
      exfalso
      obtain ⟨j2, j3, l2⟩ := l2 info' i db
      rw [l1, l2, List.cons_append, List.cons_append] at e
      have k1 := (e.head announced_plain).1
      replace e := (e.head announced_plain).2
      have el := announced_inj k1
      cases l' with
      | nil => cases h2
      | cons x l' =>
        cases h2
        cases es' with
        | nil => cases h3
        | cons d' es' =>
          cases es with
          | nil => simp at el
          | cons d es =>
            simp only [List.map_cons, List.head?_cons, Option.some.injEq] at h3
            simp only [List.map_cons, List.length_cons, List.length_map, Nat.add_right_cancel_iff] at el n2
            simp only [List.map_cons, cardElements, List.append_assoc, List.cons_append] at e
            have hc := fun c m => e.clean c (List.mem_append_right _ m)
            have late : Late showBits (cardElements P specs specName (es.map (·.data)) (i + 1) db ++ rest)
                ((l'.map fun x => (⟨sequenceU8Card x j3, i + 1, []⟩ : ExtendedCard)) ++ rest') := by
              rw [elements_flatten] at hc ⊢
              rw [singles_flatten (l'.map _)]
              refine Late.many hl (i := i + 1) (by simp only [List.length_map]; omega) (tall_elements hd fun y hy => p y (by simp [hy]))
                (tall_singles (by simp)) ?_ hc
              intro p hp e0
              have := (List.of_mem_zip hp).2
              simp only [List.map_map, List.mem_map] at this
              obtain ⟨_, _, h⟩ := this
              rw [e0] at h; cases h
            have hu : d'.data.card P specs specName [] (i + 1) db = [⟨sequenceU8Card a' (j.map Info.flatten), i + 1, []⟩] := by
              rw [h3]; simp only [PD.card, sequenceCards]
            have e' : Printed showBits (d.data.card P specs specName [] (i + 1) db ++ (cardElements P specs specName (es.map (·.data)) (i + 1) db ++ rest))
                (d'.data.card P specs specName [] (i + 1) db ++
                  ((l'.map fun x => (⟨sequenceU8Card x j3, i + 1, []⟩ : ExtendedCard)) ++ rest')) := by
              refine ⟨e.clean, ?_, ?_⟩
              · rw [hu]
                intro c hc
                rcases List.mem_cons.1 hc with rfl | hc
                · have := e.tidy _ (List.mem_cons_self ..)
                  exact tidy_info this
                · exact e.tidy c (List.mem_cons_of_mem _ hc)
              · rw [hu, e.same, List.cons_append, typed_cons, typed_cons]
                simp only [List.nil_append]
                rw [u8_show_info]
            have := (ih d (by simp) _ _ (b d' (by simp)) (p d (by simp)) (p' d' (by simp)) _ _ _ _ _ _ e' late).1
            obtain ⟨l'', hc⟩ := bytes_collected a rfl (this.trans h3)
            exact n1 _ _ hc
  | bytes l m2 l1 =>
    obtain ⟨j1, l1⟩ := l1 info i db
    cases cardForm (P := P) (specs := specs) (specName := specName) is (es'.map (·.data)) with
    | plain n2 l2 =>
      obtain ⟨j2, l2⟩ := l2 info' i db
      rw [l1, l2, List.cons_append, List.cons_append] at e
      exact absurd (e.head announced_plain').1.symm u8_not_announced
    | bytes l' m2' l2 =>
      obtain ⟨j2, l2⟩ := l2 info' i db
      rw [l1, l2, List.cons_append, List.cons_append] at e
      obtain ⟨e1, e2⟩ := e.leaf (by simpa using hl)
      rw [m2] at q ⊢
      rw [m2'] at q' ⊢
      rw [sequenceU8_inj (u8s_ranged q) (u8s_ranged q') e1]
      exact ⟨rfl, by simpa using e2⟩
    | many l' a' j c2 n2 h2 h3 l2 =>
      obtain ⟨j2, j3, l2⟩ := l2 info' i db
      rw [l1, l2, List.cons_append, List.cons_append] at e
      exact absurd (e.head announced_plain').1.symm u8_not_announced
  | many l a0 j c1 n1 h1 h1' l1 =>
    obtain ⟨j1, j1', l1⟩ := l1 info i db
    have x1 : listData is (es.map (·.data)) = .sequence is (.vecU8 l j) := (listData_eq (.inr ⟨_, c1, rfl⟩)).symm
    cases cardForm (P := P) (specs := specs) (specName := specName) is (es'.map (·.data)) with
    | plain n2 l2 =>
      exfalso
      obtain ⟨j2, l2⟩ := l2 info' i db
      rw [l1, l2, List.cons_append, List.cons_append] at e
      have k1 := (e.head announced_plain).1
      replace e := (e.head announced_plain).2
      have el := announced_inj k1
      cases l with
      | nil => cases h1
      | cons x l =>
        cases h1
        cases es with
        | nil => cases h1'
        | cons d es =>
          cases es' with
          | nil => simp at el
          | cons d' es' =>
            simp only [List.map_cons, List.head?_cons, Option.some.injEq] at h1'
            simp only [List.map_cons, List.length_cons, List.length_map, Nat.add_right_cancel_iff] at el n1
            simp only [List.map_cons, cardElements, List.append_assoc, List.cons_append] at e
            have hc := fun c m => e.clean c (List.mem_cons_of_mem _ m)
            have late : Late showBits ((l.map fun x => (⟨sequenceU8Card x j1', i + 1, []⟩ : ExtendedCard)) ++ rest)
                (cardElements P specs specName (es'.map (·.data)) (i + 1) db ++ rest') := by
              rw [singles_flatten (l.map _)] at hc ⊢
              rw [elements_flatten]
              refine Late.many hl (i := i + 1) (by simp only [List.length_map]; omega) (tall_singles (by simp))
                (tall_elements hd fun y hy => p' y (by simp [hy])) ?_ hc
              intro p hp e0
              exfalso
              have := (List.of_mem_zip hp).2
              simp only [List.map_map, List.mem_map] at this
              obtain ⟨y, hy, h⟩ := this
              rw [e0] at h
              have := empty_same (P := P) (specs := specs) (specName := specName) (b y (by simp [hy])) (a d (by simp)) (info := []) (i := 0) (db := db) h
              rw [h1', PD.card] at this
              exact sequenceCards_ne this
            have hu : d.data.card P specs specName [] (i + 1) db = [⟨sequenceU8Card a0 (j.map Info.flatten), i + 1, []⟩] := by
              rw [h1']; simp only [PD.card, sequenceCards]
            have e' : Printed showBits (d.data.card P specs specName [] (i + 1) db ++
                  ((l.map fun x => (⟨sequenceU8Card x j1', i + 1, []⟩ : ExtendedCard)) ++ rest))
                (d'.data.card P specs specName [] (i + 1) db ++ (cardElements P specs specName (es'.map (·.data)) (i + 1) db ++ rest')) := by
              refine ⟨?_, e.tidy, ?_⟩
              · rw [hu]
                intro c hc
                rcases List.mem_cons.1 hc with rfl | hc
                · have := e.clean _ (List.mem_cons_self ..)
                  unfold Clean at this ⊢
                  rw [u8_show_info (k' := j1')]
                  exact this
                · exact e.clean c (List.mem_cons_of_mem _ hc)
              · rw [hu, ← e.same, List.cons_append, typed_cons, typed_cons]
                simp only [List.nil_append]
                rw [u8_show_info]
            have := (ih d (by simp) _ _ (b d' (by simp)) (p d (by simp)) (p' d' (by simp)) _ _ _ _ _ _ e' late).1
            obtain ⟨l'', hc⟩ := bytes_collected b rfl (this.symm.trans h1')
            exact n2 _ _ hc
    | bytes l' m2' l2 =>
      obtain ⟨j2, l2⟩ := l2 info' i db
      rw [l1, l2, List.cons_append, List.cons_append] at e
      exact absurd (e.head announced_plain).1 u8_not_announced
    | many l' a' j' c2 n2 h2 h3 l2 =>
      obtain ⟨j2, j2', l2⟩ := l2 info' i db
      rw [l1, l2, List.cons_append, List.cons_append] at e
      have x2 : listData is (es'.map (·.data)) = .sequence is (.vecU8 l' j') := (listData_eq (.inr ⟨_, c2, rfl⟩)).symm
      have k1 := (e.head announced_plain).1
      replace e := (e.head announced_plain).2
      have el := announced_inj k1
      rw [x1] at g
      rw [x2] at g'
      obtain ⟨e1, e2⟩ := u8s_told (bytes_ranged g) (bytes_ranged g') (by omega) e hl
      have ej : j = j' := by
        cases es with
        | nil => cases h1'
        | cons d es =>
          cases es' with
          | nil => cases h3
          | cons d' es' =>
            simp only [List.map_cons, List.head?_cons, Option.some.injEq] at h1' h3
            rcases bytes_stay (a d (by simp)) h1' (b d' (by simp)) with ⟨_, k⟩ | k
            · rw [h3] at k; cases k; rfl
            · rw [h3] at k; cases k
      rw [x1, x2, e1, ej]
      exact ⟨rfl, e2⟩

/-- A single card. -/
theorem one_card {c c' : ExtendedCard} {rest rest' : List ExtendedCard} (h : Printed showBits ([c] ++ rest) ([c'] ++ rest'))
    (hl : Late showBits rest rest') :
    c.parserCard.line showBits = c'.parserCard.line showBits ∧ Printed showBits rest rest' := by
  rw [List.singleton_append, List.singleton_append] at h
  exact h.leaf hl

theorem fixed_plain {P : Printers} {specs : ShortSpecs} {k : FixedKind} {bs : Bytes} (q : Prop) : ¬ (Wordy (fixedCard P specs k bs) ∧ q) := by
  cases k <;> exact fun h => h.1

theorem enum_told (hd8 : specs.decimals < 256) (hn : NamesDistinct R) (F : Faithful P specs showBits) {id : Nat} {t : Typ} {vs : List Variant}
    (r : R.resolve id = .ok t) (hd : t.typeDef = .variant vs) {x x' : PD}
    (a : EnumShown R (fun fields ds => ∀ f ∈ fields.zip ds,
      Told showBits P specs specName R (fieldLabel f.1) f.1.ty f.2.data) t vs x)
    (b : EnumShown R (fun _ _ => True) t vs x')
    (g : Ranged (pdValue x)) (g' : Ranged (pdValue x'))
    {info info' : List InfoFlat} {i : Nat} {db : Bool} {rest rest' : List ExtendedCard}
    (e : Printed showBits (x.card P specs specName info i db ++ rest) (x'.card P specs specName info' i db ++ rest'))
    (hl : Late showBits rest rest') : x = x' ∧ Printed showBits rest rest' := by
  cases a with
  | never hv =>
    subst hv
    cases b with
    | never => exact ⟨rfl, by simp only [PD.card] at e; exact (one_card e hl).2⟩
    | variant m _ _ => cases m
    | signature k => obtain ⟨_, _, _, _, k1, k2, _⟩ := k; rw [hd] at k1; cases k1; cases (selects_mem k2).1
    | pallet _ m => cases m
  | @variant v ds m f ih =>
    cases b with
    | never hv => subst hv; cases m
    | @variant v' ds' m' f' _ =>
      simp only [PD.card, List.cons_append] at e
      replace e := (e.head fun h => h.1).2
      have e0 := (e.head fun h => h.1).1
      replace e := (e.head fun h => h.1).2
      simp only [ParserCard.line, Prod.mk.injEq, Option.some.injEq, true_and] at e0
      cases hn _ _ _ r hd _ m _ m' e0
      have g1 : ∀ d ∈ ds, Ranged (edValue d.data) := by simp only [pdValue] at g; cases g with | variant g => exact fds_ranged rfl g
      have g2 : ∀ d ∈ ds', Ranged (edValue d.data) := by simp only [pdValue] at g'; cases g' with | variant g => exact fds_ranged rfl g
      obtain ⟨e1, e2⟩ := fields_told hd8 f f' ih g1 g2 e hl
      rw [e1]; exact ⟨rfl, e2⟩
    | signature k =>
      simp only [PD.card, List.cons_append] at e
      rename_i k0 _
      have := congrArg Prod.fst (e.head fun h => h.1).1
      revert this
      cases k0 <;> simp [ParserCard.line, fixedCard, FixedKind.cardName]
    | pallet k m f =>
      simp only [PD.card, List.cons_append] at e
      have e0 := (e.head fun h => h.1).1
      simp [ParserCard.line] at e0
  | @signature i0 k0 bs k =>
    cases b with
    | never hv => subst hv; obtain ⟨_, _, _, _, k1, k2, _⟩ := k; rw [hd] at k1; cases k1; cases (selects_mem k2).1
    | variant s m f =>
      simp only [PD.card, List.cons_append] at e
      have := congrArg Prod.fst (e.head fun h => fixed_plain _ h).1
      revert this
      cases k0 <;> simp [ParserCard.line, fixedCard, FixedKind.cardName]
    | signature k' =>
      simp only [PD.card] at e
      obtain ⟨e1, e2⟩ := one_card e hl
      simp only [pdValue] at g g'
      cases g with | fixed g =>
      cases g' with | fixed g' =>
      obtain ⟨q1, q2⟩ := fixed_inj F g g' e1
      subst q1 q2
      exact ⟨rfl, e2⟩
    | pallet s m f =>
      simp only [PD.card, List.cons_append] at e
      have := congrArg Prod.fst (e.head fun h => fixed_plain _ h).1
      revert this
      cases k0 <;> simp [ParserCard.line, fixedCard, FixedKind.cardName]
  | @pallet t1 inner w v f item ds s m hf rt dt mv fs ih =>
    cases b with
    | never hv => subst hv; cases m
    | variant s m f =>
      simp only [PD.card, List.cons_append] at e
      have e0 := (e.head fun h => h.1).1
      simp [ParserCard.line] at e0
    | @signature _ k0 _ k =>
      simp only [PD.card, List.cons_append] at e
      have := congrArg Prod.fst (e.head fun h => h.1).1
      revert this
      cases k0 <;> simp [ParserCard.line, fixedCard, FixedKind.cardName]
    | @pallet t2 inner' w' v' f' item' ds' s' m' hf' rt' dt' mv' fs' _ =>
      rw [s] at s'
      cases s'
      simp only [PD.card, List.cons_append] at e
      have e1 := (e.head fun h => h.1).1
      replace e := (e.head fun h => h.1).2
      have e2 := (e.head fun h => by cases item <;> exact h.1).1
      replace e := (e.head fun h => by cases item <;> exact h.1).2
      simp only [ParserCard.line, Prod.mk.injEq, Option.some.injEq, true_and] at e1
      cases hn _ _ _ r hd _ m _ m' e1
      rw [hf] at hf'
      cases hf'
      cases resolve_inj rt rt'
      rw [dt] at dt'
      cases dt'
      have e3 : v.name = v'.name := by
        cases item <;> simpa only [ParserCard.line, Prod.mk.injEq, Option.some.injEq, true_and] using e2
      cases hn _ _ _ rt dt _ mv _ mv' e3
      have g1 : ∀ d ∈ ds, Ranged (edValue d.data) := by simp only [pdValue] at g; cases g with | pallet g => exact fds_ranged rfl g
      have g2 : ∀ d ∈ ds', Ranged (edValue d.data) := by simp only [pdValue] at g'; cases g' with | pallet g => exact fds_ranged rfl g
      obtain ⟨q1, q2⟩ := fields_told hd8 fs fs' ih g1 g2 e hl
      rw [q1]; exact ⟨rfl, q2⟩

/-- The printed text of a tree without line breaks tells the tree. -/
theorem shown_told (hd8 : specs.decimals < 256) (hn : NamesDistinct R) (F : Faithful P specs showBits) {h : Hint} {is : List Info} {id : Nat}
    {d : ED} (a : Shown R h is id d) : Told showBits P specs specName R h id d := by
  induction a with
  | @compact h is id t inner d r s e _ ih =>
    intro is' d' b g g' info info' i db rest rest' w hl
    exact ih _ _ (shown_compact b r s e) g g' info info' i db rest rest' w hl
  | @struct h is id t fields ds r s e l n sh ih =>
    intro is' d' b g g' info info' i db rest rest' w hl
    obtain ⟨ds', f', hd'⟩ := inv_struct b r s e
    have f : FieldsShown R (fun f => first (handed fields.length h) (fieldLabel f)) fields ds := ⟨l, n, sh⟩
    rw [edValue_eq, hd'] at g'
    simp only [edValue, pdValue] at g g'
    replace g := record_ranged g
    replace g' := record_ranged g'
    rw [hd'] at w ⊢
    simp only [PD.card] at w
    have le : ds'.isEmpty = ds.isEmpty := by
      have := f.length.trans f'.length.symm
      clear w g g' f f' hd' ih sh n l
      cases ds <;> cases ds' <;> simp at this ⊢
    rw [le] at w
    have key : ds = ds' ∧ Printed showBits rest rest' := by
      by_cases h0 : ds.isEmpty
      · rw [if_pos h0, if_pos h0] at w
        rw [h0] at le
        simp only [List.isEmpty_iff] at le h0
        subst le h0
        exact ⟨rfl, by simpa using w⟩
      · rw [if_neg h0, if_neg h0] at w
        refine fields_told hd8 f f' ih g g' (n := 0) (i := i + 1) (j := i)
          (info := info) (info' := info') (db := db) ?_ hl
        by_cases h1 : singleUnnamed ds
        · have h1' := h1
          rw [singleUnnamed_eq f f'] at h1'
          rw [if_pos h1, if_pos h1'] at w ⊢
          exact w
        · have h1' := h1
          rw [singleUnnamed_eq f f'] at h1'
          rw [if_neg h1, if_neg h1'] at w ⊢
          rw [List.cons_append, List.cons_append] at w
          exact (w.head fun h => h.1).2
    obtain ⟨e1, e2⟩ := key
    subst e1
    exact ⟨rfl, e2⟩
  | @never h is id t r s e =>
    intro is' d' b g g' info info' i db rest rest' w hl
    rw [edValue_eq] at g g'
    exact enum_told hd8 hn F r e (.never rfl) (inv_enum b r s e) g g' w hl
  | @variant h is id t vs v ds r s e m l n sh ih =>
    intro is' d' b g g' info info' i db rest rest' w hl
    rw [edValue_eq] at g g'
    exact enum_told hd8 hn F r e (.variant m ⟨l, n, sh⟩ ih) (inv_enum b r s e) g g' w hl
  | @signature h is id t ix k bs r sg =>
    intro is' d' b g g' info info' i db rest rest' w hl
    rw [edValue_eq] at g g'
    obtain ⟨hs, vs, _, _, e, _⟩ := sg
    exact enum_told hd8 hn F r e (.signature ⟨hs, vs, _, _, e, ‹_›⟩) (inv_enum b r (by simp [Structural, hs]) e) g g' w hl
  | @pallet h is id t t' vs inner wv v f item ds r sp e m hf rt st dt mv l n sh ih =>
    intro is' d' b g g' info info' i db rest rest' w hl
    rw [edValue_eq] at g g'
    exact enum_told hd8 hn F r e (.pallet sp m hf rt dt mv ⟨l, n, sh⟩ ih) (inv_enum b r (by simp [Structural, sp]) e) g g' w hl
  | @list h h' is is0 id elem core t es r s e p sh nc ih =>
    intro is' d' b g g' info info' i db rest rest' w hl
    obtain ⟨_, _, _, es', p', sh', k⟩ := inv_list b r s (listDef e)
    obtain ⟨rfl, rfl, rfl⟩ := peel_unique p p'
    rw [edValue_eq] at g g'
    rw [listData_eq k] at g' w ⊢
    have x := listData_eq (.inl ⟨nc, rfl⟩ : _ ∧ PD.sequenceRaw is0 (es.map (·.data)) = _ ∨ _)
    simp only at g w ⊢
    rw [x] at g w ⊢
    exact list_told hd8 sh sh' ih g g' w hl
  | @collected h h' is is0 id elem core t es sq r s e p sh c ih =>
    intro is' d' b g g' info info' i db rest rest' w hl
    obtain ⟨_, _, _, es', p', sh', k⟩ := inv_list b r s (listDef e)
    obtain ⟨rfl, rfl, rfl⟩ := peel_unique p p'
    rw [edValue_eq] at g g'
    rw [listData_eq k] at g' w ⊢
    have x := listData_eq (.inr ⟨_, c, rfl⟩ : _ ∨ ∃ s, _ ∧ PD.sequence is0 sq = _)
    simp only at g w ⊢
    rw [x] at g w ⊢
    exact list_told hd8 sh sh' ih g g' w hl
  | @tuple h is id t ids ds r s e l rs sh ih =>
    intro is' d' b g g' info info' i db rest rest' w hl
    obtain ⟨ds', l', sh', hd'⟩ := inv_tuple b r s e
    rw [edValue_eq, hd'] at g'
    simp only [edValue, pdValue] at g g'
    cases g with | tuple g =>
    cases g' with | tuple g' =>
    replace g := eds_ranged g
    replace g' := eds_ranged g'
    rw [hd'] at w ⊢
    simp only [PD.card] at w
    have key : ds = ds' ∧ Printed showBits rest rest' := by
      cases ds with
      | nil =>
        cases ds' with
        | nil => exact ⟨rfl, by simpa using w⟩
        | cons => have := l.trans l'.symm; simp at this
      | cons d0 ds =>
        cases ds' with
        | nil => have := l.trans l'.symm; simp at this
        | cons d0' ds' =>
          simp only [List.isEmpty_cons, Bool.false_eq_true, if_false, List.cons_append] at w
          exact tuple_told hd8 rs l l' sh sh' ih g g' (w.head fun h => h.1).2 hl
    obtain ⟨e1, e2⟩ := key
    subst e1
    exact ⟨rfl, e2⟩
  | @fixed h is id t k bs r sp =>
    intro is' d' b g g' info info' i db rest rest' w hl
    cases b <;> same r <;> first | (clear w g g'; odd) | skip
    · rename_i sp' _
      rw [sp] at sp'; cases sp'
      simp only [edValue, pdValue] at g g'
      cases g with | fixed g =>
      cases g' with | fixed g' =>
      simp only [PD.card] at w
      obtain ⟨e1, e2⟩ := one_card w hl
      obtain ⟨-, e3⟩ := fixed_inj F g g' e1
      exact ⟨by rw [e3], e2⟩
  | @hash h is id t bs r sp =>
    intro is' d' b g g' info info' i db rest rest' w hl
    cases b <;> same r <;> first | (clear w g g'; odd) | skip
    rename_i bs' _ _
    dsimp only at w ⊢
    unfold labelledHash at w ⊢
    split at w
    · rename_i c
      simp only [c, if_true, PD.card] at w ⊢
      obtain ⟨e1, e2⟩ := one_card w hl
      simp only [ParserCard.line, Prod.mk.injEq, Option.some.injEq, true_and] at e1
      rw [hexBytes_inj e1]; exact ⟨rfl, e2⟩
    · rename_i c
      simp only [c, if_false] at w ⊢
      split at w
      · rename_i c
        simp only [c, if_true, PD.card] at w ⊢
        obtain ⟨e1, e2⟩ := one_card w hl
        simp only [ParserCard.line, Prod.mk.injEq, Option.some.injEq, true_and] at e1
        rw [hexBytes_inj e1]; exact ⟨rfl, e2⟩
      · rename_i c
        simp only [c, if_false, PD.card] at w ⊢
        obtain ⟨e1, e2⟩ := one_card w hl
        simp only [ParserCard.line, Prod.mk.injEq, Option.some.injEq, true_and] at e1
        rw [hexBytes_inj e1]; exact ⟨rfl, e2⟩
  | @era h is id t x r sp =>
    intro is' d' b g g' info info' i db rest rest' w hl
    cases b <;> same r <;> first | (clear w g g'; odd) | skip
    simp only [PD.card] at w
    obtain ⟨e1, e2⟩ := one_card w hl
    rw [era_inj e1]; exact ⟨rfl, e2⟩
  | @per h is id t k v r sp =>
    intro is' d' b g g' info info' i db rest rest' w hl
    cases b <;> same r <;> first | (clear w g g'; odd) | skip
    rename_i sp' _
    rw [sp] at sp'; cases sp'
    simp only [PD.card] at w
    obtain ⟨e1, e2⟩ := one_card w hl
    simp only [ParserCard.line, Prod.mk.injEq, Option.some.injEq, true_and] at e1
    rw [toString_nat_inj e1]; exact ⟨rfl, e2⟩
  | @uint h is id t p uw v r s e u =>
    intro is' d' b g g' info info' i db rest rest' w hl
    obtain ⟨v', hv'⟩ := inv_uint b r s e u
    rw [edValue_eq, hv'] at g'
    rw [hv'] at w ⊢
    simp only [edValue, pdValue] at g g'
    cases g with | uint g =>
    cases g' with | uint g' =>
    simp only [PD.card] at w
    obtain ⟨e1, e2⟩ := one_card w hl
    exact ⟨by rw [uint_inj F g g' e1], e2⟩
  | @text h is id t x r s e =>
    intro is' d' b g g' info info' i db rest rest' w hl
    cases b <;> same r <;> first | (clear w g g'; odd) | skip
    all_goals first | (rename_i u _ e' _; rw [e] at e'; cases e'; cases u; done) | skip
    dsimp only at w ⊢
    cases hq : textLabel h <;> rw [hq] at w <;> simp only [PD.card] at w <;>
    · obtain ⟨e1, e2⟩ := one_card w hl
      simp only [ParserCard.line, Prod.mk.injEq, Option.some.injEq, true_and] at e1
      rw [e1]; exact ⟨rfl, e2⟩
  | @bool h is id t x r s e =>
    intro is' d' b g g' info info' i db rest rest' w hl
    cases b <;> same r <;> first | (clear w g g'; odd) | skip
    all_goals first | (rename_i u _ e' _; rw [e] at e'; cases e'; cases u; done) | skip
    rename_i y _ _ _
    simp only [PD.card] at w
    obtain ⟨e1, e2⟩ := one_card w hl
    simp only [ParserCard.line, Prod.mk.injEq, Option.some.injEq, true_and] at e1
    have : x = y := by cases x <;> cases y <;> first | rfl | (exact absurd e1 (by decide))
    rw [this]; exact ⟨rfl, e2⟩
  | @char h is id t x r s e =>
    intro is' d' b g g' info info' i db rest rest' w hl
    cases b <;> same r <;> first | (clear w g g'; odd) | skip
    all_goals first | (rename_i u _ e' _; rw [e] at e'; cases e'; cases u; done) | skip
    rename_i y _ _ _
    simp only [PD.card] at w
    obtain ⟨e1, e2⟩ := one_card w hl
    simp only [ParserCard.line, Prod.mk.injEq, Option.some.injEq, true_and] at e1
    have : x = y := by
      have := congrArg String.toList e1
      simpa using this
    rw [this]; exact ⟨rfl, e2⟩
  | @u256 h is id t x r s e =>
    intro is' d' b g g' info info' i db rest rest' w hl
    cases b <;> same r <;> first | (clear w g g'; odd) | skip
    all_goals first | (rename_i u _ e' _; rw [e] at e'; cases e'; cases u; done) | skip
    simp only [PD.card] at w
    obtain ⟨e1, e2⟩ := one_card w hl
    simp only [ParserCard.line, Prod.mk.injEq, Option.some.injEq, true_and] at e1
    rw [toString_nat_inj e1]; exact ⟨rfl, e2⟩
  | @int h is id t p iw x r s e u =>
    intro is' d' b g g' info info' i db rest rest' w hl
    cases b <;> same r <;> first | (clear w g g'; odd) | skip
    all_goals first
      | (rename_i e' _; rw [e] at e'; cases e'; cases u; done)
      | (rename_i u' _ e' _; rw [e] at e'; cases e'; cases u <;> cases u'; done)
      | skip
    rename_i u' _ e' _
    rw [e] at e'; cases e'
    cases isInt_unique u u'
    simp only [PD.card] at w
    obtain ⟨e1, e2⟩ := one_card w hl
    simp only [ParserCard.line, Prod.mk.injEq, Option.some.injEq, true_and] at e1
    rw [toString_int_inj e1]; exact ⟨rfl, e2⟩
  | @bits h is id t order store o st l r s e bo bs =>
    intro is' d' b g g' info info' i db rest rest' w hl
    cases b <;> same r <;> first | (clear w g g'; odd) | skip
    rename_i bo' bs' _ e' _
    rw [e] at e'; cases e'
    cases bitOrder_unique bo bo'
    cases bitStore_unique bs bs'
    simp only [PD.card] at w
    obtain ⟨e1, e2⟩ := one_card w hl
    simp only [ParserCard.line, Prod.mk.injEq, Option.some.injEq, true_and] at e1
    rw [F.bits _ _ _ _ e1]; exact ⟨rfl, e2⟩

end Verif
