import Verif.Proof.Remark
import Verif.Props.Unforged
/-!
# Lines behind a text

A text with line breaks, and behind it the lines of the extensions: where the text ends can be told from the whole.
-/
namespace Verif
open Spec Spec.Polkadot

/-- The lines, each with a line break before it. -/
def nl : List String → List Char
  | [] => []
  | s :: l => '\n' :: s.toList ++ nl l

theorem nl_append (l l' : List String) : nl (l ++ l') = nl l ++ nl l' := by
  induction l with
  | nil => rfl
  | cons a l ih => simp [nl, ih]

theorem intercalate_nl (s : String) (l : List String) : ("\n".intercalate (s :: l)).toList = s.toList ++ nl l := by
  rw [intercalate_join, String.toList_append, String.toList_join]
  congr 1
  induction l with
  | nil => rfl
  | cons a l ih => simp [nl, ← ih]

theorem nl_head (l : List String) : nl l = [] ∨ (nl l).head? = some '\n' := by
  cases l with
  | nil => exact .inl rfl
  | cons a l => exact .inr rfl

/-- The first line can be told. -/
theorem nl_cut {a b : String} {l l' : List String} (ha : Unbroken a) (hb : Unbroken b) (h : nl (a :: l) = nl (b :: l')) : a = b ∧ nl l = nl l' := by
  have h : a.toList ++ nl l = b.toList ++ nl l' := by simpa [nl] using h
  obtain ⟨h1, h2⟩ := cut_at ha hb (nl_head l) (nl_head l') h
  exact ⟨String.toList_inj.1 h1, h2⟩

/-- So can the first `n` lines. -/
theorem nl_cuts {l l' r r' : List String} (hl : ∀ s ∈ l, Unbroken s) (hl' : ∀ s ∈ l', Unbroken s) (hn : l.length = l'.length)
    (h : nl (l ++ r) = nl (l' ++ r')) : l = l' ∧ nl r = nl r' := by
  induction l generalizing l' with
  | nil => cases l' with
    | nil => exact ⟨rfl, h⟩
    | cons b l' => cases hn
  | cons a l ih => cases l' with
    | nil => cases hn
    | cons b l' =>
      obtain ⟨rfl, h1⟩ := nl_cut (hl a (by simp)) (hl' b (by simp)) h
      obtain ⟨rfl, h2⟩ := ih (fun s hs => hl s (by simp [hs])) (fun s hs => hl' s (by simp [hs])) (by simpa using hn) h1
      exact ⟨rfl, h2⟩

/-- A line break in such lines begins a line, or is in the last one. -/
theorem nl_split {l : List String} {z : String} {u w : List Char} (hl : ∀ s ∈ l, Unbroken s) (h : u ++ '\n' :: w = nl (l ++ [z])) :
    (u = [] ∧ '\n' :: w = nl (l ++ [z])) ∨ (∃ s r, s ∈ (l ++ [z]).tail ∧ '\n' :: w = '\n' :: s.toList ++ r) ∨ ∃ v, z.toList = v ++ '\n' :: w := by
  induction l generalizing u with
  | nil =>
    cases u with
    | nil => exact .inl ⟨rfl, h⟩
    | cons c u =>
      simp only [List.nil_append, nl, List.append_nil, List.cons_append, List.cons.injEq] at h
      exact .inr (.inr ⟨u, h.2.symm⟩)
  | cons a l ih =>
    cases u with
    | nil => exact .inl ⟨rfl, h⟩
    | cons c u =>
      simp only [List.cons_append, nl, List.cons.injEq] at h
      obtain ⟨-, h⟩ := h
      rcases List.append_eq_append_iff.1 h with ⟨v, h1, h2⟩ | ⟨v, h1, h2⟩
      · have h3 : v = [] := by
          cases v with
          | nil => rfl
          | cons c v =>
            simp only [List.cons_append, List.cons.injEq] at h2
            exact absurd (by rw [h1, ← h2.1]; simp) (hl a (by simp))
        subst h3
        rw [List.nil_append] at h2
        rcases l with _ | ⟨s, l⟩
        · exact .inr (.inl ⟨z, [], by simp, by rw [h2]; simp [nl]⟩)
        · exact .inr (.inl ⟨s, nl (l ++ [z]), by simp, by rw [h2]; simp [nl]⟩)
      · rcases ih (fun s hs => hl s (by simp [hs])) h2.symm with ⟨-, h3⟩ | ⟨s, r, h3, h4⟩ | h3
        · rcases l with _ | ⟨s, l⟩
          · exact .inr (.inl ⟨z, [], by simp, by rw [h3]; simp [nl]⟩)
          · exact .inr (.inl ⟨s, nl (l ++ [z]), by simp, by rw [h3]; simp [nl]⟩)
        · exact .inr (.inl ⟨s, r, by simpa using List.mem_of_mem_tail h3, h4⟩)
        · exact .inr (.inr h3)

/-- Plain lines of a display are one line each. -/
theorem screen_unbroken {showBits : BitStore → BitOrder → List Bool → String} {l : List ExtendedCard} {lines : List String}
    (ht : ∀ c ∈ l, Tidy showBits c) (h : Spec.Westend.screen showBits l = lines) : ∀ s ∈ lines, PlainLine s → Unbroken s := by
  intro s hs hp
  rw [← h] at hs
  obtain ⟨c, hc, rfl⟩ := List.mem_map.1 hs
  refine tidy_clean (ht c hc) fun hw => ?_
  rcases wordy_letters (showBits := showBits) hw with e | e | e
  · exact hp.1 e
  · exact hp.2.1 e
  · exact hp.2.2 e

/-- UTF-8 takes at least one byte for each character. -/
theorem utf8_length (s : String) : s.toList.length ≤ (utf8 s).length := by
  unfold utf8
  generalize s.toList = l
  induction l with
  | nil => simp
  | cons a l ih =>
    rw [List.flatMap_cons, List.length_append, List.length_cons]
    have : 1 ≤ (String.utf8EncodeChar a).length := by
      rw [String.length_utf8EncodeChar]
      exact Char.utf8Size_pos a
    omega

theorem text_length {bs : Bytes} {s : String} (h : stringFromUtf8 bs = some s) : s.toList.length ≤ bs.length := by
  rw [stringFromUtf8_iff.1 h]
  exact utf8_length s

namespace Polkadot

variable {specs : ShortSpecs} {x x' : Extensions}

/-- The lines of the extensions before the hash of the metadata. -/
def extensionsBase (specs : ShortSpecs) (x : Extensions) : List String :=
  ["Era: " ++ Spec.Westend.eraText x.era,
   "Nonce: " ++ toString x.nonce,
   "Tip: " ++ Spec.Westend.amountText specs x.tip] ++
  modeScreen x.mode ++
  ["Chain: polkadot1003003",
   "Tx Version: " ++ toString x.txVersion,
   "Genesis Hash: " ++ hexBytes x.genesis,
   "Block Hash: " ++ hexBytes x.blockHash]

theorem extensionsScreen_base : extensionsScreen specs x = extensionsBase specs x ++ hashScreen x.metadataHash := rfl

theorem base_plain : ∀ s ∈ extensionsBase specs x, PlainLine s := by
  unfold extensionsBase modeScreen
  simp only [List.cons_append, List.nil_append, List.forall_mem_cons, List.not_mem_nil, false_implies, implies_true, and_true]
  exact ⟨plain_append _ (by decide), plain_append _ (by decide), plain_append _ (by decide), by decide, by decide, by decide,
    plain_append _ (by decide), by decide, plain_append _ (by decide), plain_append _ (by decide), plain_append _ (by decide)⟩

/-- All lines but the last are plain; the last is plain, or a text of at most 32 characters. -/
theorem extensions_shape (hm : ∀ h, x.metadataHash = some h → h.length = 32) :
    ∃ l z, extensionsScreen specs x = l ++ [z] ∧ (∀ s ∈ l, PlainLine s) ∧
      (PlainLine z ∨ ∃ t : String, z = "    Text: " ++ t ∧ t.toList.length ≤ 32) := by
  rw [extensionsScreen_base]
  cases hx : x.metadataHash with
  | none =>
    refine ⟨extensionsBase specs x ++ ["Enum"], "  Enum Variant Name: None", by simp [hashScreen], ?_, .inl (by decide)⟩
    intro s hs
    rcases List.mem_append.1 hs with hs | hs
    · exact base_plain s hs
    · cases List.mem_singleton.1 hs; decide
  | some h =>
    have hl : ∀ s ∈ extensionsBase specs x ++ ["Enum", "  Enum Variant Name: Some"], PlainLine s := by
      intro s hs
      replace hs := List.mem_append.1 hs
      rcases hs with hs | hs
      · exact base_plain s hs
      · revert s
        simp only [List.forall_mem_cons, List.not_mem_nil, false_implies, implies_true, and_true]
        exact ⟨by decide, by decide⟩
    cases ht : stringFromUtf8 h with
    | none => exact ⟨_, "    Sequence u8: " ++ hexBytes h, by simp [hashScreen, ht], hl, .inl (plain_append _ (by decide))⟩
    | some t => exact ⟨_, "    Text: " ++ t, by simp [hashScreen, ht], hl, .inr ⟨t, rfl, hm h hx ▸ text_length ht⟩⟩

/-- Only the first line begins with `Er`. -/
theorem extensions_er : ∀ s ∈ (extensionsScreen specs x).tail, ∀ r, ¬ ∃ r', s.toList ++ r = 'E' :: 'r' :: r' := by
  have key : ∀ (c d : Char) (l : List Char) (s : String) (r : List Char), s.toList = c :: d :: l → (c, d) ≠ ('E', 'r') →
      ¬ ∃ r', s.toList ++ r = 'E' :: 'r' :: r' := by
    rintro c d l s r hs hn ⟨r', h⟩
    rw [hs] at h
    simp only [List.cons_append, List.cons.injEq] at h
    exact hn (by rw [h.1, h.2.1])
  have plus : ∀ (c d : Char) (l : List Char) (t s : String) (r : List Char), t.toList = c :: d :: l → (c, d) ≠ ('E', 'r') →
      ¬ ∃ r', (t ++ s).toList ++ r = 'E' :: 'r' :: r' := by
    intro c d l t s r ht hn
    exact key c d (l ++ s.toList) (t ++ s) r (by rw [String.toList_append, ht]; rfl) hn
  rw [extensionsScreen_base]
  unfold extensionsBase modeScreen
  simp only [List.cons_append, List.nil_append, List.tail_cons, List.forall_mem_cons]
  refine ⟨fun r => plus _ _ _ _ _ r rfl (by decide), fun r => plus _ _ _ _ _ r rfl (by decide), fun r => key _ _ _ _ r rfl (by decide), fun r => key _ _ _ _ r rfl (by decide),
    fun r => key _ _ _ _ r rfl (by decide), fun r => plus _ _ _ _ _ r rfl (by decide), fun r => key _ _ _ _ r rfl (by decide),
    fun r => plus _ _ _ _ _ r rfl (by decide), fun r => plus _ _ _ _ _ r rfl (by decide), fun r => plus _ _ _ _ _ r rfl (by decide), ?_⟩
  cases x.metadataHash with
  | none =>
    simp only [hashScreen, List.forall_mem_cons, List.not_mem_nil, false_implies, implies_true, and_true]
    exact ⟨fun r => key _ _ _ _ r rfl (by decide), fun r => key _ _ _ _ r rfl (by decide)⟩
  | some h =>
    simp only [hashScreen, List.forall_mem_cons, List.not_mem_nil, false_implies, implies_true, and_true]
    refine ⟨fun r => key _ _ _ _ r rfl (by decide), fun r => key _ _ _ _ r rfl (by decide), ?_⟩
    cases stringFromUtf8 h with
    | none => exact fun r => plus _ _ _ _ _ r rfl (by decide)
    | some t => exact fun r => plus _ _ _ _ _ r rfl (by decide)

theorem extensions_first : ∃ w, nl (extensionsScreen specs x) = '\n' :: 'E' :: 'r' :: w ∧ 33 ≤ w.length := by
  refine ⟨['a', ':', ' '] ++ (Spec.Westend.eraText x.era).toList ++ nl (extensionsScreen specs x).tail, ?_, ?_⟩
  · have e : extensionsScreen specs x = ("Era: " ++ Spec.Westend.eraText x.era) :: (extensionsScreen specs x).tail := rfl
    rw [e, nl, String.toList_append]
    rfl
  simp only [extensionsScreen_base, extensionsBase, modeScreen, List.tail_cons, List.cons_append, List.nil_append, nl, String.toList_append, List.length_append, List.length_cons]
  have : "Struct: 1 field(s)".toList.length = 18 := by decide
  have : "  Field Name: mode".toList.length = 18 := by decide
  omega

/-- Where the text ends can be told. -/
theorem text_told {a a' : List Char} (hx : ∀ h, x.metadataHash = some h → h.length = 32) (hx' : ∀ h, x'.metadataHash = some h → h.length = 32)
    (hu : ∀ s ∈ extensionsScreen specs x, PlainLine s → Unbroken s) (hu' : ∀ s ∈ extensionsScreen specs x', PlainLine s → Unbroken s)
    (h : a ++ nl (extensionsScreen specs x) = a' ++ nl (extensionsScreen specs x')) :
    a = a' ∧ nl (extensionsScreen specs x) = nl (extensionsScreen specs x') := by
  have key : ∀ {x x' : Extensions} {u : List Char}, (∀ h, x'.metadataHash = some h → h.length = 32) →
      (∀ s ∈ extensionsScreen specs x', PlainLine s → Unbroken s) →
      u ++ nl (extensionsScreen specs x) = nl (extensionsScreen specs x') → u = [] := by
    intro x x' u hx' hu' h
    obtain ⟨w, hw, hl⟩ := extensions_first (specs := specs) (x := x)
    obtain ⟨l, z, e, h1, h2⟩ := extensions_shape (specs := specs) hx'
    rw [hw, e] at h
    rcases nl_split (fun s hs => hu' s (by rw [e]; simp [hs]) (h1 s hs)) h with ⟨h3, -⟩ | ⟨s, r, h3, h4⟩ | ⟨v, h3⟩
    · exact h3
    · rw [← e] at h3
      simp only [List.cons_append, List.cons.injEq, true_and] at h4
      exact absurd ⟨w, h4.symm⟩ (extensions_er s h3 r)
    · exfalso
      rcases h2 with h2 | ⟨t, rfl, h2⟩
      · exact hu' z (by rw [e]; simp) h2 (by rw [h3]; simp)
      · rw [String.toList_append] at h3
        rcases List.append_eq_append_iff.1 h3 with ⟨v', -, h4⟩ | ⟨v', h4, h5⟩
        · have := congrArg List.length h4
          simp only [List.length_append, List.length_cons] at this
          omega
        · cases v' with
          | nil =>
            rw [List.nil_append] at h5
            have := congrArg List.length h5
            simp only [List.length_cons] at this
            omega
          | cons c v' =>
            simp only [List.cons_append, List.cons.injEq] at h5
            have : '\n' ∈ "    Text: ".toList := by rw [h4, ← h5.1]; simp
            exact absurd this (by decide)
  rcases List.append_eq_append_iff.1 h with ⟨u, h1, h2⟩ | ⟨u, h1, h2⟩
  · obtain rfl := key hx hu h2.symm
    exact ⟨by simpa using h1.symm, by simpa using h2⟩
  · obtain rfl := key hx' hu' h2.symm
    exact ⟨by simpa using h1, by simpa using h2.symm⟩

/-- The lines of the extensions are told by their text. -/
theorem extensions_told (hu : ∀ s ∈ extensionsScreen specs x, PlainLine s → Unbroken s)
    (hu' : ∀ s ∈ extensionsScreen specs x', PlainLine s → Unbroken s)
    (h : nl (extensionsScreen specs x) = nl (extensionsScreen specs x')) : extensionsScreen specs x = extensionsScreen specs x' := by
  simp only [extensionsScreen_base] at *
  obtain ⟨h1, h2⟩ := nl_cuts (fun s hs => hu s (List.mem_append_left _ hs) (base_plain s hs)) (fun s hs => hu' s (List.mem_append_left _ hs) (base_plain s hs)) rfl h
  rw [h1]
  congr 1
  have e0 : Unbroken "Enum" := by unfold Unbroken; decide
  have e1 : Unbroken "  Enum Variant Name: None" := by unfold Unbroken; decide
  have e2 : Unbroken "  Enum Variant Name: Some" := by unfold Unbroken; decide
  have one : ∀ {a b : String}, nl [a] = nl [b] → a = b := by
    intro a b h
    simp only [nl, List.append_nil, List.cons.injEq, true_and] at h
    exact String.toList_inj.1 h
  cases hm : x.metadataHash <;> cases hm' : x'.metadataHash <;> simp only [hashScreen, hm, hm'] at h2 ⊢
  · exact absurd (nl_cut e1 e2 (nl_cut e0 e0 h2).2).1 (by decide)
  · exact absurd (nl_cut e2 e1 (nl_cut e0 e0 h2).2).1 (by decide)
  · rw [one (nl_cut e2 e2 (nl_cut e0 e0 h2).2).2]

end Polkadot

end Verif
