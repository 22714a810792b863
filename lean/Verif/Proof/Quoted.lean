import Verif.Spec.Quoted
import Verif.Props.Cards
import Verif.Props.Show
/-!
# Cards quote the texts of the data
-/
namespace Verif
open Spec

variable {P : Printers} {specs : ShortSpecs} {specName : String}

/-- The cards quote texts of these values only, and all of them that are there as texts or characters. -/
def Quoting (cards : List ExtendedCard) (vs : List Value) : Prop :=
  (∀ s, Quotes cards s → ∃ v ∈ vs, MaySay s v) ∧ ∀ s, (∃ v ∈ vs, Says s v) → Quotes cards s

theorem quotes_append {a b : List ExtendedCard} {s : String} : Quotes (a ++ b) s ↔ Quotes a s ∨ Quotes b s := by
  unfold Quotes
  simp only [List.mem_append, or_and_right, exists_or]

theorem quotes_one {c : ExtendedCard} {s : String} : Quotes [c] s ↔ quote c.parserCard = some s := by
  simp [Quotes]

theorem quotes_cons {c : ExtendedCard} {b : List ExtendedCard} {s : String} :
    Quotes (c :: b) s ↔ quote c.parserCard = some s ∨ Quotes b s := by
  rw [← quotes_one, ← quotes_append]; rfl

theorem quoting_nil : Quoting [] [] := ⟨fun s h => (by obtain ⟨c, h, -⟩ := h; cases h), fun s h => (by obtain ⟨c, h, -⟩ := h; cases h)⟩

theorem Quoting.append {a b : List ExtendedCard} {vs ws : List Value} (h : Quoting a vs) (k : Quoting b ws) :
    Quoting (a ++ b) (vs ++ ws) := by
  refine ⟨fun s hq => ?_, fun s hq => ?_⟩
  · rcases quotes_append.1 hq with hq | hq
    · obtain ⟨v, hv, e⟩ := h.1 s hq
      exact ⟨v, List.mem_append_left _ hv, e⟩
    · obtain ⟨v, hv, e⟩ := k.1 s hq
      exact ⟨v, List.mem_append_right _ hv, e⟩
  · obtain ⟨v, hv, e⟩ := hq
    rcases List.mem_append.1 hv with hv | hv
    · exact quotes_append.2 (.inl (h.2 s ⟨v, hv, e⟩))
    · exact quotes_append.2 (.inr (k.2 s ⟨v, hv, e⟩))

theorem Quoting.heading {c : ExtendedCard} {a : List ExtendedCard} {vs : List Value} (hc : quote c.parserCard = none) (h : Quoting a vs) :
    Quoting (c :: a) vs := by
  refine ⟨fun s hq => ?_, fun s hq => quotes_cons.2 (.inr (h.2 s hq))⟩
  rcases quotes_cons.1 hq with hq | hq
  · rw [hc] at hq; cases hq
  · exact h.1 s hq

/-- Values that hold no other values and are no texts. -/
theorem Quoting.mute {c : ExtendedCard} {v : Value} (hc : quote c.parserCard = none) (hv : ∀ s, ¬ Says s v) : Quoting [c] [v] := by
  refine ⟨fun s hq => ?_, fun s hq => ?_⟩
  · rw [quotes_one, hc] at hq; cases hq
  · obtain ⟨w, hw, e⟩ := hq
    obtain rfl := List.mem_singleton.1 hw
    exact absurd e (hv s)

/-- Values that hold other values. -/
theorem Quoting.whole {a : List ExtendedCard} {vs : List Value} {w : Value} (h : Quoting a vs)
    (h1 : ∀ (p : Value → Prop) v, v ∈ vs → Somewhere p v → Somewhere p w) (h2 : ∀ s, Says s w → ∃ v ∈ vs, Says s v) : Quoting a [w] := by
  refine ⟨fun s hq => ?_, fun s hq => ?_⟩
  · obtain ⟨v, hv, e⟩ := h.1 s hq
    exact ⟨w, List.mem_singleton.2 rfl, h1 _ v hv e⟩
  · obtain ⟨v, hv, e⟩ := hq
    obtain rfl := List.mem_singleton.1 hv
    exact h.2 s (h2 s e)

theorem says_seq {s : String} {l : List Value} (h : Says s (.seq l)) : ∃ v ∈ l, Says s v := by
  cases h with
  | here h => cases h
  | seq h k => exact ⟨_, h, k⟩

theorem says_tuple {s : String} {l : List Value} (h : Says s (.tuple l)) : ∃ v ∈ l, Says s v := by
  cases h with
  | here h => cases h
  | tuple h k => exact ⟨_, h, k⟩

theorem says_record {s : String} {l : List (Option String × Value)} (h : Says s (.record l)) : ∃ v ∈ l.map (·.2), Says s v := by
  cases h with
  | here h => cases h
  | record h k => exact ⟨_, List.mem_map_of_mem h, k⟩

theorem says_variant {s n : String} {l : List (Option String × Value)} (h : Says s (.variant n l)) : ∃ v ∈ l.map (·.2), Says s v := by
  cases h with
  | here h => cases h
  | variant h k => exact ⟨_, List.mem_map_of_mem h, k⟩

theorem says_pallet {s m n : String} {i : PalletItem} {l : List (Option String × Value)} (h : Says s (.pallet i m n l)) :
    ∃ v ∈ l.map (·.2), Says s v := by
  cases h with
  | here h => cases h
  | pallet h k => exact ⟨_, List.mem_map_of_mem h, k⟩

theorem says_recordValue {s : String} {l : List (Option String × Value)} (h : Says s (recordValue l)) : ∃ v ∈ l.map (·.2), Says s v := by
  match l with
  | [] => exact says_record h
  | [(n, v)] => exact ⟨v, by simp, h⟩
  | a :: b :: l => exact says_record h

theorem has_recordValue {p : Value → Prop} {l : List (Option String × Value)} {v : Value} (h : v ∈ l.map (·.2)) (k : Somewhere p v) :
    Somewhere p (recordValue l) := by
  obtain ⟨f, hf, rfl⟩ := List.mem_map.1 h
  match l with
  | [] => cases hf
  | [(n, v)] =>
    obtain rfl := List.mem_singleton.1 hf
    exact k
  | a :: b :: l => exact .record hf k

theorem has_fields {p : Value → Prop} {l : List (Option String × Value)} {w : Value}
    (hw : ∀ f ∈ l, Somewhere p f.2 → Somewhere p w) (v : Value) (h : v ∈ l.map (·.2)) (k : Somewhere p v) : Somewhere p w := by
  obtain ⟨f, hf, rfl⟩ := List.mem_map.1 h
  exact hw f hf k

/-- A list of bytes. -/
theorem bytes_quoting {l : List Nat} {is : List InfoFlat} {i : Nat} {info : List InfoFlat} (h : ∀ b ∈ l, b < 256) :
    Quoting [⟨sequenceU8Card l is, i, info⟩] [.seq (l.map (Value.uint .u8))] := by
  refine ⟨fun s hq => ?_, fun s hq => ?_⟩
  · rw [quotes_one] at hq
    replace hq : stringFromUtf8 (natBytes l) = some s := hq
    rw [stringFromUtf8_iff, natBytes_eq h] at hq
    refine ⟨_, List.mem_singleton.2 rfl, .here (.inr ?_)⟩
    rw [hq, List.map_map]
    exact .mk
  · obtain ⟨w, hw, e⟩ := hq
    obtain rfl := List.mem_singleton.1 hw
    obtain ⟨v, hv, e⟩ := says_seq e
    obtain ⟨n, -, rfl⟩ := List.mem_map.1 hv
    cases e with
    | here e => cases e

theorem not_says_uint {s : String} {w : UW} {n : Nat} : ¬ Says s (.uint w n) := by
  intro h
  cases h with
  | here h => cases h

theorem sequence_quoting {is : List Info} {q : Sequence} {above : List InfoFlat} {i : Nat}
    (h : Ranged (pdValue (.sequence is q))) : Quoting (sequenceCards is q above i) [pdValue (.sequence is q)] := by
  rw [pdValue] at h ⊢
  cases h with
  | seq h =>
    match q with
    | .uints w l =>
      have hl : ∀ v ∈ l, v < 2 ^ (8 * w.bytes) := by
        intro v hv
        have := h (.uint w v) (by simp [sequenceValues, hv])
        cases this; assumption
      have mute : ∀ c, (∀ x ∈ c, quote (ExtendedCard.parserCard x) = none) → Quoting c [.seq (sequenceValues (.uints w l))] := by
        intro c hc
        refine ⟨fun s hq => ?_, fun s hq => ?_⟩
        · obtain ⟨x, hx, e⟩ := hq
          rw [hc x hx] at e; cases e
        · obtain ⟨v, hv, e⟩ := hq
          obtain rfl := List.mem_singleton.1 hv
          obtain ⟨v, hv, e⟩ := says_seq e
          obtain ⟨n, -, rfl⟩ := List.mem_map.1 hv
          exact absurd e not_says_uint
      by_cases hw : w = .u8
      · subst hw
        exact bytes_quoting hl
      · refine mute _ ?_
        intro c hc
        have : sequenceCards is (.uints w l) above i =
          ⟨.sequenceAnnounced l.length (is.map Info.flatten), i, above⟩ :: l.map fun v => ⟨.uint w v, i + 1, []⟩ := by
          unfold sequenceCards
          cases w <;> simp_all
        rw [this] at hc
        rcases List.mem_cons.1 hc with rfl | hc
        · rfl
        · obtain ⟨v, -, rfl⟩ := List.mem_map.1 hc
          rfl
    | .vecU8 l inner =>
      have hl : ∀ x ∈ l, ∀ v ∈ x, v < 256 := by
        intro x hx v hv
        have := h (.seq (x.map (Value.uint .u8))) (by simp only [sequenceValues, List.mem_map]; exact ⟨x, hx, rfl⟩)
        cases this with
        | seq h =>
          have := h (.uint .u8 v) (by simp [hv])
          cases this with
          | uint h => simpa [UW.bytes] using h
      clear h
      have key : Quoting (l.map fun x => ⟨sequenceU8Card x (inner.map Info.flatten), i + 1, []⟩) (sequenceValues (.vecU8 l inner)) := by
        simp only [sequenceValues]
        induction l with
        | nil => exact quoting_nil
        | cons x l ih =>
          exact (bytes_quoting (hl x (List.mem_cons_self ..))).append (ih fun x hx => hl x (List.mem_cons_of_mem _ hx))
      exact .whole (.heading rfl key) (fun p v hv e => .seq hv e) fun s e => says_seq e

theorem specialty_mute {w : UW} {v : Nat} {s : SpecUInt} {db : Bool} : quote (specialtyCard w v s db specs specName) = none := by
  cases s <;> simp only [specialtyCard]
  case balance => split <;> rfl
  all_goals rfl

theorem fixed_mute {k : FixedKind} {bs : Bytes} : quote (fixedCard P specs k bs) = none := by cases k <;> rfl

theorem text_quoting {c : ExtendedCard} {s : String} {v : Value} (hc : quote c.parserCard = some s) (hv : ∀ s', IsText s' v ↔ s' = s)
    (ht : ∀ s', Says s' v → IsText s' v) : Quoting [c] [v] := by
  refine ⟨fun s' hq => ?_, fun s' hq => ?_⟩
  · rw [quotes_one, hc] at hq
    cases hq
    exact ⟨v, List.mem_singleton.2 rfl, .here (.inl ((hv s).2 rfl))⟩
  · obtain ⟨w, hw, e⟩ := hq
    obtain rfl := List.mem_singleton.1 hw
    rw [quotes_one, hc, (hv s').1 (ht s' e)]

theorem str_quoting {c : ExtendedCard} {s : String} (hc : quote c.parserCard = some s) : Quoting [c] [.str s] := by
  refine text_quoting hc (fun s' => ⟨fun h => ?_, fun h => ?_⟩) fun s' h => ?_
  · cases h; rfl
  · subst h; exact .str
  · cases h with
    | here h => exact h

theorem char_quoting {c : ExtendedCard} {a : Char} (hc : quote c.parserCard = some (String.singleton a)) : Quoting [c] [.char a] := by
  refine text_quoting hc (fun s' => ⟨fun h => ?_, fun h => ?_⟩) fun s' h => ?_
  · cases h; assumption
  · exact .char a h
  · cases h with
    | here h => exact h

mutual
theorem pd_quoting (d : PD) (valid : Bool) (above : List InfoFlat) (i : Nat) (h : Ranged (pdValue d)) :
    Quoting (d.card P specs specName above i valid) [pdValue d] := by
  match d with
  | .bitVec s o l => rw [PD.card, pdValue]; exact .mute rfl fun s h => by cases h with | here h => cases h
  | .blockHash h => rw [PD.card, pdValue]; exact .mute rfl fun s h => by cases h with | here h => cases h
  | .genesisHash h => rw [PD.card, pdValue]; exact .mute rfl fun s h => by cases h with | here h => cases h
  | .h256 h => rw [PD.card, pdValue]; exact .mute rfl fun s h => by cases h with | here h => cases h
  | .fixed k h => rw [PD.card, pdValue]; exact .mute fixed_mute fun s h => by cases h with | here h => cases h
  | .emptyEnum => rw [PD.card, pdValue]; exact .mute rfl fun s h => by cases h with | here h => cases h
  | .era e => rw [PD.card, pdValue]; exact .mute rfl fun s h => by cases h with | here h => cases h
  | .perThing k v => rw [PD.card, pdValue]; exact .mute rfl fun s h => by cases h with | here h => cases h
  | .bool v => rw [PD.card, pdValue]; exact .mute rfl fun s h => by cases h with | here h => cases h
  | .char v => rw [PD.card, pdValue]; exact char_quoting rfl
  | .int w v => rw [PD.card, pdValue]; exact .mute rfl fun s h => by cases h with | here h => cases h
  | .u256 v => rw [PD.card, pdValue]; exact .mute rfl fun s h => by cases h with | here h => cases h
  | .uint w v s => rw [PD.card, pdValue]; exact .mute specialty_mute fun s => not_says_uint
  | .text s .none => rw [PD.card, pdValue]; exact str_quoting rfl
  | .text s .specName => rw [PD.card, pdValue]; exact str_quoting rfl
  | .sequence is s => rw [PD.card]; exact sequence_quoting h
  | .sequenceRaw is l =>
    rw [pdValue] at h
    rw [PD.card, pdValue]
    cases h with
    | seq h => exact .whole (.heading rfl (list_quoting l valid (i + 1) h)) (fun p v hv e => .seq hv e) fun s e => says_seq e
  | .tuple l =>
    rw [pdValue] at h
    cases h with
    | tuple h =>
      have k := fun i => tuple_quoting l valid i h
      rw [PD.card, pdValue]
      split
      · rename_i hl
        refine .whole (vs := []) quoting_nil (fun p v hv e => by cases hv) fun s e => ?_
        rw [List.isEmpty_iff.1 hl, edsValue] at e
        exact says_tuple e
      · exact .whole (.heading rfl (k _)) (fun p v hv e => .tuple hv e) fun s e => says_tuple e
  | .composite fs =>
    rw [pdValue] at h
    have h := h.record_inv
    have whole : ∀ a, Quoting a ((fdsValue fs).map (·.2)) → Quoting a [recordValue (fdsValue fs)] := fun a k =>
      .whole k (fun p v hv e => has_recordValue hv e) fun s e => says_recordValue e
    have k := fun n i => fields_quoting fs valid n i h
    have k' := fun hs => first_quoting fs valid above i hs h
    rw [PD.card, pdValue]
    refine whole _ ?_
    split
    · rename_i hl
      rw [List.isEmpty_iff.1 hl, fdsValue]
      exact quoting_nil
    · split
      · exact k' (by assumption)
      · exact .heading rfl (k _ _)
  | .variant n docs fs =>
    rw [pdValue] at h
    cases h with
    | variant h =>
      rw [PD.card, pdValue]
      exact .whole (.heading rfl (.heading rfl (part_quoting fs valid (i + 2) h))) (fun p => has_fields fun f hf e => .variant hf e)
        fun s e => says_variant e
  | .pallet item info docs p n fs =>
    rw [pdValue] at h
    cases h with
    | pallet h =>
      simp only [PD.card, pdValue]
      exact .whole (.heading rfl (.heading (by cases item <;> rfl) (part_quoting fs (isBalanceDisplay p) (i + 2) h)))
        (fun p => has_fields fun f hf e => .pallet hf e) fun s e => says_pallet e

theorem list_quoting (l : List PD) (valid : Bool) (i : Nat) (h : ∀ v ∈ pdsValue l, Ranged v) :
    Quoting (cardElements P specs specName l i valid) (pdsValue l) := by
  match l with
  | [] => rw [cardElements, pdsValue]; exact quoting_nil
  | d :: ds =>
    rw [pdsValue] at h
    have a := pd_quoting d valid [] i (h _ (by simp))
    have b := list_quoting ds valid i fun v hv => h v (by simp [hv])
    rw [cardElements, pdsValue]
    exact a.append b

theorem tuple_quoting (l : List ED) (valid : Bool) (i : Nat) (h : ∀ v ∈ edsValue l, Ranged v) :
    Quoting (cardTuple P specs specName l i valid) (edsValue l) := by
  match l with
  | [] => rw [cardTuple, edsValue]; exact quoting_nil
  | ⟨d, is⟩ :: ds =>
    rw [edsValue, edValue] at h
    have a := pd_quoting d valid (is.map Info.flatten) i (h _ (by simp))
    have b := tuple_quoting ds valid i fun v hv => h v (by simp [hv])
    rw [cardTuple, ED.card, edsValue, edValue]
    exact a.append b

theorem fields_quoting (fs : List FD) (valid : Bool) (n i : Nat) (h : ∀ f ∈ fdsValue fs, Ranged f.2) :
    Quoting (cardFieldSet P specs specName fs n i valid) ((fdsValue fs).map (·.2)) := by
  match fs with
  | [] => rw [cardFieldSet, fdsValue]; exact quoting_nil
  | ⟨name, t, docs, ⟨d, is⟩⟩ :: fs =>
    rw [fdsValue, fdValue, edValue] at h
    have a := pd_quoting d valid (is.map Info.flatten) (i + 1) (h (name, pdValue d) (by simp))
    have b := fields_quoting fs valid (n + 1) i fun v hv => h v (by simp [hv])
    simp only [cardFieldSet, FD.cardInSet, ED.card, fdsValue, fdValue, edValue, List.map_cons]
    exact (Quoting.heading (by cases name <;> rfl) a).append b

theorem first_quoting (fs : List FD) (valid : Bool) (above : List InfoFlat) (i : Nat)
    (hs : singleUnnamed fs = true) (h : ∀ f ∈ fdsValue fs, Ranged f.2) :
    Quoting (cardFirstUnnamed P specs specName fs above i valid) ((fdsValue fs).map (·.2)) := by
  match fs with
  | [] => simp [singleUnnamed] at hs
  | [⟨name, t, docs, ⟨d, is⟩⟩] =>
    simp only [fdsValue, fdValue, edValue] at h ⊢
    have a := pd_quoting d valid (above ++ infoWithDocsOnly docs ++ is.map Info.flatten) i (h (name, pdValue d) (by simp))
    rw [cardFirstUnnamed, FD.cardUnnamed]
    exact a
  | _ :: _ :: _ => simp [singleUnnamed] at hs

theorem part_quoting (fs : List FD) (valid : Bool) (i : Nat) (h : ∀ f ∈ fdsValue fs, Ranged f.2) :
    Quoting (if singleUnnamed fs then cardFirstUnnamed P specs specName fs [] i valid
        else cardFieldSet P specs specName fs 0 i valid) ((fdsValue fs).map (·.2)) := by
  have k := fun hs => first_quoting fs valid [] i hs h
  have k' := fields_quoting fs valid 0 i h
  split
  · exact k (by assumption)
  · exact k'
end

theorem ed_quoting {d : ED} (h : Ranged (edValue d)) (i : Nat) (valid : Bool) : Quoting (d.card P specs specName i valid) [edValue d] := by
  obtain ⟨x, j⟩ := d
  rw [edValue] at h ⊢
  rw [ED.card]
  exact pd_quoting x valid _ i h

/-- Cards with line breaks in the texts they quote only, none in those. -/
theorem oneLine_of_quotes {showBits : BitStore → BitOrder → List Bool → String} {c : ExtendedCard} (h : ∀ s, quote c.parserCard = some s → '\n' ∉ s.toList)
    (w : quote c.parserCard = none → ∀ s ∈ freeTexts showBits c.parserCard, '\n' ∉ s.toList) : '\n' ∉ (c.show showBits).toList := by
  refine (show_oneLine_iff c).2 ?_
  cases hq : quote c.parserCard with
  | none => exact w hq
  | some s =>
    have := h s hq
    generalize c.parserCard = x at hq
    cases x <;> simp_all [quote, freeTexts, OneLine]

end Verif
