import Verif.Spec.Cards
import Verif.Props.Balance
import Verif.Props.Values
/-!
# C37, C38, C39: cards
-/
namespace Verif
open Spec

variable {P : Printers} {specs : ShortSpecs} {specName : String}

theorem hexDigit_ok {n : Nat} (h : n < 16) : HexDigit (hexDigit n) n := by
  refine ⟨n, hexDigit n, ?_⟩
  have : ∀ i : Fin 16, "0123456789abcdef".toList[i.1]? = some (hexDigit i.1) := by decide
  exact this ⟨n, h⟩

theorem hexEncode_ok {l : List Nat} (h : ∀ b ∈ l, b < 256) : HexText (hexEncode l).toList l := by
  unfold hexEncode
  rw [String.toList_ofList]
  induction l with
  | nil => exact .nil
  | cons b l ih =>
    have hb := h b (by simp)
    have := HexText.cons (hexDigit_ok (n := b / 16) (by omega)) (hexDigit_ok (n := b % 16) (by omega))
      (ih fun x hx => h x (by simp [hx]))
    rw [show 16 * (b / 16) + b % 16 = b by omega] at this
    simpa using this

theorem natBytes_eq {l : List Nat} (h : ∀ b ∈ l, b < 256) {bs : Bytes} : natBytes l = bs ↔ l = bs.map UInt8.toNat := by
  constructor
  · rintro rfl
    unfold natBytes
    rw [List.map_map]
    conv => lhs; rw [← List.map_id l]
    apply List.map_congr_left
    intro b hb
    have := h b hb
    simp [Function.comp]
    omega
  · rintro rfl
    unfold natBytes
    rw [List.map_map]
    conv => rhs; rw [← List.map_id bs]
    apply List.map_congr_left
    intro b hb
    simp [Function.comp]

theorem sequenceU8Card_tells {valid : Bool} {l : List Nat} {is : List Info} (h : ∀ b ∈ l, b < 256) :
    Tells P specs specName valid (.sequence is (.uints .u8 l)) (sequenceU8Card l (is.map Info.flatten)) := by
  refine .bytes (hexEncode_ok h) ?_
  intro s
  rw [stringFromUtf8_iff, natBytes_eq h]
  rfl

theorem printed {v : Nat} (hv : v < 2 ^ 128) (hd : specs.decimals < 256) :
    ∃ cur, convertBalancePretty v specs.decimals specs.unit = some cur ∧ Printed specs v cur := by
  obtain ⟨cur, pre, num, den, whole, fraction, h, h1, h2, h3, h4⟩ := balance_value v specs.decimals specs.unit hv hd
  exact ⟨cur, h, pre, num, den, whole, fraction, h1, h2, h3, h4⟩

theorem UW.pow_le (w : UW) : 2 ^ (8 * w.bytes) ≤ 2 ^ 128 := by
  cases w <;> exact Nat.pow_le_pow_right (by omega) (by decide)

theorem specialtyCard_tells {valid : Bool} {w : UW} {v : Nat} {s : SpecUInt} (hv : v < 2 ^ (8 * w.bytes))
    (hd : specs.decimals < 256) :
    Tells P specs specName valid (.uint w v s) (specialtyCard w v s valid specs specName) := by
  have hv' := Nat.lt_of_lt_of_le hv w.pow_le
  obtain ⟨cur, h1, h2⟩ := printed (specs := specs) hv' hd
  cases s <;> simp only [specialtyCard, h1]
  · exact .uint
  · cases valid
    · exact .balanceRaw rfl
    · exact .balance rfl h2
  · exact .tip h2
  · exact .tipAsset
  · exact .nonce
  · exact .specVersion
  · exact .txVersion

theorem fixedCard_tells {valid : Bool} {k : FixedKind} {h : Bytes} :
    Tells P specs specName valid (.fixed k h) (fixedCard P specs k h) := by
  cases k <;> first | exact .raw (by simp) | exact .key (by simp)

theorem infoWithDocsOnly_eq (docs : String) : infoWithDocsOnly docs = docsInfo docs := by
  unfold infoWithDocsOnly docsInfo
  simp [String.isEmpty_iff]

theorem isBalanceDisplay_eq (p : String) : isBalanceDisplay p = inUnits p := by
  simp [isBalanceDisplay, inUnits, palletsBalanceValid, List.contains, List.elem]
  cases p == "Balances" <;> cases p == "Staking" <;> rfl

theorem singleUnnamed_iff {fs : List FD} : singleUnnamed fs = true ↔ ∃ t docs d, fs = [⟨none, t, docs, d⟩] := by
  constructor
  · intro h
    match fs with
    | [⟨none, t, docs, d⟩] => exact ⟨t, docs, d, rfl⟩
    | [⟨some _, t, docs, d⟩] => simp [singleUnnamed] at h
    | [] => simp [singleUnnamed] at h
    | _ :: _ :: _ => simp [singleUnnamed] at h
  · rintro ⟨t, docs, d, rfl⟩
    rfl

theorem listTrees_append (indent : Nat) (a b : List Tree) :
    listTrees indent (a ++ b) = listTrees indent a ++ listTrees indent b := by
  induction a with
  | nil => rfl
  | cons t ts ih => simp [listTrees, ih]

theorem listTrees_leaves {α : Type} (indent : Nat) (l : List α) (f : α → ParserCard) :
    listTrees indent (l.map fun x => .node (f x) [] []) = l.map fun x => ⟨f x, indent, []⟩ := by
  induction l with
  | nil => rfl
  | cons t ts ih => simp [listTrees, Tree.list, ih]

theorem Ranged.record_inv {l : List (Option String × Value)} (h : Ranged (recordValue l)) :
    ∀ f ∈ l, Ranged f.2 := by
  match l with
  | [] => simp
  | [(n, v)] => simpa [recordValue] using h
  | a :: b :: l =>
    cases h with
    | record h => exact h

theorem each_map {α β : Type} {r : α → β → Prop} {f : α → β} {l : List α} (h : ∀ x ∈ l, r x (f x)) :
    Each r l (l.map f) := by
  induction l with
  | nil => exact .nil
  | cons a l ih => exact .cons (h a (by simp)) (ih fun x hx => h x (by simp [hx]))

/-- The cards of a data are those of its trees. -/
def DrawnAs (P : Printers) (specs : ShortSpecs) (specName : String) (valid : Bool) (d : PD)
    (above : List InfoFlat) : Prop :=
  ∃ ts, Drawn P specs specName valid d above ts ∧
    ∀ indent, d.card P specs specName above indent valid = listTrees indent ts

theorem DrawnAs.leaf {valid : Bool} {d : PD} {above : List InfoFlat} {c : ParserCard}
    (h : Tells P specs specName valid d c)
    (h' : ∀ indent, d.card P specs specName above indent valid = [⟨c, indent, above⟩]) :
    DrawnAs P specs specName valid d above :=
  ⟨_, .leaf h, fun indent => by rw [h']; rfl⟩

theorem sequence_drawn {valid : Bool} {is : List Info} {s : Sequence} {above : List InfoFlat}
    (h : Ranged (pdValue (.sequence is s))) : DrawnAs P specs specName valid (.sequence is s) above := by
  rw [pdValue] at h
  cases h with
  | seq h =>
    match s with
    | .uints w l =>
      have hl : ∀ v ∈ l, v < 2 ^ (8 * w.bytes) := by
        intro v hv
        have := h (.uint w v) (by simp [sequenceValues, hv])
        cases this; assumption
      by_cases hw : w = .u8
      · subst hw
        exact .leaf (sequenceU8Card_tells hl) fun indent => by rw [PD.card]; rfl
      · refine ⟨_, .uints hw, fun indent => ?_⟩
        rw [PD.card, listTrees, Tree.list, listTrees_leaves]
        unfold sequenceCards
        cases w <;> simp_all [listTrees]
    | .vecU8 l inner =>
      have hl : ∀ x ∈ l, ∀ v ∈ x, v < 256 := by
        intro x hx v hv
        have := h (.seq (x.map (Value.uint .u8))) (by simp only [sequenceValues, List.mem_map]; exact ⟨x, hx, rfl⟩)
        cases this with
        | seq h =>
          have := h (.uint .u8 v) (by simp [hv])
          cases this with
          | uint h => simpa [UW.bytes] using h
      refine ⟨_, .byteStrings (each_map (f := fun x => sequenceU8Card x (inner.map Info.flatten))
        fun x hx => sequenceU8Card_tells (hl x hx)), fun indent => ?_⟩
      rw [PD.card, listTrees, Tree.list, List.map_map]
      have := listTrees_leaves (indent + 1) l fun x => sequenceU8Card x (inner.map Info.flatten)
      simp only [Function.comp_def]
      rw [this]
      simp [sequenceCards, listTrees]

mutual
theorem pd_drawn (hd : specs.decimals < 256) (d : PD) (valid : Bool) (above : List InfoFlat) (h : Ranged (pdValue d)) :
    DrawnAs P specs specName valid d above := by
  match d with
  | .bitVec s o l => exact .leaf .bits fun _ => by rw [PD.card]
  | .blockHash h => exact .leaf .blockHash fun _ => by rw [PD.card]
  | .genesisHash h => exact .leaf .genesisHash fun _ => by rw [PD.card]
  | .h256 h => exact .leaf .h256 fun _ => by rw [PD.card]
  | .fixed k h => exact .leaf fixedCard_tells fun _ => by rw [PD.card]
  | .emptyEnum => exact .leaf .never fun _ => by rw [PD.card]
  | .era e => exact .leaf .era fun _ => by rw [PD.card]
  | .perThing k v => exact .leaf .per fun _ => by rw [PD.card]
  | .bool v => exact .leaf .bool fun _ => by rw [PD.card]
  | .char v => exact .leaf .char fun _ => by rw [PD.card]
  | .int w v => exact .leaf .int fun _ => by rw [PD.card]
  | .u256 v => exact .leaf .u256 fun _ => by rw [PD.card]
  | .uint w v s =>
    rw [pdValue] at h
    cases h with
    | uint h => exact .leaf (specialtyCard_tells h hd) fun _ => by rw [PD.card]
  | .text s .none => exact .leaf .text fun _ => by rw [PD.card]
  | .text s .specName => exact .leaf .specName fun _ => by rw [PD.card]
  | .sequence is s => exact sequence_drawn h
  | .sequenceRaw is l =>
    rw [pdValue] at h
    cases h with
    | seq h =>
      obtain ⟨ts, h1, h2⟩ := list_drawn hd l valid h
      exact ⟨_, .list h1, fun indent => by rw [PD.card, h2]; simp [listTrees, Tree.list]⟩
  | .tuple l =>
    rw [pdValue] at h
    cases h with
    | tuple h =>
      obtain ⟨ts, h1, h2⟩ := tuple_drawn hd l valid h
      match l with
      | [] => exact ⟨_, .unitTuple, fun indent => by rw [PD.card]; rfl⟩
      | e :: l =>
        exact ⟨_, .tuple (by simp) h1, fun indent => by rw [PD.card, h2]; simp [listTrees, Tree.list]⟩
  | .composite fs =>
    rw [pdValue] at h
    have h := h.record_inv
    by_cases hs : singleUnnamed fs = true
    · obtain ⟨ts, h1, h2⟩ := first_drawn hd fs valid above hs h
      obtain ⟨t, docs, ⟨d, is⟩, rfl⟩ := singleUnnamed_iff.1 hs
      refine ⟨ts, .newtype (h1 t docs d is rfl), fun indent => ?_⟩
      rw [PD.card, ← h2]; simp [hs]
    · by_cases he : fs = []
      · subst he
        exact ⟨_, .unitStruct, fun indent => by rw [PD.card]; rfl⟩
      · obtain ⟨ts, h1, h2⟩ := fields_drawn hd fs valid 0 h
        refine ⟨_, .struct he ?_ h1, fun indent => ?_⟩
        · intro t docs d h0
          exact hs (singleUnnamed_iff.2 ⟨t, docs, d, h0⟩)
        · rw [PD.card, h2]; simp [listTrees, Tree.list, he, hs]
  | .variant n docs fs =>
    rw [pdValue] at h
    cases h with
    | variant h =>
      obtain ⟨ts, h1, h2⟩ := part_drawn hd fs valid h
      refine ⟨_, .variant h1, fun indent => ?_⟩
      rw [PD.card, h2, infoWithDocsOnly_eq]
      simp [listTrees, Tree.list]
  | .pallet item info docs p n fs =>
    rw [pdValue] at h
    cases h with
    | pallet h =>
      obtain ⟨ts, h1, h2⟩ := part_drawn hd fs (inUnits p) h
      cases item with
      | call =>
        refine ⟨_, .call h1, fun indent => ?_⟩
        rw [PD.card, isBalanceDisplay_eq, h2, infoWithDocsOnly_eq]
        simp [listTrees, Tree.list]
      | event =>
        refine ⟨_, .event h1, fun indent => ?_⟩
        rw [PD.card, isBalanceDisplay_eq, h2, infoWithDocsOnly_eq]
        simp [listTrees, Tree.list]

theorem list_drawn (hd : specs.decimals < 256) (l : List PD) (valid : Bool) (h : ∀ v ∈ pdsValue l, Ranged v) :
    ∃ ts, DrawnList P specs specName valid l ts ∧
      ∀ indent, cardElements P specs specName l indent valid = listTrees indent ts := by
  match l with
  | [] => exact ⟨_, .nil, fun _ => by rw [cardElements]; rfl⟩
  | d :: ds =>
    rw [pdsValue] at h
    obtain ⟨ts, h1, h2⟩ := pd_drawn hd d valid [] (h _ (by simp))
    obtain ⟨ts', h3, h4⟩ := list_drawn hd ds valid fun v hv => h v (by simp [hv])
    exact ⟨_, .cons h1 h3, fun indent => by rw [cardElements, h2, h4, listTrees_append]⟩

theorem tuple_drawn (hd : specs.decimals < 256) (l : List ED) (valid : Bool) (h : ∀ v ∈ edsValue l, Ranged v) :
    ∃ ts, DrawnTuple P specs specName valid l ts ∧
      ∀ indent, cardTuple P specs specName l indent valid = listTrees indent ts := by
  match l with
  | [] => exact ⟨_, .nil, fun _ => by rw [cardTuple]; rfl⟩
  | ⟨d, is⟩ :: ds =>
    rw [edsValue, edValue] at h
    obtain ⟨ts, h1, h2⟩ := pd_drawn hd d valid (is.map Info.flatten) (h _ (by simp))
    obtain ⟨ts', h3, h4⟩ := tuple_drawn hd ds valid fun v hv => h v (by simp [hv])
    exact ⟨_, .cons h1 h3, fun indent => by rw [cardTuple, ED.card, h2, h4, listTrees_append]⟩

theorem fields_drawn (hd : specs.decimals < 256) (fs : List FD) (valid : Bool) (n : Nat)
    (h : ∀ f ∈ fdsValue fs, Ranged f.2) :
    ∃ ts, DrawnFields P specs specName valid (n + 1) fs ts ∧
      ∀ indent, cardFieldSet P specs specName fs n indent valid = listTrees indent ts := by
  match fs with
  | [] => exact ⟨_, .nil, fun _ => by rw [cardFieldSet]; rfl⟩
  | ⟨name, t, docs, ⟨d, is⟩⟩ :: fs =>
    rw [fdsValue, fdValue, edValue] at h
    obtain ⟨ts, h1, h2⟩ := pd_drawn hd d valid (is.map Info.flatten) (h (name, pdValue d) (by simp))
    obtain ⟨ts', h3, h4⟩ := fields_drawn hd fs valid (n + 1) fun v hv => h v (by simp [hv])
    refine ⟨_, .cons h1 h3, fun indent => ?_⟩
    cases name <;> rw [cardFieldSet, FD.cardInSet, ED.card, h2, h4, infoWithDocsOnly_eq] <;>
      simp [listTrees, Tree.list, fieldHeading]

theorem first_drawn (hd : specs.decimals < 256) (fs : List FD) (valid : Bool) (above : List InfoFlat)
    (hs : singleUnnamed fs = true) (h : ∀ f ∈ fdsValue fs, Ranged f.2) :
    ∃ ts, (∀ t docs d is, fs = [⟨none, t, docs, ⟨d, is⟩⟩] →
        Drawn P specs specName valid d (above ++ docsInfo docs ++ is.map Info.flatten) ts) ∧
      ∀ indent, cardFirstUnnamed P specs specName fs above indent valid = listTrees indent ts := by
  match fs with
  | [] => simp [singleUnnamed] at hs
  | ⟨name, t, docs, ⟨d, is⟩⟩ :: l =>
    rw [fdsValue, fdValue, edValue] at h
    obtain ⟨ts, h1, h2⟩ := pd_drawn hd d valid (above ++ docsInfo docs ++ is.map Info.flatten)
      (h (name, pdValue d) (by simp))
    refine ⟨ts, ?_, fun indent => ?_⟩
    · intro t' docs' d' is' h0
      simp at h0
      obtain ⟨⟨-, -, rfl, rfl, rfl⟩, -⟩ := h0
      exact h1
    · rw [cardFirstUnnamed, FD.cardUnnamed, infoWithDocsOnly_eq, h2]

theorem part_drawn (hd : specs.decimals < 256) (fs : List FD) (valid : Bool)
    (h : ∀ f ∈ fdsValue fs, Ranged f.2) :
    ∃ ts, DrawnPart P specs specName valid fs ts ∧
      ∀ indent, (if singleUnnamed fs then cardFirstUnnamed P specs specName fs [] indent valid
        else cardFieldSet P specs specName fs 0 indent valid) = listTrees indent ts := by
  by_cases hs : singleUnnamed fs = true
  · obtain ⟨ts, h1, h2⟩ := first_drawn hd fs valid [] hs h
    obtain ⟨t, docs, ⟨d, is⟩, h0⟩ := singleUnnamed_iff.1 hs
    refine ⟨ts, ?_, fun indent => by rw [if_pos hs, h2]⟩
    rw [h0]
    exact .single (by simpa using h1 t docs d is h0)
  · obtain ⟨ts, h1, h2⟩ := fields_drawn hd fs valid 0 h
    refine ⟨ts, .fields ?_ h1, fun indent => by rw [if_neg hs, h2]⟩
    intro t docs d h0
    exact hs (singleUnnamed_iff.2 ⟨t, docs, d, h0⟩)
end

/-! ### C37 values -/

/-- The cards that tell values, with their marks. -/
def EachTold (P : Printers) (specs : ShortSpecs) (specName : String) (l : List (Bool × PD))
    (cards : List ExtendedCard) : Prop :=
  Each (fun x (c : ExtendedCard) => Tells P specs specName x.1 x.2 c.parserCard) l
    (cards.filter fun c => !isHeading c.parserCard)

theorem each_append {α β : Type} {r : α → β → Prop} {l l' : List α} {m m' : List β} (h : Each r l m)
    (h' : Each r l' m') : Each r (l ++ l') (m ++ m') := by
  induction h with
  | nil => exact h'
  | cons h _ ih => exact .cons h ih

theorem EachTold.append {l l' : List (Bool × PD)} {m m' : List ExtendedCard}
    (h : EachTold P specs specName l m) (h' : EachTold P specs specName l' m') :
    EachTold P specs specName (l ++ l') (m ++ m') := by
  unfold EachTold
  rw [List.filter_append]
  exact each_append h h'

theorem EachTold.heading {l : List (Bool × PD)} {m : List ExtendedCard} {c : ParserCard} {n : Nat}
    {i : List InfoFlat} (hc : isHeading c = true) (h : EachTold P specs specName l m) :
    EachTold P specs specName l (⟨c, n, i⟩ :: m) := by
  unfold EachTold
  rw [List.filter_cons_of_neg (by simp [hc])]
  exact h

theorem Spec.Tells.not_heading {valid : Bool} {d : PD} {c : ParserCard} (h : Tells P specs specName valid d c) :
    isHeading c = false := by
  cases h <;> rfl

theorem EachTold.one {valid : Bool} {d : PD} {c : ParserCard} {n : Nat} {i : List InfoFlat}
    (h : Tells P specs specName valid d c) : EachTold P specs specName [(valid, d)] [⟨c, n, i⟩] := by
  unfold EachTold
  rw [List.filter_cons_of_pos (by simp [h.not_heading])]
  exact .cons h .nil

theorem Spec.Tells.leaves_eq {valid : Bool} {d : PD} {c : ParserCard} (h : Tells P specs specName valid d c) :
    leaves valid d = [(valid, d)] := by
  cases h <;> rw [leaves] <;> first | rfl | (intros; simp_all)

mutual
theorem drawn_leaves {valid : Bool} {d : PD} {above : List InfoFlat} {ts : List Tree}
    (h : Drawn P specs specName valid d above ts) (n : Nat) :
    EachTold P specs specName (leaves valid d) (listTrees n ts) := by
  match h with
  | .leaf h =>
    rw [h.leaves_eq]
    exact .one h
  | .unitStruct => rw [leaves, fieldLeaves]; exact .nil
  | .unitTuple => rw [leaves, tupleLeaves]; exact .nil
  | .newtype h =>
    rw [leaves, fieldLeaves, fdLeaves, edLeaves, fieldLeaves, List.append_nil]
    exact drawn_leaves h n
  | .struct _ _ h =>
    rw [leaves]
    simp only [listTrees, Tree.list, List.append_nil]
    exact .heading rfl (fields_leaves h (n + 1))
  | .tuple _ h =>
    rw [leaves]
    simp only [listTrees, Tree.list, List.append_nil]
    exact .heading rfl (tuple_leaves h (n + 1))
  | .list h =>
    rw [leaves]
    simp only [listTrees, Tree.list, List.append_nil]
    exact .heading rfl (list_leaves h (n + 1))
  | .uints (is := is) (l := l) (w := w) hw =>
    have e : leaves valid (.sequence is (.uints w l)) = l.map fun v => (valid, PD.uint w v .none) := by
      cases w <;> first | exact absurd rfl hw | (rw [leaves]; simp)
    rw [e]
    simp only [listTrees, Tree.list, List.append_nil, listTrees_leaves]
    refine .heading rfl ?_
    clear e h
    induction l with
    | nil => exact .nil
    | cons v l ih => exact EachTold.append (.one .uint) ih
  | .byteStrings (l := l) (inner := inner) (cs := cs) hc =>
    rw [leaves]
    simp only [listTrees, Tree.list, List.append_nil]
    refine .heading rfl ?_
    rw [listTrees_leaves (n + 1) cs fun c => c]
    clear h
    induction hc with
    | nil => exact .nil
    | cons h _ ih => exact EachTold.append (.one h) ih
  | .variant h =>
    rw [leaves]
    simp only [listTrees, Tree.list, List.append_nil]
    exact .heading rfl (.heading rfl (part_leaves h (n + 1 + 1)))
  | .call h =>
    rw [leaves]
    simp only [listTrees, Tree.list, List.append_nil]
    exact .heading rfl (.heading rfl (part_leaves h (n + 1 + 1)))
  | .event h =>
    rw [leaves]
    simp only [listTrees, Tree.list, List.append_nil]
    exact .heading rfl (.heading rfl (part_leaves h (n + 1 + 1)))

theorem part_leaves {valid : Bool} {fs : List FD} {ts : List Tree}
    (h : DrawnPart P specs specName valid fs ts) (n : Nat) :
    EachTold P specs specName (fieldLeaves valid fs) (listTrees n ts) := by
  match h with
  | .single h =>
    rw [fieldLeaves, fdLeaves, edLeaves, fieldLeaves, List.append_nil]
    exact drawn_leaves h n
  | .fields _ h => exact fields_leaves h n

theorem fields_leaves {valid : Bool} {k : Nat} {fs : List FD} {ts : List Tree}
    (h : DrawnFields P specs specName valid k fs ts) (n : Nat) :
    EachTold P specs specName (fieldLeaves valid fs) (listTrees n ts) := by
  match h with
  | .nil => rw [fieldLeaves]; exact .nil
  | .cons (name := name) h h' =>
    rw [fieldLeaves, fdLeaves, edLeaves]
    simp only [listTrees, Tree.list]
    refine EachTold.append (.heading ?_ (drawn_leaves h (n + 1))) (fields_leaves h' n)
    cases name <;> rfl

theorem tuple_leaves {valid : Bool} {l : List ED} {ts : List Tree}
    (h : DrawnTuple P specs specName valid l ts) (n : Nat) :
    EachTold P specs specName (tupleLeaves valid l) (listTrees n ts) := by
  match h with
  | .nil => rw [tupleLeaves]; exact .nil
  | .cons h h' =>
    rw [tupleLeaves, edLeaves, listTrees_append]
    exact .append (drawn_leaves h n) (tuple_leaves h' n)

theorem list_leaves {valid : Bool} {l : List PD} {ts : List Tree}
    (h : DrawnList P specs specName valid l ts) (n : Nat) :
    EachTold P specs specName (listLeaves valid l) (listTrees n ts) := by
  match h with
  | .nil => rw [listLeaves]; exact .nil
  | .cons h h' =>
    rw [listLeaves, listTrees_append]
    exact .append (drawn_leaves h n) (list_leaves h' n)
end

/-- C37, complete form. The cards of parsed data with values in range are the cards of
the trees drawn for it. -/
theorem card_drawn (hd : specs.decimals < 256) {d : ED} (h : Ranged (edValue d)) (indent : Nat) (valid : Bool) :
    ∃ ts, Drawn P specs specName valid d.data (d.info.map Info.flatten) ts ∧
      d.card P specs specName indent valid = listTrees indent ts := by
  obtain ⟨d, is⟩ := d
  rw [edValue] at h
  obtain ⟨ts, h1, h2⟩ := pd_drawn hd d valid (is.map Info.flatten) h
  exact ⟨ts, h1, by rw [ED.card, h2]⟩

/-- C37. The cards that are not headings tell the single values inside the data: each
value once, in order, and nothing else. -/
theorem card_leaves (hd : specs.decimals < 256) {d : ED} (h : Ranged (edValue d)) (indent : Nat) (valid : Bool) :
    Each (fun x (c : ExtendedCard) => Tells P specs specName x.1 x.2 c.parserCard) (leaves valid d.data)
      ((d.card P specs specName indent valid).filter fun c => !isHeading c.parserCard) := by
  obtain ⟨ts, h1, h2⟩ := card_drawn (P := P) (specName := specName) hd h indent valid
  rw [h2]
  exact drawn_leaves h1 indent

/-- C37, for calls. -/
theorem call_leaves (hd : specs.decimals < 256) {c : Call} (h : ∀ f ∈ fdsValue c.fields, Ranged f.2)
    (indent : Nat) :
    Each (fun x (c : ExtendedCard) => Tells P specs specName x.1 x.2 c.parserCard)
      (fieldLeaves (inUnits c.palletName) c.fields)
      ((c.card P specs specName indent).filter fun c => !isHeading c.parserCard) := by
  have h' : Ranged (pdValue c.toPD) := by
    unfold Call.toPD
    rw [pdValue]
    exact .pallet h
  obtain ⟨ts, h1, h2⟩ := pd_drawn (P := P) (specName := specName) hd c.toPD false [] h'
  unfold Call.card
  rw [h2]
  have := drawn_leaves h1 indent
  rw [show leaves false c.toPD = fieldLeaves (inUnits c.palletName) c.fields by
    unfold Call.toPD; rw [leaves]] at this
  exact this

/-! ### C38 indents -/

/-- Indents go down the tree: the first card is at the starting indent, no card is left of
it, and a card is at most one step right of the card before. -/
structure Indented (start : Nat) (l : List ExtendedCard) : Prop where
  first : ∀ c, l.head? = some c → c.indent = start
  least : ∀ c ∈ l, start ≤ c.indent
  step : ∀ (k : Nat) a b, l[k]? = some a → l[k + 1]? = some b → b.indent ≤ a.indent + 1

theorem Indented.cons {n : Nat} {c : ExtendedCard} {l : List ExtendedCard} (h : Indented (n + 1) l)
    (hc : c.indent = n) : Indented n (c :: l) := by
  refine ⟨by rintro _ ⟨⟩; exact hc, ?_, ?_⟩
  · intro x hx
    rcases List.mem_cons.1 hx with rfl | hx
    · omega
    · have := h.least x hx; omega
  · intro k a b ha hb
    cases k with
    | zero =>
      simp at ha hb
      subst ha
      have := h.first b (by rw [List.head?_eq_getElem?]; exact hb)
      omega
    | succ k => exact h.step k a b (by simpa using ha) (by simpa using hb)

theorem Indented.append {n : Nat} {l l' : List ExtendedCard} (h : Indented n l) (h' : Indented n l') :
    Indented n (l ++ l') := by
  refine ⟨?_, ?_, ?_⟩
  · intro c hc
    cases l with
    | nil => exact h'.first c (by simpa using hc)
    | cons x l => exact h.first c (by simpa using hc)
  · intro c hc
    rcases List.mem_append.1 hc with hc | hc
    · exact h.least c hc
    · exact h'.least c hc
  · intro k a b ha hb
    by_cases h1 : k + 1 < l.length
    · rw [List.getElem?_append_left (by omega)] at ha
      rw [List.getElem?_append_left (by omega)] at hb
      exact h.step k a b ha hb
    · by_cases h2 : k < l.length
      · rw [List.getElem?_append_left (by omega)] at ha
        rw [List.getElem?_append_right (by omega), show k + 1 - l.length = 0 by omega] at hb
        have := h.least a (List.mem_of_getElem? ha)
        have := h'.first b (by rw [List.head?_eq_getElem?]; exact hb)
        omega
      · rw [List.getElem?_append_right (by omega)] at ha
        rw [List.getElem?_append_right (by omega), show k + 1 - l.length = k - l.length + 1 by omega] at hb
        exact h'.step _ a b ha hb

theorem Indented.nil {n : Nat} : Indented n [] :=
  ⟨by simp, by simp, by simp⟩

mutual
theorem tree_indented (t : Tree) (n : Nat) : Indented n (t.list n) := by
  match t with
  | .node c i ts =>
    rw [Tree.list]
    exact .cons (trees_indented ts (n + 1)) rfl

theorem trees_indented (ts : List Tree) (n : Nat) : Indented n (listTrees n ts) := by
  match ts with
  | [] => rw [listTrees]; exact .nil
  | t :: ts =>
    rw [listTrees]
    exact .append (tree_indented t n) (trees_indented ts n)
end

mutual
theorem tree_shift (t : Tree) (n k : Nat) :
    t.list (n + k) = (t.list n).map fun c => { c with indent := c.indent + k } := by
  match t with
  | .node c i ts =>
    rw [Tree.list, Tree.list, Nat.add_right_comm, trees_shift ts (n + 1) k]
    rfl

theorem trees_shift (ts : List Tree) (n k : Nat) :
    listTrees (n + k) ts = (listTrees n ts).map fun c => { c with indent := c.indent + k } := by
  match ts with
  | [] => rw [listTrees, listTrees]; rfl
  | t :: ts => rw [listTrees, listTrees, tree_shift t n k, trees_shift ts n k, List.map_append]
end

/-- C38. Indents of the cards of parsed data: the cards are a listing of trees, every card
at the starting indent plus its depth in them (`card_drawn`); so they are `Indented`, and
another starting indent moves all cards alike. -/
theorem card_indented (hd : specs.decimals < 256) {d : ED} (h : Ranged (edValue d)) (indent : Nat) (valid : Bool) :
    Indented indent (d.card P specs specName indent valid) ∧
    ∀ k, d.card P specs specName (indent + k) valid =
      (d.card P specs specName indent valid).map fun c => { c with indent := c.indent + k } := by
  obtain ⟨d, is⟩ := d
  rw [edValue] at h
  obtain ⟨ts, h1, h2⟩ := pd_drawn (P := P) (specName := specName) hd d valid (is.map Info.flatten) h
  simp only [ED.card, h2]
  exact ⟨trees_indented ts indent, fun k => trees_shift ts indent k⟩

/-- C38, for calls. -/
theorem call_indented (hd : specs.decimals < 256) {c : Call} (h : ∀ f ∈ fdsValue c.fields, Ranged f.2)
    (indent : Nat) : Indented indent (c.card P specs specName indent) := by
  have h' : Ranged (pdValue c.toPD) := by
    unfold Call.toPD
    rw [pdValue]
    exact .pallet h
  obtain ⟨ts, h1, h2⟩ := pd_drawn (P := P) (specName := specName) hd c.toPD false [] h'
  unfold Call.card
  rw [h2]
  exact trees_indented ts indent

/-! ### C39 chain units -/

theorem each_mem {α β : Type} {r : α → β → Prop} {l : List α} {m : List β} (h : Each r l m) {b : β}
    (hb : b ∈ m) : ∃ a ∈ l, r a b := by
  induction h with
  | nil => simp at hb
  | cons h _ ih =>
    rcases List.mem_cons.1 hb with rfl | hb
    · exact ⟨_, by simp, h⟩
    · obtain ⟨a, h1, h2⟩ := ih hb
      exact ⟨a, by simp [h1], h2⟩

theorem each_mem_left {α β : Type} {r : α → β → Prop} {l : List α} {m : List β} (h : Each r l m) {a : α}
    (ha : a ∈ l) : ∃ b ∈ m, r a b := by
  induction h with
  | nil => simp at ha
  | cons h _ ih =>
    rcases List.mem_cons.1 ha with rfl | ha
    · exact ⟨_, by simp, h⟩
    · obtain ⟨b, h1, h2⟩ := ih ha
      exact ⟨b, by simp [h1], h2⟩

/-- `x` is `d` itself or occurs inside. -/
inductive Within : PD → PD → Prop
  | self {d : PD} : Within d d
  | composite {fs : List FD} {f : FD} {x : PD} : f ∈ fs → Within f.data.data x → Within (.composite fs) x
  | variant {n docs : String} {fs : List FD} {f : FD} {x : PD} : f ∈ fs → Within f.data.data x →
      Within (.variant n docs fs) x
  | pallet {item : PalletItem} {info : Info} {docs p n : String} {fs : List FD} {f : FD} {x : PD} : f ∈ fs →
      Within f.data.data x → Within (.pallet item info docs p n fs) x
  | tuple {l : List ED} {e : ED} {x : PD} : e ∈ l → Within e.data x → Within (.tuple l) x
  | list {is : List Info} {l : List PD} {e x : PD} : e ∈ l → Within e x → Within (.sequenceRaw is l) x

/-- A pallet item of `Balances` or `Staking` inside the data. -/
def HasUnits (d : PD) : Prop :=
  ∃ item info docs p n fs, Within d (.pallet item info docs p n fs) ∧ (p = "Balances" ∨ p = "Staking")

theorem inUnits_iff {p : String} : inUnits p = true ↔ p = "Balances" ∨ p = "Staking" := by
  simp [inUnits]

theorem HasUnits.up {d e : PD} (h : HasUnits e) (h' : ∀ x, Within e x → Within d x) : HasUnits d := by
  obtain ⟨item, info, docs, p, n, fs, h1, h2⟩ := h
  exact ⟨item, info, docs, p, n, fs, h' _ h1, h2⟩

mutual
theorem leaves_mark (d : PD) {x : PD} (h : (true, x) ∈ leaves false d) : HasUnits d := by
  match d with
  | .composite fs =>
    rw [leaves] at h
    obtain ⟨f, hf, h1⟩ := fieldLeaves_mark fs h
    exact h1.up fun _ => .composite hf
  | .variant n docs fs =>
    rw [leaves] at h
    obtain ⟨f, hf, h1⟩ := fieldLeaves_mark fs h
    exact h1.up fun _ => .variant hf
  | .pallet item info docs p n fs =>
    rw [leaves] at h
    cases hp : inUnits p with
    | true => exact ⟨item, info, docs, p, n, fs, .self, inUnits_iff.1 hp⟩
    | false =>
      rw [hp] at h
      obtain ⟨f, hf, h1⟩ := fieldLeaves_mark fs h
      exact h1.up fun _ => .pallet hf
  | .tuple l =>
    rw [leaves] at h
    obtain ⟨f, hf, h1⟩ := tupleLeaves_mark l h
    exact h1.up fun _ => .tuple hf
  | .sequenceRaw is l =>
    rw [leaves] at h
    obtain ⟨f, hf, h1⟩ := listLeaves_mark l h
    exact h1.up fun _ => .list hf
  | .sequence is (.uints w l) => cases w <;> rw [leaves] at h <;> first | (simp at h; done) | (intros; simp_all)
  | .sequence is (.vecU8 l inner) => rw [leaves] at h; simp at h
  | .bitVec .. | .blockHash _ | .genesisHash _ | .h256 _ | .fixed .. | .emptyEnum | .era _ | .perThing ..
  | .bool _ | .char _ | .int .. | .uint .. | .u256 _ | .text .. => rw [leaves] at h <;> first | (simp at h; done) | (intros; simp_all; done) | (intros; exact PD.noConfusion)

theorem fieldLeaves_mark (fs : List FD) {x : PD} (h : (true, x) ∈ fieldLeaves false fs) :
    ∃ f ∈ fs, HasUnits f.data.data := by
  match fs with
  | [] => rw [fieldLeaves] at h; simp at h
  | ⟨n, t, docs, ⟨d, is⟩⟩ :: fs =>
    rw [fieldLeaves, fdLeaves, edLeaves, List.mem_append] at h
    rcases h with h | h
    · exact ⟨_, List.mem_cons_self, leaves_mark d h⟩
    · obtain ⟨f, hf, h1⟩ := fieldLeaves_mark fs h
      exact ⟨f, by simp [hf], h1⟩

theorem tupleLeaves_mark (l : List ED) {x : PD} (h : (true, x) ∈ tupleLeaves false l) :
    ∃ e ∈ l, HasUnits e.data := by
  match l with
  | [] => rw [tupleLeaves] at h; simp at h
  | ⟨d, is⟩ :: l =>
    rw [tupleLeaves, edLeaves, List.mem_append] at h
    rcases h with h | h
    · exact ⟨_, List.mem_cons_self, leaves_mark d h⟩
    · obtain ⟨f, hf, h1⟩ := tupleLeaves_mark l h
      exact ⟨f, by simp [hf], h1⟩

theorem listLeaves_mark (l : List PD) {x : PD} (h : (true, x) ∈ listLeaves false l) :
    ∃ e ∈ l, HasUnits e := by
  match l with
  | [] => rw [listLeaves] at h; simp at h
  | d :: l =>
    rw [listLeaves, List.mem_append] at h
    rcases h with h | h
    · exact ⟨_, List.mem_cons_self, leaves_mark d h⟩
    · obtain ⟨f, hf, h1⟩ := listLeaves_mark l h
      exact ⟨f, by simp [hf], h1⟩
end

/-- C39. An amount card in chain units stands for an amount at a place where units are
valid, and shows that amount. -/
theorem card_balance (hd : specs.decimals < 256) {d : ED} (h : Ranged (edValue d)) {indent : Nat} {valid : Bool}
    {c : ExtendedCard} {cur : Option Currency} (hc : c ∈ d.card P specs specName indent valid)
    (hb : c.parserCard = .balance cur) :
    ∃ w v cur', cur = some cur' ∧ (true, .uint w v .balance) ∈ leaves valid d.data ∧ Printed specs v cur' := by
  have he := card_leaves (P := P) (specName := specName) hd h indent valid
  obtain ⟨⟨b, x⟩, hx, ht⟩ := each_mem he (List.mem_filter.2 ⟨hc, by rw [hb]; rfl⟩)
  rw [hb] at ht
  cases ht with
  | balance h1 h2 =>
    simp at h1
    subst h1
    exact ⟨_, _, _, rfl, hx, h2⟩

/-- C39. In a call, amounts are in chain units only if the call or something inside it
belongs to `Balances` or `Staking`. -/
theorem call_balance (hd : specs.decimals < 256) {k : Call} (h : ∀ f ∈ fdsValue k.fields, Ranged f.2)
    {indent : Nat} {c : ExtendedCard} {cur : Option Currency} (hc : c ∈ k.card P specs specName indent)
    (hb : c.parserCard = .balance cur) :
    (k.palletName = "Balances" ∨ k.palletName = "Staking") ∨ ∃ f ∈ k.fields, HasUnits f.data.data := by
  have he := call_leaves (P := P) (specName := specName) hd h indent
  obtain ⟨⟨b, x⟩, hx, ht⟩ := each_mem he (List.mem_filter.2 ⟨hc, by rw [hb]; rfl⟩)
  rw [hb] at ht
  cases ht with
  | balance h1 h2 =>
    simp at h1
    subst h1
    cases hp : inUnits k.palletName with
    | true => exact .inl (inUnits_iff.1 hp)
    | false =>
      rw [hp] at hx
      exact .inr (fieldLeaves_mark k.fields hx)

/-- C39. Every amount at a place where units are not valid is shown as a raw number, every
amount where they are valid is shown in units; a tip in units; an asset tip never. -/
theorem card_amounts (hd : specs.decimals < 256) {d : ED} (h : Ranged (edValue d)) (indent : Nat) (valid : Bool)
    {w : UW} {v : Nat} {mark : Bool} {s : SpecUInt} (hl : (mark, .uint w v s) ∈ leaves valid d.data) :
    ∃ c ∈ d.card P specs specName indent valid,
      (s = .balance → mark = true → ∃ cur, c.parserCard = .balance (some cur) ∧ Printed specs v cur) ∧
      (s = .balance → mark = false → c.parserCard = .balanceRaw v.repr) ∧
      (s = .tip → ∃ cur, c.parserCard = .tip (some cur) ∧ Printed specs v cur) ∧
      (s = .tipAsset → c.parserCard = .tipAsset v.repr) := by
  obtain ⟨c, hc, ht⟩ := each_mem_left (card_leaves (P := P) (specName := specName) hd h indent valid) hl
  refine ⟨c, (List.mem_filter.1 hc).1, ?_, ?_, ?_, ?_⟩
  · rintro rfl rfl
    generalize hq : c.parserCard = q at ht ⊢
    cases ht with
    | balance _ h2 => exact ⟨_, rfl, h2⟩
    | balanceRaw h => cases h
  · rintro rfl rfl
    generalize hq : c.parserCard = q at ht ⊢
    cases ht with
    | balance h => cases h
    | balanceRaw h => rfl
  · rintro rfl
    generalize hq : c.parserCard = q at ht ⊢
    cases ht with
    | tip h2 => exact ⟨_, rfl, h2⟩
  · rintro rfl
    generalize hq : c.parserCard = q at ht ⊢
    cases ht with
    | tipAsset => rfl

end Verif
