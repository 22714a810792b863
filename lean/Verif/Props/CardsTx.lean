import Verif.Props.Cards
import Verif.Props.Extensions
/-!
# Cards of parsed transactions, and of all decoded data (C37–C39, end to end)
-/
namespace Verif
open Spec

variable {P : Printers} {specs : ShortSpecs} {specName : String} {ME : Type}

theorem Spec.IsCall.ranged {R : Registry} {id : Nat} {c : Call} {bs : Bytes} (h : IsCall R id c bs) :
    ∀ f ∈ fdsValue c.fields, Ranged f.2 := by
  obtain ⟨t, i, j, inner, v, ps, -, -, -, -, hl, he, hv, -⟩ := h
  intro f hf
  rw [hv] at hf
  obtain ⟨x, hx, h⟩ := mem_named hf hl
  rw [← h]
  exact enc_ranged (he x hx)

theorem Spec.ItemsAre.ranged {R : Registry} {items : List (String × Nat)} {ds : List ED} {bs : Bytes}
    (h : ItemsAre R items ds bs) : ∀ d ∈ ds, Ranged (edValue d) := by
  obtain ⟨chunks, -, h1, h2, h3⟩ := h
  clear bs
  induction items generalizing ds chunks with
  | nil =>
    have : ds = [] := List.length_eq_zero_iff.1 h2
    simp [this]
  | cons x items ih =>
    match ds, chunks, h1, h2 with
    | d :: ds, c :: cs, h1, h2 =>
      intro e he
      rcases List.mem_cons.1 he with rfl | he
      · exact enc_ranged (h3 (x, e, c) (by simp)).1
      · exact ih cs (by simpa using h1) (by simpa using h2)
          (fun y hy => h3 y (by simp only [List.zip_cons_cons]; exact List.mem_cons_of_mem _ hy)) e he

/-- Cards of a list of data. -/
theorem cardExtensions_leaves (hd : specs.decimals < 256) {l : List ED} (h : ∀ d ∈ l, Ranged (edValue d)) :
    Each (fun x (c : ExtendedCard) => Tells P specs specName x.1 x.2 c.parserCard) (tupleLeaves true l)
      ((cardExtensions P specs specName l).filter fun c => !isHeading c.parserCard) := by
  unfold cardExtensions
  induction l with
  | nil => rw [tupleLeaves]; exact .nil
  | cons d l ih =>
    rw [tupleLeaves, List.flatMap_cons, List.filter_append]
    refine each_append ?_ (ih fun e he => h e (by simp [he]))
    have := card_leaves (P := P) (specName := specName) hd (h d (by simp)) 0 true
    obtain ⟨d, is⟩ := d
    exact this

/-- C37, end to end: the cards of data decoded by `decode_all_as_type`. -/
theorem decodeAllAsType_cards {R : Registry} (hd : specs.decimals < 256) {b : Buf} {id : Nat} {d : ED}
    (h : decodeAllAsType R b id = .ok d) (indent : Nat) (valid : Bool) :
    Each (fun x (c : ExtendedCard) => Tells P specs specName x.1 x.2 c.parserCard) (leaves valid d.data)
      ((d.card P specs specName indent valid).filter fun c => !isHeading c.parserCard) ∧
    Indented indent (d.card P specs specName indent valid) :=
  ⟨card_leaves hd (decodeAllAsType_ranged h) indent valid,
    (card_indented hd (decodeAllAsType_ranged h) indent valid).1⟩

/-- C37, C39, end to end: the cards of a parsed transaction. The call and the extensions
come from the bytes of the payload (`parseTransaction_sound`); the cards of the call tell the
single values of its fields, amounts in chain units in the pallets `Balances` and `Staking`;
those of the extensions tell the values of all extensions, tips in chain units. -/
theorem parseTransaction_cards {M : Metadata ME} {b : Buf} (hd : specs.decimals < 256) {expected : Option Bytes}
    {r : TransactionParsed ME} {c : Call} (h : parseTransaction M b expected = .ok r)
    (hc : r.callResult = .ok c) :
    ∃ cards, (r.card P specs specName).callResult = .ok cards ∧
      cards.head? = some ⟨.palletName c.palletName, 0, [c.palletInfo.flatten]⟩ ∧
      (cards[1]?.map (·.parserCard)) = some (.callName c.variantName) ∧
      Each (fun x (k : ExtendedCard) => Tells P specs specName x.1 x.2 k.parserCard)
        (fieldLeaves (inUnits c.palletName) c.fields) (cards.filter fun k => !isHeading k.parserCard) ∧
      Each (fun x (k : ExtendedCard) => Tells P specs specName x.1 x.2 k.parserCard)
        (tupleLeaves true r.extensions)
        ((r.card P specs specName).extensions.filter fun k => !isHeading k.parserCard) := by
  obtain ⟨id, signed, spec, callBytes, extBytes, -, -, -, -, h1, h2, -⟩ := parseTransaction_sound h hc
  refine ⟨c.card P specs specName 0, ?_, ?_, ?_, call_leaves hd h1.ranged 0, cardExtensions_leaves hd h2.ranged⟩
  · unfold TransactionParsed.card
    rw [hc]; rfl
  · unfold Call.card Call.toPD
    rw [PD.card]; rfl
  · unfold Call.card Call.toPD
    rw [PD.card]; rfl

/-- The same for a transaction without length prefix. -/
theorem parseTransactionUnmarked_cards {M : Metadata ME} {b : Buf} (hd : specs.decimals < 256)
    {expected : Option Bytes} {r : TransactionUnmarkedParsed}
    (h : parseTransactionUnmarked M b expected = .ok r) :
    Each (fun x (k : ExtendedCard) => Tells P specs specName x.1 x.2 k.parserCard)
      (fieldLeaves (inUnits r.call.palletName) r.call.fields)
      ((r.card P specs specName).call.filter fun k => !isHeading k.parserCard) ∧
    Each (fun x (k : ExtendedCard) => Tells P specs specName x.1 x.2 k.parserCard)
      (tupleLeaves true r.extensions)
      ((r.card P specs specName).extensions.filter fun k => !isHeading k.parserCard) := by
  obtain ⟨id, signed, spec, callBytes, extBytes, -, -, -, -, h1, h2, -⟩ := parseTransactionUnmarked_sound h
  exact ⟨call_leaves hd h1.ranged 0, cardExtensions_leaves hd h2.ranged⟩

/-- Printing never panics on decoded data: no card has a failed number. -/
theorem tells_no_panic {l : List (Bool × PD)} {cards : List ExtendedCard}
    (h : Each (fun x (k : ExtendedCard) => Tells P specs specName x.1 x.2 k.parserCard) l
      (cards.filter fun k => !isHeading k.parserCard)) :
    ∀ c ∈ cards, c.parserCard ≠ .balance none ∧ c.parserCard ≠ .tip none := by
  intro c hc
  constructor
  · intro hb
    obtain ⟨⟨m, x⟩, -, ht⟩ := each_mem h (List.mem_filter.2 ⟨hc, by rw [hb]; rfl⟩)
    rw [hb] at ht
    cases ht
  · intro hb
    obtain ⟨⟨m, x⟩, -, ht⟩ := each_mem h (List.mem_filter.2 ⟨hc, by rw [hb]; rfl⟩)
    rw [hb] at ht
    cases ht

/-- A tree with a nested call, a tuple, texts, bytes and amounts. -/
def exampleTree : PD :=
  .pallet .call ⟨"", ["pallet_utility"]⟩ "" "Utility" "batch"
    [⟨some "calls", none, "", ⟨.sequenceRaw [] [
      .pallet .call ⟨"", []⟩ "" "Balances" "transfer"
        [⟨some "value", some "Balance", "", ⟨.uint .u128 1500000000000 .balance, []⟩⟩]], []⟩⟩,
     ⟨none, none, "", ⟨.tuple [⟨.uint .u32 7 .balance, []⟩, ⟨.sequence [] (.uints .u8 [104, 105]), []⟩], []⟩⟩]

/-- Specs and printers for examples. -/
def exampleSpecs : ShortSpecs := ⟨42, 12, "UNIT"⟩
def examplePrinters : Printers := ⟨fun _ _ _ => "5x", fun _ => []⟩

example : Ranged (pdValue exampleTree) := by
  simp only [exampleTree, pdValue, fdsValue, fdValue, edValue, pdsValue, edsValue, sequenceValues, List.map]
  refine .pallet ?_
  simp
  refine ⟨.seq ?_, .tuple ?_⟩
  · simp
    refine .pallet ?_
    simp
    exact .uint (by decide)
  · simp
    refine ⟨.uint (by decide), .seq ?_⟩
    simp
    exact ⟨.uint (by decide), .uint (by decide)⟩

/-- The cards: the amount of the nested `Balances` call is in units, that in `Utility` is
not. -/
example : (exampleTree.card examplePrinters exampleSpecs "westend" [] 0 false).map
      (fun c => (c.indent, c.parserCard)) =
    [(0, .palletName "Utility"), (1, .callName "batch"), (2, .fieldName "calls"),
     (3, .sequenceAnnounced 1 []), (4, .palletName "Balances"), (5, .callName "transfer"),
     (6, .fieldName "value"), (7, .balance (some ⟨"1.500000000000", "UNIT"⟩)), (2, .fieldNumber 2),
     (3, .tupleAnnounced 2), (4, .balanceRaw "7"), (4, .sequenceU8 "6869" (some "hi") [])] := by
  simp [exampleTree, PD.card, singleUnnamed, cardFieldSet, FD.cardInSet, ED.card, cardElements, cardTuple,
    specialtyCard, isBalanceDisplay, palletsBalanceValid, sequenceCards, exampleSpecs]
  decide

end Verif
