import Verif.Proof.Legible
import Verif.Props.Canonical
import Verif.Props.CardsTx
import Verif.Props.Show
/-!
# C52 What is shown determines what is signed

The lines shown for decoded data (`cardLines`: label and payload of every card; indents, docs,
paths and identicons are not needed) determine the decoded data, with all values, names, docs and
labels. If the values are `Firm` (C50), they determine the bytes of the payload.
-/
namespace Verif
open Spec

variable {ME : Type} {M : Metadata ME} {R : Registry} {b b' : Buf}
variable {P : Printers} {specs : ShortSpecs} {specName : String} {showBits : BitStore → BitOrder → List Bool → String}

theorem shown_legible (hn : NamesDistinct R) (F : Faithful P specs showBits) {h : Hint} {is : List Info} {id : Nat}
    {d d' : ED} (a : Shown R h is id d) (a' : Shown R h is id d') (g : Ranged (edValue d)) (g' : Ranged (edValue d'))
    {i i' : Nat} {units : Bool} {rest rest' : List (String × Option String)}
    (w : cardLines showBits (d.card P specs specName i units) ++ rest =
      cardLines showBits (d'.card P specs specName i' units) ++ rest') : d = d' ∧ rest = rest' := by
  have e := shown_info a a'
  obtain ⟨x, j⟩ := d
  obtain ⟨x', j'⟩ := d'
  simp only [ED.card] at w
  obtain ⟨e1, e2⟩ := shown_reads hn F a _ _ a' g g' _ _ i i' units rest rest' w
  simp only at e e1
  subst e e1
  exact ⟨rfl, e2⟩

/-- C52. Two decodings of the same type in the same context (any data, any positions) that are
shown with the same lines are the same. -/
theorem decode_legible (hn : NamesDistinct R) (F : Faithful P specs showBits) {id pos pos' q q' : Nat}
    {p : Propagated} (hp : Fresh p) {d d' : ED} (h : decode R b (.symbol id) pos p = .ok (d, q))
    (h' : decode R b' (.symbol id) pos' p = .ok (d', q')) {i i' : Nat} {units : Bool}
    (w : cardLines showBits (d.card P specs specName i units) = cardLines showBits (d'.card P specs specName i' units)) :
    d = d' :=
  (shown_legible hn F (decode_shown h) (decode_shown h') (decode_ranged hp h) (decode_ranged hp h')
    (rest := []) (rest' := []) (by rw [w])).1

/-- C52, entry point `decode_all_as_type`. -/
theorem decodeAllAsType_legible (hn : NamesDistinct R) (F : Faithful P specs showBits) {id : Nat} {d d' : ED}
    (h : decodeAllAsType R b id = .ok d) (h' : decodeAllAsType R b' id = .ok d') {i i' : Nat} {units : Bool}
    (w : cardLines showBits (d.card P specs specName i units) = cardLines showBits (d'.card P specs specName i' units)) :
    d = d' :=
  (shown_legible hn F (decodeAllAsType_shown h) (decodeAllAsType_shown h') (decodeAllAsType_ranged h)
    (decodeAllAsType_ranged h') (rest := []) (rest' := []) (by rw [w])).1

/-- C52. What is shown determines the bytes. -/
theorem decodeAllAsType_signs (hn : NamesDistinct R) (hs : SignaturesDistinct R) (F : Faithful P specs showBits)
    {id : Nat} {d d' : ED} (h : decodeAllAsType R b id = .ok d) (h' : decodeAllAsType R b' id = .ok d')
    (hf : Firm (edValue d)) {i i' : Nat} {units : Bool}
    (w : cardLines showBits (d.card P specs specName i units) = cardLines showBits (d'.card P specs specName i' units)) :
    b.bytes = b'.bytes :=
  decodeAllAsType_canonical hn hs h h' hf (by rw [decodeAllAsType_legible hn F h h' w])

/-- C52. The text returned by `show` determines the data, if no text in the cards has a line
break (see `show_forged` for texts with line breaks). -/
theorem decodeAllAsType_show_legible (hn : NamesDistinct R) (F : Faithful P specs showBits) {id : Nat} {d d' : ED}
    (h : decodeAllAsType R b id = .ok d) (h' : decodeAllAsType R b' id = .ok d') {i i' : Nat} {units : Bool}
    (o : ∀ c ∈ d.card P specs specName i units, ∀ s ∈ freeTexts showBits c.parserCard, OneLine s)
    (o' : ∀ c ∈ d'.card P specs specName i' units, ∀ s ∈ freeTexts showBits c.parserCard, OneLine s)
    (w : d.show showBits P specs specName i units = d'.show showBits P specs specName i' units) : d = d' := by
  refine decodeAllAsType_legible (specName := specName) hn F h h' (i := i) (i' := i') (units := units) ?_
  have := congrArg (List.map Prod.snd) (showAll_injective o o' w)
  simpa [cardLines, List.map_map, Function.comp_def] using this

/-! ### Annotations of calls -/

theorem asCall_ok {d : PD} {c : Call} (h : d.asCall = some c) : d = c.toPD := by
  unfold PD.asCall at h
  split at h
  · cases h; rfl
  · cases h

/-- C48, for calls: docs, paths and labels of a call are those of the call type. -/
theorem decodeAsCallUnmarked_shown {pos pos' : Nat} {c : Call} (h : decodeAsCallUnmarked M b pos = .ok (c, pos')) :
    ∃ id info, M.callTy = .ok id ∧ Shown M.types .none [] id ⟨c.toPD, info⟩ := by
  unfold decodeAsCallUnmarked at h
  obtain ⟨id, h1, h⟩ := ebind_ok.1 h
  obtain ⟨⟨d, q⟩, h2, h⟩ := ebind_ok.1 h
  rw [mapOut_ok] at h1
  rw [mapErr_ok] at h2
  dsimp only at h
  split at h
  · rename_i c' hc
    cases h
    refine ⟨id, d.info, h1, ?_⟩
    rw [← asCall_ok hc]
    obtain ⟨x, y⟩ := d
    exact decode_shown h2
  · cases h

/-- C48, for `decode_as_call`. -/
theorem decodeAsCall_shown {m : Marked} {c : Call} (h : decodeAsCall M m = .ok c) :
    ∃ id info, M.callTy = .ok id ∧ Shown M.types .none [] id ⟨c.toPD, info⟩ := by
  unfold decodeAsCall at h
  obtain ⟨d, -, h⟩ := ebind_ok.1 h
  obtain ⟨⟨call, pos⟩, h1, h⟩ := ebind_ok.1 h
  dsimp only at h
  split at h
  · cases h
  · cases h
    exact decodeAsCallUnmarked_shown h1

example : ∃ info, Shown Example.chain.types .none [] 2 ⟨Example.call.toPD, info⟩ := by
  have h : decodeAsCallUnmarked Example.chain (Buf.ofBytes Example.callBytes) 0 = .ok (Example.call, 7) := rfl
  obtain ⟨id, info, h1, h2⟩ := decodeAsCallUnmarked_shown h
  cases h1
  exact ⟨info, h2⟩

/-! ### Transactions -/

theorem call_ranged {id : Nat} {c : Call} {bs : Bytes} (h : IsCall R id c bs) (info : List Info) :
    Ranged (edValue ⟨c.toPD, info⟩) := by
  simp only [edValue, Call.toPD, pdValue]
  exact .pallet h.ranged

/-- The lines of a call tell the call. -/
theorem call_legible (hn : NamesDistinct R) (F : Faithful P specs showBits) {id : Nat} {c c' : Call} {bs bs' : Bytes}
    {info info' : List Info} (a : Shown R .none [] id ⟨c.toPD, info⟩) (a' : Shown R .none [] id ⟨c'.toPD, info'⟩)
    (g : IsCall R id c bs) (g' : IsCall R id c' bs') {i i' : Nat}
    (w : cardLines showBits (c.card P specs specName i) = cardLines showBits (c'.card P specs specName i')) : c = c' := by
  have e := (shown_reads (specName := specName) hn F a _ _ a' (call_ranged g _) (call_ranged g' _) [] [] i i' false [] []
    (by simpa [Call.card] using w)).1
  simp only [Call.toPD] at e
  cases c
  cases c'
  simp only [PD.pallet.injEq] at e
  obtain ⟨-, rfl, rfl, rfl, rfl, rfl⟩ := e
  rfl

/-- The lines of extensions tell the extensions. -/
theorem items_legible (hn : NamesDistinct R) (F : Faithful P specs showBits) {items : List (String × Nat)}
    {ds ds' : List ED} {bs bs' : Bytes} (a : ItemsAre R items ds bs) (a' : ItemsAre R items ds' bs')
    (w : cardLines showBits (cardExtensions P specs specName ds) =
      cardLines showBits (cardExtensions P specs specName ds')) : ds = ds' := by
  obtain ⟨cs, -, h1, h2, h3⟩ := a
  obtain ⟨cs', -, h1', h2', h3'⟩ := a'
  clear bs bs'
  induction items generalizing ds ds' cs cs' with
  | nil => rw [List.length_eq_zero_iff.1 h2, List.length_eq_zero_iff.1 h2']
  | cons x items ih =>
    match ds, cs, h1, h2, ds', cs', h1', h2' with
    | d :: ds, c :: cs, h1, h2, d' :: ds', c' :: cs', h1', h2' =>
      simp only [List.zip_cons_cons, List.forall_mem_cons] at h3 h3'
      simp only [cardExtensions, List.flatMap_cons, cardLines_append] at w
      obtain ⟨rfl, e⟩ := shown_legible hn F h3.1.2 h3'.1.2 (enc_ranged h3.1.1) (enc_ranged h3'.1.1) w
      rw [ih (ds := ds) (ds' := ds') (w := e) (cs := cs) (cs' := cs') (h1 := by simpa using h1) (h2 := by simpa using h2)
        (h3 := h3.2) (h1' := by simpa using h1') (h2' := by simpa using h2') (h3' := h3'.2)]

theorem items_canonical (hn : NamesDistinct R) (hs : SignaturesDistinct R) {items : List (String × Nat)}
    {ds : List ED} {bs bs' : Bytes} (a : ItemsAre R items ds bs) (a' : ItemsAre R items ds bs')
    (hf : ∀ d ∈ ds, Firm (edValue d)) : bs = bs' := by
  obtain ⟨cs, rfl, h1, h2, h3⟩ := a
  obtain ⟨cs', rfl, h1', -, h3'⟩ := a'
  congr 1
  induction items generalizing ds cs cs' with
  | nil => rw [List.length_eq_zero_iff.1 h1, List.length_eq_zero_iff.1 h1']
  | cons x items ih =>
    match ds, cs, h1, h2, cs', h1' with
    | d :: ds, c :: cs, h1, h2, c' :: cs', h1' =>
      simp only [List.zip_cons_cons, List.forall_mem_cons] at h3 h3' hf
      rw [firm_encoding_unique hn hs hf.1 h3.1.1 h3'.1.1,
        ih (ds := ds) (hf := hf.2) (cs := cs) (cs' := cs') (h1 := by simpa using h1) (h2 := by simpa using h2)
        (h3 := h3.2) (h1' := by simpa using h1') (h3' := h3'.2)]

/-- C52. Two transactions shown with the same lines have the same call and the same
extensions, with everything in them. -/
theorem parseTransaction_legible (hn : NamesDistinct M.types) (F : Faithful P specs showBits)
    {expected expected' : Option Bytes} {r r' : TransactionParsed ME} {c c' : Call}
    (h : parseTransaction M b expected = .ok r) (h' : parseTransaction M b' expected' = .ok r')
    (hc : r.callResult = .ok c) (hc' : r'.callResult = .ok c')
    (w : cardLines showBits (c.card P specs specName 0) = cardLines showBits (c'.card P specs specName 0))
    (w' : cardLines showBits (r.card P specs specName).extensions = cardLines showBits (r'.card P specs specName).extensions) :
    r = r' := by
  obtain ⟨id, signed, spec, cb, eb, h1, h2, -, -, h3, h4, -⟩ := parseTransaction_sound h hc
  obtain ⟨id', signed', spec', cb', eb', h1', h2', -, -, h3', h4', -⟩ := parseTransaction_sound h' hc'
  rw [h1] at h1'; cases h1'
  rw [h2] at h2'; cases h2'
  have e := items_legible hn F h4 h4' w'
  have s : ∀ {b : Buf} {expected : Option Bytes} {r : TransactionParsed ME} {c : Call},
      parseTransaction M b expected = .ok r → r.callResult = .ok c →
      ∃ info, Shown M.types .none [] id ⟨c.toPD, info⟩ := by
    intro b expected r c h hc
    obtain ⟨m, -, -, ⟨c', k1, k2⟩ | ⟨e, -, k2⟩⟩ := parseTransaction_iff.1 h
    · rw [hc] at k2; cases k2
      obtain ⟨id', info, k3, k4⟩ := decodeAsCall_shown k1
      rw [h1] at k3; cases k3
      exact ⟨info, k4⟩
    · rw [hc] at k2; cases k2
  obtain ⟨i, a⟩ := s h hc
  obtain ⟨i', a'⟩ := s h' hc'
  have e' := call_legible hn F a a' h3 h3' w
  subst e'
  obtain ⟨x, y⟩ := r
  obtain ⟨x', y'⟩ := r'
  simp only at hc hc' e
  subst hc hc' e
  rfl

/-- C52. Two transactions shown with the same lines are the same bytes: what is shown
determines what is signed. -/
theorem parseTransaction_signs (hn : NamesDistinct M.types) (hs : SignaturesDistinct M.types)
    (F : Faithful P specs showBits) {expected expected' : Option Bytes} {r r' : TransactionParsed ME} {c c' : Call}
    (h : parseTransaction M b expected = .ok r) (h' : parseTransaction M b' expected' = .ok r')
    (hc : r.callResult = .ok c) (hc' : r'.callResult = .ok c')
    (hf : ∀ f ∈ fdsValue c.fields, Firm f.2) (hf' : ∀ d ∈ r.extensions, Firm (edValue d))
    (w : cardLines showBits (c.card P specs specName 0) = cardLines showBits (c'.card P specs specName 0))
    (w' : cardLines showBits (r.card P specs specName).extensions = cardLines showBits (r'.card P specs specName).extensions) :
    b.bytes = b'.bytes := by
  have e := parseTransaction_legible hn F h h' hc hc' w w'
  subst e
  rw [hc] at hc'; cases hc'
  obtain ⟨id, signed, spec, cb, eb, h1, h2, -, hb, h3, h4, -⟩ := parseTransaction_sound h hc
  obtain ⟨id', signed', spec', cb', eb', h1', h2', -, hb', h3', h4', -⟩ := parseTransaction_sound h' hc
  rw [h1] at h1'; cases h1'
  rw [h2] at h2'; cases h2'
  rw [hb, hb', items_canonical hn hs h4 h4' hf', firm_encoding_unique hn hs (.pallet hf) h3.enc h3'.enc]

/-- C52, for transactions without length prefix. -/
theorem parseTransactionUnmarked_legible (hn : NamesDistinct M.types) (F : Faithful P specs showBits)
    {expected expected' : Option Bytes} {r r' : TransactionUnmarkedParsed}
    (h : parseTransactionUnmarked M b expected = .ok r) (h' : parseTransactionUnmarked M b' expected' = .ok r')
    (w : cardLines showBits (r.card P specs specName).call = cardLines showBits (r'.card P specs specName).call)
    (w' : cardLines showBits (r.card P specs specName).extensions = cardLines showBits (r'.card P specs specName).extensions) :
    r = r' := by
  obtain ⟨id, signed, spec, cb, eb, h1, h2, -, -, h3, h4, -⟩ := parseTransactionUnmarked_sound h
  obtain ⟨id', signed', spec', cb', eb', h1', h2', -, -, h3', h4', -⟩ := parseTransactionUnmarked_sound h'
  rw [h1] at h1'; cases h1'
  rw [h2] at h2'; cases h2'
  have e := items_legible hn F h4 h4' w'
  have s : ∀ {b : Buf} {expected : Option Bytes} {r : TransactionUnmarkedParsed},
      parseTransactionUnmarked M b expected = .ok r → ∃ info, Shown M.types .none [] id ⟨r.call.toPD, info⟩ := by
    intro b expected r h
    unfold parseTransactionUnmarked at h
    obtain ⟨⟨c, pos⟩, k1, h⟩ := ebind_ok.1 h
    obtain ⟨exts, -, h⟩ := ebind_ok.1 h
    cases h
    obtain ⟨id', info, k3, k4⟩ := decodeAsCallUnmarked_shown k1
    rw [h1] at k3; cases k3
    exact ⟨info, k4⟩
  obtain ⟨i, a⟩ := s h
  obtain ⟨i', a'⟩ := s h'
  have e' := call_legible hn F a a' h3 h3' w
  obtain ⟨x, y⟩ := r
  obtain ⟨x', y'⟩ := r'
  simp only at e' e
  subst e' e
  rfl

/-- C52, bytes of transactions without length prefix. -/
theorem parseTransactionUnmarked_signs (hn : NamesDistinct M.types) (hs : SignaturesDistinct M.types)
    (F : Faithful P specs showBits) {expected expected' : Option Bytes} {r r' : TransactionUnmarkedParsed}
    (h : parseTransactionUnmarked M b expected = .ok r) (h' : parseTransactionUnmarked M b' expected' = .ok r')
    (hf : ∀ f ∈ fdsValue r.call.fields, Firm f.2) (hf' : ∀ d ∈ r.extensions, Firm (edValue d))
    (w : cardLines showBits (r.card P specs specName).call = cardLines showBits (r'.card P specs specName).call)
    (w' : cardLines showBits (r.card P specs specName).extensions = cardLines showBits (r'.card P specs specName).extensions) :
    b.bytes = b'.bytes := by
  have e := parseTransactionUnmarked_legible hn F h h' w w'
  subst e
  obtain ⟨id, signed, spec, cb, eb, h1, h2, -, hb, h3, h4, -⟩ := parseTransactionUnmarked_sound h
  obtain ⟨id', signed', spec', cb', eb', h1', h2', -, hb', h3', h4', -⟩ := parseTransactionUnmarked_sound h'
  rw [h1] at h1'; cases h1'
  rw [h2] at h2'; cases h2'
  rw [hb, hb', items_canonical hn hs h4 h4' hf', firm_encoding_unique hn hs (.pallet hf) h3.enc h3'.enc]

/-! ### The conditions are met -/

namespace Example

/-- Printers that print keys in hex. -/
def printers : Printers := ⟨fun _ a _ => hexBytes a, fun _ => []⟩

/-- A printer of bits. -/
def bitsText : BitStore → BitOrder → List Bool → String := fun _ _ l => String.ofList (l.map fun b => if b then '1' else '0')

theorem faithful : Faithful printers exampleSpecs bitsText where
  keys := fun _ _ _ _ _ h => hexBytes_inj h
  bits := by
    intro _ _ l l' h
    simp only [bitsText, String.ofList_inj] at h
    exact (List.map_inj_right (by intro x y; cases x <;> cases y <;> decide)).1 h
  decimals := by decide

theorem chain_names : NamesDistinct chain.types := namesDistinct_of_check (by decide)
theorem chain_signatures : SignaturesDistinct chain.types := signaturesDistinct_of_check (by decide)

/-- The example payload is parsed, with firm values: whatever other payload is shown with the same
lines is the same payload. -/
example : ∃ r c, parseTransaction chain payload (some genesis) = .ok r ∧ r.callResult = .ok c ∧
    ∀ b' expected' r' c', parseTransaction chain b' expected' = .ok r' → r'.callResult = .ok c' →
      cardLines bitsText (c.card printers exampleSpecs "example" 0) =
        cardLines bitsText (c'.card printers exampleSpecs "example" 0) →
      cardLines bitsText (r.card printers exampleSpecs "example").extensions =
        cardLines bitsText (r'.card printers exampleSpecs "example").extensions → b'.bytes = payload.bytes := by
  have h : ∃ e, parseTransaction chain payload (some genesis) = .ok ⟨.ok call, e⟩ ∧ ∀ d ∈ e, Firm (edValue d) := by
    refine ⟨_, rfl, ?_⟩
    simp only [List.forall_mem_append, List.forall_mem_cons, List.not_mem_nil, false_imp_iff, implies_true, and_true,
      edValue, pdValue]
    have t : Firm (.tuple (edsValue [])) := .tuple (by simp [edsValue])
    exact ⟨⟨t, t, .era _⟩, .uint _ _, .hash _, .hash _⟩
  obtain ⟨e, h, hf⟩ := h
  refine ⟨_, call, h, rfl, fun b' expected' r' c' h' hc' w w' => ?_⟩
  refine (parseTransaction_signs chain_names chain_signatures faithful h h' rfl hc' ?_ hf w w').symm
  simp only [call, fdsValue, fdValue, edValue, pdValue, List.forall_mem_cons, List.not_mem_nil, false_imp_iff, implies_true, and_true]
  exact ⟨.uint _ _, .uint _ _⟩

end Example

end Verif
