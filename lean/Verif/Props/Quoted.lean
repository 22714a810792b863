import Verif.Proof.Quoted
import Verif.Props.Unforged
/-!
# C96: cards quote the texts of the data, and nothing but texts breaks a line
-/
namespace Verif
open Spec

variable {showBits : BitStore → BitOrder → List Bool → String} {P : Printers} {specs : ShortSpecs} {specName : String} {R : Registry}
  {b b' : Buf} {ME : Type} {M : Metadata ME}

/-- C96, entry point `decode_all_as_type`. The texts quoted by the cards are in the data; the texts and characters in the data are
quoted by the cards. -/
theorem decodeAllAsType_quotes {id : Nat} {d : ED} (h : decodeAllAsType R b id = .ok d) (i : Nat) (units : Bool) :
    (∀ s, Quotes (d.card P specs specName i units) s → MaySay s (edValue d)) ∧
    ∀ s, Says s (edValue d) → Quotes (d.card P specs specName i units) s := by
  obtain ⟨h1, h2⟩ := ed_quoting (P := P) (specs := specs) (specName := specName) (decodeAllAsType_ranged h) i units
  exact ⟨fun s hq => by simpa using h1 s hq, fun s hs => h2 s (by simpa using hs)⟩

/-- No line break in the texts that are quoted. -/
theorem oneLine_iff_quotes {l : List ExtendedCard} (ht : ∀ c ∈ l, Tidy showBits c) :
    EachOneLine showBits l ↔ ∀ s, Quotes l s → Unbroken s := by
  constructor
  · rintro h s ⟨c, hc, hq⟩
    have := (show_oneLine_iff c).1 (h c hc) s
    revert this hq
    generalize c.parserCard = x
    intro hq
    have mem : s ∈ freeTexts showBits x := by
      cases x <;> simp_all [quote, freeTexts]
    intro k
    exact k mem
  · intro h c hc
    refine oneLine_of_quotes (fun s hs => h s ⟨c, hc, hs⟩) fun hq => ?_
    refine (ht c hc).resolve_left ?_
    intro w
    generalize c.parserCard = x at hq w
    cases x <;> simp_all [quote, Wordy]

/-- C96. Without line breaks in the texts of the data every card is one line. -/
theorem decodeAllAsType_oneLine (hu : UnbrokenNames R) (U : UnbrokenPrinters P specs specName showBits) {id : Nat} {d : ED}
    (h : decodeAllAsType R b id = .ok d) (hv : ∀ s, MaySay s (edValue d) → Unbroken s) (i : Nat) (units : Bool) :
    EachOneLine showBits (d.card P specs specName i units) := by
  refine (oneLine_iff_quotes (ed_tidy hu U (decodeAllAsType_shown h) i units)).2 fun s hs => ?_
  exact hv s ((decodeAllAsType_quotes h i units).1 s hs)

/-- C96. A text in the data with a line break breaks a line of the display. -/
theorem decodeAllAsType_oneLine_inv (hu : UnbrokenNames R) (U : UnbrokenPrinters P specs specName showBits) {id : Nat} {d : ED}
    (h : decodeAllAsType R b id = .ok d) {i : Nat} {units : Bool} (hw : EachOneLine showBits (d.card P specs specName i units)) :
    ∀ s, Says s (edValue d) → Unbroken s := fun s hs =>
  (oneLine_iff_quotes (ed_tidy hu U (decodeAllAsType_shown h) i units)).1 hw s ((decodeAllAsType_quotes h i units).2 s hs)

/-- C96 with C95. Data without line breaks in its texts: no other data of the type is shown like this. -/
theorem decodeAllAsType_own_display (hn : NamesDistinct R) (F : Faithful P specs showBits) (hu : UnbrokenNames R)
    (U : UnbrokenPrinters P specs specName showBits) {id : Nat} {d d' : ED}
    (h : decodeAllAsType R b id = .ok d) (h' : decodeAllAsType R b' id = .ok d') (hv : ∀ s, MaySay s (edValue d) → Unbroken s)
    {i : Nat} {units : Bool} (w : d.show showBits P specs specName i units = d'.show showBits P specs specName i units) : d = d' :=
  decodeAllAsType_unforged hn F hu U h h' (decodeAllAsType_oneLine hu U h hv i units) w

/-! ### Transactions -/

theorem extensions_quoting {ds : List ED} (h : ∀ d ∈ ds, Ranged (edValue d)) :
    Quoting (cardExtensions P specs specName ds) (ds.map edValue) := by
  induction ds with
  | nil => exact quoting_nil
  | cons d ds ih =>
    simp only [List.forall_mem_cons] at h
    simp only [cardExtensions, List.flatMap_cons, List.map_cons]
    exact (ed_quoting h.1 0 true).append (ih h.2)

theorem items_ranged {items : List (String × Nat)} {ds : List ED} {bs : Bytes} (a : ItemsAre R items ds bs) :
    ∀ d ∈ ds, Ranged (edValue d) := by
  obtain ⟨cs, -, h1, h2, h3⟩ := a
  clear bs
  induction items generalizing ds cs with
  | nil =>
    rw [List.length_eq_zero_iff.1 h2]
    intro x hx
    cases hx
  | cons y items ih =>
    match ds, cs, h1, h2 with
    | d :: ds, c :: cs, h1, h2 =>
      simp only [List.zip_cons_cons, List.forall_mem_cons] at h3
      simp only [List.forall_mem_cons]
      exact ⟨enc_ranged h3.1.1, ih (cs := cs) (ds := ds) (by simpa using h1) (by simpa using h2) h3.2⟩

theorem call_quoting {c : Call} (h : ∀ f ∈ fdsValue c.fields, Ranged f.2) :
    Quoting (c.card P specs specName 0) ((fdsValue c.fields).map (·.2)) := by
  unfold Call.card Call.toPD
  simp only [PD.card]
  exact .heading rfl (.heading rfl (part_quoting c.fields _ _ h))

/-- C96, entry point `parse_transaction`. The texts quoted on the screen are in the call or in the extensions; the texts and
characters in there are quoted. -/
theorem parseTransaction_quotes {expected : Option Bytes} {r : TransactionParsed ME} {c : Call}
    (h : parseTransaction M b expected = .ok r) (hc : r.callResult = .ok c) :
    (∀ s, Quotes (c.card P specs specName 0 ++ (r.card P specs specName).extensions) s →
      ∃ v ∈ argsAndExtensions c r.extensions, MaySay s v) ∧
    ∀ s, (∃ v ∈ argsAndExtensions c r.extensions, Says s v) →
      Quotes (c.card P specs specName 0 ++ (r.card P specs specName).extensions) s := by
  obtain ⟨id, signed, spec, cb, eb, h1, h2, -, -, h3, h4, -⟩ := parseTransaction_sound h hc
  exact (call_quoting h3.ranged).append (extensions_quoting (items_ranged h4))

/-- C96. Without line breaks in the texts of the call and of the extensions every card is one line. -/
theorem parseTransaction_oneLine (hu : UnbrokenNames M.types) (U : UnbrokenPrinters P specs specName showBits) {expected : Option Bytes}
    {r : TransactionParsed ME} {c : Call} (h : parseTransaction M b expected = .ok r) (hc : r.callResult = .ok c)
    (hv : ∀ v ∈ argsAndExtensions c r.extensions, ∀ s, MaySay s v → Unbroken s) :
    EachOneLine showBits (c.card P specs specName 0 ++ (r.card P specs specName).extensions) := by
  refine (oneLine_iff_quotes (parsed_tidy hu U h hc)).2 fun s hs => ?_
  obtain ⟨v, hm, k⟩ := (parseTransaction_quotes h hc).1 s hs
  exact hv v hm s k

/-- C96 with C95. A transaction without line breaks in its texts: whatever else is printed like this is the same transaction. -/
theorem parseTransaction_own_display (hn : NamesDistinct M.types) (F : Faithful P specs showBits) (hu : UnbrokenNames M.types)
    (U : UnbrokenPrinters P specs specName showBits) {expected expected' : Option Bytes} {r r' : TransactionParsed ME} {c c' : Call}
    (h : parseTransaction M b expected = .ok r) (h' : parseTransaction M b' expected' = .ok r')
    (hc : r.callResult = .ok c) (hc' : r'.callResult = .ok c')
    (hv : ∀ v ∈ argsAndExtensions c r.extensions, ∀ s, MaySay s v → Unbroken s)
    (w : printout showBits (c.card P specs specName 0 ++ (r.card P specs specName).extensions) =
      printout showBits (c'.card P specs specName 0 ++ (r'.card P specs specName).extensions)) : r = r' :=
  parseTransaction_unforged hn F hu U h h' hc hc' (parseTransaction_oneLine hu U h hc hv) w

/-- C96, entry point `parse_transaction_unmarked`. -/
theorem parseTransactionUnmarked_quotes {expected : Option Bytes} {r : TransactionUnmarkedParsed}
    (h : parseTransactionUnmarked M b expected = .ok r) :
    (∀ s, Quotes ((r.card P specs specName).call ++ (r.card P specs specName).extensions) s →
      ∃ v ∈ argsAndExtensions r.call r.extensions, MaySay s v) ∧
    ∀ s, (∃ v ∈ argsAndExtensions r.call r.extensions, Says s v) →
      Quotes ((r.card P specs specName).call ++ (r.card P specs specName).extensions) s := by
  obtain ⟨id, signed, spec, cb, eb, h1, h2, -, -, h3, h4, -⟩ := parseTransactionUnmarked_sound h
  exact (call_quoting h3.ranged).append (extensions_quoting (items_ranged h4))

/-- C96, transactions without length prefix. -/
theorem parseTransactionUnmarked_oneLine (hu : UnbrokenNames M.types) (U : UnbrokenPrinters P specs specName showBits)
    {expected : Option Bytes} {r : TransactionUnmarkedParsed} (h : parseTransactionUnmarked M b expected = .ok r)
    (hv : ∀ v ∈ argsAndExtensions r.call r.extensions, ∀ s, MaySay s v → Unbroken s) :
    EachOneLine showBits ((r.card P specs specName).call ++ (r.card P specs specName).extensions) := by
  obtain ⟨id, signed, spec, cb, eb, h1, h2, -, -, h3, h4, -⟩ := parseTransactionUnmarked_sound h
  obtain ⟨i, a⟩ := unmarked_shown h1 h
  refine (oneLine_iff_quotes (fun x hx => ?_)).2 fun s hs => ?_
  · rcases List.mem_append.1 hx with hx | hx
    · exact call_tidy hu U a 0 x hx
    · exact items_tidy hu U h4 x hx
  · obtain ⟨v, hm, k⟩ := (parseTransactionUnmarked_quotes h).1 s hs
    exact hv v hm s k

/-- C96 with C95, transactions without length prefix. -/
theorem parseTransactionUnmarked_own_display (hn : NamesDistinct M.types) (F : Faithful P specs showBits) (hu : UnbrokenNames M.types)
    (U : UnbrokenPrinters P specs specName showBits) {expected expected' : Option Bytes} {r r' : TransactionUnmarkedParsed}
    (h : parseTransactionUnmarked M b expected = .ok r) (h' : parseTransactionUnmarked M b' expected' = .ok r')
    (hv : ∀ v ∈ argsAndExtensions r.call r.extensions, ∀ s, MaySay s v → Unbroken s)
    (w : printout showBits ((r.card P specs specName).call ++ (r.card P specs specName).extensions) =
      printout showBits ((r'.card P specs specName).call ++ (r'.card P specs specName).extensions)) : r = r' :=
  parseTransactionUnmarked_unforged hn F hu U h h' (parseTransactionUnmarked_oneLine hu U h hv) w

/-! ### Which texts are in a value -/

theorem maySay_str {s t : String} : MaySay s (.str t) ↔ s = t := by
  constructor
  · intro h
    cases h with
    | here h =>
      rcases h with h | h
      · cases h; rfl
      · cases h
  · rintro rfl
    exact .here (.inl .str)

theorem maySay_uint {s : String} {w : UW} {n : Nat} : ¬ MaySay s (.uint w n) := by
  intro h
  cases h with
  | here h => rcases h with h | h <;> cases h

theorem maySay_record {s : String} {l : List (Option String × Value)} : MaySay s (.record l) ↔ ∃ f ∈ l, MaySay s f.2 := by
  constructor
  · intro h
    cases h with
    | here h => rcases h with h | h <;> cases h
    | record h k => exact ⟨_, h, k⟩
  · rintro ⟨f, h, k⟩
    exact .record h k

theorem maySay_tuple {s : String} {l : List Value} : MaySay s (.tuple l) ↔ ∃ v ∈ l, MaySay s v := by
  constructor
  · intro h
    cases h with
    | here h => rcases h with h | h <;> cases h
    | tuple h k => exact ⟨_, h, k⟩
  · rintro ⟨f, h, k⟩
    exact .tuple h k

theorem maySay_variant {s n : String} {l : List (Option String × Value)} : MaySay s (.variant n l) ↔ ∃ f ∈ l, MaySay s f.2 := by
  constructor
  · intro h
    cases h with
    | here h => rcases h with h | h <;> cases h
    | variant h k => exact ⟨_, h, k⟩
  · rintro ⟨f, h, k⟩
    exact .variant h k

theorem maySay_hash {s : String} {bs : Bytes} : ¬ MaySay s (.hash bs) := by
  intro h
  cases h with
  | here h => rcases h with h | h <;> cases h

theorem maySay_era {s : String} {e : Era} : ¬ MaySay s (.era e) := by
  intro h
  cases h with
  | here h => rcases h with h | h <;> cases h

theorem maySay_fixed {s : String} {k : FixedKind} {bs : Bytes} : ¬ MaySay s (.fixed k bs) := by
  intro h
  cases h with
  | here h => rcases h with h | h <;> cases h

/-- A list: its elements, or its bytes as UTF-8. -/
theorem maySay_seq {s : String} {l : List Value} :
    MaySay s (.seq l) ↔ l = (utf8 s).map (fun b => .uint .u8 b.toNat) ∨ ∃ v ∈ l, MaySay s v := by
  constructor
  · intro h
    cases h with
    | here h =>
      rcases h with h | h
      · cases h
      · left; cases h; rfl
    | seq h k => exact .inr ⟨_, h, k⟩
  · rintro (rfl | ⟨v, h, k⟩)
    · exact .here (.inr .mk)
    · exact .seq h k

end Verif
