import Verif.Proof.Printed
import Verif.Props.Base58
import Verif.Props.Screen
import Verif.Props.PolkadotScreen
import Verif.Props.Batch
import Verif.Real.WestendPrinted
import Verif.Real.PolkadotPrinted
/-!
# C94: a display without texts cannot be imitated

Texts inside of the data are printed as they are, with their line breaks, so that a text can look like further cards
(`show_forged`). Against a display that has no text in it this is of no use: whatever else is shown with the same printed text
is the same.
-/
namespace Verif
open Spec

variable {showBits : BitStore → BitOrder → List Bool → String} {P : Printers} {specs : ShortSpecs} {specName : String} {R : Registry}
  {b b' : Buf} {ME : Type} {M : Metadata ME}

theorem snd_lines {l l' : List ExtendedCard}
    (h : l.map (fun c => (c.indent, c.parserCard.line showBits)) = l'.map (fun c => (c.indent, c.parserCard.line showBits))) :
    cardLines showBits l = cardLines showBits l' := by
  have := congrArg (List.map Prod.snd) h
  simpa [cardLines, List.map_map, Function.comp_def] using this

/-- C94, entry point `decode_all_as_type`. Data without texts in its display, any other data of the same type, with any texts: if
the printed texts are the same, the data is the same. -/
theorem decodeAllAsType_printed (hn : NamesDistinct R) (F : Faithful P specs showBits) (hu : UnbrokenNames R)
    (U : UnbrokenPrinters P specs specName showBits) {id : Nat} {d d' : ED}
    (h : decodeAllAsType R b id = .ok d) (h' : decodeAllAsType R b' id = .ok d') {i i' : Nat} {units : Bool}
    (hw : Wordless (d.card P specs specName i units))
    (w : d.show showBits P specs specName i units = d'.show showBits P specs specName i' units) : d = d' := by
  refine decodeAllAsType_legible (specName := specName) hn F h h' (i := i) (i' := i') (units := units) (snd_lines (printed_lines hw ?_ ?_ w))
  · obtain ⟨x, j⟩ := d
    simp only [ED.card]
    exact shown_tidy hu U (decodeAllAsType_shown h) _ _ _
  · obtain ⟨x, j⟩ := d'
    simp only [ED.card]
    exact shown_tidy hu U (decodeAllAsType_shown h') _ _ _

/-- C94. And the bytes are the same. -/
theorem decodeAllAsType_printed_bytes (hn : NamesDistinct R) (hs : SignaturesDistinct R) (F : Faithful P specs showBits)
    (hu : UnbrokenNames R) (U : UnbrokenPrinters P specs specName showBits) {id : Nat} {d d' : ED}
    (h : decodeAllAsType R b id = .ok d) (h' : decodeAllAsType R b' id = .ok d') (hf : Firm (edValue d)) {i i' : Nat} {units : Bool}
    (hw : Wordless (d.card P specs specName i units))
    (w : d.show showBits P specs specName i units = d'.show showBits P specs specName i' units) : b.bytes = b'.bytes :=
  decodeAllAsType_canonical hn hs h h' hf (by rw [decodeAllAsType_printed hn F hu U h h' hw w])

/-! ### Transactions -/

theorem call_tidy (hu : UnbrokenNames R) (U : UnbrokenPrinters P specs specName showBits) {id : Nat} {c : Call} {info : List Info}
    (a : Shown R .none [] id ⟨c.toPD, info⟩) (i : Nat) : ∀ x ∈ c.card P specs specName i, Tidy showBits x := by
  intro x hx
  exact shown_tidy hu U a [] i false x (by simpa [Call.card] using hx)

theorem items_tidy (hu : UnbrokenNames R) (U : UnbrokenPrinters P specs specName showBits) {items : List (String × Nat)} {ds : List ED}
    {bs : Bytes} (a : ItemsAre R items ds bs) : ∀ x ∈ cardExtensions P specs specName ds, Tidy showBits x := by
  obtain ⟨cs, -, h1, h2, h3⟩ := a
  clear bs
  induction items generalizing ds cs with
  | nil =>
    rw [List.length_eq_zero_iff.1 h2]
    intro x hx
    cases hx
  | cons y items ih =>
    match ds, cs, h1, h2 with
    | d :: ds, c :: cs, h1, h2 =>
      simp only [List.zip_cons_cons, List.forall_mem_cons] at h3
      intro x hx
      simp only [cardExtensions, List.flatMap_cons, List.mem_append] at hx
      rcases hx with hx | hx
      · obtain ⟨z, j⟩ := d
        simp only [ED.card] at hx
        exact shown_tidy hu U h3.1.2 _ _ _ x hx
      · exact ih (cs := cs) (ds := ds) (by simpa using h1) (by simpa using h2) h3.2 x hx

/-- The lines of a call and of extensions, one after the other, tell both. -/
theorem screen_legible (hn : NamesDistinct R) (F : Faithful P specs showBits) {id : Nat} {items : List (String × Nat)} {c c' : Call}
    {bs bs' es es' : Bytes} {info info' : List Info} {ds ds' : List ED} (a : Shown R .none [] id ⟨c.toPD, info⟩)
    (a' : Shown R .none [] id ⟨c'.toPD, info'⟩) (g : IsCall R id c bs) (g' : IsCall R id c' bs') (e : ItemsAre R items ds es)
    (e' : ItemsAre R items ds' es')
    (w : cardLines showBits (c.card P specs specName 0 ++ cardExtensions P specs specName ds) =
      cardLines showBits (c'.card P specs specName 0 ++ cardExtensions P specs specName ds')) : c = c' ∧ ds = ds' := by
  rw [cardLines_append, cardLines_append] at w
  obtain ⟨e1, e2⟩ := shown_reads (specName := specName) hn F a _ _ a' (call_ranged g _) (call_ranged g' _) [] [] 0 0 false _ _
    (by simpa [Call.card] using w)
  refine ⟨?_, items_legible hn F e e' e2⟩
  simp only [Call.toPD] at e1
  cases c
  cases c'
  simp only [PD.pallet.injEq] at e1
  obtain ⟨-, rfl, rfl, rfl, rfl, rfl⟩ := e1
  rfl

theorem parsed_shown {id : Nat} {expected : Option Bytes} {r : TransactionParsed ME} {c : Call} (h1 : M.callTy = .ok id)
    (h : parseTransaction M b expected = .ok r) (hc : r.callResult = .ok c) : ∃ info, Shown M.types .none [] id ⟨c.toPD, info⟩ := by
  obtain ⟨m, -, -, ⟨c', k1, k2⟩ | ⟨e, -, k2⟩⟩ := parseTransaction_iff.1 h
  · rw [hc] at k2; cases k2
    obtain ⟨id', info, k3, k4⟩ := decodeAsCall_shown k1
    rw [h1] at k3; cases k3
    exact ⟨info, k4⟩
  · rw [hc] at k2; cases k2

/-- C94, entry point `parse_transaction`. A transaction without texts in its display, any other transaction, with any texts: if
the texts printed for them are the same, the transactions are the same. -/
theorem parseTransaction_printed (hn : NamesDistinct M.types) (F : Faithful P specs showBits) (hu : UnbrokenNames M.types)
    (U : UnbrokenPrinters P specs specName showBits) {expected expected' : Option Bytes} {r r' : TransactionParsed ME} {c c' : Call}
    (h : parseTransaction M b expected = .ok r) (h' : parseTransaction M b' expected' = .ok r')
    (hc : r.callResult = .ok c) (hc' : r'.callResult = .ok c')
    (hw : Wordless (c.card P specs specName 0 ++ (r.card P specs specName).extensions))
    (w : printout showBits (c.card P specs specName 0 ++ (r.card P specs specName).extensions) =
      printout showBits (c'.card P specs specName 0 ++ (r'.card P specs specName).extensions)) : r = r' := by
  obtain ⟨id, signed, spec, cb, eb, h1, h2, -, -, h3, h4, -⟩ := parseTransaction_sound h hc
  obtain ⟨id', signed', spec', cb', eb', h1', h2', -, -, h3', h4', -⟩ := parseTransaction_sound h' hc'
  rw [h1] at h1'; cases h1'
  rw [h2] at h2'; cases h2'
  obtain ⟨i, a⟩ := parsed_shown h1 h hc
  obtain ⟨i', a'⟩ := parsed_shown h1 h' hc'
  have tidy : ∀ {c : Call} {r : TransactionParsed ME} {i : List Info} {eb : Bytes}, Shown M.types .none [] id ⟨c.toPD, i⟩ →
      ItemsAre M.types (extItems signed) r.extensions eb →
      ∀ x ∈ c.card P specs specName 0 ++ (r.card P specs specName).extensions, Tidy showBits x := by
    intro c r i eb a e x hx
    rcases List.mem_append.1 hx with hx | hx
    · exact call_tidy hu U a 0 x hx
    · exact items_tidy hu U e x hx
  obtain ⟨e1, e2⟩ := screen_legible hn F a a' h3 h3' h4 h4' (snd_lines (printed_lines hw (tidy a h4) (tidy a' h4') w))
  obtain ⟨x, y⟩ := r
  obtain ⟨x', y'⟩ := r'
  simp only at hc hc' e2
  subst hc hc' e1 e2
  rfl

/-- C94. And the bytes are the same: nothing else can be signed below this display. -/
theorem parseTransaction_printed_bytes (hn : NamesDistinct M.types) (hs : SignaturesDistinct M.types) (F : Faithful P specs showBits)
    (hu : UnbrokenNames M.types) (U : UnbrokenPrinters P specs specName showBits) {expected expected' : Option Bytes}
    {r r' : TransactionParsed ME} {c c' : Call}
    (h : parseTransaction M b expected = .ok r) (h' : parseTransaction M b' expected' = .ok r')
    (hc : r.callResult = .ok c) (hc' : r'.callResult = .ok c')
    (hf : ∀ f ∈ fdsValue c.fields, Firm f.2) (hf' : ∀ d ∈ r.extensions, Firm (edValue d))
    (hw : Wordless (c.card P specs specName 0 ++ (r.card P specs specName).extensions))
    (w : printout showBits (c.card P specs specName 0 ++ (r.card P specs specName).extensions) =
      printout showBits (c'.card P specs specName 0 ++ (r'.card P specs specName).extensions)) : b.bytes = b'.bytes := by
  have e := parseTransaction_printed hn F hu U h h' hc hc' hw w
  subst e
  rw [hc] at hc'; cases hc'
  exact parseTransaction_signs (specName := specName) hn hs F h h' hc hc hf hf' rfl rfl

/-! ### Transfers of Westend and Polkadot -/

theorem char58_ne (d : Nat) (h : d < 58) : char58 d ≠ '\n' := by
  have : ∀ d : Fin 58, char58 d.1 ≠ '\n' := by decide +kernel
  exact this ⟨d, h⟩

theorem base58_unbroken (bs : Bytes) : Unbroken (Spec.base58 bs) := by
  unfold Unbroken Spec.base58
  rw [String.toList_ofList]
  intro h
  rcases List.mem_append.1 h with h | h
  · exact absurd (List.mem_replicate.1 h).2 (by decide)
  · obtain ⟨d, hd, e⟩ := List.mem_map.1 h
    exact char58_ne d (digits58_lt hd) e

theorem ss58_unbroken (checksum : Bytes → UInt8 × UInt8) (icon : Bytes → Bytes) (hb : ∀ s o l, Unbroken (showBits s o l))
    (hu : Unbroken specs.unit) (hc : Unbroken specName) : UnbrokenPrinters (ss58Printers checksum icon) specs specName showBits :=
  ⟨fun _ _ => base58_unbroken _, hb, hu, hc⟩

/-- The first letters of a line. -/
def firstLetters (s : String) : List Char := (s.toList.dropWhile (· == ' ')).take 4

theorem wordy_letters {c : ExtendedCard} (h : Wordy c.parserCard) :
    firstLetters (c.show showBits) = "Text".toList ∨ firstLetters (c.show showBits) = "Char".toList ∨
      firstLetters (c.show showBits) = "Spec".toList := by
  have hd : ∀ n (l : List Char), l.head? ≠ some ' ' → (List.replicate n ' ' ++ l).dropWhile (· == ' ') = l := by
    intro n l hl
    induction n with
    | zero =>
      cases l with
      | nil => rfl
      | cons a l =>
        have : (a == ' ') = false := by simpa using hl
        rw [List.replicate_zero, List.nil_append, List.dropWhile_cons, this]
        rfl
    | succ n ih => rw [List.replicate_succ, List.cons_append, List.dropWhile_cons]; simp [ih]
  unfold firstLetters
  rw [show_toList, hd _ _ (by
    cases hc : c.parserCard with
    | sequenceU8 hex t i => rw [hc] at h; cases t with
      | none => cases h
      | some => simp [ParserCard.line]
    | text => simp [ParserCard.line]
    | char => simp [ParserCard.line]
    | specName => simp [ParserCard.line]
    | _ => rw [hc] at h; cases h)]
  have take : ∀ (t : String) (l : List Char), t.toList.length = 4 → List.take 4 (t.toList ++ l) = t.toList := by
    intro t l ht
    rw [← ht, List.take_left]
  cases hc : c.parserCard with
  | sequenceU8 hex t i => rw [hc] at h; cases t with
    | none => cases h
    | some => exact .inl (take "Text" _ (by decide))
  | text => exact .inl (take "Text" _ (by decide))
  | char => exact .inr (.inl (take "Char" _ (by decide)))
  | specName =>
    refine .inr (.inr ?_)
    show List.take 4 ("Spec Name".toList ++ _) = _
    rw [List.take_append_of_le_length (by decide)]
    decide
  | _ => rw [hc] at h; cases h

/-- The line does not begin as those of texts do. -/
def PlainLine (s : String) : Prop := firstLetters s ≠ "Text".toList ∧ firstLetters s ≠ "Char".toList ∧ firstLetters s ≠ "Spec".toList

instance (s : String) : Decidable (PlainLine s) := inferInstanceAs (Decidable (_ ∧ _))

theorem letters_line (n : Nat) (s : String) : firstLetters (Spec.Westend.line n s) = firstLetters s := by
  unfold firstLetters Spec.Westend.line
  rw [String.toList_append, String.toList_ofList]
  generalize 2 * n = m
  induction m with
  | zero => rfl
  | succ m ih => rw [List.replicate_succ, List.cons_append, List.dropWhile_cons]; simp [ih]

theorem plain_line {n : Nat} {s : String} (h : PlainLine s) : PlainLine (Spec.Westend.line n s) := by
  unfold PlainLine
  rw [letters_line]
  exact h

theorem plain_append {t : String} (s : String) (h : 4 ≤ (t.toList.dropWhile (· == ' ')).length ∧ PlainLine t) : PlainLine (t ++ s) := by
  have e : firstLetters (t ++ s) = firstLetters t := by
    unfold firstLetters
    rw [String.toList_append, List.dropWhile_append]
    have : (t.toList.dropWhile (· == ' ')).isEmpty = false := by
      cases hd : t.toList.dropWhile (· == ' ') with
      | nil => rw [hd] at h; simp at h
      | cons => rfl
    rw [this]
    simp only [Bool.false_eq_true, if_false]
    exact List.take_append_of_le_length h.1
  unfold PlainLine
  rw [e]
  exact h.2

/-- Lines that begin otherwise are not those of texts. -/
theorem wordless_of_screen {l : List ExtendedCard} {lines : List String} (h : Spec.Westend.screen showBits l = lines)
    (hl : ∀ s ∈ lines, PlainLine s) : Wordless l := by
  intro c hc hw
  have := hl (c.show showBits) (by rw [← h]; exact List.mem_map_of_mem hc)
  rcases wordy_letters (showBits := showBits) hw with e | e | e
  · exact this.1 e
  · exact this.2.1 e
  · exact this.2.2 e

theorem printout_screen {l : List ExtendedCard} {lines : List String} (h : Spec.Westend.screen showBits l = lines) :
    printout showBits l = "\n".intercalate lines := by rw [← h]; rfl

theorem screen_append {l l' : List ExtendedCard} {s s' : List String} (h : Spec.Westend.screen showBits l = s)
    (h' : Spec.Westend.screen showBits l' = s') : Spec.Westend.screen showBits (l ++ l') = s ++ s' := by
  rw [← h, ← h']
  exact List.map_append

section
open Spec.Westend

mutual
theorem order_plain (specs : ShortSpecs) (address : Bytes → String) : ∀ (o : Order) (n : Nat), ∀ s ∈ o.screen specs address n, PlainLine s
  | .pay k a m, n => by
    rw [Order.screen]
    simp only [List.forall_mem_cons, List.not_mem_nil, false_implies, implies_true, and_true]
    refine ⟨plain_line (by decide), plain_line (by cases k <;> decide), plain_line (by decide), plain_line (by decide), plain_line (by decide),
      plain_line (plain_append _ (by decide)), plain_line (by decide), plain_line (plain_append _ (by decide))⟩
  | .batch a l, n => by
    rw [Order.screen]
    intro s hs
    replace hs := List.mem_append.1 hs
    rcases hs with hs | hs
    · revert s
      simp only [List.forall_mem_cons, List.not_mem_nil, false_implies, implies_true, and_true]
      refine ⟨plain_line (by decide), plain_line (by cases a <;> decide), plain_line (by decide), plain_line ?_⟩
      rw [String.append_assoc]
      exact plain_append _ (by decide)
    · exact orders_plain specs address l _ s hs
  | .derived k o, n => by
    rw [Order.screen]
    intro s hs
    replace hs := List.mem_append.1 hs
    rcases hs with hs | hs
    · revert s
      simp only [List.forall_mem_cons, List.not_mem_nil, false_implies, implies_true, and_true]
      exact ⟨plain_line (by decide), plain_line (by decide), plain_line (by decide), plain_line (plain_append _ (by decide)),
        plain_line (by decide)⟩
    · exact order_plain specs address o _ s hs
theorem orders_plain (specs : ShortSpecs) (address : Bytes → String) : ∀ (l : List Order) (n : Nat), ∀ s ∈ ordersScreen specs address n l, PlainLine s
  | [], n => by rw [ordersScreen]; intro s hs; cases hs
  | o :: l, n => by
    rw [ordersScreen]
    intro s hs
    replace hs := List.mem_append.1 hs
    rcases hs with hs | hs
    · exact order_plain specs address o n s hs
    · exact orders_plain specs address l n s hs
end

theorem westend_extensions_plain (specs : ShortSpecs) (x : Extensions) : ∀ s ∈ extensionsScreen specs x, PlainLine s := by
  unfold extensionsScreen
  simp only [List.forall_mem_cons, List.not_mem_nil, false_implies, implies_true, and_true]
  exact ⟨plain_append _ (by decide), plain_append _ (by decide), plain_append _ (by decide), by decide, plain_append _ (by decide),
    plain_append _ (by decide), plain_append _ (by decide)⟩

variable {expected expected' : Option Bytes} {x : Extensions} {o : Order}

/-- C94, Westend 9111: a payload with a display without texts is the only one with this printed text. -/
theorem westend_printed {checksum : Bytes → UInt8 × UInt8} {icon : Bytes → Bytes}
    (hd : specs.decimals < 256) (hs : ShowsBits showBits) (hb : ∀ s o l, Unbroken (showBits s o l)) (hu : Unbroken specs.unit)
    (hr : Reliable b) {r r' : TransactionParsed V14Err} {c c' : Call}
    (h : parseTransaction westend.toMetadata b expected = .ok r) (h' : parseTransaction westend.toMetadata b' expected' = .ok r')
    (hc : r.callResult = .ok c) (hc' : r'.callResult = .ok c') (hf : ∀ f ∈ fdsValue c.fields, Firm f.2)
    (hw : Wordless (c.card (ss58Printers checksum icon) specs "westend" 0 ++ (r.card (ss58Printers checksum icon) specs "westend").extensions))
    (w : printout showBits (c.card (ss58Printers checksum icon) specs "westend" 0 ++
        (r.card (ss58Printers checksum icon) specs "westend").extensions) =
      printout showBits (c'.card (ss58Printers checksum icon) specs "westend" 0 ++
        (r'.card (ss58Printers checksum icon) specs "westend").extensions)) : b.bytes = b'.bytes := by
  obtain ⟨-, y, -, -, -, hy, -⟩ := (westend_transaction hr).1 ⟨r, c, h, hc, rfl, rfl⟩
  refine parseTransaction_printed_bytes (M := westend.toMetadata) Verif.Westend.namesDistinct Verif.Westend.signaturesDistinct
    (ss58_faithful checksum icon hd hs) Verif.Westend.unbrokenNames (ss58_unbroken checksum icon hb hu (by unfold Unbroken; decide)) h h' hc hc' hf ?_ hw w
  intro d hd
  exact values_firm y _ (hy ▸ List.mem_map_of_mem hd)

/-- C94. Orders to pay, batches of them, nested to any depth: among all payloads, with any texts in them, only this one is printed
like this. -/
theorem westend_orders_printed {checksum : Bytes → UInt8 × UInt8} {icon : Bytes → Bytes}
    (hd : specs.decimals < 256) (hs : ShowsBits showBits) (hb : ∀ s o l, Unbroken (showBits s o l)) (hu : Unbroken specs.unit)
    (hr : Reliable b) (ho : o.Valid) (hl : o.bytes.length < 2 ^ 32) (hx : x.Valid expected) :
    (∃ r k, parseTransaction westend.toMetadata b expected = .ok r ∧ r.callResult = .ok k ∧
      printout showBits (k.card (ss58Printers checksum icon) specs "westend" 0 ++
        (r.card (ss58Printers checksum icon) specs "westend").extensions) =
      "\n".intercalate (o.screen specs (fun a => ss58 checksum a specs.base58prefix) 0 ++ extensionsScreen specs x)) ↔
    b.bytes = payload o.bytes x := by
  constructor
  · rintro ⟨r, k, h1, h2, h3⟩
    obtain ⟨r', k', g1, g2, g3, g4⟩ := (westend_transaction (expected := expected) (reliable_ofBytes (payload o.bytes x))).2
      ⟨_, x, rfl, hl, hx, rfl, (Verif.Westend.callEnc_iff (c := o.call)).2 ((Verif.Westend.order_iff o _).2 ⟨ho, rfl⟩)⟩
    obtain ⟨e1, e2⟩ := cards_of_orders (ss58Printers checksum icon) specs showBits g1 g2 g3 g4
    have hf : ∀ f ∈ fdsValue k'.fields, Firm f.2 := by
      have : fdsValue k'.fields = o.args := congrArg CallOf.args g3
      rw [this]
      exact Verif.Westend.order_firm o
    have e := screen_append e1 e2
    refine (westend_printed hd hs hb hu (reliable_ofBytes _) g1 h1 g2 h2 hf (wordless_of_screen e ?_) ((printout_screen e).trans h3.symm)).symm
    intro s hs
    replace hs := List.mem_append.1 hs
    rcases hs with hs | hs
    · exact order_plain _ _ _ _ s hs
    · exact westend_extensions_plain _ _ s hs
  · intro hb
    obtain ⟨r, k, h1, h2, h3, h4⟩ := westend_orders_screen (ss58Printers checksum icon) specs showBits hr ho hl hx hb
    exact ⟨r, k, h1, h2, printout_screen (screen_append h3 h4)⟩
end

section
open Spec.Polkadot

theorem polkadot_extensions_plain (specs : ShortSpecs) {x : Extensions} (hm : ∀ h, x.metadataHash = some h → stringFromUtf8 h = none) :
    ∀ s ∈ extensionsScreen specs x, PlainLine s := by
  unfold extensionsScreen
  intro s hs
  simp only [List.mem_append] at hs
  rcases hs with ((hs | hs) | hs) | hs
  · revert s
    simp only [List.forall_mem_cons, List.not_mem_nil, false_implies, implies_true, and_true]
    exact ⟨plain_append _ (by decide), plain_append _ (by decide), plain_append _ (by decide)⟩
  · revert s
    unfold modeScreen
    simp only [List.forall_mem_cons, List.not_mem_nil, false_implies, implies_true, and_true]
    exact ⟨by decide, by decide, by decide, plain_append _ (by decide)⟩
  · revert s
    simp only [List.forall_mem_cons, List.not_mem_nil, false_implies, implies_true, and_true]
    exact ⟨by decide, plain_append _ (by decide), plain_append _ (by decide), plain_append _ (by decide)⟩
  · revert s
    cases hx : x.metadataHash with
    | none =>
      simp only [hashScreen, List.forall_mem_cons, List.not_mem_nil, false_implies, implies_true, and_true]
      exact ⟨by decide, by decide⟩
    | some h =>
      simp only [hashScreen, hm h hx, List.forall_mem_cons, List.not_mem_nil, false_implies, implies_true, and_true]
      exact ⟨by decide, by decide, plain_append _ (by decide)⟩

variable {expected expected' : Option Bytes} {x : Extensions} {account : Bytes} {amount : Nat}

/-- C94, Polkadot 1003003: a payload with a display without texts is the only one with this printed text. -/
theorem polkadot_printed {checksum : Bytes → UInt8 × UInt8} {icon : Bytes → Bytes}
    (hd : specs.decimals < 256) (hs : ShowsBits showBits) (hb : ∀ s o l, Unbroken (showBits s o l)) (hu : Unbroken specs.unit)
    (hr : Reliable b) {r r' : TransactionParsed VersionErr} {c c' : Call}
    (h : parseTransaction polkadot.toMetadata b expected = .ok r) (h' : parseTransaction polkadot.toMetadata b' expected' = .ok r')
    (hc : r.callResult = .ok c) (hc' : r'.callResult = .ok c') (hf : ∀ f ∈ fdsValue c.fields, Firm f.2)
    (hw : Wordless (c.card (ss58Printers checksum icon) specs "polkadot" 0 ++ (r.card (ss58Printers checksum icon) specs "polkadot").extensions))
    (w : printout showBits (c.card (ss58Printers checksum icon) specs "polkadot" 0 ++
        (r.card (ss58Printers checksum icon) specs "polkadot").extensions) =
      printout showBits (c'.card (ss58Printers checksum icon) specs "polkadot" 0 ++
        (r'.card (ss58Printers checksum icon) specs "polkadot").extensions)) : b.bytes = b'.bytes := by
  obtain ⟨-, y, -, -, -, hy, -⟩ := (polkadot_transaction hr).1 ⟨r, c, h, hc, rfl, rfl⟩
  refine parseTransaction_printed_bytes (M := polkadot.toMetadata) Verif.Polkadot.namesDistinct Verif.Polkadot.signaturesDistinct
    (ss58_faithful checksum icon hd hs) Verif.Polkadot.unbrokenNames (ss58_unbroken checksum icon hb hu (by unfold Unbroken; decide)) h h' hc hc' hf ?_ hw w
  intro d hd
  exact polkadot_values_firm y _ (hy ▸ List.mem_map_of_mem hd)

/-- C94. A transfer on Polkadot: among all payloads, with any texts in them, only this one is printed like this, unless the hash of
the metadata happens to be a text. -/
theorem polkadot_transfer_printed {checksum : Bytes → UInt8 × UInt8} {icon : Bytes → Bytes}
    (hd : specs.decimals < 256) (hs : ShowsBits showBits) (hb : ∀ s o l, Unbroken (showBits s o l)) (hu : Unbroken specs.unit)
    (hr : Reliable b) (ha : account.length = 32) (hn : amount < 2 ^ 128) (hx : x.Valid expected)
    (hm : ∀ h, x.metadataHash = some h → stringFromUtf8 h = none) :
    (∃ r k, parseTransaction polkadot.toMetadata b expected = .ok r ∧ r.callResult = .ok k ∧
      printout showBits (k.card (ss58Printers checksum icon) specs "polkadot" 0 ++
        (r.card (ss58Printers checksum icon) specs "polkadot").extensions) =
      "\n".intercalate (Spec.Westend.callScreen specs (ss58 checksum account specs.base58prefix) amount ++ extensionsScreen specs x)) ↔
    b.bytes = payload (transferKeepAlive account amount) x := by
  constructor
  · rintro ⟨r, k, h1, h2, h3⟩
    obtain ⟨r', k', g1, g2, e1, e2⟩ := polkadot_screen (ss58Printers checksum icon) specs showBits
      (reliable_ofBytes (payload (transferKeepAlive account amount) x)) ha hn hx rfl
    obtain ⟨r'', k'', g1', g2', g3⟩ := (polkadot_transfer (expected := expected)
      (reliable_ofBytes (payload (transferKeepAlive account amount) x))).2 ⟨ha, hn, x, hx, rfl⟩
    cases g1.symm.trans g1'
    cases g2.symm.trans g2'
    have hf : ∀ f ∈ fdsValue k'.fields, Firm f.2 := by
      have : fdsValue k'.fields = (transfer account amount).args := by rw [← g3]; rfl
      rw [this]
      simp only [transfer, List.forall_mem_cons, List.not_mem_nil, false_implies, implies_true, and_true]
      exact ⟨.variant (by simp; exact .fixed _ _), .uint _ _⟩
    have e := screen_append e1 e2
    refine (polkadot_printed hd hs hb hu (reliable_ofBytes _) g1 h1 g2 h2 hf (wordless_of_screen e ?_) ((printout_screen e).trans h3.symm)).symm
    intro s hs
    replace hs := List.mem_append.1 hs
    rcases hs with hs | hs
    · revert s
      unfold Spec.Westend.callScreen
      simp only [List.forall_mem_cons, List.not_mem_nil, false_implies, implies_true, and_true]
      exact ⟨by decide, by decide, by decide, by decide, by decide, plain_append _ (by decide), by decide, plain_append _ (by decide)⟩
    · exact polkadot_extensions_plain _ hm s hs
  · intro hb
    obtain ⟨r, k, h1, h2, h3, h4⟩ := polkadot_screen (ss58Printers checksum icon) specs showBits hr ha hn hx hb
    exact ⟨r, k, h1, h2, printout_screen (screen_append h3 h4)⟩
end

end Verif
