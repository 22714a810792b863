import Verif.Proof.PrintedReads
import Verif.Props.Printed
/-!
# C95: a display without line breaks in its texts cannot be imitated

The display may contain texts, as long as each is printed in one line. Whatever else of the same type is shown with the same
printed text, with any line breaks in its own texts, is the same.
-/
namespace Verif
open Spec

variable {showBits : BitStore → BitOrder → List Bool → String} {P : Printers} {specs : ShortSpecs} {specName : String} {R : Registry}
  {b b' : Buf} {ME : Type} {M : Metadata ME}

theorem typed_printout (c : ExtendedCard) (cs : List ExtendedCard) :
    typed showBits (c :: cs) = '\n' :: (printout showBits (c :: cs)).toList := by
  induction cs generalizing c with
  | nil => rw [typed_cons, printed_cons, below]; rfl
  | cons d cs ih => rw [typed_cons, printed_cons, below, ih]

theorem typed_same {l l' : List ExtendedCard} (h : printout showBits l = printout showBits l') : typed showBits l = typed showBits l' := by
  have h' := congrArg String.toList h
  cases l with
  | nil =>
    cases l' with
    | nil => rfl
    | cons c' l' =>
      rw [printed_cons] at h'
      exact absurd (List.append_eq_nil_iff.1 h'.symm).1 (show_ne_empty c')
  | cons c l =>
    cases l' with
    | nil =>
      rw [printed_cons] at h'
      exact absurd (List.append_eq_nil_iff.1 h').1 (show_ne_empty c)
    | cons c' l' => rw [typed_printout, typed_printout, h]

theorem printed_of {l l' : List ExtendedCard} (hw : EachOneLine showBits l) (hl : ∀ c ∈ l', Tidy showBits c)
    (h : printout showBits l = printout showBits l') : Printed showBits l l' := ⟨hw, hl, typed_same h⟩

theorem late_nil : Late showBits [] [] := by
  intro x y h _
  exact (List.append_eq_nil_iff.1 h.symm).1

theorem ed_tidy (hu : UnbrokenNames R) (U : UnbrokenPrinters P specs specName showBits) {h : Hint} {is : List Info} {id : Nat} {d : ED}
    (a : Shown R h is id d) (i : Nat) (units : Bool) : ∀ c ∈ d.card P specs specName i units, Tidy showBits c := by
  obtain ⟨x, j⟩ := d
  simp only [ED.card]
  exact shown_tidy hu U a _ _ _

/-- C95, entry point `decode_all_as_type`. Data without line breaks in its display, any other data of the same type, with any texts
and any line breaks in them: if the printed texts are the same, the data is the same. -/
theorem decodeAllAsType_unforged (hn : NamesDistinct R) (F : Faithful P specs showBits) (hu : UnbrokenNames R)
    (U : UnbrokenPrinters P specs specName showBits) {id : Nat} {d d' : ED}
    (h : decodeAllAsType R b id = .ok d) (h' : decodeAllAsType R b' id = .ok d') {i : Nat} {units : Bool}
    (hw : EachOneLine showBits (d.card P specs specName i units))
    (w : d.show showBits P specs specName i units = d'.show showBits P specs specName i units) : d = d' := by
  have a := decodeAllAsType_shown h
  have a' := decodeAllAsType_shown h'
  have e := shown_info a a'
  have pr := printed_of hw (ed_tidy hu U a' i units) w
  obtain ⟨x, j⟩ := d
  obtain ⟨x', j'⟩ := d'
  simp only [ED.card] at pr
  obtain ⟨e1, -⟩ := shown_told F.decimals hn F a _ _ a' (decodeAllAsType_ranged h) (decodeAllAsType_ranged h') _ _ i units [] []
    (by simpa using pr) late_nil
  simp only at e e1
  subst e e1
  rfl

/-- C95. And the bytes are the same. -/
theorem decodeAllAsType_unforged_bytes (hn : NamesDistinct R) (hs : SignaturesDistinct R) (F : Faithful P specs showBits)
    (hu : UnbrokenNames R) (U : UnbrokenPrinters P specs specName showBits) {id : Nat} {d d' : ED}
    (h : decodeAllAsType R b id = .ok d) (h' : decodeAllAsType R b' id = .ok d') (hf : Firm (edValue d)) {i : Nat} {units : Bool}
    (hw : EachOneLine showBits (d.card P specs specName i units))
    (w : d.show showBits P specs specName i units = d'.show showBits P specs specName i units) : b.bytes = b'.bytes :=
  decodeAllAsType_canonical hn hs h h' hf (by rw [decodeAllAsType_unforged hn F hu U h h' hw w])

/-! ### Transactions -/

theorem items_late (F : Faithful P specs showBits) {items : List (String × Nat)} {ds ds' : List ED} {bs bs' : Bytes}
    (a : ItemsAre R items ds bs) (a' : ItemsAre R items ds' bs')
    (hc : ∀ c ∈ cardExtensions P specs specName ds, Clean showBits c) :
    Late showBits (cardExtensions P specs specName ds) (cardExtensions P specs specName ds') := by
  obtain ⟨cs, -, h1, h2, h3⟩ := a
  obtain ⟨cs', -, h1', h2', h3'⟩ := a'
  clear bs bs'
  induction items generalizing ds ds' cs cs' with
  | nil =>
    rw [List.length_eq_zero_iff.1 h2, List.length_eq_zero_iff.1 h2']
    exact late_nil
  | cons x items ih =>
    match ds, cs, h1, h2, ds', cs', h1', h2' with
    | d :: ds, c :: cs, h1, h2, d' :: ds', c' :: cs', h1', h2' =>
      simp only [List.zip_cons_cons, List.forall_mem_cons] at h3 h3'
      simp only [cardExtensions, List.flatMap_cons] at hc ⊢
      obtain ⟨y, j⟩ := d
      obtain ⟨y', j'⟩ := d'
      refine Late.append (i := 0) (ih (ds := ds) (ds' := ds') (cs := cs) (cs' := cs') (fun c m => hc c (List.mem_append_right _ m))
        (h1 := by simpa using h1) (h2 := by simpa using h2) (h3 := h3.2) (h1' := by simpa using h1') (h2' := by simpa using h2')
        (h3' := h3'.2)) hc ?_ ?_ ?_
      · exact ed_tall F.decimals (enc_ranged h3.1.1)
      · exact ed_tall F.decimals (enc_ranged h3'.1.1)
      · exact fun e => empty_same h3'.1.2 h3.1.2 e

/-- Extensions are told by their printed text. -/
theorem items_told (hn : NamesDistinct R) (F : Faithful P specs showBits) {items : List (String × Nat)}
    {ds ds' : List ED} {bs bs' : Bytes} (a : ItemsAre R items ds bs) (a' : ItemsAre R items ds' bs')
    (w : Printed showBits (cardExtensions P specs specName ds) (cardExtensions P specs specName ds')) : ds = ds' := by
  obtain ⟨cs, -, h1, h2, h3⟩ := a
  obtain ⟨cs', -, h1', h2', h3'⟩ := a'
  clear bs bs'
  induction items generalizing ds ds' cs cs' with
  | nil => rw [List.length_eq_zero_iff.1 h2, List.length_eq_zero_iff.1 h2']
  | cons x items ih =>
    match ds, cs, h1, h2, ds', cs', h1', h2' with
    | d :: ds, c :: cs, h1, h2, d' :: ds', c' :: cs', h1', h2' =>
      simp only [List.zip_cons_cons, List.forall_mem_cons] at h3 h3'
      simp only [cardExtensions, List.flatMap_cons] at w
      have hc := fun c m => w.clean c (List.mem_append_right _ m)
      have late : Late showBits (cardExtensions P specs specName ds) (cardExtensions P specs specName ds') :=
        items_late F (items := items) (bs := cs.flatten) (bs' := cs'.flatten) ⟨cs, rfl, by simpa using h1, by simpa using h2, h3.2⟩
          ⟨cs', rfl, by simpa using h1', by simpa using h2', h3'.2⟩ hc
      have e := shown_info h3.1.2 h3'.1.2
      obtain ⟨y, j⟩ := d
      obtain ⟨y', j'⟩ := d'
      simp only [ED.card] at w
      obtain ⟨e1, e2⟩ := shown_told F.decimals hn F h3.1.2 _ _ h3'.1.2 (enc_ranged h3.1.1) (enc_ranged h3'.1.1) _ _ 0 true _ _ w late
      simp only at e e1
      subst e e1
      rw [ih (ds := ds) (ds' := ds') (w := e2) (cs := cs) (cs' := cs') (h1 := by simpa using h1) (h2 := by simpa using h2)
        (h3 := h3.2) (h1' := by simpa using h1') (h2' := by simpa using h2') (h3' := h3'.2)]

/-- A call and extensions, one after the other, are told by their printed text. -/
theorem screen_told (hn : NamesDistinct R) (F : Faithful P specs showBits) (hu : UnbrokenNames R)
    (U : UnbrokenPrinters P specs specName showBits) {id : Nat} {items : List (String × Nat)} {c c' : Call}
    {bs bs' es es' : Bytes} {info info' : List Info} {ds ds' : List ED} (a : Shown R .none [] id ⟨c.toPD, info⟩)
    (a' : Shown R .none [] id ⟨c'.toPD, info'⟩) (g : IsCall R id c bs) (g' : IsCall R id c' bs') (e : ItemsAre R items ds es)
    (e' : ItemsAre R items ds' es')
    (hw : EachOneLine showBits (c.card P specs specName 0 ++ cardExtensions P specs specName ds))
    (w : printout showBits (c.card P specs specName 0 ++ cardExtensions P specs specName ds) =
      printout showBits (c'.card P specs specName 0 ++ cardExtensions P specs specName ds')) : c = c' ∧ ds = ds' := by
  have pr := printed_of (l' := c'.card P specs specName 0 ++ cardExtensions P specs specName ds') hw (fun x hx => by
    rcases List.mem_append.1 hx with hx | hx
    · exact call_tidy hu U a' 0 x hx
    · exact items_tidy hu U e' x hx) w
  obtain ⟨e1, e2⟩ := shown_told F.decimals hn F a _ _ a' (call_ranged g _) (call_ranged g' _) [] [] 0 false _ _
    (by simpa [Call.card] using pr) (items_late F e e' fun c hc => hw c (List.mem_append_right _ hc))
  refine ⟨?_, items_told hn F e e' e2⟩
  simp only [Call.toPD] at e1
  cases c
  cases c'
  simp only [PD.pallet.injEq] at e1
  obtain ⟨-, rfl, rfl, rfl, rfl, rfl⟩ := e1
  rfl

/-- C95, entry point `parse_transaction`. A transaction without line breaks in its display, any other transaction, with any texts and
any line breaks in them: if the texts printed for them are the same, the transactions are the same. -/
theorem parseTransaction_unforged (hn : NamesDistinct M.types) (F : Faithful P specs showBits) (hu : UnbrokenNames M.types)
    (U : UnbrokenPrinters P specs specName showBits) {expected expected' : Option Bytes} {r r' : TransactionParsed ME} {c c' : Call}
    (h : parseTransaction M b expected = .ok r) (h' : parseTransaction M b' expected' = .ok r')
    (hc : r.callResult = .ok c) (hc' : r'.callResult = .ok c')
    (hw : EachOneLine showBits (c.card P specs specName 0 ++ (r.card P specs specName).extensions))
    (w : printout showBits (c.card P specs specName 0 ++ (r.card P specs specName).extensions) =
      printout showBits (c'.card P specs specName 0 ++ (r'.card P specs specName).extensions)) : r = r' := by
  obtain ⟨id, signed, spec, cb, eb, h1, h2, -, -, h3, h4, -⟩ := parseTransaction_sound h hc
  obtain ⟨id', signed', spec', cb', eb', h1', h2', -, -, h3', h4', -⟩ := parseTransaction_sound h' hc'
  rw [h1] at h1'; cases h1'
  rw [h2] at h2'; cases h2'
  obtain ⟨i, a⟩ := parsed_shown h1 h hc
  obtain ⟨i', a'⟩ := parsed_shown h1 h' hc'
  obtain ⟨e1, e2⟩ := screen_told hn F hu U a a' h3 h3' h4 h4' hw w
  obtain ⟨x, y⟩ := r
  obtain ⟨x', y'⟩ := r'
  simp only at hc hc' e2
  subst hc hc' e1 e2
  rfl

/-- C95. And the bytes are the same: nothing else can be signed below this display. -/
theorem parseTransaction_unforged_bytes (hn : NamesDistinct M.types) (hs : SignaturesDistinct M.types) (F : Faithful P specs showBits)
    (hu : UnbrokenNames M.types) (U : UnbrokenPrinters P specs specName showBits) {expected expected' : Option Bytes}
    {r r' : TransactionParsed ME} {c c' : Call}
    (h : parseTransaction M b expected = .ok r) (h' : parseTransaction M b' expected' = .ok r')
    (hc : r.callResult = .ok c) (hc' : r'.callResult = .ok c')
    (hf : ∀ f ∈ fdsValue c.fields, Firm f.2) (hf' : ∀ d ∈ r.extensions, Firm (edValue d))
    (hw : EachOneLine showBits (c.card P specs specName 0 ++ (r.card P specs specName).extensions))
    (w : printout showBits (c.card P specs specName 0 ++ (r.card P specs specName).extensions) =
      printout showBits (c'.card P specs specName 0 ++ (r'.card P specs specName).extensions)) : b.bytes = b'.bytes := by
  have e := parseTransaction_unforged hn F hu U h h' hc hc' hw w
  subst e
  rw [hc] at hc'; cases hc'
  exact parseTransaction_signs (specName := specName) hn hs F h h' hc hc hf hf' rfl rfl

theorem unmarked_shown {id : Nat} {expected : Option Bytes} {r : TransactionUnmarkedParsed} (h1 : M.callTy = .ok id)
    (h : parseTransactionUnmarked M b expected = .ok r) : ∃ info, Shown M.types .none [] id ⟨r.call.toPD, info⟩ := by
  unfold parseTransactionUnmarked at h
  obtain ⟨⟨c, pos⟩, k1, h⟩ := ebind_ok.1 h
  obtain ⟨exts, -, h⟩ := ebind_ok.1 h
  cases h
  obtain ⟨id', info, k3, k4⟩ := decodeAsCallUnmarked_shown k1
  rw [h1] at k3; cases k3
  exact ⟨info, k4⟩

/-- C95, entry point `parse_transaction_unmarked`. -/
theorem parseTransactionUnmarked_unforged (hn : NamesDistinct M.types) (F : Faithful P specs showBits) (hu : UnbrokenNames M.types)
    (U : UnbrokenPrinters P specs specName showBits) {expected expected' : Option Bytes} {r r' : TransactionUnmarkedParsed}
    (h : parseTransactionUnmarked M b expected = .ok r) (h' : parseTransactionUnmarked M b' expected' = .ok r')
    (hw : EachOneLine showBits ((r.card P specs specName).call ++ (r.card P specs specName).extensions))
    (w : printout showBits ((r.card P specs specName).call ++ (r.card P specs specName).extensions) =
      printout showBits ((r'.card P specs specName).call ++ (r'.card P specs specName).extensions)) : r = r' := by
  obtain ⟨id, signed, spec, cb, eb, h1, h2, -, -, h3, h4, -⟩ := parseTransactionUnmarked_sound h
  obtain ⟨id', signed', spec', cb', eb', h1', h2', -, -, h3', h4', -⟩ := parseTransactionUnmarked_sound h'
  rw [h1] at h1'; cases h1'
  rw [h2] at h2'; cases h2'
  obtain ⟨i, a⟩ := unmarked_shown h1 h
  obtain ⟨i', a'⟩ := unmarked_shown h1 h'
  obtain ⟨e1, e2⟩ := screen_told hn F hu U a a' h3 h3' h4 h4' hw w
  obtain ⟨x, y⟩ := r
  obtain ⟨x', y'⟩ := r'
  simp only at e1 e2
  subst e1 e2
  rfl

/-- C95, bytes of transactions without length prefix. -/
theorem parseTransactionUnmarked_unforged_bytes (hn : NamesDistinct M.types) (hs : SignaturesDistinct M.types) (F : Faithful P specs showBits)
    (hu : UnbrokenNames M.types) (U : UnbrokenPrinters P specs specName showBits) {expected expected' : Option Bytes}
    {r r' : TransactionUnmarkedParsed}
    (h : parseTransactionUnmarked M b expected = .ok r) (h' : parseTransactionUnmarked M b' expected' = .ok r')
    (hf : ∀ f ∈ fdsValue r.call.fields, Firm f.2) (hf' : ∀ d ∈ r.extensions, Firm (edValue d))
    (hw : EachOneLine showBits ((r.card P specs specName).call ++ (r.card P specs specName).extensions))
    (w : printout showBits ((r.card P specs specName).call ++ (r.card P specs specName).extensions) =
      printout showBits ((r'.card P specs specName).call ++ (r'.card P specs specName).extensions)) : b.bytes = b'.bytes := by
  have e := parseTransactionUnmarked_unforged hn F hu U h h' hw w
  subst e
  exact parseTransactionUnmarked_signs (specName := specName) hn hs F h h' hf hf' rfl rfl

/-! ### Westend and Polkadot -/

/-- Decoded transactions have line breaks in the texts of the data only. -/
theorem parsed_tidy (hu : UnbrokenNames M.types) (U : UnbrokenPrinters P specs specName showBits) {expected : Option Bytes}
    {r : TransactionParsed ME} {c : Call} (h : parseTransaction M b expected = .ok r) (hc : r.callResult = .ok c) :
    ∀ x ∈ c.card P specs specName 0 ++ (r.card P specs specName).extensions, Tidy showBits x := by
  obtain ⟨id, signed, spec, cb, eb, h1, h2, -, -, h3, h4, -⟩ := parseTransaction_sound h hc
  obtain ⟨i, a⟩ := parsed_shown h1 h hc
  intro x hx
  rcases List.mem_append.1 hx with hx | hx
  · exact call_tidy hu U a 0 x hx
  · exact items_tidy hu U h4 x hx

/-- Lines that begin otherwise than those of texts do, or have no line break. -/
theorem oneLine_of_screen {l : List ExtendedCard} {lines : List String} (ht : ∀ c ∈ l, Tidy showBits c) (h : Spec.Westend.screen showBits l = lines)
    (hl : ∀ s ∈ lines, PlainLine s ∨ Unbroken s) : EachOneLine showBits l := by
  intro c hc
  have hs : c.show showBits ∈ lines := by rw [← h]; exact List.mem_map_of_mem hc
  rcases hl _ hs with hp | hp
  · refine tidy_clean (ht c hc) fun hw => ?_
    rcases wordy_letters (showBits := showBits) hw with e | e | e
    · exact hp.1 e
    · exact hp.2.1 e
    · exact hp.2.2 e
  · exact hp

section
open Spec.Westend
variable {expected expected' : Option Bytes}

/-- C95, Westend 9111: a payload with a display without line breaks in its texts is the only one with this printed text. -/
theorem westend_unforged {checksum : Bytes → UInt8 × UInt8} {icon : Bytes → Bytes}
    (hd : specs.decimals < 256) (hs : ShowsBits showBits) (hb : ∀ s o l, Unbroken (showBits s o l)) (hu : Unbroken specs.unit)
    (hr : Reliable b) {r r' : TransactionParsed V14Err} {c c' : Call}
    (h : parseTransaction westend.toMetadata b expected = .ok r) (h' : parseTransaction westend.toMetadata b' expected' = .ok r')
    (hc : r.callResult = .ok c) (hc' : r'.callResult = .ok c') (hf : ∀ f ∈ fdsValue c.fields, Firm f.2)
    (hw : EachOneLine showBits (c.card (ss58Printers checksum icon) specs "westend" 0 ++
        (r.card (ss58Printers checksum icon) specs "westend").extensions))
    (w : printout showBits (c.card (ss58Printers checksum icon) specs "westend" 0 ++
        (r.card (ss58Printers checksum icon) specs "westend").extensions) =
      printout showBits (c'.card (ss58Printers checksum icon) specs "westend" 0 ++
        (r'.card (ss58Printers checksum icon) specs "westend").extensions)) : b.bytes = b'.bytes := by
  obtain ⟨-, y, -, -, -, hy, -⟩ := (westend_transaction hr).1 ⟨r, c, h, hc, rfl, rfl⟩
  refine parseTransaction_unforged_bytes (M := westend.toMetadata) Verif.Westend.namesDistinct Verif.Westend.signaturesDistinct
    (ss58_faithful checksum icon hd hs) Verif.Westend.unbrokenNames (ss58_unbroken checksum icon hb hu (by unfold Unbroken; decide)) h h' hc hc' hf ?_ hw w
  intro d hd
  exact values_firm y _ (hy ▸ List.mem_map_of_mem hd)
end

section
open Spec.Polkadot
variable {expected expected' : Option Bytes} {x : Extensions} {account : Bytes} {amount : Nat}

/-- C95, Polkadot 1003003: a payload with a display without line breaks in its texts is the only one with this printed text. -/
theorem polkadot_unforged {checksum : Bytes → UInt8 × UInt8} {icon : Bytes → Bytes}
    (hd : specs.decimals < 256) (hs : ShowsBits showBits) (hb : ∀ s o l, Unbroken (showBits s o l)) (hu : Unbroken specs.unit)
    (hr : Reliable b) {r r' : TransactionParsed VersionErr} {c c' : Call}
    (h : parseTransaction polkadot.toMetadata b expected = .ok r) (h' : parseTransaction polkadot.toMetadata b' expected' = .ok r')
    (hc : r.callResult = .ok c) (hc' : r'.callResult = .ok c') (hf : ∀ f ∈ fdsValue c.fields, Firm f.2)
    (hw : EachOneLine showBits (c.card (ss58Printers checksum icon) specs "polkadot" 0 ++
        (r.card (ss58Printers checksum icon) specs "polkadot").extensions))
    (w : printout showBits (c.card (ss58Printers checksum icon) specs "polkadot" 0 ++
        (r.card (ss58Printers checksum icon) specs "polkadot").extensions) =
      printout showBits (c'.card (ss58Printers checksum icon) specs "polkadot" 0 ++
        (r'.card (ss58Printers checksum icon) specs "polkadot").extensions)) : b.bytes = b'.bytes := by
  obtain ⟨-, y, -, -, -, hy, -⟩ := (polkadot_transaction hr).1 ⟨r, c, h, hc, rfl, rfl⟩
  refine parseTransaction_unforged_bytes (M := polkadot.toMetadata) Verif.Polkadot.namesDistinct Verif.Polkadot.signaturesDistinct
    (ss58_faithful checksum icon hd hs) Verif.Polkadot.unbrokenNames (ss58_unbroken checksum icon hb hu (by unfold Unbroken; decide)) h h' hc hc' hf ?_ hw w
  intro d hd
  exact polkadot_values_firm y _ (hy ▸ List.mem_map_of_mem hd)

theorem unbroken_append {a s : String} (ha : Unbroken a) (hs : Unbroken s) : Unbroken (a ++ s) := oneLine_append ha hs

theorem polkadot_extensions_lines (specs : ShortSpecs) {x : Extensions}
    (hm : ∀ h s, x.metadataHash = some h → stringFromUtf8 h = some s → Unbroken s) :
    ∀ s ∈ extensionsScreen specs x, PlainLine s ∨ Unbroken s := by
  unfold extensionsScreen
  intro s hs
  simp only [List.mem_append] at hs
  rcases hs with ((hs | hs) | hs) | hs
  · left
    revert s
    simp only [List.forall_mem_cons, List.not_mem_nil, false_implies, implies_true, and_true]
    exact ⟨plain_append _ (by decide), plain_append _ (by decide), plain_append _ (by decide)⟩
  · left
    revert s
    unfold modeScreen
    simp only [List.forall_mem_cons, List.not_mem_nil, false_implies, implies_true, and_true]
    exact ⟨by decide, by decide, by decide, plain_append _ (by decide)⟩
  · left
    revert s
    simp only [List.forall_mem_cons, List.not_mem_nil, false_implies, implies_true, and_true]
    exact ⟨by decide, plain_append _ (by decide), plain_append _ (by decide), plain_append _ (by decide)⟩
  · revert s
    cases hx : x.metadataHash with
    | none =>
      simp only [hashScreen, List.forall_mem_cons, List.not_mem_nil, false_implies, implies_true, and_true]
      exact ⟨.inl (by decide), .inl (by decide)⟩
    | some h =>
      cases ht : stringFromUtf8 h with
      | none =>
        simp only [hashScreen, ht, List.forall_mem_cons, List.not_mem_nil, false_implies, implies_true, and_true]
        exact ⟨.inl (by decide), .inl (by decide), .inl (plain_append _ (by decide))⟩
      | some t =>
        simp only [hashScreen, ht, List.forall_mem_cons, List.not_mem_nil, false_implies, implies_true, and_true]
        exact ⟨.inl (by decide), .inl (by decide), .inr (unbroken_append (by unfold Unbroken; decide) (hm h t hx ht))⟩

/-- C95. A transfer on Polkadot: among all payloads, with any texts in them, only this one is printed like this, also if the hash of
the metadata happens to be a text, as long as that has no line break. -/
theorem polkadot_transfer_unforged {checksum : Bytes → UInt8 × UInt8} {icon : Bytes → Bytes}
    (hd : specs.decimals < 256) (hs : ShowsBits showBits) (hb : ∀ s o l, Unbroken (showBits s o l)) (hu : Unbroken specs.unit)
    (hr : Reliable b) (ha : account.length = 32) (hn : amount < 2 ^ 128) (hx : x.Valid expected)
    (hm : ∀ h s, x.metadataHash = some h → stringFromUtf8 h = some s → Unbroken s) :
    (∃ r k, parseTransaction polkadot.toMetadata b expected = .ok r ∧ r.callResult = .ok k ∧
      printout showBits (k.card (ss58Printers checksum icon) specs "polkadot" 0 ++
        (r.card (ss58Printers checksum icon) specs "polkadot").extensions) =
      "\n".intercalate (Spec.Westend.callScreen specs (ss58 checksum account specs.base58prefix) amount ++ extensionsScreen specs x)) ↔
    b.bytes = payload (transferKeepAlive account amount) x := by
  constructor
  · rintro ⟨r, k, h1, h2, h3⟩
    obtain ⟨r', k', g1, g2, e1, e2⟩ := polkadot_screen (ss58Printers checksum icon) specs showBits
      (reliable_ofBytes (payload (transferKeepAlive account amount) x)) ha hn hx rfl
    obtain ⟨r'', k'', g1', g2', g3⟩ := (polkadot_transfer (expected := expected)
      (reliable_ofBytes (payload (transferKeepAlive account amount) x))).2 ⟨ha, hn, x, hx, rfl⟩
    cases g1.symm.trans g1'
    cases g2.symm.trans g2'
    have hf : ∀ f ∈ fdsValue k'.fields, Firm f.2 := by
      have : fdsValue k'.fields = (transfer account amount).args := by rw [← g3]; rfl
      rw [this]
      simp only [transfer, List.forall_mem_cons, List.not_mem_nil, false_implies, implies_true, and_true]
      exact ⟨.variant (by simp; exact .fixed _ _), .uint _ _⟩
    have e := screen_append e1 e2
    refine (polkadot_unforged hd hs hb hu (reliable_ofBytes _) g1 h1 g2 h2 hf (oneLine_of_screen
      (parsed_tidy Verif.Polkadot.unbrokenNames (ss58_unbroken checksum icon hb hu (by unfold Unbroken; decide)) g1 g2) e ?_)
      ((printout_screen e).trans h3.symm)).symm
    intro s hs
    replace hs := List.mem_append.1 hs
    rcases hs with hs | hs
    · left
      revert s
      unfold Spec.Westend.callScreen
      simp only [List.forall_mem_cons, List.not_mem_nil, false_implies, implies_true, and_true]
      exact ⟨by decide, by decide, by decide, by decide, by decide, plain_append _ (by decide), by decide, plain_append _ (by decide)⟩
    · exact polkadot_extensions_lines _ hm s hs
  · intro hb
    obtain ⟨r, k, h1, h2, h3, h4⟩ := polkadot_screen (ss58Printers checksum icon) specs showBits hr ha hn hx hb
    exact ⟨r, k, h1, h2, printout_screen (screen_append h3 h4)⟩
end

end Verif
