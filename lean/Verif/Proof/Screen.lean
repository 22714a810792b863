import Verif.Proof.ShownInversion
import Verif.Proof.Westend
import Verif.Spec.Screen
import Verif.Spec.Meaning
import Verif.Spec.Transaction
/-!
# The trees and lines of Westend transfers
-/
namespace Verif.Westend
open Spec Spec.Westend

variable {h : Hint} {is : List Info} {d : ED} {P : Printers} {specs : ShortSpecs} {name : String}
  {showBits : BitStore → BitOrder → List Bool → String}

theorem shown_has {id : Nat} {path : List String} {def' : TypeDef} (ht : has id path def' = true) (hs : Check.structural path = true)
    (hd : Shown registry h is id d) : ∃ t, registry.resolve id = .ok t ∧ t.typeDef = def' ∧ ShownDef registry h is t d := by
  obtain ⟨t, hr, rfl, hd'⟩ := has_type ht
  exact ⟨t, hr, hd', (shownAs_structural (Wallet'.structural_iff.1 hs)).1 (shown_as hr hd)⟩

theorem newtype_shown {id : Nat} {path : List String} {f : Field} (ht : has id path (.composite [f]) = true)
    (hs : Check.structural path = true) (hd : Shown registry h is id d) :
    ∃ fd : FD, d.data = .composite [fd] ∧ fd.fieldName = f.name ∧ Shown registry (first h (fieldLabel f)) [] f.ty fd.data := by
  obtain ⟨t, -, e, hd⟩ := shown_has ht hs hd
  unfold ShownDef at hd
  rw [e] at hd
  obtain ⟨ds, h1, h2, h3, h4⟩ := hd
  obtain ⟨fd, rfl⟩ := list1 h2
  exact ⟨fd, h1, h3 (f, fd) (by simp), by simpa [handed] using h4 (f, fd) (by simp)⟩

theorem unit_shown {id : Nat} {path : List String} (ht : has id path (.composite []) = true)
    (hs : Check.structural path = true) (hd : Shown registry h is id d) : d.data = .composite [] := by
  obtain ⟨t, -, e, hd⟩ := shown_has ht hs hd
  unfold ShownDef at hd
  rw [e] at hd
  obtain ⟨ds, h1, h2, -⟩ := hd
  rw [h1, List.length_eq_zero_iff.1 h2]

theorem compact_shown {id inner : Nat} {path : List String} (ht : has id path (.compact inner) = true)
    (hs : Check.structural path = true) (hd : Shown registry h is id d) : ∃ is', Shown registry h is' inner d := by
  obtain ⟨t, -, e, hd⟩ := shown_has ht hs hd
  unfold ShownDef at hd
  rw [e] at hd
  exact ⟨_, hd⟩

theorem edValue_data {d d' : ED} (e : d.data = d'.data) : edValue d = edValue d' := by
  obtain ⟨_, _⟩ := d; obtain ⟨_, _⟩ := d'; cases e; rfl

theorem edValue_of {d : ED} {x : PD} (e : d.data = x) : edValue d = pdValue x := by
  obtain ⟨_, _⟩ := d; cases e; rfl

theorem fdsValue_one (fd : FD) : fdsValue [fd] = [(fd.fieldName, edValue fd.data)] := by
  obtain ⟨_, _, _, _⟩ := fd; rfl

theorem uint_shown {id : Nat} {p : Prim} {w : UW} {n : Nat} (ht : has id [] (.primitive p) = true) (hp : IsUInt p w)
    (hd : Shown registry h is id d) (hv : edValue d = .uint w n) : d.data = .uint w n (uintLabel h) := by
  obtain ⟨t, -, e, hd⟩ := shown_has ht (by decide) hd
  unfold ShownDef at hd
  rw [e] at hd
  obtain ⟨w', v, -, h1⟩ | h1 := hd
  · rw [edValue_of h1] at hv
    cases hv
    exact h1
  · exact absurd hp (h1 w)

theorem u32_shown {n : Nat} (hd : Shown registry h is 4 d) (hv : edValue d = .uint .u32 n) : d.data = .uint .u32 n (uintLabel h) :=
  uint_shown (by decide +kernel) .u32 hd hv

theorem balance_shown {n : Nat} (hd : Shown registry h is 46 d) (hv : edValue d = .uint .u128 n) :
    d.data = .uint .u128 n (uintLabel h) := by
  obtain ⟨is', hd⟩ := compact_shown (id := 46) (path := []) (inner := 6) (by decide +kernel) (by decide) hd
  exact uint_shown (by decide +kernel) .u128 hd hv

theorem hash_shown {bs : Bytes} (hd : Shown registry h is 9 d) (hv : edValue d = .hash bs) : d.data = labelledHash h bs := by
  have := shown_as (resolves type9) hd
  unfold ShownAs at this
  rw [show special _ = some Special.hash from by decide] at this
  obtain ⟨bs', e⟩ := this
  rw [e]
  rw [edValue_of e] at hv
  unfold labelledHash at hv
  split at hv
  · cases hv; rfl
  · split at hv <;> cases hv <;> rfl

theorem account_shown {bs : Bytes} (hd : Shown registry h is 0 d) (hv : edValue d = .fixed .id bs) : d.data = .fixed .id bs := by
  have := shown_as (resolves type0) hd
  unfold ShownAs at this
  rw [show special _ = some (Special.fixed .id) from by decide] at this
  obtain ⟨bs', e⟩ := this
  rw [edValue_of e] at hv
  cases hv
  exact e

theorem era_shown {e : Era} (hd : Shown registry h is 592 d) (hv : edValue d = .era e) : d.data = .era e := by
  cases ht : types[592]? with
  | none => exact absurd era_path (by rw [ht]; simp)
  | some t =>
    have hp : t.path = ["sp_runtime", "generic", "era", "Era"] := by
      have := era_path
      rw [ht] at this
      simpa using this
    have := shown_as (resolves ht) hd
    unfold ShownAs at this
    rw [hp, show special _ = some Special.era from by decide] at this
    obtain ⟨e', he⟩ := this
    rw [edValue_of he] at hv
    cases hv
    exact he

theorem nil_shown (hd : Shown registry h is 57 d) : d.data = .tuple [] := by
  obtain ⟨t, -, e, hd⟩ := shown_has (id := 57) (path := []) (def' := .tuple []) (by decide +kernel) (by decide) hd
  unfold ShownDef at hd
  rw [e] at hd
  obtain ⟨ds, h1, h2⟩ := hd
  rw [h1, List.length_eq_zero_iff.1 h2]

/-! ### Extensions -/

/-- A leaf around which there may be a struct with one field without a name. -/
def Leaf (d : ED) (x : PD) : Prop := d.data = x ∨ ∃ fd : FD, d.data = .composite [fd] ∧ fd.fieldName = none ∧ fd.data.data = x

theorem leaf_card {d : ED} {x : PD} (hd : Leaf d x) (n : Nat) (valid : Bool) :
    ∃ i, d.card P specs name n valid = x.card P specs name i n valid := by
  obtain ⟨data, info⟩ := d
  rcases hd with rfl | ⟨⟨fn, tn, docs, ⟨data', info'⟩⟩, rfl, rfl, rfl⟩
  · exact ⟨_, by rw [ED.card]⟩
  · refine ⟨info.map Info.flatten ++ infoWithDocsOnly docs ++ info'.map Info.flatten, ?_⟩
    rw [ED.card, PD.card]
    simp only [List.isEmpty_cons, Bool.false_eq_true, if_false, singleUnnamed, Option.isNone_none, if_true, cardFirstUnnamed, FD.cardUnnamed]

theorem mortality_leaf {e : Era} (hd : Shown registry h is 591 d) (hv : edValue d = .era e) : Leaf d (.era e) := by
  obtain ⟨fd, h1, h2, h3⟩ := newtype_shown (path := ["frame_system", "extensions", "check_mortality", "CheckMortality"])
    (f := ⟨none, 592, some "Era", []⟩) (by decide +kernel) (by decide) hd
  refine .inr ⟨fd, h1, h2, era_shown h3 ?_⟩
  rw [edValue_of h1, pdValue, fdsValue_one] at hv
  exact hv

theorem nonce_leaf {n : Nat} (hd : Shown registry .checkNonce is 593 d) (hv : edValue d = .uint .u32 n) : Leaf d (.uint .u32 n .nonce) := by
  obtain ⟨fd, h1, h2, h3⟩ := newtype_shown (path := ["frame_system", "extensions", "check_nonce", "CheckNonce"])
    (f := ⟨none, 95, some "T::Index", []⟩) (by decide +kernel) (by decide) hd
  obtain ⟨is', h3⟩ := compact_shown (id := 95) (path := []) (inner := 4) (by decide +kernel) (by decide) h3
  refine .inr ⟨fd, h1, h2, ?_⟩
  rw [edValue_of h1, pdValue, fdsValue_one] at hv
  exact u32_shown h3 hv

theorem tip_leaf {n : Nat} (hd : Shown registry .chargeTransactionPayment is 595 d) (hv : edValue d = .uint .u128 n) :
    Leaf d (.uint .u128 n .tip) := by
  obtain ⟨fd, h1, h2, h3⟩ := newtype_shown (path := ["pallet_transaction_payment", "ChargeTransactionPayment"])
    (f := ⟨none, 46, some "BalanceOf<T>", []⟩) (by decide +kernel) (by decide) hd
  refine .inr ⟨fd, h1, h2, ?_⟩
  rw [edValue_of h1, pdValue, fdsValue_one] at hv
  exact balance_shown h3 hv

theorem screen_append (l l' : List ExtendedCard) : screen showBits (l ++ l') = screen showBits l ++ screen showBits l' :=
  List.map_append ..

theorem screen_leaf {d : ED} {x : PD} {lines : List String} (hd : Leaf d x)
    (hx : ∀ i, screen showBits (x.card P specs name i 0 true) = lines) : screen showBits (d.card P specs name 0 true) = lines := by
  obtain ⟨i, e⟩ := leaf_card hd 0 true
  rw [e]
  exact hx i

theorem indent_zero (s t : String) : readable 0 s t = s ++ ": " ++ t := by
  have e : indentation 0 = "" := rfl
  rw [readable, e, String.empty_append]

/-- The lines of one value. -/
def edScreen (P : Printers) (specs : ShortSpecs) (name : String) (showBits : BitStore → BitOrder → List Bool → String) (d : ED) : List String :=
  screen showBits (d.card P specs name 0 true)

theorem extensions_screen (ds : List ED) : screen showBits (cardExtensions P specs name ds) = ds.flatMap (edScreen P specs name showBits) := by
  unfold screen cardExtensions
  rw [List.map_flatMap]
  rfl

theorem empty_lines (hd : d.data = .composite [] ∨ d.data = .tuple []) : edScreen P specs name showBits d = [] := by
  obtain ⟨data, info⟩ := d
  rcases hd with rfl | rfl
  · unfold edScreen; rw [ED.card, PD.card]; rfl
  · unfold edScreen; rw [ED.card, PD.card]; rfl

theorem leaf_line {x : PD} {pc : ParserCard} {label text line : String} (hd : Leaf d x)
    (hx : ∀ i, x.card P specs name i 0 true = [⟨pc, 0, i⟩]) (hl : pc.line showBits = (label, some text))
    (he : label ++ ": " ++ text = line) : edScreen P specs name showBits d = [line] := by
  refine screen_leaf hd fun i => ?_
  rw [hx]
  unfold screen
  rw [List.map_cons, List.map_nil, ExtendedCard.show]
  dsimp only
  rw [hl]
  dsimp only
  rw [indent_zero, he]

theorem extensions_lines {x : Extensions} {ds : List ED} {bs : Bytes} (hi : ItemsAre registry (extItems signedExtensions) ds bs)
    (hv : ds.map edValue = x.values) :
    screen showBits (cardExtensions P specs "westend" ds) = extensionsScreen specs x := by
  rw [extensions_screen]
  obtain ⟨chunks, -, hl, hd, h⟩ := hi
  rw [items_eq] at hl hd h
  obtain ⟨c1, c2, c3, c4, c5, c6, c7, c8, c9, c10, c11, c12, c13, c14, rfl⟩ := list14 hl
  obtain ⟨d1, d2, d3, d4, d5, d6, d7, d8, d9, d10, d11, d12, d13, d14, rfl⟩ := list14 hd
  simp only [List.zip_cons_cons, List.zip_nil_right, List.forall_mem_cons, List.not_mem_nil, false_implies, implies_true, and_true] at h
  obtain ⟨⟨-, s1⟩, ⟨-, s2⟩, ⟨-, s3⟩, ⟨-, s4⟩, ⟨-, s5⟩, ⟨-, s6⟩, ⟨-, s7⟩, ⟨-, s8⟩, ⟨-, s9⟩, ⟨-, s10⟩, ⟨-, s11⟩, ⟨-, s12⟩, ⟨-, s13⟩, ⟨-, s14⟩⟩ := h
  simp only [Extensions.values, List.map_cons, List.map_nil, List.cons.injEq, and_true] at hv
  obtain ⟨-, -, -, v4, v5, -, v7, v8, v9, v10, v11, -, -, -⟩ := hv
  rw [show extLabel "CheckNonce" = .checkNonce from by decide] at s5
  rw [show extLabel "ChargeTransactionPayment" = .chargeTransactionPayment from by decide] at s7
  rw [show extLabel "CheckSpecVersion" = .checkSpecVersion from by decide] at s8
  rw [show extLabel "CheckTxVersion" = .checkTxVersion from by decide] at s9
  rw [show extLabel "CheckGenesis" = .checkGenesis from by decide] at s10
  rw [show extLabel "CheckMortality" = .checkMortality from by decide] at s11
  have e1 := unit_shown (path := ["frame_system", "extensions", "check_spec_version", "CheckSpecVersion"]) (by decide +kernel) (by decide) s1
  have e2 := unit_shown (path := ["frame_system", "extensions", "check_tx_version", "CheckTxVersion"]) (by decide +kernel) (by decide) s2
  have e3 := unit_shown (path := ["frame_system", "extensions", "check_genesis", "CheckGenesis"]) (by decide +kernel) (by decide) s3
  have e6 := unit_shown (path := ["frame_system", "extensions", "check_weight", "CheckWeight"]) (by decide +kernel) (by decide) s6
  have e4 := mortality_leaf s4 v4
  have e5 := nonce_leaf s5 v5
  have e7 := tip_leaf s7 v7
  have e8 := u32_shown s8 v8
  have e9 := u32_shown s9 v9
  have e10 := hash_shown s10 v10
  have e11 := hash_shown s11 v11
  have l4 : edScreen P specs "westend" showBits d4 = ["Era: " ++ eraText x.era] := by
    refine leaf_line e4 (pc := .era x.era) (fun i => by rw [PD.card]) (text := eraText x.era) (label := "Era") ?_ rfl
    cases x.era <;> rfl
  have l5 : edScreen P specs "westend" showBits d5 = ["Nonce: " ++ toString x.nonce] :=
    leaf_line e5 (pc := .nonce (toString x.nonce)) (fun i => by rw [PD.card]; rfl) rfl rfl
  have l7 : edScreen P specs "westend" showBits d7 = ["Tip: " ++ amountText specs x.tip] :=
    leaf_line e7 (pc := .tip (convertBalancePretty x.tip specs.decimals specs.unit)) (fun i => by rw [PD.card]; rfl) rfl rfl
  have l8 : edScreen P specs "westend" showBits d8 = ["Chain: westend9111"] := 
    leaf_line (pc := .nameSpecVersion "westend" (toString 9111)) (.inl e8) (fun i => by rw [PD.card]; rfl) rfl (by decide)
  have l9 : edScreen P specs "westend" showBits d9 = ["Tx Version: " ++ toString x.txVersion] :=
    leaf_line (pc := .txVersion (toString x.txVersion)) (.inl e9) (fun i => by rw [PD.card]; rfl) rfl rfl
  have l10 : edScreen P specs "westend" showBits d10 = ["Genesis Hash: " ++ hexBytes x.genesis] :=
    leaf_line (pc := .genesisHash x.genesis) (.inl e10) (fun i => by unfold labelledHash; rw [if_pos rfl, PD.card]) rfl rfl
  have l11 : edScreen P specs "westend" showBits d11 = ["Block Hash: " ++ hexBytes x.blockHash] :=
    leaf_line (pc := .blockHash x.blockHash) (.inl e11)
      (fun i => by unfold labelledHash; rw [if_neg (by decide), if_pos rfl, PD.card]) rfl rfl
  simp only [List.flatMap_cons, List.flatMap_nil, empty_lines (.inl e1), empty_lines (.inl e2), empty_lines (.inl e3), l4, l5,
    empty_lines (.inl e6), l7, l8, l9, l10, l11, empty_lines (.inr (nil_shown s12)), empty_lines (.inr (nil_shown s13)),
    empty_lines (.inr (nil_shown s14)), List.nil_append, List.append_nil, List.cons_append]
  rfl

/-! ### The call -/

/-- An address by account. -/
theorem address_shown {account : Bytes} (hd : Shown registry h is 180 d)
    (hv : edValue d = .variant "Id" [(none, .fixed .id account)]) :
    ∃ (docs docs' : String) (tn : Option String) (i : List Info), d.data = .variant "Id" docs [⟨none, tn, docs', ⟨.fixed .id account, i⟩⟩] := by
  obtain ⟨t, vs, hr, hd', hm, hn⟩ := variantOf_some (id := 180) (n := "Id")
    (w := ⟨"Id", [⟨none, 0, some "AccountId", []⟩], 0, []⟩) (by decide +kernel)
  have hp : special t.path = none := by
    have : (types[180]?.all fun t => (special t.path).isNone) = true := by decide +kernel
    rw [portable_get hr] at this
    simpa using this
  have hs := (shownAs_structural (by unfold Structural; rw [hp]; trivial)).1 (shown_as hr hd)
  unfold ShownDef at hs
  rw [hd'] at hs
  rcases hs with e | ⟨v, docs, ds, h1, e, h3, h4, h5⟩ | ⟨k, bs, e⟩ | ⟨_, _, _, _, _, _, _, _, _, -, -, -, -, -, e, -⟩
  · rw [edValue_of e] at hv; cases hv
  · have hv' := hv
    rw [edValue_of e, pdValue] at hv'
    injection hv' with hn' ha
    obtain rfl := variantOf_only (id := 180) (n := "Id") (w := ⟨"Id", [⟨none, 0, some "AccountId", []⟩], 0, []⟩) (by decide +kernel) hr hd' h1 hn'
    obtain ⟨⟨fn, tn, docs', ⟨data, i⟩⟩, rfl⟩ := list1 h3
    have h6 := h4 (_, _) (List.mem_cons_self ..)
    have h7 : Shown registry _ [] 0 ⟨data, i⟩ := h5 (_, _) (List.mem_cons_self ..)
    dsimp only at h6
    subst h6
    rw [fdsValue_one] at ha
    simp only [List.cons.injEq, Prod.mk.injEq, true_and, and_true] at ha
    have := account_shown h7 ha
    dsimp only at this
    subst this
    exact ⟨docs, docs', tn, i, e⟩
  · rw [edValue_of e] at hv; cases hv
  · rw [edValue_of e] at hv; cases hv

theorem fdsValue_two (a b : FD) : fdsValue [a, b] = [(a.fieldName, edValue a.data), (b.fieldName, edValue b.data)] := by
  obtain ⟨_, _, _, _⟩ := a; obtain ⟨_, _, _, _⟩ := b; rfl

/-- The tree of a transfer. -/
theorem transfer_shown {k : Call} {info : List Info} {account : Bytes} {amount : Nat} (hs : Shown registry .none [] 267 ⟨k.toPD, info⟩)
    (hk : callOf k = transfer account amount) :
    ∃ (tn1 tn2 tn3 : Option String) (docs1 docs2 docs3 docs4 : String) (i1 i2 i3 : List Info),
      k.fields = [⟨some "dest", tn1, docs1, ⟨.variant "Id" docs2 [⟨none, tn2, docs3, ⟨.fixed .id account, i1⟩⟩], i2⟩⟩,
        ⟨some "value", tn3, docs4, ⟨.uint .u128 amount .balance, i3⟩⟩] := by
  obtain ⟨t, vs, hr, hd, hm, hn⟩ := variantOf_some (id := 267) (n := "Balances")
    (w := ⟨"Balances", [⟨none, 179, some "self::sp_api_hidden_includes_construct_runtime::hidden_include::dispatch\n::CallableCallFor<Balances, Runtime>", []⟩], 4, []⟩) (by decide +kernel)
  have hp : special t.path = some (.pallet .call) := by
    have : isCalls 267 = true := by decide +kernel
    unfold isCalls at this
    rw [portable_get hr] at this
    simpa using this
  have hs := (shownAs_structural (by unfold Structural; rw [hp]; trivial)).1 (shown_as hr hs)
  unfold callOf transfer at hk
  injection hk with k1 k2 k3
  unfold ShownDef at hs
  rw [hd] at hs
  dsimp only [Call.toPD] at hs
  rcases hs with e | ⟨v, docs, ds, h1, e, -⟩ | ⟨_, bs, e⟩ | ⟨t', inner, w, v, f, item, docs, info', ds, h1, h2, h3, h4, h5, e, h6, h7, h8⟩
  · cases e
  · cases e
  · cases e
  · injection e with e1 e2 e3 e4 e5 e6
    have hw := variantOf_only (id := 267) (n := "Balances")
      (w := ⟨"Balances", [⟨none, 179, some "self::sp_api_hidden_includes_construct_runtime::hidden_include::dispatch\n::CallableCallFor<Balances, Runtime>", []⟩], 4, []⟩)
      (by decide +kernel) hr hd h1 (e4.symm.trans k1)
    subst hw
    cases h2
    have hv := variantOf_only (id := 179) (n := "transfer_keep_alive")
      (w := ⟨"transfer_keep_alive", [⟨some "dest", 180, some "<T::Lookup as StaticLookup>::Source", []⟩, ⟨some "value", 46, some "T::Balance", []⟩], 3, []⟩)
      (by decide +kernel) h3 h4 h5 (e5.symm.trans k2)
    subst hv
    subst e6
    obtain ⟨⟨fn, tn, docs1, ⟨data, i⟩⟩, ⟨fn', tn', docs2, ⟨data', i'⟩⟩, hf⟩ := list2 h6
    rw [hf] at h7 h8 k3 ⊢
    simp only [List.zip_cons_cons, List.zip_nil_right, List.forall_mem_cons, List.not_mem_nil, false_implies, implies_true, and_true] at h7 h8
    obtain ⟨rfl, rfl⟩ := h7
    rw [fdsValue_two] at k3
    simp only [List.cons.injEq, Prod.mk.injEq, true_and, and_true] at k3
    obtain ⟨a, b, c, g, ea⟩ := address_shown h8.1 k3.1
    have eb := balance_shown h8.2 k3.2
    rw [show uintLabel (fieldLabel ⟨some "value", 46, some "T::Balance", []⟩) = .balance from by decide] at eb
    dsimp only at ea eb
    subst ea eb
    exact ⟨tn, c, tn', docs1, a, b, docs2, g, i, i', rfl⟩

theorem call_lines {k : Call} {info : List Info} {account : Bytes} {amount : Nat} (hs : Shown registry .none [] 267 ⟨k.toPD, info⟩)
    (hk : callOf k = transfer account amount) :
    screen showBits (k.card P specs name 0) = callScreen specs (P.base58 .id account specs.base58prefix) amount := by
  obtain ⟨tn1, tn2, tn3, docs1, docs2, docs3, docs4, i1, i2, i3, hf⟩ := transfer_shown hs hk
  unfold callOf transfer at hk
  injection hk with k1 k2 k3
  unfold Call.card Call.toPD
  rw [hf, k1, k2, PD.card, show isBalanceDisplay "Balances" = true from by decide]
  simp only [singleUnnamed, Bool.false_eq_true, if_false, cardFieldSet, FD.cardInSet, ED.card, PD.card, Option.isNone_none, if_true, cardFirstUnnamed,
    FD.cardUnnamed, List.append_nil, List.cons_append, List.nil_append, screen, List.map_cons, List.map_nil, ExtendedCard.show, ParserCard.line,
    specialtyCard, fixedCard, Printers.idData, FixedKind.cardName, callScreen]
  have e : ∀ (n : Nat) (label text line : String), indentation n ++ label ++ ": " = line → readable n label text = line ++ text := by
    rintro n label text line rfl
    rfl
  rw [e (0 + 2 + 1 + 2) "Id" _ "          Id: " (by decide), e (0 + 2 + 1) "Balance" _ "      Balance: " (by decide)]
  rfl

end Verif.Westend
