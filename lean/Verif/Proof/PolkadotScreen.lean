import Verif.Proof.AccountScreen
import Verif.Proof.Polkadot
import Verif.Proof.Legible
import Verif.Spec.PolkadotScreen
/-!
# The trees and lines of Polkadot transfers
-/
namespace Verif.Layout
open Spec Verif.Westend

variable {ts : List Typ} {h : Hint} {is : List Info} {d : ED}

theorem unit_shown {id : Nat} {path : List String} (ht : Layout.has ts id path (.composite []) = true)
    (hs : Check.structural path = true) (hd : Shown (.portable ts) h is id d) : d.data = .composite [] := by
  obtain ⟨t, -, e, hd⟩ := shown_has ht hs hd
  unfold ShownDef at hd
  rw [e] at hd
  obtain ⟨ds, h1, h2, -⟩ := hd
  rw [h1, List.length_eq_zero_iff.1 h2]

theorem compact_shown {id inner : Nat} {path : List String} (ht : Layout.has ts id path (.compact inner) = true)
    (hs : Check.structural path = true) (hd : Shown (.portable ts) h is id d) : ∃ is', Shown (.portable ts) h is' inner d := by
  obtain ⟨t, -, e, hd⟩ := shown_has ht hs hd
  unfold ShownDef at hd
  rw [e] at hd
  exact ⟨_, hd⟩

theorem nil_shown {id : Nat} {path : List String} (ht : Layout.has ts id path (.tuple []) = true)
    (hs : Check.structural path = true) (hd : Shown (.portable ts) h is id d) : d.data = .tuple [] := by
  obtain ⟨t, -, e, hd⟩ := shown_has ht hs hd
  unfold ShownDef at hd
  rw [e] at hd
  obtain ⟨ds, h1, h2⟩ := hd
  rw [h1, List.length_eq_zero_iff.1 h2]

theorem hash_shown {id : Nat} {bs : Bytes} (ht : isA ts id (some .hash) = true) (hd : Shown (.portable ts) h is id d)
    (hv : edValue d = .hash bs) : d.data = labelledHash h bs := by
  obtain ⟨t, hr, hp⟩ := isA_type ht
  have := shown_as hr hd
  unfold ShownAs at this
  rw [hp] at this
  obtain ⟨bs', e⟩ := this
  rw [e]
  rw [edValue_of e] at hv
  unfold labelledHash at hv
  split at hv
  · cases hv; rfl
  · split at hv <;> cases hv <;> rfl

theorem fixed_shown {id : Nat} {k : FixedKind} {bs : Bytes} (ht : isA ts id (some (.fixed k)) = true) (hd : Shown (.portable ts) h is id d)
    (hv : edValue d = .fixed k bs) : d.data = .fixed k bs := by
  obtain ⟨t, hr, hp⟩ := isA_type ht
  have := shown_as hr hd
  unfold ShownAs at this
  rw [hp] at this
  obtain ⟨bs', e⟩ := this
  rw [edValue_of e] at hv
  cases hv
  exact e

theorem era_shown {id : Nat} {e : Era} (ht : isA ts id (some .era) = true) (hd : Shown (.portable ts) h is id d)
    (hv : edValue d = .era e) : d.data = .era e := by
  obtain ⟨t, hr, hp⟩ := isA_type ht
  have := shown_as hr hd
  unfold ShownAs at this
  rw [hp] at this
  obtain ⟨e', he⟩ := this
  rw [edValue_of he] at hv
  cases hv
  exact he

/-- The tree of a variant, given by its name. -/
theorem variant_shown (hN : NamesDistinct (.portable ts)) {id : Nat} {n : String} {w : Variant} {args : List (Option String × Value)}
    (hw : Layout.variantOf ts id n = some w) (hs : isA ts id none = true) (hd : Shown (.portable ts) h is id d)
    (hv : edValue d = .variant n args) :
    ∃ (docs : String) (ds : List FD), d.data = .variant n docs ds ∧ fdsValue ds = args ∧ ds.length = w.fields.length ∧
      (∀ x ∈ w.fields.zip ds, x.2.fieldName = x.1.name) ∧
      (∀ x ∈ w.fields.zip ds, Shown (.portable ts) (fieldLabel x.1) [] x.1.ty x.2.data) := by
  obtain ⟨t, vs, hr, hd', hm, hn⟩ := Layout.variantOf_some hw
  have hp : special t.path = none := by
    obtain ⟨t', hr', h⟩ := isA_type hs
    cases hr.symm.trans hr'
    exact h
  have hsh := (shownAs_structural (by unfold Structural; rw [hp]; trivial)).1 (shown_as hr hd)
  unfold ShownDef at hsh
  rw [hd'] at hsh
  rcases hsh with e | ⟨v, docs, ds, h1, e, h3, h4, h5⟩ | ⟨k, bs, e⟩ | ⟨_, _, _, _, _, _, _, _, _, -, -, -, -, -, e, -⟩
  · rw [edValue_of e] at hv; cases hv
  · rw [edValue_of e, pdValue] at hv
    injection hv with hn' ha
    obtain rfl := Layout.variantOf_only hN hw hr hd' h1 hn'
    exact ⟨docs, ds, by rw [e, hn], ha, h3, h4, h5⟩
  · rw [edValue_of e] at hv; cases hv
  · rw [edValue_of e] at hv; cases hv

theorem toNats : ∀ {l : List Nat} {bs : Bytes}, (l.map fun v => Value.uint .u8 v) = (bs.map fun x => Value.uint .u8 x.toNat) →
    l = bs.map UInt8.toNat
  | [], [], _ => rfl
  | [], _ :: _, h => by cases h
  | _ :: _, [], h => by cases h
  | a :: l, b :: bs, h => by
    simp only [List.map_cons, List.cons.injEq, Value.uint.injEq, true_and] at h
    rw [List.map_cons, h.1, toNats h.2]

/-- The tree of an array of bytes. -/
theorem bytes_shown {id elem n : Nat} {bs : Bytes} (ht : Layout.has ts id [] (.array n elem) = true)
    (he : Layout.has ts elem [] (.primitive .u8) = true) (hd : Shown (.portable ts) h is id d) (hv : edValue d = bytesValue bs) (hne : bs ≠ []) :
    ∃ is', d.data = .sequence is' (.uints .u8 (bs.map UInt8.toNat)) := by
  obtain ⟨t, hr, hp, hd'⟩ := Layout.has_type ht
  obtain ⟨h', is', core, es, hpeel, hes, hor⟩ := inv_list hd hr (by rw [hp]; exact Wallet'.structural_iff.1 (by decide)) (.inr ⟨n, hd'⟩)
  obtain ⟨te, hre, hpe, hde⟩ := Layout.has_type he
  have hstop : h' = .none ∧ core = elem := by
    cases hpeel with
    | stop => exact ⟨rfl, rfl⟩
    | struct r1 _ r3 => cases hre.symm.trans r1; rw [hde] at r3; cases r3
    | compact r1 _ r3 => cases hre.symm.trans r1; rw [hde] at r3; cases r3
  obtain ⟨rfl, rfl⟩ := hstop
  have key : ∀ es : List ED, (∀ e ∈ es, Shown (.portable ts) .none [] core e) →
      ∃ l : List Nat, es.map (·.data) = l.map (fun v => .uint .u8 v .none) := by
    intro es
    induction es with
    | nil => intro _; exact ⟨[], rfl⟩
    | cons a es ih =>
      intro hh
      obtain ⟨l, hl⟩ := ih fun e he => hh e (by simp [he])
      obtain ⟨t', -, e', hsd⟩ := shown_has he (by decide) (hh a (by simp))
      unfold ShownDef at hsd
      rw [e'] at hsd
      obtain ⟨w, v, hw, hdata⟩ | hno := hsd
      · cases hw
        exact ⟨v :: l, by simp [hl, hdata, uintLabel]⟩
      · exact absurd .u8 (hno .u8)
  obtain ⟨l, hl⟩ := key es hes
  rw [hl] at hor
  have hlne : l ≠ [] := by
    rintro rfl
    rcases hor with ⟨-, e⟩ | ⟨s, hc, -⟩
    · rw [edValue_of e] at hv
      have hv : Value.seq [] = bytesValue bs := hv
      unfold bytesValue at hv
      injection hv with hv
      exact hne (List.map_eq_nil_iff.1 hv.symm)
    · exact collected_nil hc
  rcases hor with ⟨hc, -⟩ | ⟨s, hc, e⟩
  · exact absurd (.uints hlne) (hc _)
  · obtain rfl := collected_unique hc (.uints hlne)
    refine ⟨is', ?_⟩
    rw [e]
    rw [edValue_of e] at hv
    have hv' : Value.seq (l.map fun v => .uint .u8 v) = Value.seq (bs.map fun x => .uint .u8 x.toNat) := hv
    injection hv' with hv'
    rw [toNats hv']

end Verif.Layout

namespace Verif.Polkadot
open Spec Spec.Polkadot Verif.Westend Verif.Layout
open Spec.Westend (amountText eraText callScreen screen)

variable {h : Hint} {is : List Info} {d : ED} {P : Printers} {specs : ShortSpecs} {name : String}
  {showBits : BitStore → BitOrder → List Bool → String}

theorem u32_shown {n : Nat} (hd : Shown registry h is 4 d) (hv : edValue d = .uint .u32 n) : d.data = .uint .u32 n (uintLabel h) :=
  Layout.uint_shown (ts := types) (by decide +kernel) .u32 hd hv

theorem balance_shown {n : Nat} (hd : Shown registry h is 63 d) (hv : edValue d = .uint .u128 n) :
    d.data = .uint .u128 n (uintLabel h) := by
  obtain ⟨is', hd⟩ := Layout.compact_shown (ts := types) (id := 63) (path := []) (inner := 6) (by decide +kernel) (by decide) hd
  exact Layout.uint_shown (ts := types) (by decide +kernel) .u128 hd hv

/-! ### Extensions -/

theorem mortality_leaf {e : Era} (hd : Shown registry h is 847 d) (hv : edValue d = .era e) : Leaf d (.era e) := by
  obtain ⟨fd, h1, h2, h3⟩ := Layout.newtype_shown (ts := types) (path := ["frame_system", "extensions", "check_mortality", "CheckMortality"])
    (f := ⟨none, 848, some "Era", []⟩) (by decide +kernel) (by decide) hd
  refine .inr ⟨fd, h1, h2, Layout.era_shown (ts := types) (by decide +kernel) h3 ?_⟩
  rw [edValue_of h1, pdValue, fdsValue_one] at hv
  exact hv

theorem nonce_leaf {n : Nat} (hd : Shown registry .checkNonce is 849 d) (hv : edValue d = .uint .u32 n) : Leaf d (.uint .u32 n .nonce) := by
  obtain ⟨fd, h1, h2, h3⟩ := Layout.newtype_shown (ts := types) (path := ["frame_system", "extensions", "check_nonce", "CheckNonce"])
    (f := ⟨none, 59, some "T::Nonce", []⟩) (by decide +kernel) (by decide) hd
  obtain ⟨is', h3⟩ := Layout.compact_shown (ts := types) (id := 59) (path := []) (inner := 4) (by decide +kernel) (by decide) h3
  refine .inr ⟨fd, h1, h2, ?_⟩
  rw [edValue_of h1, pdValue, fdsValue_one] at hv
  exact u32_shown h3 hv

theorem tip_leaf {n : Nat} (hd : Shown registry .chargeTransactionPayment is 851 d) (hv : edValue d = .uint .u128 n) :
    Leaf d (.uint .u128 n .tip) := by
  obtain ⟨fd, h1, h2, h3⟩ := Layout.newtype_shown (ts := types) (path := ["pallet_transaction_payment", "ChargeTransactionPayment"])
    (f := ⟨none, 63, some "BalanceOf<T>", []⟩) (by decide +kernel) (by decide) hd
  refine .inr ⟨fd, h1, h2, ?_⟩
  rw [edValue_of h1, pdValue, fdsValue_one] at hv
  exact balance_shown h3 hv

/-- The tree of a variant without fields. -/
theorem plain_shown {id : Nat} {n : String} {i : UInt8} (hw : Layout.variantOf types id n = some ⟨n, [], i, []⟩)
    (hs : isA types id none = true) (hd : Shown registry h is id d) (hv : edValue d = .variant n []) : ∃ docs, d.data = .variant n docs [] := by
  obtain ⟨docs, ds, e, -, hl, -⟩ := variant_shown namesDistinct hw hs hd hv
  cases ds with
  | nil => exact ⟨docs, e⟩
  | cons => cases hl

theorem line_at (n : Nat) (label text line : String) (h : indentation n ++ label ++ ": " = line) : readable n label text = line ++ text := by
  subst h
  rfl

theorem mode_lines {m : Bool} (hd : Shown registry h is 853 d) (hv : edValue d = modeValue m) :
    edScreen P specs name showBits d = modeScreen m := by
  obtain ⟨⟨fn, tn, docs, ⟨data, i⟩⟩, h1, h2, h3⟩ := Layout.newtype_shown (ts := types) (path := ["frame_metadata_hash_extension", "CheckMetadataHash"])
    (f := ⟨some "mode", 854, some "Mode", []⟩) (by decide +kernel) (by decide) hd
  rw [edValue_of h1, pdValue, fdsValue_one] at hv
  dsimp only at h2 h3 hv
  subst h2
  have : ∃ docs', data = .variant (if m then "Enabled" else "Disabled") docs' [] := by
    cases m
    · exact plain_shown (d := ⟨data, i⟩) (i := 0) (by decide +kernel) (by decide +kernel) h3 hv
    · exact plain_shown (d := ⟨data, i⟩) (i := 1) (by decide +kernel) (by decide +kernel) h3 hv
  obtain ⟨docs', rfl⟩ := this
  obtain ⟨data', i'⟩ := d
  dsimp only at h1
  subst h1
  unfold edScreen
  simp only [ED.card, PD.card, List.isEmpty_cons, singleUnnamed, Option.isNone_some, Bool.false_eq_true, if_false, cardFieldSet, FD.cardInSet,
    List.append_nil, screen, List.map_cons, List.map_nil, ExtendedCard.show, ParserCard.line, modeScreen]
  rw [line_at (0 + 1 + 1 + 1) "Enum Variant Name" _ "      Enum Variant Name: " (by decide)]
  have e : readable 0 "Struct" (toString 1 ++ " field(s)") = "Struct: 1 field(s)" := by decide
  simp only [List.length_cons, List.length_nil, Nat.zero_add, e]
  rfl

theorem hash_lines {x : Option Bytes} (hx : ∀ b, x = some b → b.length = 32) (hd : Shown registry h is 33 d) (hv : edValue d = hashValue x) :
    edScreen P specs name showBits d = hashScreen x := by
  obtain ⟨data, i⟩ := d
  cases x with
  | none =>
    obtain ⟨docs, e⟩ := plain_shown (d := ⟨data, i⟩) (i := 0) (by decide +kernel) (by decide +kernel) hd hv
    dsimp only at e
    subst e
    rfl
  | some b =>
    obtain ⟨docs, ds, e, ha, hl, hn, hsh⟩ := variant_shown (ts := types) namesDistinct
      (w := ⟨"Some", [⟨none, 1, none, []⟩], 1, []⟩) (by decide +kernel) (by decide +kernel) hd hv
    obtain ⟨⟨fn, tn, docs', ⟨data', i'⟩⟩, rfl⟩ := list1 hl
    have h6 := hn (_, _) (List.mem_cons_self ..)
    have h7 : Shown registry _ [] 1 ⟨data', i'⟩ := hsh (_, _) (List.mem_cons_self ..)
    dsimp only at h6
    subst h6
    rw [fdsValue_one] at ha
    simp only [List.cons.injEq, Prod.mk.injEq, true_and, and_true] at ha
    obtain ⟨is', e'⟩ := bytes_shown (ts := types) (n := 32) (elem := 2) (by decide +kernel) (by decide +kernel) h7 ha
      (by rintro rfl; have := hx [] rfl; simp at this)
    dsimp only at e e'
    subst e e'
    unfold edScreen
    have hnat : natBytes (b.map UInt8.toNat) = b := by
      unfold natBytes
      rw [List.map_map]
      exact (List.map_congr_left fun x _ => UInt8.ofNat_toNat).trans (List.map_id' b)
    simp only [ED.card, PD.card, singleUnnamed, Option.isNone_none, if_true, cardFirstUnnamed, FD.cardUnnamed, sequenceCards, sequenceU8Card,
      screen, List.map_cons, List.map_nil, hashScreen, hnat]
    cases stringFromUtf8 b with
    | none =>
      simp only [ExtendedCard.show, ParserCard.line]
      rw [line_at (0 + 2) "Sequence u8" _ "    Sequence u8: " (by decide)]
      rfl
    | some text =>
      simp only [ExtendedCard.show, ParserCard.line]
      rw [line_at (0 + 2) "Text" _ "    Text: " (by decide)]
      rfl

theorem extensions_lines {x : Extensions} {ds : List ED} {bs : Bytes} (hm : ∀ b, x.metadataHash = some b → b.length = 32)
    (hi : ItemsAre registry (extItems signedExtensions) ds bs) (hv : ds.map edValue = x.values) :
    screen showBits (cardExtensions P specs "polkadot" ds) = extensionsScreen specs x := by
  rw [extensions_screen]
  obtain ⟨chunks, -, hl, hd, h⟩ := hi
  rw [items_eq] at hl hd h
  obtain ⟨c1, c2, c3, c4, c5, c6, c7, c8, c9, c10, c11, c12, c13, c14, c15, c16, c17, c18, c19, c20, rfl⟩ := list20 hl
  obtain ⟨d1, d2, d3, d4, d5, d6, d7, d8, d9, d10, d11, d12, d13, d14, d15, d16, d17, d18, d19, d20, rfl⟩ := list20 hd
  simp only [List.zip_cons_cons, List.zip_nil_right, List.forall_mem_cons, List.not_mem_nil, false_implies, implies_true, and_true] at h
  obtain ⟨⟨-, s1⟩, ⟨-, s2⟩, ⟨-, s3⟩, ⟨-, s4⟩, ⟨-, s5⟩, ⟨-, s6⟩, ⟨-, s7⟩, ⟨-, s8⟩, ⟨-, s9⟩, ⟨-, s10⟩, ⟨-, s11⟩, ⟨-, s12⟩, ⟨-, s13⟩, ⟨-, s14⟩,
    ⟨-, s15⟩, ⟨-, s16⟩, ⟨-, s17⟩, ⟨-, s18⟩, ⟨-, s19⟩, ⟨-, s20⟩⟩ := h
  simp only [Extensions.values, List.map_cons, List.map_nil, List.cons.injEq, and_true] at hv
  obtain ⟨-, -, -, -, v5, v6, -, v8, -, v10, -, v12, v13, v14, v15, -, -, -, -, v20⟩ := hv
  rw [show extLabel "CheckNonce" = .checkNonce from by decide] at s6
  rw [show extLabel "ChargeTransactionPayment" = .chargeTransactionPayment from by decide] at s8
  rw [show extLabel "CheckSpecVersion" = .checkSpecVersion from by decide] at s12
  rw [show extLabel "CheckTxVersion" = .checkTxVersion from by decide] at s13
  rw [show extLabel "CheckGenesis" = .checkGenesis from by decide] at s14
  rw [show extLabel "CheckMortality" = .checkMortality from by decide] at s15
  have e1 := Layout.unit_shown (ts := types) (path := ["frame_system", "extensions", "check_non_zero_sender", "CheckNonZeroSender"]) (by decide +kernel) (by decide) s1
  have e2 := Layout.unit_shown (ts := types) (path := ["frame_system", "extensions", "check_spec_version", "CheckSpecVersion"]) (by decide +kernel) (by decide) s2
  have e3 := Layout.unit_shown (ts := types) (path := ["frame_system", "extensions", "check_tx_version", "CheckTxVersion"]) (by decide +kernel) (by decide) s3
  have e4 := Layout.unit_shown (ts := types) (path := ["frame_system", "extensions", "check_genesis", "CheckGenesis"]) (by decide +kernel) (by decide) s4
  have e7 := Layout.unit_shown (ts := types) (path := ["frame_system", "extensions", "check_weight", "CheckWeight"]) (by decide +kernel) (by decide) s7
  have e9 := Layout.unit_shown (ts := types) (path := ["polkadot_runtime_common", "claims", "PrevalidateAttests"]) (by decide +kernel) (by decide) s9
  have nil : ∀ {h : Hint} {d : ED}, Shown registry h [] 35 d → d.data = .tuple [] := fun hd =>
    Layout.nil_shown (ts := types) (path := []) (by decide +kernel) (by decide) hd
  have l5 : edScreen P specs "polkadot" showBits d5 = ["Era: " ++ eraText x.era] := by
    refine leaf_line (mortality_leaf s5 v5) (pc := .era x.era) (fun i => by rw [PD.card]) (text := eraText x.era) (label := "Era") ?_ rfl
    cases x.era <;> rfl
  have l6 : edScreen P specs "polkadot" showBits d6 = ["Nonce: " ++ toString x.nonce] :=
    leaf_line (nonce_leaf s6 v6) (pc := .nonce (toString x.nonce)) (fun i => by rw [PD.card]; rfl) rfl rfl
  have l8 : edScreen P specs "polkadot" showBits d8 = ["Tip: " ++ amountText specs x.tip] :=
    leaf_line (tip_leaf s8 v8) (pc := .tip (convertBalancePretty x.tip specs.decimals specs.unit)) (fun i => by rw [PD.card]; rfl) rfl rfl
  have l10 : edScreen P specs "polkadot" showBits d10 = modeScreen x.mode := mode_lines s10 v10
  have l12 : edScreen P specs "polkadot" showBits d12 = ["Chain: polkadot1003003"] :=
    leaf_line (pc := .nameSpecVersion "polkadot" (toString 1003003)) (.inl (u32_shown s12 v12)) (fun i => by rw [PD.card]; rfl) rfl (by decide)
  have l13 : edScreen P specs "polkadot" showBits d13 = ["Tx Version: " ++ toString x.txVersion] :=
    leaf_line (pc := .txVersion (toString x.txVersion)) (.inl (u32_shown s13 v13)) (fun i => by rw [PD.card]; rfl) rfl rfl
  have l14 : edScreen P specs "polkadot" showBits d14 = ["Genesis Hash: " ++ hexBytes x.genesis] :=
    leaf_line (pc := .genesisHash x.genesis) (.inl (Layout.hash_shown (ts := types) (by decide +kernel) s14 v14))
      (fun i => by unfold labelledHash; rw [if_pos rfl, PD.card]) rfl rfl
  have l15 : edScreen P specs "polkadot" showBits d15 = ["Block Hash: " ++ hexBytes x.blockHash] :=
    leaf_line (pc := .blockHash x.blockHash) (.inl (Layout.hash_shown (ts := types) (by decide +kernel) s15 v15))
      (fun i => by unfold labelledHash; rw [if_neg (by decide), if_pos rfl, PD.card]) rfl rfl
  have l20 : edScreen P specs "polkadot" showBits d20 = hashScreen x.metadataHash := hash_lines hm s20 v20
  simp only [List.flatMap_cons, List.flatMap_nil, empty_lines (.inl e1), empty_lines (.inl e2), empty_lines (.inl e3), empty_lines (.inl e4), l5, l6,
    empty_lines (.inl e7), l8, empty_lines (.inl e9), l10, empty_lines (.inr (nil s11)), l12, l13, l14, l15, empty_lines (.inr (nil s16)),
    empty_lines (.inr (nil s17)), empty_lines (.inr (nil s18)), empty_lines (.inr (nil s19)), l20, List.nil_append, List.append_nil,
    List.cons_append, extensionsScreen, List.append_assoc]

/-! ### The call -/

/-- An address by account. -/
theorem address_shown {account : Bytes} (hd : Shown registry h is 113 d)
    (hv : edValue d = .variant "Id" [(none, .fixed .id account)]) :
    ∃ (docs docs' : String) (tn : Option String) (i : List Info), d.data = .variant "Id" docs [⟨none, tn, docs', ⟨.fixed .id account, i⟩⟩] := by
  obtain ⟨docs, ds, e, ha, hl, hn, hsh⟩ := variant_shown (ts := types) namesDistinct
    (w := ⟨"Id", [⟨none, 0, some "AccountId", []⟩], 0, []⟩) (by decide +kernel) (by decide +kernel) hd hv
  obtain ⟨⟨fn, tn, docs', ⟨data, i⟩⟩, rfl⟩ := list1 hl
  have h6 := hn (_, _) (List.mem_cons_self ..)
  have h7 : Shown registry _ [] 0 ⟨data, i⟩ := hsh (_, _) (List.mem_cons_self ..)
  dsimp only at h6
  subst h6
  rw [fdsValue_one] at ha
  simp only [List.cons.injEq, Prod.mk.injEq, true_and, and_true] at ha
  have := Layout.fixed_shown (ts := types) (k := .id) (by decide +kernel) h7 ha
  dsimp only at this
  subst this
  exact ⟨docs, docs', tn, i, e⟩

/-- The tree of a transfer. -/
theorem transfer_shown {k : Call} {info : List Info} {account : Bytes} {amount : Nat} (hs : Shown registry .none [] 93 ⟨k.toPD, info⟩)
    (hk : callOf k = transfer account amount) :
    ∃ (tn1 tn2 tn3 : Option String) (docs1 docs2 docs3 docs4 : String) (i1 i2 i3 : List Info),
      k.fields = [⟨some "dest", tn1, docs1, ⟨.variant "Id" docs2 [⟨none, tn2, docs3, ⟨.fixed .id account, i1⟩⟩], i2⟩⟩,
        ⟨some "value", tn3, docs4, ⟨.uint .u128 amount .balance, i3⟩⟩] := by
  have hw0 : Layout.variantOf types 93 "Balances" = some ⟨"Balances", [⟨none, 115, some "self::sp_api_hidden_includes_construct_runtime::hidden_include::dispatch\n::CallableCallFor<Balances, Runtime>", []⟩], 5, []⟩ := by decide +kernel
  have hw1 : Layout.variantOf types 115 "transfer_keep_alive" = some ⟨"transfer_keep_alive", [⟨some "dest", 113, some "AccountIdLookupOf<T>", []⟩, ⟨some "value", 63, some "T::Balance", []⟩], 3, []⟩ := by decide +kernel
  obtain ⟨t, vs, hr, hd, hm, hn⟩ := Layout.variantOf_some hw0
  have hp : special t.path = some (.pallet .call) := by
    obtain ⟨t', hr', h⟩ := isA_type (ts := types) (id := 93) (s := some (.pallet .call)) (by decide +kernel)
    cases hr.symm.trans hr'
    exact h
  have hs := (shownAs_structural (by unfold Structural; rw [hp]; trivial)).1 (shown_as hr hs)
  unfold callOf transfer at hk
  injection hk with k1 k2 k3
  unfold ShownDef at hs
  rw [hd] at hs
  dsimp only [Call.toPD] at hs
  rcases hs with e | ⟨v, docs, ds, h1, e, -⟩ | ⟨_, bs, e⟩ | ⟨t', inner, w, v, f, item, docs, info', ds, h1, h2, h3, h4, h5, e, h6, h7, h8⟩
  · cases e
  · cases e
  · cases e
  · injection e with e1 e2 e3 e4 e5 e6
    have hw := Layout.variantOf_only namesDistinct hw0 hr hd h1 (e4.symm.trans k1)
    subst hw
    cases h2
    have hv := Layout.variantOf_only namesDistinct hw1 h3 h4 h5 (e5.symm.trans k2)
    subst hv
    subst e6
    obtain ⟨⟨fn, tn, docs1, ⟨data, i⟩⟩, ⟨fn', tn', docs2, ⟨data', i'⟩⟩, hf⟩ := list2 h6
    rw [hf] at h7 h8 k3 ⊢
    simp only [List.zip_cons_cons, List.zip_nil_right, List.forall_mem_cons, List.not_mem_nil, false_implies, implies_true, and_true] at h7 h8
    obtain ⟨rfl, rfl⟩ := h7
    rw [fdsValue_two] at k3
    simp only [List.cons.injEq, Prod.mk.injEq, true_and, and_true] at k3
    obtain ⟨a, b, c, g, ea⟩ := address_shown h8.1 k3.1
    have eb := balance_shown h8.2 k3.2
    rw [show uintLabel (fieldLabel ⟨some "value", 63, some "T::Balance", []⟩) = .balance from by decide] at eb
    dsimp only at ea eb
    subst ea eb
    exact ⟨tn, c, tn', docs1, a, b, docs2, g, i, i', rfl⟩

theorem call_lines {k : Call} {info : List Info} {account : Bytes} {amount : Nat} (hs : Shown registry .none [] 93 ⟨k.toPD, info⟩)
    (hk : callOf k = transfer account amount) :
    screen showBits (k.card P specs name 0) = callScreen specs (P.base58 .id account specs.base58prefix) amount := by
  obtain ⟨tn1, tn2, tn3, docs1, docs2, docs3, docs4, i1, i2, i3, hf⟩ := transfer_shown hs hk
  unfold callOf transfer at hk
  injection hk with k1 k2 k3
  unfold Call.card Call.toPD
  rw [hf, k1, k2, PD.card, show isBalanceDisplay "Balances" = true from by decide]
  simp only [singleUnnamed, Bool.false_eq_true, if_false, cardFieldSet, FD.cardInSet, ED.card, PD.card, Option.isNone_none, if_true, cardFirstUnnamed,
    FD.cardUnnamed, List.append_nil, List.cons_append, List.nil_append, screen, List.map_cons, List.map_nil, ExtendedCard.show, ParserCard.line,
    specialtyCard, fixedCard, Printers.idData, FixedKind.cardName, callScreen]
  rw [line_at (0 + 2 + 1 + 2) "Id" _ "          Id: " (by decide), line_at (0 + 2 + 1) "Balance" _ "      Balance: " (by decide)]
  rfl

end Verif.Polkadot
