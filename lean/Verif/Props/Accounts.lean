import Verif.Proof.AccountScreen
import Verif.Props.Polkadot
/-!
# C92: the balance shown for an account is the balance stored

The storage entry `System.Account` of Westend 9111 and of Polkadot 1003003, whose metadata is that of the crate's own tests:
what is shown for it, byte by byte.
-/
namespace Verif
open Spec

theorem westend_accounts : Layout.Accounts Verif.Westend.types "misc_frozen" "fee_frozen" where
  account _ _ := Verif.Westend.account_iff
  info := ⟨["frame_system", "AccountInfo"], some "Index", by decide, by decide +kernel⟩
  u32 _ _ := Verif.Westend.u32_iff
  data := ⟨["pallet_balances", "AccountData"], 6, some "Balance", by decide, by decide +kernel, fun _ _ =>
    (Layout.primitive_iff (path := []) (p := .u128) (by decide +kernel) (by decide)).trans Layout.prim_u128⟩
  u128 _ _ := (Layout.primitive_iff (path := []) (p := .u128) (by decide +kernel) (by decide)).trans Layout.prim_u128

theorem polkadot_accounts : Layout.Accounts Polkadot.types "frozen" "flags" where
  account _ _ := Polkadot.account_iff
  info := ⟨["frame_system", "AccountInfo"], some "Nonce", by decide, by decide +kernel⟩
  u32 _ _ := Polkadot.u32_iff
  data := ⟨["pallet_balances", "types", "AccountData"], 7, some "ExtraFlags", by decide, by decide +kernel, fun _ _ =>
    (Layout.newtype_iff (path := ["pallet_balances", "types", "ExtraFlags"]) (f := ⟨none, 6, some "u128", []⟩) (by decide +kernel)
      (by decide)).trans ((Layout.primitive_iff (path := []) (p := .u128) (by decide +kernel) (by decide)).trans Layout.prim_u128)⟩
  u128 _ _ := (Layout.primitive_iff (path := []) (p := .u128) (by decide +kernel) (by decide)).trans Layout.prim_u128

variable {H : HashFns} {key value : Buf}

/-- C92. Westend: an account with these numbers is shown exactly if it is the one whose key and value were given. -/
theorem westend_account (hrk : Reliable key) (hrv : Reliable value) {a : Bytes} {x : AccountInfo} :
    (∃ s, decodeStorageEntry H westend.types key value systemAccount = .ok s ∧ ShowsAccount "misc_frozen" "fee_frozen" s a x) ↔
      IsAccountKey H a key.bytes ∧ x.Valid ∧ value.bytes = x.bytes :=
  westend_accounts.shows_iff westend_registry.1 hrk hrv

/-- C92. Westend: nothing else is ever shown. -/
theorem westend_account_only {s : Storage} (h : decodeStorageEntry H westend.types key value systemAccount = .ok s) :
    ∃ a x, ShowsAccount "misc_frozen" "fee_frozen" s a x :=
  westend_accounts.shown h

/-- C92. Westend: accepted are exactly the keys of accounts with 80 bytes of value. -/
theorem westend_account_accepted (hrk : Reliable key) (hrv : Reliable value) :
    (∃ s, decodeStorageEntry H westend.types key value systemAccount = .ok s) ↔
      value.bytes.length = 80 ∧ ∃ a, IsAccountKey H a key.bytes :=
  westend_accounts.accepted_iff westend_registry.1 hrk hrv

/-- C92. Polkadot: an account with these numbers is shown exactly if it is the one whose key and value were given. -/
theorem polkadot_account (hrk : Reliable key) (hrv : Reliable value) {a : Bytes} {x : AccountInfo} :
    (∃ s, decodeStorageEntry H polkadot.types key value systemAccount = .ok s ∧ ShowsAccount "frozen" "flags" s a x) ↔
      IsAccountKey H a key.bytes ∧ x.Valid ∧ value.bytes = x.bytes :=
  polkadot_accounts.shows_iff polkadot_registry.1 hrk hrv

/-- C92. Polkadot: nothing else is ever shown. -/
theorem polkadot_account_only {s : Storage} (h : decodeStorageEntry H polkadot.types key value systemAccount = .ok s) :
    ∃ a x, ShowsAccount "frozen" "flags" s a x :=
  polkadot_accounts.shown h

/-- C92. Polkadot: accepted are exactly the keys of accounts with 80 bytes of value. -/
theorem polkadot_account_accepted (hrk : Reliable key) (hrv : Reliable value) :
    (∃ s, decodeStorageEntry H polkadot.types key value systemAccount = .ok s) ↔
      value.bytes.length = 80 ∧ ∃ a, IsAccountKey H a key.bytes :=
  polkadot_accounts.accepted_iff polkadot_registry.1 hrk hrv

/-! ### The screen -/

variable {P : Printers} {specs : ShortSpecs} {chain : String} {showBits : BitStore → BitOrder → List Bool → String}

theorem storage_value {R : Registry} {s : Storage} (h : decodeStorageEntry H R key value systemAccount = .ok s) :
    decodeAllAsType R value 3 = .ok s.value := by
  unfold decodeStorageEntry systemAccount at h
  dsimp only at h
  split at h
  · cases h
  · obtain ⟨k, -, h⟩ := ebind_ok.1 h
    obtain ⟨d, h2, h⟩ := ebind_ok.1 h
    rw [mapErr_ok] at h2
    cases h
    exact h2

/-- The tree of the key. -/
theorem storage_key {ts : List Typ} {s : Storage} {a : Bytes} (h0 : Layout.isA ts 0 (some (.fixed .id)) = true)
    (h : decodeStorageEntry H (.portable ts) key value systemAccount = .ok s) (hs : keyOf s.key = .single (.value (.fixed .id a))) :
    ∃ i, s.key = .singleHash (.parsed ⟨.fixed .id a, i⟩) := by
  unfold decodeStorageEntry systemAccount at h
  dsimp only at h
  split at h
  · cases h
  · obtain ⟨k, g1, h⟩ := ebind_ok.1 h
    obtain ⟨d, -, h⟩ := ebind_ok.1 h
    cases h
    rw [processKeyMapped_one] at g1
    obtain ⟨⟨part, q⟩, g2, g3⟩ := ebind_ok.1 g1
    dsimp only at g3
    split at g3
    · cases g3
      unfold processHasher checkHash at g2
      dsimp only at g2
      obtain ⟨slice, -, g4⟩ := ebind_ok.1 g2
      split at g4
      · cases g4
      · obtain ⟨⟨d', q'⟩, g5, g6⟩ := ebind_ok.1 g4
        rw [mapErr_ok] at g5
        dsimp only at g6
        split at g6
        · cases g6
        · split at g6
          · cases g6
          · cases g6
            have hsh := decode_shown g5
            obtain ⟨t, hr, hp⟩ := Layout.isA_type h0
            have := shown_as hr hsh
            unfold ShownAs at this
            rw [hp] at this
            obtain ⟨bs, e⟩ := this
            obtain ⟨data, i⟩ := d'
            cases e
            have : Value.fixed .id bs = .fixed .id a := by simpa [keyOf, partOf, edValue, pdValue] using hs
            cases this
            exact ⟨i, rfl⟩
    · cases g3

theorem key_lines {ts : List Typ} {s : Storage} {a : Bytes} {display : Bool} (h0 : Layout.isA ts 0 (some (.fixed .id)) = true)
    (h : decodeStorageEntry H (.portable ts) key value systemAccount = .ok s) (hs : keyOf s.key = .single (.value (.fixed .id a))) :
    keyScreen P specs chain showBits display s = ["Id: " ++ P.base58 .id a specs.base58prefix] := by
  obtain ⟨i, e⟩ := storage_key h0 h hs
  unfold keyScreen
  rw [e]
  simp only [ED.card, PD.card, Westend.screen, List.map_cons, List.map_nil, ExtendedCard.show, fixedCard, ParserCard.line, Printers.idData,
    FixedKind.cardName]
  rw [Layout.label_line (line := "Id: ") (by decide)]

/-- C92. Westend: the lines for the account and for what is kept of it, with balances in units or as numbers. -/
theorem westend_account_screen {s : Storage} {a : Bytes} {x : AccountInfo} (display : Bool)
    (h : decodeStorageEntry H westend.types key value systemAccount = .ok s) (hs : ShowsAccount "misc_frozen" "fee_frozen" s a x) :
    keyScreen P specs chain showBits display s = ["Id: " ++ P.base58 .id a specs.base58prefix] ∧
      valueScreen P specs chain showBits display s =
        accountScreen specs display "misc_frozen" "fee_frozen" (balanceLine specs display x.fourth) x := by
  refine ⟨key_lines (by decide +kernel) h hs.1, ?_⟩
  obtain ⟨i, dl, t1, t2, t3, t4, t5, t6, t7, t8, t9, o1, o2, o3, o4, o5, o6, o7, o8, o9, i1, i2, i3, i4, i5, i6, i7, i8, hl, e⟩ :=
    Layout.account_tree (ts := Verif.Westend.types) (p3 := ["frame_system", "AccountInfo"]) (p5 := ["pallet_balances", "AccountData"]) (n := some "Index")
      (ln := some "Balance") (last := 6) (third := "misc_frozen") (fourth := "fee_frozen") (lbl := .balance) (x := x)
      (by decide +kernel) (by decide) (by decide +kernel) (by decide) (by decide +kernel) (by decide +kernel) (by decide)
      (fun d m h1 h2 => .inl (Layout.uint_shown (by decide +kernel) .u128 h1 h2)) (decodeAllAsType_shown (storage_value h)) hs.2
  exact Layout.account_lines hl (fun i => Layout.balance_line display x.fourth i) e

/-- C92. Polkadot: the lines for the account and for what is kept of it, with balances in units or as numbers. -/
theorem polkadot_account_screen {s : Storage} {a : Bytes} {x : AccountInfo} (display : Bool)
    (h : decodeStorageEntry H polkadot.types key value systemAccount = .ok s) (hs : ShowsAccount "frozen" "flags" s a x) :
    keyScreen P specs chain showBits display s = ["Id: " ++ P.base58 .id a specs.base58prefix] ∧
      valueScreen P specs chain showBits display s =
        accountScreen specs display "frozen" "flags" ("        u128: " ++ toString x.fourth) x := by
  refine ⟨key_lines (by decide +kernel) h hs.1, ?_⟩
  obtain ⟨i, dl, t1, t2, t3, t4, t5, t6, t7, t8, t9, o1, o2, o3, o4, o5, o6, o7, o8, o9, i1, i2, i3, i4, i5, i6, i7, i8, hl, e⟩ :=
    Layout.account_tree (ts := Verif.Polkadot.types) (p3 := ["frame_system", "AccountInfo"]) (p5 := ["pallet_balances", "types", "AccountData"])
      (n := some "Nonce") (ln := some "ExtraFlags") (last := 7) (third := "frozen") (fourth := "flags") (lbl := .none) (x := x)
      (by decide +kernel) (by decide) (by decide +kernel) (by decide) (by decide +kernel) (by decide +kernel) (by decide)
      (fun d m h1 h2 => by
        obtain ⟨fd, e1, e2, e3⟩ := Layout.newtype_shown (path := ["pallet_balances", "types", "ExtraFlags"]) (f := ⟨none, 6, some "u128", []⟩)
          (by decide +kernel) (by decide) h1
        refine .inr ⟨fd, e1, e2, ?_⟩
        rw [Verif.Westend.edValue_of e1, pdValue, Verif.Westend.fdsValue_one] at h2
        exact Layout.uint_shown (by decide +kernel) .u128 e3 h2) (decodeAllAsType_shown (storage_value h)) hs.2
  exact Layout.account_lines hl (fun i => Layout.label_line (k := 4) (label := "u128") (by decide)) e

theorem append_inj_left {a b c : String} (h : a ++ b = a ++ c) : b = c := by
  have h := congrArg String.toList h
  rw [String.toList_append, String.toList_append] at h
  exact String.toList_inj.1 (List.append_cancel_left h)

theorem balanceLine_inj (hd : specs.decimals < 256) {display : Bool} {n m : Nat} (hn : n < 2 ^ 128) (hm : m < 2 ^ 128)
    (h : balanceLine specs display n = balanceLine specs display m) : n = m := by
  unfold balanceLine at h
  cases display
  · simp only [Bool.false_eq_true, if_false] at h
    exact toString_nat_inj (append_inj_left h)
  · simp only [if_true] at h
    exact currencyText_inj hd hn hm (append_inj_left h)

theorem accountScreen_inj (hd : specs.decimals < 256) {display : Bool} {third fourth : String} {line : Nat → String} {x y : AccountInfo}
    (hl : ∀ n m, n < 2 ^ 128 → m < 2 ^ 128 → line n = line m → n = m) (hx : x.Valid) (hy : y.Valid)
    (h : accountScreen specs display third fourth (line x.fourth) x = accountScreen specs display third fourth (line y.fourth) y) : x = y := by
  simp only [accountScreen, List.cons.injEq, true_and, and_true] at h
  obtain ⟨h1, h2, h3, h4, h5, h6, h7, h8⟩ := h
  have e1 := toString_nat_inj (append_inj_left h1)
  have e2 := toString_nat_inj (append_inj_left h2)
  have e3 := toString_nat_inj (append_inj_left h3)
  have e4 := toString_nat_inj (append_inj_left h4)
  have e5 := balanceLine_inj hd hx.free hy.free h5
  have e6 := balanceLine_inj hd hx.reserved hy.reserved h6
  have e7 := balanceLine_inj hd hx.third hy.third h7
  have e8 := hl _ _ hx.fourth hy.fourth h8
  cases x; cases y
  cases e1; cases e2; cases e3; cases e4; cases e5; cases e6; cases e7; cases e8
  rfl

/-- C92. Westend: with addresses in SS58, these lines are those of this account with these numbers, and of nothing else. -/
theorem westend_account_screen_only {checksum : Bytes → UInt8 × UInt8} {icon : Bytes → Bytes} (hd : specs.decimals < 256) (hrk : Reliable key)
    (hrv : Reliable value) {a : Bytes} {x : AccountInfo} (hx : x.Valid) (display : Bool) :
    (∃ s, decodeStorageEntry H westend.types key value systemAccount = .ok s ∧
      keyScreen (ss58Printers checksum icon) specs chain showBits display s = ["Id: " ++ ss58 checksum a specs.base58prefix] ∧
      valueScreen (ss58Printers checksum icon) specs chain showBits display s =
        accountScreen specs display "misc_frozen" "fee_frozen" (balanceLine specs display x.fourth) x) ↔
    IsAccountKey H a key.bytes ∧ value.bytes = x.bytes := by
  constructor
  · rintro ⟨s, h, h1, h2⟩
    obtain ⟨a', x', hs⟩ := westend_account_only h
    obtain ⟨g1, g2⟩ := westend_account_screen (P := ss58Printers checksum icon) (specs := specs) (chain := chain) (showBits := showBits) display h hs
    obtain ⟨k1, k2, k3⟩ := (westend_account hrk hrv).1 ⟨s, h, hs⟩
    have e := List.cons.inj (g1.symm.trans h1)
    have e : a' = a := ss58_key checksum (append_inj_left e.1)
    have e' : x' = x := accountScreen_inj hd (line := balanceLine specs display) (fun _ _ hn hm h => balanceLine_inj hd hn hm h) k2 hx (g2.symm.trans h2)
    subst e e'
    exact ⟨k1, k3⟩
  · rintro ⟨h1, h2⟩
    obtain ⟨s, h, hs⟩ := (westend_account hrk hrv).2 ⟨h1, hx, h2⟩
    exact ⟨s, h, westend_account_screen display h hs⟩

/-- C92. Polkadot: with addresses in SS58, these lines are those of this account with these numbers, and of nothing else. -/
theorem polkadot_account_screen_only {checksum : Bytes → UInt8 × UInt8} {icon : Bytes → Bytes} (hd : specs.decimals < 256) (hrk : Reliable key)
    (hrv : Reliable value) {a : Bytes} {x : AccountInfo} (hx : x.Valid) (display : Bool) :
    (∃ s, decodeStorageEntry H polkadot.types key value systemAccount = .ok s ∧
      keyScreen (ss58Printers checksum icon) specs chain showBits display s = ["Id: " ++ ss58 checksum a specs.base58prefix] ∧
      valueScreen (ss58Printers checksum icon) specs chain showBits display s =
        accountScreen specs display "frozen" "flags" ("        u128: " ++ toString x.fourth) x) ↔
    IsAccountKey H a key.bytes ∧ value.bytes = x.bytes := by
  constructor
  · rintro ⟨s, h, h1, h2⟩
    obtain ⟨a', x', hs⟩ := polkadot_account_only h
    obtain ⟨g1, g2⟩ := polkadot_account_screen (P := ss58Printers checksum icon) (specs := specs) (chain := chain) (showBits := showBits) display h hs
    obtain ⟨k1, k2, k3⟩ := (polkadot_account hrk hrv).1 ⟨s, h, hs⟩
    have e := List.cons.inj (g1.symm.trans h1)
    have e : a' = a := ss58_key checksum (append_inj_left e.1)
    have e' : x' = x := accountScreen_inj hd (line := fun n => "        u128: " ++ toString n) (fun _ _ _ _ h => toString_nat_inj (append_inj_left h)) k2 hx (g2.symm.trans h2)
    subst e e'
    exact ⟨k1, k3⟩
  · rintro ⟨h1, h2⟩
    obtain ⟨s, h, hs⟩ := (polkadot_account hrk hrv).2 ⟨h1, hx, h2⟩
    exact ⟨s, h, polkadot_account_screen display h hs⟩

end Verif
