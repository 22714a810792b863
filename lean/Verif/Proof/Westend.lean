import Verif.Real.WestendChecks
import Verif.Proof.Inversion
import Verif.Proof.Wallet
import Verif.Spec.Westend
/-!
# Transactions of Westend 9111

The layout of the extensions and of calls, from the metadata.
-/
namespace Verif.Westend
open Spec Spec.Westend

theorem ok_of_toOption {ε α : Type} {r : Except ε α} {a : α} (h : r.toOption = some a) : r = .ok a := by
  cases r with
  | error e => cases h
  | ok b => cases h; rfl

theorem resolves {id : Nat} {t : Typ} (h : types[id]? = some t) : registry.resolve id = .ok t := by
  show (match types[id]? with | some t => Except.ok t | none => .error _) = _
  rw [h]

/-! ### The types of the extensions -/

theorem type0 : types[0]? = some ⟨["sp_core", "crypto", "AccountId32"], [], .composite [⟨none, 1, (some "[u8; 32]"), []⟩], []⟩ := by
  decide +kernel
theorem type4 : types[4]? = some ⟨[], [], .primitive .u32, []⟩ := by decide +kernel
theorem type6 : types[6]? = some ⟨[], [], .primitive .u128, []⟩ := by decide +kernel
theorem type9 : types[9]? = some ⟨["primitive_types", "H256"], [], .composite [⟨none, 1, some "[u8; 32]", []⟩], []⟩ := by
  decide +kernel
theorem type46 : types[46]? = some ⟨[], [], .compact 6, []⟩ := by decide +kernel
theorem type57 : types[57]? = some ⟨[], [], .tuple [], []⟩ := by decide +kernel
theorem type95 : types[95]? = some ⟨[], [], .compact 4, []⟩ := by decide +kernel

/-- A type with this path and definition. -/
def has (id : Nat) (path : List String) (d : TypeDef) : Bool :=
  match types[id]? with
  | some t => decide (t.path = path) && decide (t.typeDef = d)
  | none => false

theorem has_type {id : Nat} {path : List String} {d : TypeDef} (h : has id path d = true) :
    ∃ t, registry.resolve id = .ok t ∧ t.path = path ∧ t.typeDef = d := by
  unfold has at h
  split at h
  · rename_i t ht
    simp only [Bool.and_eq_true, decide_eq_true_eq] at h
    exact ⟨t, resolves ht, h.1, h.2⟩
  · cases h

theorem era_path : (types[592]?.map (·.path)) = some ["sp_runtime", "generic", "era", "Era"] := by decide +kernel

variable {c : Bool} {v : Value} {bs : Bytes}

theorem unit_iff {id : Nat} {path : List String} (h : has id path (.composite []) = true) (hs : Check.structural path = true) :
    Enc registry c id v bs ↔ v = .record [] ∧ bs = [] := by
  obtain ⟨t, hr, rfl, hd⟩ := has_type h
  rw [enc_as hr, encAs_structural (Wallet'.structural_iff.1 hs)]
  unfold EncDef
  rw [hd]

theorem newtype_iff {id : Nat} {path : List String} {f : Field} (h : has id path (.composite [f]) = true)
    (hs : Check.structural path = true) : Enc registry c id v bs ↔ Enc registry c f.ty v bs := by
  obtain ⟨t, hr, rfl, hd⟩ := has_type h
  rw [enc_as hr, encAs_structural (Wallet'.structural_iff.1 hs)]
  unfold EncDef
  rw [hd]

theorem compact_iff {id : Nat} {path : List String} {inner : Nat} (h : has id path (.compact inner) = true)
    (hs : Check.structural path = true) : Enc registry false id v bs ↔ Enc registry true inner v bs := by
  obtain ⟨t, hr, rfl, hd⟩ := has_type h
  rw [enc_as hr, encAs_structural (Wallet'.structural_iff.1 hs)]
  unfold EncDef
  rw [hd]
  simp

theorem primitive_iff {id : Nat} {path : List String} {p : Prim} (h : has id path (.primitive p) = true)
    (hs : Check.structural path = true) : Enc registry c id v bs ↔ EncPrim c p v bs := by
  obtain ⟨t, hr, rfl, hd⟩ := has_type h
  rw [enc_as hr, encAs_structural (Wallet'.structural_iff.1 hs)]
  unfold EncDef
  rw [hd]

theorem nil_iff : Enc registry c 57 v bs ↔ v = .tuple [] ∧ bs = [] := by
  obtain ⟨t, hr, hp, hd⟩ := has_type (id := 57) (path := []) (d := .tuple []) (by decide +kernel)
  rw [enc_as hr, encAs_structural (by rw [hp]; exact Wallet'.structural_iff.1 (by decide))]
  unfold EncDef
  rw [hd]
  constructor
  · rintro ⟨-, ps, h1, -, rfl, rfl⟩
    cases ps with
    | nil => exact ⟨rfl, rfl⟩
    | cons => cases h1
  · rintro ⟨rfl, rfl⟩
    exact ⟨fun h => absurd h (by decide), [], rfl, (fun _ h => by cases h), rfl, rfl⟩

theorem hash_iff : Enc registry false 9 v bs ↔ v = .hash bs ∧ bs.length = 32 := by
  rw [enc_as (resolves type9)]
  unfold EncAs
  rw [show special _ = some Special.hash from by decide]
  simp

theorem era_iff : Enc registry false 592 v bs ↔ ∃ e, EraOk e ∧ v = .era e ∧ bs = eraEncode e := by
  cases ht : types[592]? with
  | none => exact absurd era_path (by rw [ht]; simp)
  | some t =>
    have hp : t.path = ["sp_runtime", "generic", "era", "Era"] := by
      have := era_path
      rw [ht] at this
      simpa using this
    rw [enc_as (resolves ht)]
    unfold EncAs
    rw [hp, show special _ = some Special.era from by decide]
    simp

theorem account_iff : Enc registry false 0 v bs ↔ v = .fixed .id bs ∧ bs.length = 32 := by
  rw [enc_as (resolves type0)]
  unfold EncAs
  rw [show special _ = some (Special.fixed .id) from by decide]
  simp [FixedKind.len]

theorem prim_u32 : EncPrim false .u32 v bs ↔ ∃ n, n < 2 ^ 32 ∧ v = .uint .u32 n ∧ bs = leBytes 4 n := by
  constructor
  · intro h
    cases h with
    | uint h1 h2 => cases h1; exact ⟨_, h2, rfl, rfl⟩
    | int h1 => cases h1
  · rintro ⟨n, h, rfl, rfl⟩
    exact .uint (w := .u32) .u32 h

theorem prim_compact32 : EncPrim true .u32 v bs ↔ ∃ n, n < 2 ^ 32 ∧ v = .uint .u32 n ∧ bs = compactEncode n := by
  constructor
  · intro h
    cases h with
    | compact h1 h2 => cases h1; exact ⟨_, h2, rfl, rfl⟩
  · rintro ⟨n, h, rfl, rfl⟩
    exact .compact (w := .u32) .u32 h

theorem prim_compact128 : EncPrim true .u128 v bs ↔ ∃ n, n < 2 ^ 128 ∧ v = .uint .u128 n ∧ bs = compactEncode n := by
  constructor
  · intro h
    cases h with
    | compact h1 h2 => cases h1; exact ⟨_, h2, rfl, rfl⟩
  · rintro ⟨n, h, rfl, rfl⟩
    exact .compact (w := .u128) .u128 h

theorem u32_iff : Enc registry false 4 v bs ↔ ∃ n, n < 2 ^ 32 ∧ v = .uint .u32 n ∧ bs = leBytes 4 n := by
  rw [primitive_iff (path := []) (p := .u32) (by decide +kernel) (by decide), prim_u32]

theorem index_iff : Enc registry false 95 v bs ↔ ∃ n, n < 2 ^ 32 ∧ v = .uint .u32 n ∧ bs = compactEncode n := by
  rw [compact_iff (path := []) (inner := 4) (by decide +kernel) (by decide),
    primitive_iff (path := []) (p := .u32) (by decide +kernel) (by decide), prim_compact32]

theorem balance_iff : Enc registry false 46 v bs ↔ ∃ n, n < 2 ^ 128 ∧ v = .uint .u128 n ∧ bs = compactEncode n := by
  rw [compact_iff (path := []) (inner := 6) (by decide +kernel) (by decide),
    primitive_iff (path := []) (p := .u128) (by decide +kernel) (by decide), prim_compact128]

/-! ### The extensions -/

theorem unit588 : Enc registry false 588 v bs ↔ v = .record [] ∧ bs = [] :=
  unit_iff (path := ["frame_system", "extensions", "check_spec_version", "CheckSpecVersion"]) (by decide +kernel) (by decide)
theorem unit589 : Enc registry false 589 v bs ↔ v = .record [] ∧ bs = [] :=
  unit_iff (path := ["frame_system", "extensions", "check_tx_version", "CheckTxVersion"]) (by decide +kernel) (by decide)
theorem unit590 : Enc registry false 590 v bs ↔ v = .record [] ∧ bs = [] :=
  unit_iff (path := ["frame_system", "extensions", "check_genesis", "CheckGenesis"]) (by decide +kernel) (by decide)
theorem unit594 : Enc registry false 594 v bs ↔ v = .record [] ∧ bs = [] :=
  unit_iff (path := ["frame_system", "extensions", "check_weight", "CheckWeight"]) (by decide +kernel) (by decide)
theorem mortality_iff : Enc registry false 591 v bs ↔ ∃ e, EraOk e ∧ v = .era e ∧ bs = eraEncode e := by
  rw [newtype_iff (path := ["frame_system", "extensions", "check_mortality", "CheckMortality"])
    (f := ⟨none, 592, some "Era", []⟩) (by decide +kernel) (by decide), era_iff]
theorem nonce_iff : Enc registry false 593 v bs ↔ ∃ n, n < 2 ^ 32 ∧ v = .uint .u32 n ∧ bs = compactEncode n := by
  rw [newtype_iff (path := ["frame_system", "extensions", "check_nonce", "CheckNonce"])
    (f := ⟨none, 95, some "T::Index", []⟩) (by decide +kernel) (by decide), index_iff]
theorem tip_iff : Enc registry false 595 v bs ↔ ∃ n, n < 2 ^ 128 ∧ v = .uint .u128 n ∧ bs = compactEncode n := by
  rw [newtype_iff (path := ["pallet_transaction_payment", "ChargeTransactionPayment"])
    (f := ⟨none, 46, some "BalanceOf<T>", []⟩) (by decide +kernel) (by decide), balance_iff]

/-- The items, as the metadata lists them. -/
theorem items_eq : extItems signedExtensions =
    [("CheckSpecVersion", 588), ("CheckTxVersion", 589), ("CheckGenesis", 590), ("CheckMortality", 591), ("CheckNonce", 593),
     ("CheckWeight", 594), ("ChargeTransactionPayment", 595), ("CheckSpecVersion", 4), ("CheckTxVersion", 4),
     ("CheckGenesis", 9), ("CheckMortality", 9), ("CheckNonce", 57), ("CheckWeight", 57), ("ChargeTransactionPayment", 57)] := rfl

/-- Extensions with any spec version. -/
def valuesOf (spec : Nat) (x : Extensions) : List Value :=
  [.record [], .record [], .record [], .era x.era, .uint .u32 x.nonce, .record [], .uint .u128 x.tip,
   .uint .u32 spec, .uint .u32 x.txVersion, .hash x.genesis, .hash x.blockHash, .tuple [], .tuple [], .tuple []]

/-- Their bytes. -/
def bytesOf (spec : Nat) (x : Extensions) : Bytes :=
  eraEncode x.era ++ compactEncode x.nonce ++ compactEncode x.tip ++ leBytes 4 spec ++ leBytes 4 x.txVersion ++
    x.genesis ++ x.blockHash

/-- The numbers and hashes fit their types. -/
structure Fits (spec : Nat) (x : Extensions) : Prop where
  era : EraOk x.era
  nonce : x.nonce < 2 ^ 32
  tip : x.tip < 2 ^ 128
  spec : spec < 2 ^ 32
  txVersion : x.txVersion < 2 ^ 32
  genesis : x.genesis.length = 32
  blockHash : x.blockHash.length = 32

theorem list14 {α : Type} {l : List α} (h : l.length = 14) : ∃ a b c d e f g a' b' c' d' e' f' g',
    l = [a, b, c, d, e, f, g, a', b', c', d', e', f', g'] := by
  match l, h with
  | [a, b, c, d, e, f, g, a', b', c', d', e', f', g'], _ => exact ⟨a, b, c, d, e, f, g, a', b', c', d', e', f', g', rfl⟩

theorem items_iff {vs : List Value} :
    ItemsEnc registry (extItems signedExtensions) vs bs ↔ ∃ spec x, Fits spec x ∧ vs = valuesOf spec x ∧ bs = bytesOf spec x := by
  rw [items_eq]
  constructor
  · rintro ⟨ps, rfl, rfl, hl, h⟩
    obtain ⟨p1, p2, p3, p4, p5, p6, p7, p8, p9, p10, p11, p12, p13, p14, rfl⟩ := list14 hl
    simp only [List.zip_cons_cons, List.zip_nil_right, List.forall_mem_cons, List.not_mem_nil, false_implies, implies_true, and_true,
      unit588, unit589, unit590, unit594, mortality_iff, nonce_iff, tip_iff, u32_iff, hash_iff, nil_iff] at h
    obtain ⟨⟨a1, b1⟩, ⟨a2, b2⟩, ⟨a3, b3⟩, ⟨e, h4, a4, b4⟩, ⟨n, h5, a5, b5⟩, ⟨a6, b6⟩, ⟨tip, h7, a7, b7⟩, ⟨s, h8, a8, b8⟩,
      ⟨tx, h9, a9, b9⟩, ⟨a10, h10⟩, ⟨a11, h11⟩, ⟨a12, b12⟩, ⟨a13, b13⟩, ⟨a14, b14⟩⟩ := h
    refine ⟨s, ⟨e, n, tip, tx, p10.2, p11.2⟩, ⟨h4, h5, h7, h8, h9, h10, h11⟩, ?_, ?_⟩
    · simp only [Parts.values, List.map_cons, List.map_nil, valuesOf, a1, a2, a3, a4, a5, a6, a7, a8, a9, a10, a11, a12, a13, a14]
    · simp only [Parts.bytes, List.flatMap_cons, List.flatMap_nil, bytesOf, b1, b2, b3, b4, b5, b6, b7, b8, b9, b12, b13, b14,
        List.nil_append, List.append_nil, List.append_assoc]
  · rintro ⟨spec, x, hf, rfl, rfl⟩
    refine ⟨[(.record [], []), (.record [], []), (.record [], []), (.era x.era, eraEncode x.era),
      (.uint .u32 x.nonce, compactEncode x.nonce), (.record [], []), (.uint .u128 x.tip, compactEncode x.tip),
      (.uint .u32 spec, leBytes 4 spec), (.uint .u32 x.txVersion, leBytes 4 x.txVersion), (.hash x.genesis, x.genesis),
      (.hash x.blockHash, x.blockHash), (.tuple [], []), (.tuple [], []), (.tuple [], [])], rfl, ?_, rfl, ?_⟩
    · simp only [Parts.bytes, List.flatMap_cons, List.flatMap_nil, bytesOf, List.nil_append, List.append_nil, List.append_assoc]
    · simp only [List.zip_cons_cons, List.zip_nil_right, List.forall_mem_cons, List.not_mem_nil, false_implies, implies_true, and_true,
        unit588, unit589, unit590, unit594, mortality_iff, nonce_iff, tip_iff, u32_iff, hash_iff, nil_iff, and_self, true_and]
      exact ⟨⟨_, hf.era, rfl, rfl⟩, ⟨_, hf.nonce, rfl, rfl⟩, ⟨_, hf.tip, rfl, rfl⟩, ⟨_, hf.spec, rfl, rfl⟩, ⟨_, hf.txVersion, rfl, rfl⟩,
        hf.genesis, hf.blockHash⟩

/-- What the items count as. -/
theorem marks : (extItems signedExtensions).map (Wallet.markOfItem registry 4) =
    [some none, some none, some none, some (some .era), some none, some none, some none, some (some .specVersion), some none,
     some (some .genesisHash), some (some .blockHash), some none, some none, some none] := by decide +kernel

theorem marked_zip {items : List (String × Nat)} {vs : List Value} {ms : List (Option (Option Mark))} {m : Mark}
    (h : items.map (Wallet.markOfItem registry 4) = ms) :
    Wallet.marked registry 4 items vs m = (ms.zip vs).filterMap fun x => if x.1 = some (some m) then some x.2 else none := by
  subst h
  unfold Wallet.marked
  induction items generalizing vs with
  | nil => rfl
  | cons a l ih =>
    cases vs with
    | nil => rfl
    | cons v vs => simp only [List.zip_cons_cons, List.map_cons, List.filterMap_cons, ih]

theorem proper_values {spec : Nat} {x : Extensions} {version : String} {expected : Option Bytes} :
    Proper registry (extItems signedExtensions) (valuesOf spec x) version expected ↔
      toString spec = version ∧ (∀ g, expected = some g → x.genesis = g) ∧ (x.era = .immortal → x.blockHash = x.genesis) := by
  have hm := fun m => marked_zip (vs := valuesOf spec x) (m := m) marks
  have hall : ((extItems signedExtensions).all fun i => (Wallet.markOfItem registry 4 i).isSome) = true := by decide +kernel
  have h1 : Wallet.marked registry 4 (extItems signedExtensions) (valuesOf spec x) .specVersion = [.uint .u32 spec] := by
    rw [hm]; rfl
  have h2 : Wallet.marked registry 4 (extItems signedExtensions) (valuesOf spec x) .genesisHash = [.hash x.genesis] := by
    rw [hm]; rfl
  have h3 : Wallet.marked registry 4 (extItems signedExtensions) (valuesOf spec x) .blockHash = [.hash x.blockHash] := by
    rw [hm]; rfl
  have h4 : Wallet.marked registry 4 (extItems signedExtensions) (valuesOf spec x) .era = [.era x.era] := by
    rw [hm]; rfl
  have hp : Wallet.proper registry 4 (extItems signedExtensions) (valuesOf spec x) version expected =
      some ((toString spec == version) && (match expected with | none => true | some e => x.genesis == e) &&
        (match x.era with | .immortal => x.blockHash == x.genesis | _ => true)) := by
    unfold Wallet.proper
    rw [if_pos hall, h1, h2, h3, h4]
    cases expected <;> cases x.era <;> simp
  rw [← Wallet'.proper_iff rfl hp]
  cases expected <;> cases x.era <;> simp [and_assoc]

/-! ### Calls -/

/-- The variant of the enum `id` with the name `n`. -/
def variantOf (id : Nat) (n : String) : Option Variant :=
  match types[id]? with
  | some t => match t.typeDef with
    | .variant vs => vs.find? fun v => decide (v.name = n)
    | _ => none
  | none => none

theorem variantOf_some {id : Nat} {n : String} {w : Variant} (h : variantOf id n = some w) :
    ∃ t vs, registry.resolve id = .ok t ∧ t.typeDef = .variant vs ∧ w ∈ vs ∧ w.name = n := by
  unfold variantOf at h
  split at h
  · rename_i t ht
    split at h
    · rename_i vs hd
      exact ⟨t, vs, resolves ht, hd, List.mem_of_find?_eq_some h, by simpa using List.find?_some h⟩
    · cases h
  · cases h

/-- The variant with the name is the only one. -/
theorem variantOf_only {id : Nat} {n : String} {w w' : Variant} {t : Typ} {vs : List Variant} (h : variantOf id n = some w)
    (hr : registry.resolve id = .ok t) (hd : t.typeDef = .variant vs) (hm : w' ∈ vs) (hn : w'.name = n) : w' = w := by
  obtain ⟨t', vs', hr', hd', hm', hn'⟩ := variantOf_some h
  cases hr.symm.trans hr'
  cases hd.symm.trans hd'
  exact namesDistinct id t vs hr hd w' hm w hm' (hn.trans hn'.symm)

theorem selects_mem {vs : List Variant} {i : UInt8} {w : Variant} (h : Selects vs i w) : w ∈ vs ∧ w.index = i := by
  obtain ⟨a, b, rfl, hi, -⟩ := h
  exact ⟨by simp, hi⟩

theorem mem_selects {id : Nat} {t : Typ} {vs : List Variant} {w : Variant} (hr : registry.resolve id = .ok t)
    (hd : t.typeDef = .variant vs) (hm : w ∈ vs) : Selects vs w.index w := by
  obtain ⟨a, b, e, hn⟩ := List.eq_append_cons_of_mem hm
  refine ⟨a, b, e, rfl, fun u hu he => hn ?_⟩
  have : u = w := indicesDistinct id t vs hr hd u (by rw [e]; exact List.mem_append_left _ hu) w hm he
  rwa [← this]

/-- The bytes of a variant, given by its name, of an enum that is neither of signatures nor of pallets. -/
theorem variant_iff {id : Nat} {n : String} {w : Variant} {args : List (Option String × Value)} (h : variantOf id n = some w)
    (hs : (types[id]?.all fun t => (special t.path).isNone) = true) :
    Enc registry false id (.variant n args) bs ↔ ∃ ps : Parts, ps.length = w.fields.length ∧
      (∀ x ∈ (w.fields.map (·.ty)).zip ps, Enc registry false x.1 x.2.1 x.2.2) ∧ args = ps.named w.fields ∧ bs = w.index :: ps.bytes := by
  obtain ⟨t, vs, hr, hd, hm, hn⟩ := variantOf_some h
  have hp : special t.path = none := by
    rw [portable_get hr] at hs
    simpa using hs
  have hst : Structural t.path := by unfold Structural; rw [hp]; trivial
  rw [enc_as hr, encAs_structural hst]
  unfold EncDef
  rw [hd]
  constructor
  · rintro ⟨-, ⟨-, h1, -⟩ | ⟨w', i, ps, h1, -, -, h4, h5, h6, rfl⟩ | ⟨i, k, b', -, -, h1, -⟩ | ⟨_, _, _, _, _, _, _, -, -, -, -, h1, -⟩⟩
    · cases h1
    · obtain ⟨hm', hi⟩ := selects_mem h1
      cases h6
      obtain rfl := variantOf_only h hr hd hm' rfl
      exact ⟨ps, h4, h5, rfl, by rw [hi]⟩
    · cases h1
    · cases h1
  · rintro ⟨ps, h1, h2, rfl, rfl⟩
    refine ⟨rfl, .inr (.inl ⟨w, w.index, ps, mem_selects hr hd hm, ?_, ?_, h1, h2, by rw [hn], rfl⟩)⟩
    · rintro k ⟨hk, -⟩; rw [hp] at hk; cases hk
    · rintro item m inner ⟨hk, -⟩; rw [hp] at hk; cases hk

/-- The type has the path of calls. -/
def isCalls (id : Nat) : Bool := types[id]?.all fun t => decide (special t.path = some (.pallet .call))

/-- The bytes of a call, given by the names of the pallet and the call. -/
theorem call_iff {pallet call : String} {p w : Variant} {f : Field} {args : List (Option String × Value)}
    (hp : variantOf 267 pallet = some p) (hf : p.fields = [f]) (hw : variantOf f.ty call = some w)
    (h1 : isCalls 267 = true) (h2 : isCalls f.ty = true) :
    CallEnc registry 267 ⟨pallet, call, args⟩ bs ↔ ∃ ps : Parts, ps.length = w.fields.length ∧
      (∀ x ∈ (w.fields.map (·.ty)).zip ps, Enc registry false x.1 x.2.1 x.2.2) ∧ args = ps.named w.fields ∧
      bs = p.index :: w.index :: ps.bytes := by
  obtain ⟨t, vs, hr, hd, hm, hn⟩ := variantOf_some hp
  obtain ⟨t', vs', hr', hd', hm', hn'⟩ := variantOf_some hw
  have hsp : special t.path = some (.pallet .call) := by
    unfold isCalls at h1; rw [portable_get hr] at h1; simpa using h1
  have hsp' : special t'.path = some (.pallet .call) := by
    unfold isCalls at h2; rw [portable_get hr'] at h2; simpa using h2
  have hst : Structural t.path := by unfold Structural; rw [hsp]; trivial
  constructor
  · rintro ⟨-, h⟩
    dsimp only at h
    rw [enc_as hr, encAs_structural hst] at h
    unfold EncDef at h
    rw [hd] at h
    obtain ⟨-, ⟨-, h, -⟩ | ⟨_, _, _, -, -, -, -, -, h, -⟩ | ⟨_, _, _, -, -, h, -⟩ |
      ⟨inner, w', i, j, item, name, ps, hip, hsel, hl, he, h, rfl⟩⟩ := h
    · cases h
    · cases h
    · cases h
    · cases h
      obtain ⟨-, vs0, p', f', t0, hd0, hsel0, hn0, hf0, hr0, -, hd1⟩ := hip
      cases hd.symm.trans hd0
      obtain ⟨hm0, hi0⟩ := selects_mem hsel0
      obtain rfl := variantOf_only hp hr hd hm0 hn0
      cases hf.symm.trans hf0
      cases hr'.symm.trans hr0
      cases hd'.symm.trans hd1
      obtain ⟨hm1, hi1⟩ := selects_mem hsel
      obtain rfl := variantOf_only hw hr' hd' hm1 rfl
      exact ⟨ps, hl, he, rfl, by rw [hi0, hi1]⟩
  · rintro ⟨ps, hl, he, rfl, rfl⟩
    refine ⟨⟨t, vs, hr, hd⟩, ?_⟩
    have := Enc.pallet (R := registry) (id := 267) (item := .call) (name := pallet) (i := p.index) (j := w.index) (v := w) (inner := vs')
      (ps := ps) hr ⟨hsp, vs, p, f, t', hd, mem_selects hr hd hm, hn, hf, hr', hsp', hd'⟩ (mem_selects hr' hd' hm') hl he
    rw [hn'] at this
    exact this

theorem list1 {α : Type} {l : List α} (h : l.length = 1) : ∃ a, l = [a] := by
  match l, h with
  | [a], _ => exact ⟨a, rfl⟩

theorem list2 {α : Type} {l : List α} (h : l.length = 2) : ∃ a b, l = [a, b] := by
  match l, h with
  | [a, b], _ => exact ⟨a, b, rfl⟩

theorem address_iff {args : List (Option String × Value)} : Enc registry false 180 (.variant "Id" args) bs ↔
    ∃ account : Bytes, account.length = 32 ∧ args = [(none, .fixed .id account)] ∧ bs = 0 :: account := by
  rw [variant_iff (w := ⟨"Id", [⟨none, 0, some "AccountId", []⟩], 0, []⟩) (by decide +kernel) (by decide +kernel)]
  constructor
  · rintro ⟨ps, hl, he, rfl, rfl⟩
    obtain ⟨⟨v, b⟩, rfl⟩ := list1 hl
    have he : Enc registry false 0 v b := he (0, v, b) (by simp)
    obtain ⟨rfl, h⟩ := account_iff.1 he
    exact ⟨b, h, rfl, by simp [Parts.bytes]⟩
  · rintro ⟨a, h, rfl, rfl⟩
    refine ⟨[(.fixed .id a, a)], rfl, ?_, rfl, by simp [Parts.bytes]⟩
    simp [account_iff, h]

theorem transfer_iff {account : Bytes} {amount : Nat} : CallEnc registry 267 (transfer account amount) bs ↔
    account.length = 32 ∧ amount < 2 ^ 128 ∧ bs = transferKeepAlive account amount := by
  unfold transfer
  rw [call_iff (p := ⟨"Balances", [⟨none, 179, some "self::sp_api_hidden_includes_construct_runtime::hidden_include::dispatch\n::CallableCallFor<Balances, Runtime>", []⟩], 4, []⟩)
    (w := ⟨"transfer_keep_alive", [⟨some "dest", 180, some "<T::Lookup as StaticLookup>::Source", []⟩, ⟨some "value", 46, some "T::Balance", []⟩], 3, []⟩)
    (by decide +kernel) rfl (by decide +kernel) (by decide +kernel) (by decide +kernel)]
  constructor
  · rintro ⟨ps, hl, he, ha, rfl⟩
    obtain ⟨⟨v, b⟩, ⟨v', b'⟩, rfl⟩ := list2 hl
    simp only [Parts.named, Parts.values, List.map_cons, List.map_nil, List.zip_cons_cons, List.zip_nil_right, List.cons.injEq,
      Prod.mk.injEq, true_and, and_true] at ha
    obtain ⟨rfl, rfl⟩ := ha
    have e1 : Enc registry false 180 (.variant "Id" [(none, .fixed .id account)]) b := he (180, _, b) (by simp)
    have e2 : Enc registry false 46 (.uint .u128 amount) b' := he (46, _, b') (by simp)
    obtain ⟨a, h1, h2, rfl⟩ := address_iff.1 e1
    obtain ⟨n, h3, h4, rfl⟩ := balance_iff.1 e2
    cases h2
    cases h4
    exact ⟨h1, h3, by simp [transferKeepAlive, Parts.bytes]⟩
  · rintro ⟨h1, h2, rfl⟩
    refine ⟨[(.variant "Id" [(none, .fixed .id account)], 0 :: account), (.uint .u128 amount, compactEncode amount)], rfl, ?_, rfl,
      by simp [transferKeepAlive, Parts.bytes]⟩
    simp only [List.map_cons, List.map_nil, List.zip_cons_cons, List.zip_nil_right, List.forall_mem_cons, List.not_mem_nil, false_implies,
      implies_true, and_true, balance_iff, address_iff]
    exact ⟨⟨_, h1, rfl, rfl⟩, ⟨_, h2, rfl, rfl⟩⟩

/-! ### Extrinsics -/

theorem list7 {α : Type} {l : List α} (h : l.length = 7) : ∃ a b c d e f g, l = [a, b, c, d, e, f, g] := by
  match l, h with
  | [a, b, c, d, e, f, g], _ => exact ⟨a, b, c, d, e, f, g, rfl⟩

/-- Values of the tuple of extensions in an extrinsic. -/
theorem extra_iff {v : Value} {bs : Bytes} : Enc registry false 587 v bs ↔ ∃ era nonce tip, EraOk era ∧ nonce < 2 ^ 32 ∧ tip < 2 ^ 128 ∧
    v = .tuple [.record [], .record [], .record [], .era era, .uint .u32 nonce, .record [], .uint .u128 tip] ∧
    bs = eraEncode era ++ compactEncode nonce ++ compactEncode tip := by
  obtain ⟨t, hr, hp, hd⟩ := has_type (id := 587) (path := []) (d := .tuple [588, 589, 590, 591, 593, 594, 595]) (by decide +kernel)
  rw [enc_as hr, encAs_structural (by rw [hp]; exact Wallet'.structural_iff.1 (by decide))]
  unfold EncDef
  rw [hd]
  constructor
  · rintro ⟨-, ps, hl, h, rfl, rfl⟩
    obtain ⟨p1, p2, p3, p4, p5, p6, p7, rfl⟩ := list7 hl
    simp only [List.zip_cons_cons, List.zip_nil_right, List.forall_mem_cons, List.not_mem_nil, false_implies, implies_true, and_true,
      unit588, unit589, unit590, unit594, mortality_iff, nonce_iff, tip_iff] at h
    obtain ⟨⟨a1, b1⟩, ⟨a2, b2⟩, ⟨a3, b3⟩, ⟨e, h4, a4, b4⟩, ⟨n, h5, a5, b5⟩, ⟨a6, b6⟩, ⟨tip, h7, a7, b7⟩⟩ := h
    refine ⟨e, n, tip, h4, h5, h7, ?_, ?_⟩
    · simp only [Parts.values, List.map_cons, List.map_nil, a1, a2, a3, a4, a5, a6, a7]
    · simp only [Parts.bytes, List.flatMap_cons, List.flatMap_nil, b1, b2, b3, b4, b5, b6, b7, List.nil_append, List.append_nil, List.append_assoc]
  · rintro ⟨e, n, tip, h4, h5, h7, rfl, rfl⟩
    refine ⟨fun _ => rfl, [(.record [], []), (.record [], []), (.record [], []), (.era e, eraEncode e),
      (.uint .u32 n, compactEncode n), (.record [], []), (.uint .u128 tip, compactEncode tip)], rfl, ?_, rfl, ?_⟩
    · simp only [List.zip_cons_cons, List.zip_nil_right, List.forall_mem_cons, List.not_mem_nil, false_implies, implies_true, and_true,
        unit588, unit589, unit590, unit594, mortality_iff, nonce_iff, tip_iff, and_self, true_and]
      exact ⟨⟨_, h4, rfl, rfl⟩, ⟨_, h5, rfl, rfl⟩, ⟨_, h7, rfl, rfl⟩⟩
    · simp only [Parts.bytes, List.flatMap_cons, List.flatMap_nil, List.nil_append, List.append_nil, List.append_assoc]

/-- The path of a signature type: nothing is looked through. -/
theorem core_sig {id : Nat} {t : Typ} {c' : Bool} {core : Typ} {coreId j : Nat} (hr : registry.resolve id = .ok t)
    (hs : (special t.path).isSome = true) (h : Core registry false id c' core coreId j) : core = t := by
  cases h with
  | stop h1 _ => cases hr.symm.trans h1; rfl
  | struct h1 h2 => cases hr.symm.trans h1; rw [h2] at hs; cases hs
  | compact h1 h2 => cases hr.symm.trans h1; rw [h2] at hs; cases hs

/-- The types of the signatures have paths of their own, and so the enum `MultiSignature` of this chain is an enum like any other. -/
theorem type436 : (types[436]?.any fun t => decide (special t.path = some .multiSignature) && match t.typeDef with
    | .variant vs => vs.all fun v => v.fields.all fun f => types[f.ty]?.any fun t' => (special t'.path).isSome && match t'.typeDef with
      | .array _ _ => false
      | _ => true
    | _ => false) = true := by decide +kernel

theorem no_signature {t : Typ} {i : UInt8} {k : FixedKind} (hr : registry.resolve 436 = .ok t) : ¬ IsSignature registry t i k := by
  rintro ⟨-, vs, v, f, hd, hsel, hf, -, c', core, coreId, j, elem, et, hc, hcd, -⟩
  have h := type436
  rw [portable_get hr] at h
  simp only [Option.any_some, Bool.and_eq_true, decide_eq_true_eq, hd, List.all_eq_true] at h
  have h := h.2 v (selects_mem hsel).1 f (by rw [hf]; simp)
  cases ht : types[f.ty]? with
  | none => rw [ht] at h; cases h
  | some t' =>
    rw [ht] at h
    simp only [Option.any_some, Bool.and_eq_true] at h
    obtain rfl := core_sig (resolves ht) h.1 hc
    rw [hcd] at h
    cases h.2

theorem no_pallet {t : Typ} {i : UInt8} {item : PalletItem} {n : String} {inner : List Variant} (hr : registry.resolve 436 = .ok t) :
    ¬ IsPallet registry t i item n inner := by
  rintro ⟨hp, -⟩
  have h := type436
  rw [portable_get hr] at h
  simp only [Option.any_some, Bool.and_eq_true, decide_eq_true_eq] at h
  rw [h.1] at hp
  cases hp

theorem signature_variant {n : String} {w : Variant} {args : List (Option String × Value)} {bs : Bytes} (h : variantOf 436 n = some w) :
    Enc registry false 436 (.variant n args) bs ↔ ∃ ps : Parts, ps.length = w.fields.length ∧
      (∀ x ∈ (w.fields.map (·.ty)).zip ps, Enc registry false x.1 x.2.1 x.2.2) ∧ args = ps.named w.fields ∧ bs = w.index :: ps.bytes := by
  obtain ⟨t, vs, hr, hd, hm, hn⟩ := variantOf_some h
  have hst : Structural t.path := by
    have h := type436
    rw [portable_get hr] at h
    simp only [Option.any_some, Bool.and_eq_true, decide_eq_true_eq] at h
    unfold Structural; rw [h.1]; trivial
  rw [enc_as hr, encAs_structural hst]
  unfold EncDef
  rw [hd]
  constructor
  · rintro ⟨-, ⟨-, h1, -⟩ | ⟨w', i, ps, h1, -, -, h4, h5, h6, rfl⟩ | ⟨i, k, b', -, -, h1, -⟩ | ⟨_, _, _, _, _, _, _, -, -, -, -, h1, -⟩⟩
    · cases h1
    · obtain ⟨hm', hi⟩ := selects_mem h1
      cases h6
      obtain rfl := variantOf_only h hr hd hm' rfl
      exact ⟨ps, h4, h5, rfl, by rw [hi]⟩
    · cases h1
    · cases h1
  · rintro ⟨ps, h1, h2, rfl, rfl⟩
    exact ⟨rfl, .inr (.inl ⟨w, w.index, ps, mem_selects hr hd hm, fun _ => no_signature hr, fun _ _ _ => no_pallet hr, h1, h2,
      by rw [hn], rfl⟩)⟩

/-- The variant of a signature. -/
def schemeVariant : Scheme → Variant
  | .ed25519 => ⟨"Ed25519", [⟨none, 244, some "ed25519::Signature", []⟩], 0, []⟩
  | .sr25519 => ⟨"Sr25519", [⟨none, 75, some "sr25519::Signature", []⟩], 1, []⟩
  | .ecdsa => ⟨"Ecdsa", [⟨none, 437, some "ecdsa::Signature", []⟩], 2, []⟩

theorem fixed_iff {id : Nat} {k : FixedKind} {v : Value} {bs : Bytes}
    (h : (types[id]?.any fun t => decide (special t.path = some (.fixed k))) = true) :
    Enc registry false id v bs ↔ v = .fixed k bs ∧ bs.length = k.len := by
  cases ht : types[id]? with
  | none => rw [ht] at h; cases h
  | some t =>
    rw [ht] at h
    rw [enc_as (resolves ht)]
    unfold EncAs
    rw [show special t.path = some (.fixed k) from by simpa using h]
    simp

theorem scheme_iff {s : Scheme} {args : List (Option String × Value)} {bs : Bytes} :
    Enc registry false 436 (.variant s.name args) bs ↔
      ∃ sig : Bytes, sig.length = s.length ∧ args = [(none, .fixed s.kind sig)] ∧ bs = s.index :: sig := by
  rw [signature_variant (w := schemeVariant s) (by cases s <;> decide +kernel)]
  have key : ∀ {id : Nat}, (types[id]?.any fun t => decide (special t.path = some (.fixed s.kind))) = true →
      (schemeVariant s).fields.map (·.ty) = [id] → ((∃ ps : Parts, ps.length = (schemeVariant s).fields.length ∧
      (∀ x ∈ ((schemeVariant s).fields.map (·.ty)).zip ps, Enc registry false x.1 x.2.1 x.2.2) ∧ args = ps.named (schemeVariant s).fields ∧
      bs = (schemeVariant s).index :: ps.bytes) ↔
      ∃ sig : Bytes, sig.length = s.length ∧ args = [(none, .fixed s.kind sig)] ∧ bs = s.index :: sig) := by
    intro id hk he
    rw [he]
    have hl : (schemeVariant s).fields.length = 1 := by cases s <;> rfl
    have hi : (schemeVariant s).index = s.index := by cases s <;> rfl
    have hn : ∀ v b, Parts.named (schemeVariant s).fields [(v, b)] = [(none, v)] := by intro v b; cases s <;> rfl
    have hlen : s.kind.len = s.length := by cases s <;> rfl
    rw [hl, hi]
    constructor
    · rintro ⟨ps, h1, h2, rfl, rfl⟩
      obtain ⟨⟨v, b⟩, rfl⟩ := list1 h1
      have h3 : Enc registry false id v b := h2 (id, v, b) (by simp)
      obtain ⟨rfl, h⟩ := (fixed_iff hk).1 h3
      exact ⟨b, hlen ▸ h, hn _ _, by simp [Parts.bytes]⟩
    · rintro ⟨sig, h, rfl, rfl⟩
      refine ⟨[(.fixed s.kind sig, sig)], rfl, ?_, (hn _ _).symm, by simp [Parts.bytes]⟩
      simp only [List.zip_cons_cons, List.zip_nil_right, List.forall_mem_cons, List.not_mem_nil, false_implies, implies_true, and_true]
      exact (fixed_iff hk).2 ⟨rfl, hlen ▸ h⟩
  cases s
  · exact key (id := 244) (by decide +kernel) rfl
  · exact key (id := 75) (by decide +kernel) rfl
  · exact key (id := 437) (by decide +kernel) rfl

end Verif.Westend
