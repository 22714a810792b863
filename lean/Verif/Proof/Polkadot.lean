import Verif.Real.PolkadotChecks
import Verif.Proof.Layout
import Verif.Spec.Polkadot
/-!
# Transactions of Polkadot 1003003

The layout of the extensions and of calls, from the metadata.
-/
set_option Elab.async false
namespace Verif.Polkadot
open Spec Spec.Polkadot
open Spec.Westend (Scheme)
open Verif.Layout hiding variantOf

variable {v : Value} {bs : Bytes}

theorem u32_iff : Enc registry false 4 v bs ↔ ∃ n, n < 2 ^ 32 ∧ v = .uint .u32 n ∧ bs = leBytes 4 n := by
  rw [primitive_iff (path := []) (p := .u32) (by decide +kernel) (by decide), prim_u32]
theorem index_iff : Enc registry false 59 v bs ↔ ∃ n, n < 2 ^ 32 ∧ v = .uint .u32 n ∧ bs = compactEncode n := by
  rw [compact_iff (path := []) (inner := 4) (by decide +kernel) (by decide),
    primitive_iff (path := []) (p := .u32) (by decide +kernel) (by decide), prim_compact32]
theorem balance_iff : Enc registry false 63 v bs ↔ ∃ n, n < 2 ^ 128 ∧ v = .uint .u128 n ∧ bs = compactEncode n := by
  rw [compact_iff (path := []) (inner := 6) (by decide +kernel) (by decide),
    primitive_iff (path := []) (p := .u128) (by decide +kernel) (by decide), prim_compact128]
theorem nothing_iff : Enc registry false 35 v bs ↔ v = .tuple [] ∧ bs = [] := nil_iff (path := []) (by decide +kernel) (by decide)
theorem h256_iff : Enc registry false 13 v bs ↔ v = .hash bs ∧ bs.length = 32 := Layout.hash_iff (by decide +kernel)
theorem account_iff : Enc registry false 0 v bs ↔ v = .fixed .id bs ∧ bs.length = 32 := Layout.fixed_iff (k := .id) (by decide +kernel)
theorem bytes32_iff : Enc registry false 1 v bs ↔ v = bytesValue bs ∧ bs.length = 32 :=
  array_iff (path := []) (elem := 2) (epath := []) (by decide +kernel) (by decide) (by decide +kernel) (by decide)

/-! ### The extensions -/

theorem unit843 : Enc registry false 843 v bs ↔ v = .record [] ∧ bs = [] :=
  unit_iff (path := ["frame_system", "extensions", "check_non_zero_sender", "CheckNonZeroSender"]) (by decide +kernel) (by decide)
theorem unit844 : Enc registry false 844 v bs ↔ v = .record [] ∧ bs = [] :=
  unit_iff (path := ["frame_system", "extensions", "check_spec_version", "CheckSpecVersion"]) (by decide +kernel) (by decide)
theorem unit845 : Enc registry false 845 v bs ↔ v = .record [] ∧ bs = [] :=
  unit_iff (path := ["frame_system", "extensions", "check_tx_version", "CheckTxVersion"]) (by decide +kernel) (by decide)
theorem unit846 : Enc registry false 846 v bs ↔ v = .record [] ∧ bs = [] :=
  unit_iff (path := ["frame_system", "extensions", "check_genesis", "CheckGenesis"]) (by decide +kernel) (by decide)
theorem unit850 : Enc registry false 850 v bs ↔ v = .record [] ∧ bs = [] :=
  unit_iff (path := ["frame_system", "extensions", "check_weight", "CheckWeight"]) (by decide +kernel) (by decide)
theorem unit852 : Enc registry false 852 v bs ↔ v = .record [] ∧ bs = [] :=
  unit_iff (path := ["polkadot_runtime_common", "claims", "PrevalidateAttests"]) (by decide +kernel) (by decide)
theorem mortality_iff : Enc registry false 847 v bs ↔ ∃ e, EraOk e ∧ v = .era e ∧ bs = eraEncode e := by
  rw [newtype_iff (path := ["frame_system", "extensions", "check_mortality", "CheckMortality"])
    (f := ⟨none, 848, some "Era", []⟩) (by decide +kernel) (by decide), Layout.era_iff (by decide +kernel)]
theorem nonce_iff : Enc registry false 849 v bs ↔ ∃ n, n < 2 ^ 32 ∧ v = .uint .u32 n ∧ bs = compactEncode n := by
  rw [newtype_iff (path := ["frame_system", "extensions", "check_nonce", "CheckNonce"])
    (f := ⟨none, 59, some "T::Nonce", []⟩) (by decide +kernel) (by decide), index_iff]
theorem tip_iff : Enc registry false 851 v bs ↔ ∃ n, n < 2 ^ 128 ∧ v = .uint .u128 n ∧ bs = compactEncode n := by
  rw [newtype_iff (path := ["pallet_transaction_payment", "ChargeTransactionPayment"])
    (f := ⟨none, 63, some "BalanceOf<T>", []⟩) (by decide +kernel) (by decide), balance_iff]

/-- A variant without fields. -/
theorem plain_iff {id : Nat} {n : String} {i : UInt8} {args : List (Option String × Value)}
    (h : Layout.variantOf types id n = some ⟨n, [], i, []⟩) (hs : isA types id none = true) :
    Enc registry false id (.variant n args) bs ↔ args = [] ∧ bs = [i] := by
  rw [variant_iff namesDistinct indicesDistinct h hs]
  constructor
  · rintro ⟨ps, hl, -, rfl, rfl⟩
    cases ps with
    | nil => exact ⟨rfl, rfl⟩
    | cons => cases hl
  · rintro ⟨rfl, rfl⟩
    exact ⟨[], rfl, (fun _ h => by cases h), rfl, rfl⟩

theorem mode_iff : Enc registry false 853 v bs ↔ ∃ m, v = modeValue m ∧ bs = modeBytes m := by
  rw [newtype_iff (path := ["frame_metadata_hash_extension", "CheckMetadataHash"])
    (f := ⟨some "mode", 854, some "Mode", []⟩) (by decide +kernel) (by decide)]
  have off : ∀ {args}, Enc registry false 854 (.variant "Disabled" args) bs ↔ args = [] ∧ bs = [0] :=
    plain_iff (by decide +kernel) (by decide +kernel)
  have on : ∀ {args}, Enc registry false 854 (.variant "Enabled" args) bs ↔ args = [] ∧ bs = [1] :=
    plain_iff (by decide +kernel) (by decide +kernel)
  constructor
  · intro h
    obtain ⟨w, hw, args, rfl⟩ := enum_inv (path := ["frame_metadata_hash_extension", "Mode"])
      (vs := [⟨"Disabled", [], 0, []⟩, ⟨"Enabled", [], 1, []⟩]) (by decide +kernel) (by simp) (by decide) h
    simp only [List.mem_cons, List.not_mem_nil, or_false] at hw
    rcases hw with rfl | rfl
    · obtain ⟨rfl, rfl⟩ := off.1 h
      exact ⟨false, rfl, rfl⟩
    · obtain ⟨rfl, rfl⟩ := on.1 h
      exact ⟨true, rfl, rfl⟩
  · rintro ⟨m, rfl, rfl⟩
    cases m
    · exact off.2 ⟨rfl, rfl⟩
    · exact on.2 ⟨rfl, rfl⟩

theorem one_length {α : Type} {l : List α} (h : l.length = 1) : ∃ a, l = [a] := by
  match l, h with
  | [a], _ => exact ⟨a, rfl⟩

theorem metadataHash_iff : Enc registry false 33 v bs ↔ ∃ h : Option Bytes, (∀ x, h = some x → x.length = 32) ∧ v = hashValue h ∧
    bs = hashBytes h := by
  have no : ∀ {args}, Enc registry false 33 (.variant "None" args) bs ↔ args = [] ∧ bs = [0] :=
    plain_iff (by decide +kernel) (by decide +kernel)
  have yes : ∀ {args}, Enc registry false 33 (.variant "Some" args) bs ↔ ∃ x : Bytes, x.length = 32 ∧
      args = [(none, bytesValue x)] ∧ bs = 1 :: x := by
    intro args
    rw [variant_iff namesDistinct indicesDistinct (w := ⟨"Some", [⟨none, 1, none, []⟩], 1, []⟩) (by decide +kernel) (by decide +kernel)]
    constructor
    · rintro ⟨ps, hl, he, rfl, rfl⟩
      obtain ⟨⟨v, b⟩, rfl⟩ := one_length hl
      have he : Enc registry false 1 v b := he (1, v, b) (by simp)
      obtain ⟨rfl, h⟩ := bytes32_iff.1 he
      exact ⟨b, h, rfl, by simp [Parts.bytes]⟩
    · rintro ⟨a, h, rfl, rfl⟩
      refine ⟨[(bytesValue a, a)], rfl, ?_, rfl, by simp [Parts.bytes]⟩
      simp [bytes32_iff, h]
  constructor
  · intro h
    obtain ⟨w, hw, args, rfl⟩ := enum_inv (path := ["Option"])
      (vs := [⟨"None", [], 0, []⟩, ⟨"Some", [⟨none, 1, none, []⟩], 1, []⟩]) (by decide +kernel) (by simp) (by decide) h
    simp only [List.mem_cons, List.not_mem_nil, or_false] at hw
    rcases hw with rfl | rfl
    · obtain ⟨rfl, rfl⟩ := no.1 h
      exact ⟨none, (fun x e => by cases e), rfl, rfl⟩
    · obtain ⟨x, hx, rfl, rfl⟩ := yes.1 h
      exact ⟨some x, (fun y e => by cases e; exact hx), rfl, rfl⟩
  · rintro ⟨h, hx, rfl, rfl⟩
    cases h with
    | none => exact no.2 ⟨rfl, rfl⟩
    | some x => exact yes.2 ⟨x, hx x rfl, rfl, rfl⟩

/-- The items, as the metadata lists them. -/
theorem items_eq : extItems signedExtensions =
    [("CheckNonZeroSender", 843), ("CheckSpecVersion", 844), ("CheckTxVersion", 845), ("CheckGenesis", 846), ("CheckMortality", 847),
     ("CheckNonce", 849), ("CheckWeight", 850), ("ChargeTransactionPayment", 851), ("PrevalidateAttests", 852), ("CheckMetadataHash", 853),
     ("CheckNonZeroSender", 35), ("CheckSpecVersion", 4), ("CheckTxVersion", 4), ("CheckGenesis", 13), ("CheckMortality", 13),
     ("CheckNonce", 35), ("CheckWeight", 35), ("ChargeTransactionPayment", 35), ("PrevalidateAttests", 35), ("CheckMetadataHash", 33)] := rfl

/-- Extensions with any spec version. -/
def valuesOf (spec : Nat) (x : Extensions) : List Value :=
  [.record [], .record [], .record [], .record [], .era x.era, .uint .u32 x.nonce, .record [], .uint .u128 x.tip, .record [],
   modeValue x.mode,
   .tuple [], .uint .u32 spec, .uint .u32 x.txVersion, .hash x.genesis, .hash x.blockHash, .tuple [], .tuple [], .tuple [],
   .tuple [], hashValue x.metadataHash]

/-- Their bytes. -/
def bytesOf (spec : Nat) (x : Extensions) : Bytes :=
  eraEncode x.era ++ compactEncode x.nonce ++ compactEncode x.tip ++ modeBytes x.mode ++ leBytes 4 spec ++ leBytes 4 x.txVersion ++
    x.genesis ++ x.blockHash ++ hashBytes x.metadataHash

/-- The numbers and hashes fit their types. -/
structure Fits (spec : Nat) (x : Extensions) : Prop where
  era : EraOk x.era
  nonce : x.nonce < 2 ^ 32
  tip : x.tip < 2 ^ 128
  spec : spec < 2 ^ 32
  txVersion : x.txVersion < 2 ^ 32
  genesis : x.genesis.length = 32
  blockHash : x.blockHash.length = 32
  metadataHash : ∀ h, x.metadataHash = some h → h.length = 32

theorem list20 {α : Type} {l : List α} (h : l.length = 20) : ∃ a b c d e f g h i j a' b' c' d' e' f' g' h' i' j',
    l = [a, b, c, d, e, f, g, h, i, j, a', b', c', d', e', f', g', h', i', j'] := by
  match l, h with
  | [a, b, c, d, e, f, g, h, i, j, a', b', c', d', e', f', g', h', i', j'], _ =>
    exact ⟨a, b, c, d, e, f, g, h, i, j, a', b', c', d', e', f', g', h', i', j', rfl⟩

theorem items_iff {vs : List Value} :
    ItemsEnc registry (extItems signedExtensions) vs bs ↔ ∃ spec x, Fits spec x ∧ vs = valuesOf spec x ∧ bs = bytesOf spec x := by
  rw [items_eq]
  constructor
  · rintro ⟨ps, rfl, rfl, hl, h⟩
    obtain ⟨p1, p2, p3, p4, p5, p6, p7, p8, p9, p10, q1, q2, q3, q4, q5, q6, q7, q8, q9, q10, rfl⟩ := list20 hl
    simp only [List.zip_cons_cons, List.zip_nil_right, List.forall_mem_cons, List.not_mem_nil, false_implies, implies_true, and_true,
      unit843, unit844, unit845, unit846, unit850, unit852, mortality_iff, nonce_iff, tip_iff, mode_iff, u32_iff, h256_iff, nothing_iff,
      metadataHash_iff] at h
    obtain ⟨⟨a1, b1⟩, ⟨a2, b2⟩, ⟨a3, b3⟩, ⟨a4, b4⟩, ⟨e, h5, a5, b5⟩, ⟨n, h6, a6, b6⟩, ⟨a7, b7⟩, ⟨tip, h8, a8, b8⟩, ⟨a9, b9⟩,
      ⟨m, a10, b10⟩, ⟨c1, d1⟩, ⟨s, h12, c2, d2⟩, ⟨tx, h13, c3, d3⟩, ⟨c4, h14⟩, ⟨c5, h15⟩, ⟨c6, d6⟩, ⟨c7, d7⟩, ⟨c8, d8⟩, ⟨c9, d9⟩,
      ⟨mh, h20, c10, d10⟩⟩ := h
    refine ⟨s, ⟨e, n, tip, m, tx, q4.2, q5.2, mh⟩, ⟨h5, h6, h8, h12, h13, h14, h15, h20⟩, ?_, ?_⟩
    · simp only [Parts.values, List.map_cons, List.map_nil, valuesOf, a1, a2, a3, a4, a5, a6, a7, a8, a9, a10, c1, c2, c3, c4, c5, c6, c7,
        c8, c9, c10]
    · simp only [Parts.bytes, List.flatMap_cons, List.flatMap_nil, bytesOf, b1, b2, b3, b4, b5, b6, b7, b8, b9, b10, d1, d2, d3, d6, d7, d8,
        d9, d10, List.nil_append, List.append_nil, List.append_assoc]
  · rintro ⟨spec, x, hf, rfl, rfl⟩
    refine ⟨[(.record [], []), (.record [], []), (.record [], []), (.record [], []), (.era x.era, eraEncode x.era),
      (.uint .u32 x.nonce, compactEncode x.nonce), (.record [], []), (.uint .u128 x.tip, compactEncode x.tip), (.record [], []),
      (modeValue x.mode, modeBytes x.mode), (.tuple [], []),
      (.uint .u32 spec, leBytes 4 spec), (.uint .u32 x.txVersion, leBytes 4 x.txVersion), (.hash x.genesis, x.genesis),
      (.hash x.blockHash, x.blockHash), (.tuple [], []), (.tuple [], []), (.tuple [], []), (.tuple [], []),
      (hashValue x.metadataHash, hashBytes x.metadataHash)], rfl, ?_, rfl, ?_⟩
    · simp only [Parts.bytes, List.flatMap_cons, List.flatMap_nil, bytesOf, List.nil_append, List.append_nil, List.append_assoc]
    · simp only [List.zip_cons_cons, List.zip_nil_right, List.forall_mem_cons, List.not_mem_nil, false_implies, implies_true, and_true,
        unit843, unit844, unit845, unit846, unit850, unit852, mortality_iff, nonce_iff, tip_iff, mode_iff, u32_iff, h256_iff, nothing_iff,
        metadataHash_iff, and_self, true_and]
      exact ⟨⟨_, hf.era, rfl, rfl⟩, ⟨_, hf.nonce, rfl, rfl⟩, ⟨_, hf.tip, rfl, rfl⟩, ⟨_, rfl, rfl⟩, ⟨_, hf.spec, rfl, rfl⟩,
        ⟨_, hf.txVersion, rfl, rfl⟩, hf.genesis, hf.blockHash, ⟨_, hf.metadataHash, rfl, rfl⟩⟩


/-- What the items count as. -/
theorem marks : (extItems signedExtensions).map (Wallet.markOfItem registry 4) =
    [some none, some none, some none, some none, some (some .era), some none, some none, some none, some none, some none,
     some none, some (some .specVersion), some none, some (some .genesisHash), some (some .blockHash), some none, some none, some none,
     some none, some none] := by decide +kernel

theorem marked_zip {items : List (String × Nat)} {vs : List Value} {ms : List (Option (Option Mark))} {m : Mark}
    (h : items.map (Wallet.markOfItem registry 4) = ms) :
    Wallet.marked registry 4 items vs m = (ms.zip vs).filterMap fun x => if x.1 = some (some m) then some x.2 else none := by
  subst h
  unfold Wallet.marked
  induction items generalizing vs with
  | nil => rfl
  | cons a l ih =>
    cases vs with
    | nil => rfl
    | cons v vs => simp only [List.zip_cons_cons, List.map_cons, List.filterMap_cons, ih]

theorem proper_values {spec : Nat} {x : Extensions} {version : String} {expected : Option Bytes} :
    Proper registry (extItems signedExtensions) (valuesOf spec x) version expected ↔
      toString spec = version ∧ (∀ g, expected = some g → x.genesis = g) ∧ (x.era = .immortal → x.blockHash = x.genesis) := by
  have hm := fun m => marked_zip (vs := valuesOf spec x) (m := m) marks
  have hall : ((extItems signedExtensions).all fun i => (Wallet.markOfItem registry 4 i).isSome) = true := by decide +kernel
  have h1 : Wallet.marked registry 4 (extItems signedExtensions) (valuesOf spec x) .specVersion = [.uint .u32 spec] := by
    rw [hm]; rfl
  have h2 : Wallet.marked registry 4 (extItems signedExtensions) (valuesOf spec x) .genesisHash = [.hash x.genesis] := by
    rw [hm]; rfl
  have h3 : Wallet.marked registry 4 (extItems signedExtensions) (valuesOf spec x) .blockHash = [.hash x.blockHash] := by
    rw [hm]; rfl
  have h4 : Wallet.marked registry 4 (extItems signedExtensions) (valuesOf spec x) .era = [.era x.era] := by
    rw [hm]; rfl
  have hp : Wallet.proper registry 4 (extItems signedExtensions) (valuesOf spec x) version expected =
      some ((toString spec == version) && (match expected with | none => true | some e => x.genesis == e) &&
        (match x.era with | .immortal => x.blockHash == x.genesis | _ => true)) := by
    unfold Wallet.proper
    rw [if_pos hall, h1, h2, h3, h4]
    cases expected <;> cases x.era <;> simp
  rw [← Wallet'.proper_iff rfl hp]
  cases expected <;> cases x.era <;> simp [and_assoc]

/-! ### Calls -/

theorem two_length {α : Type} {l : List α} (h : l.length = 2) : ∃ a b, l = [a, b] := by
  match l, h with
  | [a, b], _ => exact ⟨a, b, rfl⟩

theorem address_iff {args : List (Option String × Value)} : Enc registry false 113 (.variant "Id" args) bs ↔
    ∃ account : Bytes, account.length = 32 ∧ args = [(none, .fixed .id account)] ∧ bs = 0 :: account := by
  rw [variant_iff namesDistinct indicesDistinct (w := ⟨"Id", [⟨none, 0, some "AccountId", []⟩], 0, []⟩) (by decide +kernel) (by decide +kernel)]
  constructor
  · rintro ⟨ps, hl, he, rfl, rfl⟩
    obtain ⟨⟨v, b⟩, rfl⟩ := one_length hl
    have he : Enc registry false 0 v b := he (0, v, b) (by simp)
    obtain ⟨rfl, h⟩ := account_iff.1 he
    exact ⟨b, h, rfl, by simp [Parts.bytes]⟩
  · rintro ⟨a, h, rfl, rfl⟩
    refine ⟨[(.fixed .id a, a)], rfl, ?_, rfl, by simp [Parts.bytes]⟩
    simp [account_iff, h]

theorem transfer_iff {account : Bytes} {amount : Nat} : CallEnc registry 93 (transfer account amount) bs ↔
    account.length = 32 ∧ amount < 2 ^ 128 ∧ bs = transferKeepAlive account amount := by
  unfold transfer
  rw [call_iff namesDistinct indicesDistinct (p := ⟨"Balances", [⟨none, 115, some "self::sp_api_hidden_includes_construct_runtime::hidden_include::dispatch\n::CallableCallFor<Balances, Runtime>", []⟩], 5, []⟩)
    (w := ⟨"transfer_keep_alive", [⟨some "dest", 113, some "AccountIdLookupOf<T>", []⟩, ⟨some "value", 63, some "T::Balance", []⟩], 3, []⟩)
    (by decide +kernel) rfl (by decide +kernel) (by decide +kernel) (by decide +kernel)]
  constructor
  · rintro ⟨ps, hl, he, ha, rfl⟩
    obtain ⟨⟨v, b⟩, ⟨v', b'⟩, rfl⟩ := two_length hl
    simp only [Parts.named, Parts.values, List.map_cons, List.map_nil, List.zip_cons_cons, List.zip_nil_right, List.cons.injEq,
      Prod.mk.injEq, true_and, and_true] at ha
    obtain ⟨rfl, rfl⟩ := ha
    have e1 : Enc registry false 113 (.variant "Id" [(none, .fixed .id account)]) b := he (113, _, b) (by simp)
    have e2 : Enc registry false 63 (.uint .u128 amount) b' := he (63, _, b') (by simp)
    obtain ⟨a, h1, h2, rfl⟩ := address_iff.1 e1
    obtain ⟨n, h3, h4, rfl⟩ := balance_iff.1 e2
    cases h2
    cases h4
    exact ⟨h1, h3, by simp [transferKeepAlive, Parts.bytes]⟩
  · rintro ⟨h1, h2, rfl⟩
    refine ⟨[(.variant "Id" [(none, .fixed .id account)], 0 :: account), (.uint .u128 amount, compactEncode amount)], rfl, ?_, rfl,
      by simp [transferKeepAlive, Parts.bytes]⟩
    simp only [List.map_cons, List.map_nil, List.zip_cons_cons, List.zip_nil_right, List.forall_mem_cons, List.not_mem_nil, false_implies,
      implies_true, and_true, balance_iff, address_iff]
    exact ⟨⟨_, h1, rfl, rfl⟩, ⟨_, h2, rfl, rfl⟩⟩

/-! ### Extrinsics -/

theorem list10 {α : Type} {l : List α} (h : l.length = 10) : ∃ a b c d e f g h i j, l = [a, b, c, d, e, f, g, h, i, j] := by
  match l, h with
  | [a, b, c, d, e, f, g, h, i, j], _ => exact ⟨a, b, c, d, e, f, g, h, i, j, rfl⟩

/-- Values of the tuple of extensions in an extrinsic. -/
theorem extra_iff : Enc registry false 842 v bs ↔ ∃ era nonce tip mode, EraOk era ∧ nonce < 2 ^ 32 ∧ tip < 2 ^ 128 ∧
    v = .tuple [.record [], .record [], .record [], .record [], .era era, .uint .u32 nonce, .record [], .uint .u128 tip, .record [],
      modeValue mode] ∧
    bs = eraEncode era ++ compactEncode nonce ++ compactEncode tip ++ modeBytes mode := by
  rw [tuple_iff (path := []) (ids := [843, 844, 845, 846, 847, 849, 850, 851, 852, 853]) (by decide +kernel) (by decide)]
  constructor
  · rintro ⟨ps, hl, h, rfl, rfl⟩
    obtain ⟨p1, p2, p3, p4, p5, p6, p7, p8, p9, p10, rfl⟩ := list10 hl
    have h : ∀ x ∈ List.zip [843, 844, 845, 846, 847, 849, 850, 851, 852, 853] [p1, p2, p3, p4, p5, p6, p7, p8, p9, p10],
      Enc registry false x.1 x.2.1 x.2.2 := h
    simp only [List.zip_cons_cons, List.zip_nil_right, List.forall_mem_cons, List.not_mem_nil, false_implies, implies_true, and_true,
      unit843, unit844, unit845, unit846, unit850, unit852, mortality_iff, nonce_iff, tip_iff, mode_iff] at h
    obtain ⟨⟨a1, b1⟩, ⟨a2, b2⟩, ⟨a3, b3⟩, ⟨a4, b4⟩, ⟨e, h5, a5, b5⟩, ⟨n, h6, a6, b6⟩, ⟨a7, b7⟩, ⟨tip, h8, a8, b8⟩, ⟨a9, b9⟩,
      ⟨m, a10, b10⟩⟩ := h
    refine ⟨e, n, tip, m, h5, h6, h8, ?_, ?_⟩
    · simp only [Parts.values, List.map_cons, List.map_nil, a1, a2, a3, a4, a5, a6, a7, a8, a9, a10]
    · simp only [Parts.bytes, List.flatMap_cons, List.flatMap_nil, b1, b2, b3, b4, b5, b6, b7, b8, b9, b10, List.nil_append,
        List.append_nil, List.append_assoc]
  · rintro ⟨e, n, tip, m, h5, h6, h8, rfl, rfl⟩
    refine ⟨[(.record [], []), (.record [], []), (.record [], []), (.record [], []), (.era e, eraEncode e),
      (.uint .u32 n, compactEncode n), (.record [], []), (.uint .u128 tip, compactEncode tip), (.record [], []),
      (modeValue m, modeBytes m)], rfl, ?_, rfl, ?_⟩
    · show ∀ x ∈ List.zip (α := Nat) (β := Value × Bytes) _ _, Enc registry false x.1 x.2.1 x.2.2
      simp only [List.zip_cons_cons, List.zip_nil_right, List.forall_mem_cons, List.not_mem_nil, false_implies, implies_true, and_true,
        unit843, unit844, unit845, unit846, unit850, unit852, mortality_iff, nonce_iff, tip_iff, mode_iff, and_self, true_and]
      exact ⟨⟨_, h5, rfl, rfl⟩, ⟨_, h6, rfl, rfl⟩, ⟨_, h8, rfl, rfl⟩, ⟨_, rfl, rfl⟩⟩
    · simp only [Parts.bytes, List.flatMap_cons, List.flatMap_nil, List.nil_append, List.append_nil, List.append_assoc]

/-- The field of a signature kind. -/
def signatureField : Scheme → Field
  | .ed25519 => ⟨none, 146, some "ed25519::Signature", []⟩
  | .sr25519 => ⟨none, 146, some "sr25519::Signature", []⟩
  | .ecdsa => ⟨none, 182, some "ecdsa::Signature", []⟩

theorem array_core {id n elem : Nat} (h : has types id [] (.array n elem) = true) :
    ∃ t, Core registry false id false t id 0 ∧ t.typeDef = .array n elem := by
  obtain ⟨t, hr, hp, hd⟩ := has_type h
  exact ⟨t, .stop hr fun _ => ⟨fun f => by rw [hd]; simp, fun i => by rw [hd]; simp⟩, hd⟩

theorem signatureField_kind (s : Scheme) : IsSignatureField registry (signatureField s) s.kind := by
  obtain ⟨te, he, -, hed⟩ := has_type (ts := types) (id := 2) (path := []) (d := .primitive .u8) (by decide +kernel)
  obtain ⟨t64, c64, d64⟩ := array_core (id := 146) (n := 64) (elem := 2) (by decide +kernel)
  obtain ⟨t65, c65, d65⟩ := array_core (id := 182) (n := 65) (elem := 2) (by decide +kernel)
  cases s
  · exact ⟨.inr (.inl ⟨rfl, rfl⟩), _, t64, _, _, 2, te, c64, d64, he, hed⟩
  · exact ⟨.inr (.inr ⟨rfl, rfl⟩), _, t64, _, _, 2, te, c64, d64, he, hed⟩
  · exact ⟨.inl ⟨rfl, rfl⟩, _, t65, _, _, 2, te, c65, d65, he, hed⟩

theorem scheme_iff {s : Scheme} {sig : Bytes} : Enc registry false 341 (.fixed s.kind sig) bs ↔
    sig.length = s.length ∧ bs = s.index :: sig := by
  obtain ⟨t, hr, hp, hd⟩ := has_type (ts := types) (id := 341) (path := ["sp_runtime", "MultiSignature"])
    (d := .variant [⟨"Ed25519", [signatureField .ed25519], 0, []⟩, ⟨"Sr25519", [signatureField .sr25519], 1, []⟩,
      ⟨"Ecdsa", [signatureField .ecdsa], 2, []⟩]) (by decide +kernel)
  have hp : special t.path = some .multiSignature := by rw [hp]; decide
  have hl : s.kind.len = s.length := by cases s <;> rfl
  rw [← hl]
  cases s
  · exact signature_iff signaturesDistinct indicesDistinct (w := ⟨"Ed25519", [signatureField .ed25519], 0, []⟩) hr hp hd (by simp) rfl
      (signatureField_kind .ed25519)
  · exact signature_iff signaturesDistinct indicesDistinct (w := ⟨"Sr25519", [signatureField .sr25519], 1, []⟩) hr hp hd (by simp) rfl
      (signatureField_kind .sr25519)
  · exact signature_iff signaturesDistinct indicesDistinct (w := ⟨"Ecdsa", [signatureField .ecdsa], 2, []⟩) hr hp hd (by simp) rfl
      (signatureField_kind .ecdsa)

end Verif.Polkadot
