import Verif.Proof.Layout
import Verif.Spec.Accounts
import Verif.Props.Storage
import Verif.Props.Typed
/-!
# Accounts in storage

For any list of types in which the types 0, 3, 4, 5 and 6 are as they are on the chains.
-/
namespace Verif.Layout
open Spec

variable {ts : List Typ} {v : Value} {bs : Bytes}

theorem prim_u128 : EncPrim false .u128 v bs ↔ ∃ n, n < 2 ^ 128 ∧ v = .uint .u128 n ∧ bs = leBytes 16 n := by
  constructor
  · intro h
    cases h with
    | uint h1 h2 => cases h1; exact ⟨_, h2, rfl, rfl⟩
    | int h1 => cases h1
  · rintro ⟨n, h, rfl, rfl⟩
    exact .uint (w := .u128) .u128 h

theorem record_iff {id : Nat} {path : List String} {f g : Field} {fs : List Field}
    (h : has ts id path (.composite (f :: g :: fs)) = true) (hs : Check.structural path = true) :
    Enc (.portable ts) false id v bs ↔ ∃ ps : Parts, ps.length = (f :: g :: fs).length ∧
      (∀ x ∈ ((f :: g :: fs).map (·.ty)).zip ps, Enc (.portable ts) false x.1 x.2.1 x.2.2) ∧
      v = .record (ps.named (f :: g :: fs)) ∧ bs = ps.bytes := by
  obtain ⟨t, hr, rfl, hd⟩ := has_type h
  rw [enc_as hr, encAs_structural (Wallet'.structural_iff.1 hs)]
  unfold EncDef
  rw [hd]
  simp

theorem list4 {α : Type} {l : List α} (h : l.length = 4) : ∃ a b c d, l = [a, b, c, d] := by
  match l, h with
  | [a, b, c, d], _ => exact ⟨a, b, c, d, rfl⟩

theorem list5 {α : Type} {l : List α} (h : l.length = 5) : ∃ a b c d e, l = [a, b, c, d, e] := by
  match l, h with
  | [a, b, c, d, e], _ => exact ⟨a, b, c, d, e, rfl⟩

/-- How the types of an account are layed out; the last two fields have other names and types on the two chains. -/
structure Accounts (ts : List Typ) (third fourth : String) : Prop where
  account : ∀ v bs, Enc (.portable ts) false 0 v bs ↔ v = .fixed .id bs ∧ bs.length = 32
  info : ∃ p n, Check.structural p = true ∧ has ts 3 p (.composite [⟨some "nonce", 4, n, []⟩, ⟨some "consumers", 4, some "RefCount", []⟩,
    ⟨some "providers", 4, some "RefCount", []⟩, ⟨some "sufficients", 4, some "RefCount", []⟩, ⟨some "data", 5, some "AccountData", []⟩]) = true
  u32 : ∀ v bs, Enc (.portable ts) false 4 v bs ↔ ∃ n, n < 2 ^ 32 ∧ v = .uint .u32 n ∧ bs = leBytes 4 n
  data : ∃ p last n, Check.structural p = true ∧ has ts 5 p (.composite [⟨some "free", 6, some "Balance", []⟩,
    ⟨some "reserved", 6, some "Balance", []⟩, ⟨some third, 6, some "Balance", []⟩, ⟨some fourth, last, n, []⟩]) = true ∧
    ∀ v bs, Enc (.portable ts) false last v bs ↔ ∃ n, n < 2 ^ 128 ∧ v = .uint .u128 n ∧ bs = leBytes 16 n
  u128 : ∀ v bs, Enc (.portable ts) false 6 v bs ↔ ∃ n, n < 2 ^ 128 ∧ v = .uint .u128 n ∧ bs = leBytes 16 n

variable {third fourth : String}

theorem Accounts.data_iff (hA : Accounts ts third fourth) : Enc (.portable ts) false 5 v bs ↔ ∃ free reserved c d, free < 2 ^ 128 ∧
    reserved < 2 ^ 128 ∧ c < 2 ^ 128 ∧ d < 2 ^ 128 ∧ v = .record [(some "free", .uint .u128 free), (some "reserved", .uint .u128 reserved),
      (some third, .uint .u128 c), (some fourth, .uint .u128 d)] ∧
    bs = leBytes 16 free ++ leBytes 16 reserved ++ leBytes 16 c ++ leBytes 16 d := by
  obtain ⟨p, last, n, hp, hd, hl⟩ := hA.data
  rw [record_iff hd hp]
  constructor
  · rintro ⟨ps, h1, h2, rfl, rfl⟩
    obtain ⟨⟨v1, b1⟩, ⟨v2, b2⟩, ⟨v3, b3⟩, ⟨v4, b4⟩, rfl⟩ := list4 h1
    simp only [List.map_cons, List.map_nil, List.zip_cons_cons, List.zip_nil_right, List.forall_mem_cons, List.not_mem_nil, false_implies,
      implies_true, and_true, hA.u128, hl] at h2
    obtain ⟨⟨n1, l1, rfl, rfl⟩, ⟨n2, l2, rfl, rfl⟩, ⟨n3, l3, rfl, rfl⟩, ⟨n4, l4, rfl, rfl⟩⟩ := h2
    exact ⟨n1, n2, n3, n4, l1, l2, l3, l4, rfl, by simp [Parts.bytes]⟩
  · rintro ⟨n1, n2, n3, n4, l1, l2, l3, l4, rfl, rfl⟩
    refine ⟨[(.uint .u128 n1, leBytes 16 n1), (.uint .u128 n2, leBytes 16 n2), (.uint .u128 n3, leBytes 16 n3),
      (.uint .u128 n4, leBytes 16 n4)], rfl, ?_, rfl, by simp [Parts.bytes]⟩
    simp only [List.map_cons, List.map_nil, List.zip_cons_cons, List.zip_nil_right, List.forall_mem_cons, List.not_mem_nil, false_implies,
      implies_true, and_true, hA.u128, hl]
    exact ⟨⟨_, l1, rfl, rfl⟩, ⟨_, l2, rfl, rfl⟩, ⟨_, l3, rfl, rfl⟩, ⟨_, l4, rfl, rfl⟩⟩

theorem Accounts.info_iff (hA : Accounts ts third fourth) :
    Enc (.portable ts) false 3 v bs ↔ ∃ x : AccountInfo, x.Valid ∧ v = x.value third fourth ∧ bs = x.bytes := by
  obtain ⟨p, n, hp, hd⟩ := hA.info
  rw [record_iff hd hp]
  constructor
  · rintro ⟨ps, h1, h2, rfl, rfl⟩
    obtain ⟨⟨v1, b1⟩, ⟨v2, b2⟩, ⟨v3, b3⟩, ⟨v4, b4⟩, ⟨v5, b5⟩, rfl⟩ := list5 h1
    simp only [List.map_cons, List.map_nil, List.zip_cons_cons, List.zip_nil_right, List.forall_mem_cons, List.not_mem_nil, false_implies,
      implies_true, and_true, hA.u32, hA.data_iff] at h2
    obtain ⟨⟨n1, l1, rfl, rfl⟩, ⟨n2, l2, rfl, rfl⟩, ⟨n3, l3, rfl, rfl⟩, ⟨n4, l4, rfl, rfl⟩, ⟨n5, n6, n7, n8, l5, l6, l7, l8, rfl, rfl⟩⟩ := h2
    exact ⟨⟨n1, n2, n3, n4, n5, n6, n7, n8⟩, ⟨l1, l2, l3, l4, l5, l6, l7, l8⟩, rfl, by simp [Parts.bytes, AccountInfo.bytes]⟩
  · rintro ⟨x, hx, rfl, rfl⟩
    refine ⟨[(.uint .u32 x.nonce, leBytes 4 x.nonce), (.uint .u32 x.consumers, leBytes 4 x.consumers),
      (.uint .u32 x.providers, leBytes 4 x.providers), (.uint .u32 x.sufficients, leBytes 4 x.sufficients),
      (_, leBytes 16 x.free ++ leBytes 16 x.reserved ++ leBytes 16 x.third ++ leBytes 16 x.fourth)], rfl, ?_, rfl,
      by simp [Parts.bytes, AccountInfo.bytes]⟩
    simp only [List.map_cons, List.map_nil, List.zip_cons_cons, List.zip_nil_right, List.forall_mem_cons, List.not_mem_nil, false_implies,
      implies_true, and_true, hA.u32, hA.data_iff]
    exact ⟨⟨_, hx.nonce, rfl, rfl⟩, ⟨_, hx.consumers, rfl, rfl⟩, ⟨_, hx.providers, rfl, rfl⟩, ⟨_, hx.sufficients, rfl, rfl⟩,
      ⟨_, _, _, _, hx.free, hx.reserved, hx.third, hx.fourth, rfl, rfl⟩⟩

/-! ### Accounts of any bytes -/

theorem AccountInfo.length (x : AccountInfo) : x.bytes.length = 80 := by
  simp [AccountInfo.bytes, leBytes_length]

theorem take_le {bs : Bytes} {n k : Nat} (h : n + k ≤ bs.length) :
    leNat ((bs.drop n).take k) < 256 ^ k ∧ leBytes k (leNat ((bs.drop n).take k)) = (bs.drop n).take k := by
  have hl : ((bs.drop n).take k).length = k := by simp; omega
  have h1 := leNat_lt ((bs.drop n).take k)
  have h2 := leBytes_leNat ((bs.drop n).take k)
  rw [hl] at h1 h2
  exact ⟨h1, h2⟩

theorem drop_take {bs : Bytes} (n k : Nat) : (bs.drop n).take k ++ bs.drop (n + k) = bs.drop n := by
  rw [← List.drop_drop]
  exact List.take_append_drop k _

/-- Any 80 bytes are those of an account. -/
theorem AccountInfo.of_bytes {bs : Bytes} (h : bs.length = 80) : ∃ x : AccountInfo, x.Valid ∧ bs = x.bytes := by
  have t (n k : Nat) (hk : n + k ≤ 80) := take_le (bs := bs) (n := n) (k := k) (by omega)
  refine ⟨⟨_, _, _, _, _, _, _, _⟩, ⟨(t 0 4 (by decide)).1, (t 4 4 (by decide)).1, (t 8 4 (by decide)).1, (t 12 4 (by decide)).1,
    (t 16 16 (by decide)).1, (t 32 16 (by decide)).1, (t 48 16 (by decide)).1, (t 64 16 (by decide)).1⟩, ?_⟩
  unfold AccountInfo.bytes
  dsimp only
  rw [(t 0 4 (by decide)).2, (t 4 4 (by decide)).2, (t 8 4 (by decide)).2, (t 12 4 (by decide)).2,
    (t 16 16 (by decide)).2, (t 32 16 (by decide)).2, (t 48 16 (by decide)).2, (t 64 16 (by decide)).2]
  have e : bs.drop 80 = [] := List.drop_eq_nil_of_le (by omega)
  have d := fun n k => drop_take (bs := bs) n k
  have d8 := d 64 16
  rw [e, List.append_nil] at d8
  simp only [List.append_assoc]
  rw [d8, d 48 16, d 32 16, d 16 16, d 12 4, d 8 4, d 4 4, d 0 4]
  rfl

theorem AccountInfo.value_inj {third fourth : String} {x y : AccountInfo} (h : x.value third fourth = y.value third fourth) : x = y := by
  cases x; cases y
  simp only [AccountInfo.value, Value.record.injEq, List.cons.injEq, Prod.mk.injEq, Value.uint.injEq, true_and, and_true] at h
  obtain ⟨rfl, rfl, rfl, rfl, rfl, rfl, rfl, rfl⟩ := h
  rfl

/-! ### The storage entry -/

variable {H : HashFns} {key value : Buf}

theorem Accounts.shows_iff (hA : Accounts ts third fourth) (hk : EmptyArraysGrounded (.portable ts)) (hrk : Reliable key)
    (hrv : Reliable value) {a : Bytes} {x : AccountInfo} :
    (∃ s, decodeStorageEntry H (.portable ts) key value systemAccount = .ok s ∧ ShowsAccount third fourth s a x) ↔
      IsAccountKey H a key.bytes ∧ x.Valid ∧ value.bytes = x.bytes := by
  constructor
  · rintro ⟨s, h, hs, hv⟩
    obtain ⟨-, pre, rest, h1, h2, h3, h4⟩ := decodeStorageEntry_sound h
    rw [hv] at h4
    obtain ⟨y, hy, e, hb⟩ := hA.info_iff.1 h4
    obtain rfl := AccountInfo.value_inj e
    cases hkey : s.key with
    | plain => rw [hkey] at h3; exact h3.elim
    | tupleHash => rw [hkey] at hs; cases hs
    | singleHash part =>
      rw [hkey] at h3 hs
      obtain ⟨h, hh, h3⟩ := h3
      cases hh
      cases h3 with
      | @blake2_128Concat _ d k he hl =>
        have e : edValue d = .fixed .id a := by simpa [keyOf, partOf] using hs
        rw [e] at he
        obtain ⟨e, hl'⟩ := (hA.account _ _).1 he
        cases e
        exact ⟨⟨hl', hl, pre, h2, by rw [h1, List.append_assoc]⟩, hy, hb⟩
  · rintro ⟨⟨ha, hl, pre, hp, hkb⟩, hx, hb⟩
    have he : Enc (.portable ts) false 0 (.fixed .id a) a := (hA.account _ _).2 ⟨rfl, ha⟩
    have hat : At key.bytes 32 (H.blake2_128 a ++ a) := ⟨pre, [], by rw [hkb]; simp, hp⟩
    obtain ⟨d, g1, g2⟩ := checkHash_complete hk hrk he hl hat
    obtain ⟨dv, k1, k2⟩ := decodeAllAsType_complete_at hk hrv (id := 3) (hA.info_iff.2 ⟨x, hx, rfl, hb⟩)
    have hlen : key.len = 80 := by unfold Buf.len; rw [hkb]; simp [hp, hl, ha]
    refine ⟨⟨.singleHash (.parsed d), dv, collectDocs []⟩, ?_, by simp [keyOf, partOf, g2], k2⟩
    unfold decodeStorageEntry systemAccount
    dsimp only
    rw [if_neg (by omega), processKeyMapped_one]
    unfold processHasher
    dsimp only
    rw [g1, eok_bind]
    dsimp only
    rw [if_pos (by simp [hlen, hl, ha]), eok_bind, k1, mapErr_ok.2 rfl, eok_bind]

theorem Accounts.shown (hA : Accounts ts third fourth) {s : Storage} (h : decodeStorageEntry H (.portable ts) key value systemAccount = .ok s) :
    ∃ a x, ShowsAccount third fourth s a x := by
  obtain ⟨-, pre, rest, h1, h2, h3, h4⟩ := decodeStorageEntry_sound h
  obtain ⟨x, hx, e, hb⟩ := hA.info_iff.1 h4
  cases hkey : s.key with
  | plain => rw [hkey] at h3; exact h3.elim
  | tupleHash => rw [hkey] at h3; exact absurd rfl h3.1
  | singleHash part =>
    rw [hkey] at h3
    obtain ⟨h, hh, h3⟩ := h3
    cases hh
    cases h3 with
    | @blake2_128Concat _ d k he hl =>
      obtain ⟨e', -⟩ := (hA.account _ _).1 he
      exact ⟨k, x, by rw [hkey]; simp [keyOf, partOf, e'], e⟩

theorem Accounts.accepted_iff (hA : Accounts ts third fourth) (hk : EmptyArraysGrounded (.portable ts)) (hrk : Reliable key)
    (hrv : Reliable value) : (∃ s, decodeStorageEntry H (.portable ts) key value systemAccount = .ok s) ↔
      value.bytes.length = 80 ∧ ∃ a, IsAccountKey H a key.bytes := by
  constructor
  · rintro ⟨s, h⟩
    obtain ⟨a, x, hs⟩ := hA.shown h
    obtain ⟨h1, -, h2⟩ := (hA.shows_iff hk hrk hrv).1 ⟨s, h, hs⟩
    exact ⟨by rw [h2, AccountInfo.length], a, h1⟩
  · rintro ⟨h1, a, h2⟩
    obtain ⟨x, hx, hb⟩ := AccountInfo.of_bytes h1
    obtain ⟨s, h, -⟩ := (hA.shows_iff hk hrk hrv).2 ⟨h2, hx, hb⟩
    exact ⟨s, h⟩

end Verif.Layout
