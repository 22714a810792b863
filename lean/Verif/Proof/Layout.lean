import Verif.Proof.Inversion
import Verif.Proof.Wallet
/-!
# Layout of values, read from a list of types

Inversion of encodings for types given by their place in the list: used for actual chains.
-/
namespace Verif.Layout
open Spec

variable {ts : List Typ}

theorem resolves {id : Nat} {t : Typ} (h : ts[id]? = some t) : (Registry.portable ts).resolve id = .ok t := by
  show (match ts[id]? with | some t => Except.ok t | none => .error _) = _
  rw [h]

/-- A type with this path and definition. -/
def has (ts : List Typ) (id : Nat) (path : List String) (d : TypeDef) : Bool :=
  match ts[id]? with
  | some t => decide (t.path = path) && decide (t.typeDef = d)
  | none => false

theorem has_type {id : Nat} {path : List String} {d : TypeDef} (h : has ts id path d = true) :
    ∃ t, (Registry.portable ts).resolve id = .ok t ∧ t.path = path ∧ t.typeDef = d := by
  unfold has at h
  split at h
  · rename_i t ht
    simp only [Bool.and_eq_true, decide_eq_true_eq] at h
    exact ⟨t, resolves ht, h.1, h.2⟩
  · cases h

/-- A type with a path of this kind. -/
def isA (ts : List Typ) (id : Nat) (s : Option Special) : Bool := ts[id]?.any fun t => decide (special t.path = s)

theorem isA_type {id : Nat} {s : Option Special} (h : isA ts id s = true) :
    ∃ t, (Registry.portable ts).resolve id = .ok t ∧ special t.path = s := by
  unfold isA at h
  cases ht : ts[id]? with
  | none => rw [ht] at h; cases h
  | some t =>
    rw [ht] at h
    exact ⟨t, resolves ht, by simpa using h⟩

variable {c : Bool} {v : Value} {bs : Bytes}

theorem unit_iff {id : Nat} {path : List String} (h : has ts id path (.composite []) = true) (hs : Check.structural path = true) :
    Enc (.portable ts) c id v bs ↔ v = .record [] ∧ bs = [] := by
  obtain ⟨t, hr, rfl, hd⟩ := has_type h
  rw [enc_as hr, encAs_structural (Wallet'.structural_iff.1 hs)]
  unfold EncDef
  rw [hd]

theorem newtype_iff {id : Nat} {path : List String} {f : Field} (h : has ts id path (.composite [f]) = true)
    (hs : Check.structural path = true) : Enc (.portable ts) c id v bs ↔ Enc (.portable ts) c f.ty v bs := by
  obtain ⟨t, hr, rfl, hd⟩ := has_type h
  rw [enc_as hr, encAs_structural (Wallet'.structural_iff.1 hs)]
  unfold EncDef
  rw [hd]

theorem compact_iff {id : Nat} {path : List String} {inner : Nat} (h : has ts id path (.compact inner) = true)
    (hs : Check.structural path = true) : Enc (.portable ts) false id v bs ↔ Enc (.portable ts) true inner v bs := by
  obtain ⟨t, hr, rfl, hd⟩ := has_type h
  rw [enc_as hr, encAs_structural (Wallet'.structural_iff.1 hs)]
  unfold EncDef
  rw [hd]
  simp

theorem primitive_iff {id : Nat} {path : List String} {p : Prim} (h : has ts id path (.primitive p) = true)
    (hs : Check.structural path = true) : Enc (.portable ts) c id v bs ↔ EncPrim c p v bs := by
  obtain ⟨t, hr, rfl, hd⟩ := has_type h
  rw [enc_as hr, encAs_structural (Wallet'.structural_iff.1 hs)]
  unfold EncDef
  rw [hd]

theorem tuple_iff {id : Nat} {path : List String} {ids : List Nat} (h : has ts id path (.tuple ids) = true)
    (hs : Check.structural path = true) : Enc (.portable ts) false id v bs ↔ ∃ ps : Parts, ps.length = ids.length ∧
      (∀ x ∈ ids.zip ps, Enc (.portable ts) false x.1 x.2.1 x.2.2) ∧ v = .tuple ps.values ∧ bs = ps.bytes := by
  obtain ⟨t, hr, rfl, hd⟩ := has_type h
  rw [enc_as hr, encAs_structural (Wallet'.structural_iff.1 hs)]
  unfold EncDef
  rw [hd]
  exact ⟨fun h => h.2, fun h => ⟨fun _ => rfl, h⟩⟩

theorem nil_iff {id : Nat} {path : List String} (h : has ts id path (.tuple []) = true) (hs : Check.structural path = true) :
    Enc (.portable ts) false id v bs ↔ v = .tuple [] ∧ bs = [] := by
  rw [tuple_iff h hs]
  constructor
  · rintro ⟨ps, h1, -, rfl, rfl⟩
    cases ps with
    | nil => exact ⟨rfl, rfl⟩
    | cons => cases h1
  · rintro ⟨rfl, rfl⟩
    exact ⟨[], rfl, (fun _ h => by cases h), rfl, rfl⟩

theorem hash_iff {id : Nat} (h : isA ts id (some .hash) = true) : Enc (.portable ts) false id v bs ↔ v = .hash bs ∧ bs.length = 32 := by
  obtain ⟨t, hr, hs⟩ := isA_type h
  rw [enc_as hr]
  unfold EncAs
  rw [hs]
  simp

theorem era_iff {id : Nat} (h : isA ts id (some .era) = true) :
    Enc (.portable ts) false id v bs ↔ ∃ e, EraOk e ∧ v = .era e ∧ bs = eraEncode e := by
  obtain ⟨t, hr, hs⟩ := isA_type h
  rw [enc_as hr]
  unfold EncAs
  rw [hs]
  simp

theorem fixed_iff {id : Nat} {k : FixedKind} (h : isA ts id (some (.fixed k)) = true) :
    Enc (.portable ts) false id v bs ↔ v = .fixed k bs ∧ bs.length = k.len := by
  obtain ⟨t, hr, hs⟩ := isA_type h
  rw [enc_as hr]
  unfold EncAs
  rw [hs]
  simp

theorem prim_u8 : EncPrim false .u8 v bs ↔ ∃ x : UInt8, v = .uint .u8 x.toNat ∧ bs = [x] := by
  constructor
  · intro h
    cases h with
    | @uint p w n h1 h2 =>
      cases h1
      have h2 : n < 256 := h2
      refine ⟨UInt8.ofNat n, ?_, ?_⟩
      · rw [UInt8.toNat_ofNat_of_lt' h2]
      · show [UInt8.ofNat (n % 256)] = _
        rw [Nat.mod_eq_of_lt h2]
    | int h1 => cases h1
  · rintro ⟨x, rfl, rfl⟩
    have h := EncPrim.uint (w := .u8) .u8 (v := x.toNat) x.toNat_lt
    have e : leBytes UW.u8.bytes x.toNat = [x] := by
      show [UInt8.ofNat (x.toNat % 256)] = [x]
      rw [Nat.mod_eq_of_lt x.toNat_lt, UInt8.ofNat_toNat]
    rwa [e] at h

theorem prim_u32 : EncPrim false .u32 v bs ↔ ∃ n, n < 2 ^ 32 ∧ v = .uint .u32 n ∧ bs = leBytes 4 n := by
  constructor
  · intro h
    cases h with
    | uint h1 h2 => cases h1; exact ⟨_, h2, rfl, rfl⟩
    | int h1 => cases h1
  · rintro ⟨n, h, rfl, rfl⟩
    exact .uint (w := .u32) .u32 h

theorem prim_compact32 : EncPrim true .u32 v bs ↔ ∃ n, n < 2 ^ 32 ∧ v = .uint .u32 n ∧ bs = compactEncode n := by
  constructor
  · intro h
    cases h with
    | compact h1 h2 => cases h1; exact ⟨_, h2, rfl, rfl⟩
  · rintro ⟨n, h, rfl, rfl⟩
    exact .compact (w := .u32) .u32 h

theorem prim_compact128 : EncPrim true .u128 v bs ↔ ∃ n, n < 2 ^ 128 ∧ v = .uint .u128 n ∧ bs = compactEncode n := by
  constructor
  · intro h
    cases h with
    | compact h1 h2 => cases h1; exact ⟨_, h2, rfl, rfl⟩
  · rintro ⟨n, h, rfl, rfl⟩
    exact .compact (w := .u128) .u128 h

/-! ### Arrays of bytes -/

/-- A byte string as a value: an array of numbers. -/
def bytesValue (bs : Bytes) : Value := .seq (bs.map fun x => .uint .u8 x.toNat)

theorem array_iff {id elem n : Nat} {path : List String} {epath : List String} (h : has ts id path (.array n elem) = true)
    (hs : Check.structural path = true) (he : has ts elem epath (.primitive .u8) = true) (hes : Check.structural epath = true) :
    Enc (.portable ts) false id v bs ↔ v = bytesValue bs ∧ bs.length = n := by
  obtain ⟨t, hr, rfl, hd⟩ := has_type h
  have hk : Known (.portable ts) elem := by
    obtain ⟨t', hr', -, hd'⟩ := has_type he
    exact ⟨false, t', elem, 0, .stop hr' fun _ => ⟨fun f => by rw [hd']; simp, fun i => by rw [hd']; simp⟩⟩
  rw [enc_as hr, encAs_structural (Wallet'.structural_iff.1 hs)]
  unfold EncDef
  rw [hd]
  simp only [primitive_iff he hes, prim_u8]
  constructor
  · rintro ⟨-, -, ps, hl, hp, rfl, rfl⟩
    have key : ∀ ps : Parts, (∀ x ∈ ps, ∃ y : UInt8, x.1 = .uint .u8 y.toNat ∧ x.2 = [y]) →
        ps.values = ps.bytes.map (fun x => .uint .u8 x.toNat) ∧ ps.bytes.length = ps.length := by
      intro ps
      induction ps with
      | nil => intro _; exact ⟨rfl, rfl⟩
      | cons a l ih =>
        intro hp
        obtain ⟨y, h1, h2⟩ := hp a (by simp)
        obtain ⟨i1, i2⟩ := ih fun x hx => hp x (by simp [hx])
        simp only [Parts.values, Parts.bytes, List.map_cons, List.flatMap_cons, h1, h2] at i1 i2 ⊢
        constructor
        · simp [i1]
        · simp [i2]
    obtain ⟨e1, e2⟩ := key ps hp
    exact ⟨by rw [bytesValue, e1], e2.trans hl⟩
  · rintro ⟨rfl, hl⟩
    refine ⟨trivial, hk, bs.map fun x => (.uint .u8 x.toNat, [x]), by simpa using hl, ?_, ?_, ?_⟩
    · intro x hx
      obtain ⟨y, -, rfl⟩ := List.mem_map.1 hx
      exact ⟨y, rfl, rfl⟩
    · simp [bytesValue, Parts.values]
    · simp only [Parts.bytes, List.flatMap_map]
      clear hl
      induction bs with
      | nil => rfl
      | cons a l ih => rw [List.flatMap_cons, ← ih]; rfl

/-! ### Enums -/

/-- The variant of the enum `id` with the name `n`. -/
def variantOf (ts : List Typ) (id : Nat) (n : String) : Option Variant :=
  match ts[id]? with
  | some t => match t.typeDef with
    | .variant vs => vs.find? fun v => decide (v.name = n)
    | _ => none
  | none => none

theorem variantOf_some {id : Nat} {n : String} {w : Variant} (h : variantOf ts id n = some w) :
    ∃ t vs, (Registry.portable ts).resolve id = .ok t ∧ t.typeDef = .variant vs ∧ w ∈ vs ∧ w.name = n := by
  unfold variantOf at h
  split at h
  · rename_i t ht
    split at h
    · rename_i vs hd
      exact ⟨t, vs, resolves ht, hd, List.mem_of_find?_eq_some h, by simpa using List.find?_some h⟩
    · cases h
  · cases h

/-- The variant with the name is the only one. -/
theorem variantOf_only (hN : NamesDistinct (.portable ts)) {id : Nat} {n : String} {w w' : Variant} {t : Typ} {vs : List Variant}
    (h : variantOf ts id n = some w) (hr : (Registry.portable ts).resolve id = .ok t) (hd : t.typeDef = .variant vs) (hm : w' ∈ vs)
    (hn : w'.name = n) : w' = w := by
  obtain ⟨t', vs', hr', hd', hm', hn'⟩ := variantOf_some h
  cases hr.symm.trans hr'
  cases hd.symm.trans hd'
  exact hN id t vs hr hd w' hm w hm' (hn.trans hn'.symm)

theorem selects_mem {vs : List Variant} {i : UInt8} {w : Variant} (h : Selects vs i w) : w ∈ vs ∧ w.index = i := by
  obtain ⟨a, b, rfl, hi, -⟩ := h
  exact ⟨by simp, hi⟩

theorem mem_selects (hI : IndicesDistinct (.portable ts)) {id : Nat} {t : Typ} {vs : List Variant} {w : Variant}
    (hr : (Registry.portable ts).resolve id = .ok t) (hd : t.typeDef = .variant vs) (hm : w ∈ vs) : Selects vs w.index w := by
  obtain ⟨a, b, e, hn⟩ := List.eq_append_cons_of_mem hm
  refine ⟨a, b, e, rfl, fun u hu he => hn ?_⟩
  have : u = w := hI id t vs hr hd u (by rw [e]; exact List.mem_append_left _ hu) w hm he
  rwa [← this]

/-- The bytes of a variant, given by its name, of an enum that is neither of signatures nor of pallets. -/
theorem variant_iff (hN : NamesDistinct (.portable ts)) (hI : IndicesDistinct (.portable ts)) {id : Nat} {n : String} {w : Variant}
    {args : List (Option String × Value)} (h : variantOf ts id n = some w) (hs : isA ts id none = true) :
    Enc (.portable ts) false id (.variant n args) bs ↔ ∃ ps : Parts, ps.length = w.fields.length ∧
      (∀ x ∈ (w.fields.map (·.ty)).zip ps, Enc (.portable ts) false x.1 x.2.1 x.2.2) ∧ args = ps.named w.fields ∧
      bs = w.index :: ps.bytes := by
  obtain ⟨t, vs, hr, hd, hm, hn⟩ := variantOf_some h
  have hp : special t.path = none := by
    obtain ⟨t', hr', h⟩ := isA_type hs
    cases hr.symm.trans hr'
    exact h
  have hst : Structural t.path := by unfold Structural; rw [hp]; trivial
  rw [enc_as hr, encAs_structural hst]
  unfold EncDef
  rw [hd]
  constructor
  · rintro ⟨-, ⟨-, h1, -⟩ | ⟨w', i, ps, h1, -, -, h4, h5, h6, rfl⟩ | ⟨i, k, b', -, -, h1, -⟩ | ⟨_, _, _, _, _, _, _, -, -, -, -, h1, -⟩⟩
    · cases h1
    · obtain ⟨hm', hi⟩ := selects_mem h1
      cases h6
      obtain rfl := variantOf_only hN h hr hd hm' rfl
      exact ⟨ps, h4, h5, rfl, by rw [hi]⟩
    · cases h1
    · cases h1
  · rintro ⟨ps, h1, h2, rfl, rfl⟩
    refine ⟨rfl, .inr (.inl ⟨w, w.index, ps, mem_selects hI hr hd hm, ?_, ?_, h1, h2, by rw [hn], rfl⟩)⟩
    · rintro k ⟨hk, -⟩; rw [hp] at hk; cases hk
    · rintro item m inner ⟨hk, -⟩; rw [hp] at hk; cases hk

/-- A value of an enum that is neither of signatures nor of pallets and that has variants is one of its variants. -/
theorem enum_inv {id : Nat} {path : List String} {vs : List Variant} (h : has ts id path (.variant vs) = true) (hne : vs ≠ [])
    (hs : special path = none) (he : Enc (.portable ts) false id v bs) : ∃ w ∈ vs, ∃ args, v = .variant w.name args := by
  obtain ⟨t, hr, rfl, hd⟩ := has_type h
  have hst : Structural t.path := by unfold Structural; rw [hs]; trivial
  rw [enc_as hr, encAs_structural hst] at he
  unfold EncDef at he
  rw [hd] at he
  rcases he with ⟨-, ⟨h0, -⟩ | ⟨w', i, ps, h1, -, -, -, -, h6, -⟩ | ⟨i, k, b', ⟨hk, -⟩, -⟩ | ⟨_, _, _, _, _, _, _, ⟨hk, -⟩, -⟩⟩
  · exact absurd h0 hne
  · exact ⟨w', (selects_mem h1).1, _, h6⟩
  · rw [hs] at hk; cases hk
  · rw [hs] at hk; cases hk

/-- The bytes of a call, given by the names of the pallet and the call. -/
theorem call_iff (hN : NamesDistinct (.portable ts)) (hI : IndicesDistinct (.portable ts)) {id : Nat} {pallet call : String}
    {p w : Variant} {f : Field} {args : List (Option String × Value)} (hp : variantOf ts id pallet = some p) (hf : p.fields = [f])
    (hw : variantOf ts f.ty call = some w) (h1 : isA ts id (some (.pallet .call)) = true) (h2 : isA ts f.ty (some (.pallet .call)) = true) :
    CallEnc (.portable ts) id ⟨pallet, call, args⟩ bs ↔ ∃ ps : Parts, ps.length = w.fields.length ∧
      (∀ x ∈ (w.fields.map (·.ty)).zip ps, Enc (.portable ts) false x.1 x.2.1 x.2.2) ∧ args = ps.named w.fields ∧
      bs = p.index :: w.index :: ps.bytes := by
  obtain ⟨t, vs, hr, hd, hm, hn⟩ := variantOf_some hp
  obtain ⟨t', vs', hr', hd', hm', hn'⟩ := variantOf_some hw
  have hsp : special t.path = some (.pallet .call) := by
    obtain ⟨_, hr2, h⟩ := isA_type h1
    cases hr.symm.trans hr2
    exact h
  have hsp' : special t'.path = some (.pallet .call) := by
    obtain ⟨_, hr2, h⟩ := isA_type h2
    cases hr'.symm.trans hr2
    exact h
  have hst : Structural t.path := by unfold Structural; rw [hsp]; trivial
  constructor
  · rintro ⟨-, h⟩
    dsimp only at h
    rw [enc_as hr, encAs_structural hst] at h
    unfold EncDef at h
    rw [hd] at h
    obtain ⟨-, ⟨-, h, -⟩ | ⟨_, _, _, -, -, -, -, -, h, -⟩ | ⟨_, _, _, -, -, h, -⟩ |
      ⟨inner, w', i, j, item, name, ps, hip, hsel, hl, he, h, rfl⟩⟩ := h
    · cases h
    · cases h
    · cases h
    · cases h
      obtain ⟨-, vs0, p', f', t0, hd0, hsel0, hn0, hf0, hr0, -, hd1⟩ := hip
      cases hd.symm.trans hd0
      obtain ⟨hm0, hi0⟩ := selects_mem hsel0
      obtain rfl := variantOf_only hN hp hr hd hm0 hn0
      cases hf.symm.trans hf0
      cases hr'.symm.trans hr0
      cases hd'.symm.trans hd1
      obtain ⟨hm1, hi1⟩ := selects_mem hsel
      obtain rfl := variantOf_only hN hw hr' hd' hm1 rfl
      exact ⟨ps, hl, he, rfl, by rw [hi0, hi1]⟩
  · rintro ⟨ps, hl, he, rfl, rfl⟩
    refine ⟨⟨t, vs, hr, hd⟩, ?_⟩
    have := Enc.pallet (R := .portable ts) (id := id) (item := .call) (name := pallet) (i := p.index) (j := w.index) (v := w) (inner := vs')
      (ps := ps) hr ⟨hsp, vs, p, f, t', hd, mem_selects hI hr hd hm, hn, hf, hr', hsp', hd'⟩ (mem_selects hI hr' hd' hm') hl he
    rw [hn'] at this
    exact this

/-- The bytes of a signature that is recognized as such, of the kind `k`. -/
theorem signature_iff (hS : SignaturesDistinct (.portable ts)) (hI : IndicesDistinct (.portable ts)) {id : Nat} {w : Variant} {f : Field}
    {t : Typ} {vs : List Variant} {k : FixedKind} {sig : Bytes} (hr : (Registry.portable ts).resolve id = .ok t)
    (hp : special t.path = some .multiSignature) (hd : t.typeDef = .variant vs) (hm : w ∈ vs) (hf : w.fields = [f])
    (hk : IsSignatureField (.portable ts) f k) :
    Enc (.portable ts) false id (.fixed k sig) bs ↔ sig.length = k.len ∧ bs = w.index :: sig := by
  have hst : Structural t.path := by unfold Structural; rw [hp]; trivial
  have his : IsSignature (.portable ts) t w.index k := ⟨hp, vs, w, f, hd, mem_selects hI hr hd hm, hf, hk⟩
  rw [enc_as hr, encAs_structural hst]
  unfold EncDef
  rw [hd]
  constructor
  · rintro ⟨-, ⟨-, h1, -⟩ | ⟨w', i, ps, h1, -, -, h4, h5, h6, rfl⟩ | ⟨i, k', b', h0, hl, h1, rfl⟩ | ⟨_, _, _, _, _, _, _, -, -, -, -, h1, -⟩⟩
    · cases h1
    · cases h6
    · cases h1
      exact ⟨hl, by rw [hS id t i w.index k hr h0 his]⟩
    · cases h1
  · rintro ⟨hl, rfl⟩
    exact ⟨rfl, .inr (.inr (.inl ⟨w.index, k, sig, his, hl, rfl, rfl⟩))⟩

end Verif.Layout
