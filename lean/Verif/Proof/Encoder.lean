import Verif.Spec.Encoder
import Verif.Props.Typed
/-!
# The encoder writes what the encoding relation says, and all of it
-/
namespace Verif
open Spec

variable {R : Registry}

namespace Encoder'

/-! ### Leaves -/

theorem uintOf_iff {p : Prim} {w : UW} : Encoder.uintOf p = some w ↔ IsUInt p w := by
  constructor
  · intro h
    cases p <;> simp only [Encoder.uintOf, Option.some.injEq, reduceCtorEq] at h <;> subst h <;> constructor
  · intro h; cases h <;> rfl

theorem intOf_iff {p : Prim} {w : IW} : Encoder.intOf p = some w ↔ IsInt p w := by
  constructor
  · intro h
    cases p <;> simp only [Encoder.intOf, Option.some.injEq, reduceCtorEq] at h <;> subst h <;> constructor
  · intro h; cases h <;> rfl

theorem eraOk_iff {e : Era} : Encoder.eraOk e = true ↔ EraOk e := by
  cases e with
  | immortal => exact ⟨fun _ => trivial, fun _ => rfl⟩
  | mortal period phase =>
    simp only [Encoder.eraOk, EraOk, Bool.and_eq_true, List.any_eq_true, List.mem_range, decide_eq_true_eq, beq_iff_eq,
      Nat.dvd_iff_mod_eq_zero]
    constructor
    · rintro ⟨⟨⟨k, h1, h2, h3⟩, h4⟩, h5⟩
      exact ⟨⟨k, h2, by omega, h3⟩, h4, h5⟩
    · rintro ⟨⟨k, h1, h2, h3⟩, h4, h5⟩
      exact ⟨⟨⟨k, by omega, h1, h3⟩, h4⟩, h5⟩

theorem bitElement_spec (o : BitOrder) (n : Nat) (l : List Bool) (k : Nat) :
    Encoder.bitElement o n l k < 2 ^ n ∧
    ∀ i, i < n → (Encoder.bitElement o n l k).testBit (bitPlace o n i) = l.getD (k * n + i) false := by
  unfold Encoder.bitElement
  generalize hf : (fun j => l.getD (k * n + bitPlace o n j) false) = f
  refine ⟨?_, fun i hi => ?_⟩
  · have := (BitVec.ofBoolListLE ((List.range n).map f)).isLt
    have hl : ((List.range n).map f).length = n := by rw [List.length_map, List.length_range]
    exact Nat.lt_of_lt_of_eq this (congrArg (2 ^ ·) hl)
  · have hb : bitPlace o n i < n ∧ bitPlace o n (bitPlace o n i) = i := by
      cases o
      · exact ⟨hi, rfl⟩
      · simp only [bitPlace]; omega
    rw [BitVec.testBit_toNat, BitVec.getLsbD_ofBoolListLE]
    have : f (bitPlace o n i) = l.getD (k * n + i) false := by rw [← hf]; dsimp only; rw [hb.2]
    rw [← this]
    simp [List.getD, hb.1]

theorem bits_enc (s : BitStore) (o : BitOrder) (l : List Bool) (h : l.length ≤ 0x1fffffff) :
    BitsEnc s o l (Encoder.bits s o l) := by
  have hn := bitStore_pos s
  unfold Encoder.bits BitsEnc
  generalize 8 * s.bytes = n at hn
  generalize hK : (l.length + (n - 1)) / n = K
  have hdm := Nat.div_add_mod (l.length + (n - 1)) n
  have hml := Nat.mod_lt (l.length + (n - 1)) hn
  rw [hK, Nat.mul_comm] at hdm
  refine ⟨_, h, ?_, ?_, ?_, rfl⟩
  · rw [List.length_map, List.length_range]
    unfold IsCeil
    generalize K * n = x at hdm ⊢
    exact ⟨by omega, by omega⟩
  · intro e he
    obtain ⟨k, _, rfl⟩ := List.mem_map.1 he
    exact (bitElement_spec o n l k).1
  · intro i hi
    have hdi := Nat.div_add_mod i n
    have hmi := Nat.mod_lt i hn
    rw [Nat.mul_comm] at hdi
    have hk : i / n < K := by
      apply Classical.byContradiction
      intro hc
      have : K * n ≤ i / n * n := Nat.mul_le_mul_right n (by omega)
      omega
    refine ⟨Encoder.bitElement o n l (i / n), by simp [hk], ?_⟩
    rw [(bitElement_spec o n l (i / n)).2 _ hmi, hdi, List.getD, List.getElem?_eq_getElem hi]
    rfl

theorem prim_sound {c : Bool} {p : Prim} {v : Value} {bs : Bytes} (h : Encoder.prim c p v = some bs) :
    EncPrim c p v bs := by
  unfold Encoder.prim at h
  split at h <;> first | (cases h; done) | skip
  all_goals
    split at h <;> first | (cases h; done) | skip
    rename_i hc
    cases h
  · obtain ⟨rfl, rfl⟩ := hc
    rename_i b
    cases b
    · exact .false
    · exact .true
  · obtain ⟨rfl, rfl⟩ := hc
    exact .char _
  · obtain ⟨rfl, rfl, hl⟩ := hc
    exact .str _ hl
  · obtain ⟨h1, h2⟩ := hc
    cases c
    · exact .uint (uintOf_iff.1 h1) h2
    · exact .compact (uintOf_iff.1 h1) h2
  · obtain ⟨rfl, rfl, hl⟩ := hc
    exact .u256 hl
  · obtain ⟨rfl, h1, h2, h3⟩ := hc
    exact .int (intOf_iff.1 h1) h2 h3

theorem prim_total {c : Bool} {p : Prim} {v : Value} (h : PrimTyped c p v) : ∃ bs, Encoder.prim c p v = some bs := by
  cases h with
  | bool v => exact ⟨_, rfl⟩
  | char v => exact ⟨_, rfl⟩
  | str v h => exact ⟨_, if_pos ⟨rfl, rfl, h⟩⟩
  | uint c h1 h2 => exact ⟨_, if_pos ⟨uintOf_iff.2 h1, h2⟩⟩
  | u256 h => exact ⟨_, if_pos ⟨rfl, rfl, h⟩⟩
  | int h1 h2 h3 => exact ⟨_, if_pos ⟨rfl, intOf_iff.2 h1, h2, h3⟩⟩

theorem bitOrder_iff {id : Nat} {o : BitOrder} : Encoder.bitOrder R id o = true ↔ IsBitOrder R id o := by
  unfold Encoder.bitOrder IsBitOrder
  cases hr : R.resolve id with
  | error e => simp
  | ok t =>
    dsimp only
    constructor
    · intro h
      cases hd : t.typeDef with
      | composite fs =>
        rw [hd] at h
        refine ⟨t, fs, rfl, hd, ?_⟩
        cases o
        · exact .inl ⟨rfl, by simpa using h⟩
        · exact .inr ⟨rfl, by simpa using h⟩
      | _ => rw [hd] at h; cases h
    · rintro ⟨t', fs, h1, h2, h3⟩
      cases h1
      rw [h2]
      rcases h3 with ⟨rfl, h3⟩ | ⟨rfl, h3⟩ <;> simp [h3]

theorem bitStore_iff {id : Nat} {s : BitStore} : Encoder.bitStore R id s = true ↔ IsBitStore R id s := by
  unfold Encoder.bitStore IsBitStore
  cases hr : R.resolve id with
  | error e => simp
  | ok t =>
    dsimp only
    rw [beq_iff_eq]
    constructor
    · intro h
      refine ⟨t, _, rfl, h, ?_⟩
      cases s <;> simp
    · rintro ⟨t', p, h1, h2, h3⟩
      cases h1
      rw [h2]
      rcases h3 with ⟨rfl, rfl⟩ | ⟨rfl, rfl⟩ | ⟨rfl, rfl⟩ | ⟨rfl, rfl⟩ <;> rfl

/-! ### What a type is -/

theorem coreOf_sound : ∀ {n : Nat} {c : Bool} {id : Nat} {t : Typ}, Encoder.coreOf R n c id = some t →
    ∃ c' i k, Core R c id c' t i k
  | 0, _, _, _, h => by cases h
  | n + 1, c, id, t, h => by
    unfold Encoder.coreOf at h
    cases hr : R.resolve id with
    | error e => rw [hr] at h; cases h
    | ok t' =>
      rw [hr] at h
      dsimp only at h
      cases hs : special t'.path with
      | some s =>
        rw [hs] at h; cases h
        exact ⟨_, _, _, .stop hr fun h => by rw [hs] at h; cases h⟩
      | none =>
        rw [hs] at h
        dsimp only at h
        split at h
        · rename_i f hd
          obtain ⟨c', i, k, hc⟩ := coreOf_sound h
          exact ⟨_, _, _, .struct hr hs hd hc⟩
        · rename_i i hd
          cases c with
          | true => cases h
          | false =>
            obtain ⟨c', i, k, hc⟩ := coreOf_sound h
            exact ⟨_, _, _, .compact hr hs hd hc⟩
        · rename_i h1 h2
          cases h
          exact ⟨_, _, _, .stop hr fun _ => ⟨fun f hf => h1 f hf, fun i hi => h2 i hi⟩⟩

theorem coreOf_total {c c' : Bool} {id i k : Nat} {t : Typ} (h : Core R c id c' t i k) :
    ∀ n, k < n → Encoder.coreOf R n c id = some t := by
  induction h with
  | stop h1 h2 =>
    rename_i t
    intro n hn
    obtain ⟨m, rfl⟩ : ∃ m, n = m + 1 := ⟨n - 1, by omega⟩
    unfold Encoder.coreOf
    rw [h1]
    dsimp only
    cases hs : special t.path with
    | some s => rfl
    | none =>
      dsimp only
      obtain ⟨g1, g2⟩ := h2 hs
      split
      · rename_i f hf; exact absurd hf (g1 f)
      · rename_i i hi; exact absurd hi (g2 i)
      · rfl
  | struct h1 h2 h3 _ ih =>
    intro n hn
    obtain ⟨m, rfl⟩ : ∃ m, n = m + 1 := ⟨n - 1, by omega⟩
    unfold Encoder.coreOf
    rw [h1]
    dsimp only
    rw [h2, h3]
    exact ih m (by omega)
  | compact h1 h2 h3 _ ih =>
    intro n hn
    obtain ⟨m, rfl⟩ : ∃ m, n = m + 1 := ⟨n - 1, by omega⟩
    unfold Encoder.coreOf
    rw [h1]
    dsimp only
    rw [h2, h3]
    exact ih m (by omega)

theorem coreOf_known {n id : Nat} (h : (Encoder.coreOf R n false id).isSome = true) : Known R id := by
  obtain ⟨t, ht⟩ := Option.isSome_iff_exists.1 h
  obtain ⟨c', i, k, hc⟩ := coreOf_sound ht
  exact ⟨_, _, _, _, hc⟩

theorem known_coreOf {id : Nat} (h : Known R id) : ∃ n0, ∀ n, n0 ≤ n → (Encoder.coreOf R n false id).isSome = true := by
  obtain ⟨_, _, _, k, hc⟩ := h
  exact ⟨k + 1, fun n hn => by rw [coreOf_total hc n (by omega)]; rfl⟩

/-- A type with a value can be looked through. -/
theorem typed_core {c : Bool} {id : Nat} {v : Value} (h : Typed R c id v) : ∃ c' t i k, Core R c id c' t i k := by
  have stop : ∀ {c : Bool} {id : Nat} {t : Typ}, R.resolve id = .ok t →
      (special t.path = none → (∀ f, t.typeDef ≠ .composite [f]) ∧ (∀ i, t.typeDef ≠ .compact i)) →
      ∃ c' t i k, Core R c id c' t i k := fun h1 h2 => ⟨_, _, _, _, .stop h1 h2⟩
  induction h with
  | fixed h1 h2 _ => exact stop h1 fun h => by rw [h2] at h; cases h
  | hash h1 h2 _ => exact stop h1 fun h => by rw [h2] at h; cases h
  | era h1 h2 _ => exact stop h1 fun h => by rw [h2] at h; cases h
  | per h1 h2 _ => exact stop h1 fun h => by rw [h2] at h; cases h
  | newtype h1 _ h3 _ ih =>
    obtain ⟨c', t', i, k, hc⟩ := ih
    cases hs : special (Typ.path _) with
    | none => exact ⟨_, _, _, _, .struct h1 hs h3 hc⟩
    | some s => exact stop h1 fun h => by rw [hs] at h; cases h
  | compact h1 _ h3 _ ih =>
    obtain ⟨c', t', i, k, hc⟩ := ih
    cases hs : special (Typ.path _) with
    | none => exact ⟨_, _, _, _, .compact h1 hs h3 hc⟩
    | some s => exact stop h1 fun h => by rw [hs] at h; cases h
  | unit h1 _ h3 => exact stop h1 fun _ => ⟨fun f h => (by rw [h3] at h; cases h), fun i h => (by rw [h3] at h; cases h)⟩
  | record h1 _ h3 h4 =>
    refine stop h1 fun _ => ⟨fun f h => ?_, fun i h => by rw [h3] at h; cases h⟩
    rw [h3] at h
    cases h
    exact absurd h4 (by simp)
  | never h1 _ h3 => exact stop h1 fun _ => ⟨fun f h => (by rw [h3] at h; cases h), fun i h => (by rw [h3] at h; cases h)⟩
  | variant h1 _ h3 => exact stop h1 fun _ => ⟨fun f h => (by rw [h3] at h; cases h), fun i h => (by rw [h3] at h; cases h)⟩
  | signature h1 h2 => exact stop h1 fun h => by rw [h2.1] at h; cases h
  | pallet h1 h2 => exact stop h1 fun h => by rw [h2.1] at h; cases h
  | sequence h1 _ h3 => exact stop h1 fun _ => ⟨fun f h => (by rw [h3] at h; cases h), fun i h => (by rw [h3] at h; cases h)⟩
  | array h1 _ h3 => exact stop h1 fun _ => ⟨fun f h => (by rw [h3] at h; cases h), fun i h => (by rw [h3] at h; cases h)⟩
  | tuple h1 _ h3 => exact stop h1 fun _ => ⟨fun f h => (by rw [h3] at h; cases h), fun i h => (by rw [h3] at h; cases h)⟩
  | primitive h1 _ h3 => exact stop h1 fun _ => ⟨fun f h => (by rw [h3] at h; cases h), fun i h => (by rw [h3] at h; cases h)⟩
  | bits h1 _ h3 => exact stop h1 fun _ => ⟨fun f h => (by rw [h3] at h; cases h), fun i h => (by rw [h3] at h; cases h)⟩

/-! ### Signatures and pallets -/

theorem isByte_iff {id : Nat} : Encoder.isByte R id = true ↔ ∃ t, R.resolve id = .ok t ∧ t.typeDef = .primitive .u8 := by
  unfold Encoder.isByte
  cases R.resolve id with
  | error e => simp
  | ok t => simp

theorem signatureName_iff {f : Field} {k : FixedKind} : Encoder.signatureName f = some k ↔
    ((k = .signatureEcdsa ∧ f.typeName = some "ecdsa::Signature") ∨
     (k = .signatureEd25519 ∧ f.typeName = some "ed25519::Signature") ∨
     (k = .signatureSr25519 ∧ f.typeName = some "sr25519::Signature")) := by
  unfold Encoder.signatureName
  split
  · rename_i h
    rw [h]
    simp [eq_comm]
  · split
    · rename_i h
      rw [h]
      simp [eq_comm]
    · split
      · rename_i h
        rw [h]
        simp [eq_comm]
      · rename_i h1 h2 h3
        simp [h1, h2, h3]

theorem signatureField_some {n : Nat} {f : Field} {k : FixedKind} (h : Encoder.signatureField R n f = some (some k)) :
    IsSignatureField R f k := by
  unfold Encoder.signatureField at h
  split at h
  · cases h
  rename_i k' hk
  split at h
  · cases h
  rename_i core hc
  split at h
  · rename_i len elem hd
    rw [Option.some.injEq] at h
    split at h
    · rename_i hl
      cases h
      obtain ⟨c', i, j, hc⟩ := coreOf_sound hc
      obtain ⟨et, h1, h2⟩ := isByte_iff.1 hl.2
      exact ⟨signatureName_iff.1 hk, c', core, i, j, elem, et, hc, hl.1 ▸ hd, h1, h2⟩
    · cases h
  · cases h

theorem signatureField_eq {f : Field} {k : FixedKind} (h : IsSignatureField R f k) :
    ∃ n0, ∀ n, n0 ≤ n → Encoder.signatureField R n f = some (some k) := by
  obtain ⟨h1, c', core, i, j, elem, et, hc, h2, h3, h4⟩ := h
  refine ⟨j + 1, fun n hn => ?_⟩
  unfold Encoder.signatureField
  rw [signatureName_iff.2 h1]
  dsimp only
  rw [coreOf_total hc n (by omega)]
  dsimp only
  rw [h2]
  dsimp only
  rw [if_pos ⟨rfl, isByte_iff.2 ⟨et, h3, h4⟩⟩]

theorem signatureField_none {n : Nat} {f : Field} (h : Encoder.signatureField R n f = some none) (k : FixedKind) :
    ¬ IsSignatureField R f k := by
  rintro ⟨h1, c', core, i, j, elem, et, hc, h2, h3, h4⟩
  unfold Encoder.signatureField at h
  rw [signatureName_iff.2 h1] at h
  dsimp only at h
  split at h
  · cases h
  rename_i core' hc'
  obtain ⟨_, _, _, hc'⟩ := coreOf_sound hc'
  obtain ⟨_, rfl, _⟩ := core_unique hc hc'
  rw [h2] at h
  dsimp only at h
  rw [if_pos ⟨rfl, isByte_iff.2 ⟨et, h3, h4⟩⟩] at h
  cases h

theorem signatureField_total {f : Field} (h : Known R f.ty) (hk : ∀ k, ¬ IsSignatureField R f k) :
    ∃ n0, ∀ n, n0 ≤ n → Encoder.signatureField R n f = some none := by
  obtain ⟨n0, hn0⟩ := known_coreOf h
  refine ⟨n0, fun n hn => ?_⟩
  have : ∃ r, Encoder.signatureField R n f = some r := by
    obtain ⟨core, hc⟩ := Option.isSome_iff_exists.1 (hn0 n hn)
    unfold Encoder.signatureField
    split
    · exact ⟨_, rfl⟩
    · rw [hc]
      dsimp only
      split <;> exact ⟨_, rfl⟩
  obtain ⟨r, hr⟩ := this
  cases r with
  | none => exact hr
  | some k => exact absurd (signatureField_some hr) (hk k)

theorem selected_iff {vs : List Variant} {u : Variant} : Encoder.selected vs u = true ↔ Selects vs u.index u := by
  unfold Encoder.selected
  rw [beq_iff_eq]
  exact find_selects

theorem selects_index {vs : List Variant} {i : UInt8} {u : Variant} (h : Selects vs i u) : i = u.index :=
  (selects_mem h).2.symm

theorem selects_same {vs : List Variant} {i : UInt8} {u w : Variant} (h : Selects vs i u) (h' : Selects vs i w) : u = w := by
  have := (find_selects.2 h).symm.trans (find_selects.2 h')
  exact Option.some.inj this

/-- The variant's own part of being a signature. -/
theorem isSignature_iff {t : Typ} {vs : List Variant} {u : Variant} {k : FixedKind} (hd : t.typeDef = .variant vs)
    (hu : Selects vs u.index u) : IsSignature R t u.index k ↔
    special t.path = some .multiSignature ∧ ∃ f, u.fields = [f] ∧ IsSignatureField R f k := by
  constructor
  · rintro ⟨h1, vs', w, f, h2, h3, h4, h5⟩
    rw [hd] at h2; cases h2
    cases selects_same hu h3
    exact ⟨h1, f, h4, h5⟩
  · rintro ⟨h1, f, h4, h5⟩
    exact ⟨h1, vs, u, f, hd, hu, h4, h5⟩

theorem signature_some {n : Nat} {t : Typ} {vs : List Variant} {u : Variant} {k : FixedKind} (hd : t.typeDef = .variant vs)
    (hu : Selects vs u.index u) (h : Encoder.signature R n t u = some (some k)) : IsSignature R t u.index k := by
  rw [isSignature_iff hd hu]
  unfold Encoder.signature at h
  split at h
  · rename_i hs
    split at h
    · rename_i f hf
      exact ⟨hs, f, hf, signatureField_some h⟩
    · cases h
  · cases h

theorem signature_eq {t : Typ} {vs : List Variant} {u : Variant} {k : FixedKind} (hd : t.typeDef = .variant vs)
    (hu : Selects vs u.index u) (h : IsSignature R t u.index k) :
    ∃ n0, ∀ n, n0 ≤ n → Encoder.signature R n t u = some (some k) := by
  obtain ⟨h1, f, h2, h3⟩ := (isSignature_iff hd hu).1 h
  obtain ⟨n0, hn⟩ := signatureField_eq h3
  refine ⟨n0, fun n h => ?_⟩
  unfold Encoder.signature
  rw [if_pos h1, h2]
  exact hn n h

theorem signature_none {n : Nat} {t : Typ} {vs : List Variant} {u : Variant} (hd : t.typeDef = .variant vs)
    (hu : Selects vs u.index u) (h : Encoder.signature R n t u = some none) (k : FixedKind) : ¬ IsSignature R t u.index k := by
  rw [isSignature_iff hd hu]
  rintro ⟨h1, f, h2, h3⟩
  unfold Encoder.signature at h
  rw [if_pos h1, h2] at h
  exact signatureField_none h k h3

theorem signature_total {t : Typ} {vs : List Variant} {u : Variant} (hd : t.typeDef = .variant vs)
    (hu : Selects vs u.index u) (h : ∀ k, ¬ IsSignature R t u.index k) (hk : ∀ f ∈ u.fields, Known R f.ty) :
    ∃ n0, ∀ n, n0 ≤ n → Encoder.signature R n t u = some none := by
  unfold Encoder.signature
  split
  · rename_i hs
    split
    · rename_i f hf
      refine signatureField_total (hk f (by rw [hf]; simp)) fun k hfk => h k ?_
      exact (isSignature_iff hd hu).2 ⟨hs, f, hf, hfk⟩
    · exact ⟨0, fun _ _ => rfl⟩
  · exact ⟨0, fun _ _ => rfl⟩

theorem palletOf_iff {t : Typ} {vs : List Variant} {u : Variant} {item : PalletItem} {inner : List Variant}
    (hd : t.typeDef = .variant vs) (hu : Selects vs u.index u) :
    Encoder.palletOf R t u = some (item, inner) ↔ IsPallet R t u.index item u.name inner := by
  constructor
  · intro h
    unfold Encoder.palletOf at h
    split at h
    · rename_i item' f hs hf
      split at h
      · rename_i t' hr
        split at h
        · rename_i item'' inner' hs' hd'
          split at h
          · rename_i hi
            cases h
            subst hi
            exact ⟨hs, vs, u, f, t', hd, hu, rfl, hf, hr, hs', hd'⟩
          · cases h
        · cases h
      · cases h
    · cases h
  · rintro ⟨hs, vs', w, f, t', hd', hw, _, hf, hr, hs', hi⟩
    rw [hd] at hd'; cases hd'
    cases selects_same hu hw
    unfold Encoder.palletOf
    rw [hs, hf]
    dsimp only
    rw [hr]
    dsimp only
    rw [hs', hi]
    exact if_pos rfl

theorem palletOf_none {t : Typ} {vs : List Variant} {u : Variant} (hd : t.typeDef = .variant vs) (hu : Selects vs u.index u) :
    Encoder.palletOf R t u = none ↔ ∀ item n inner, ¬ IsPallet R t u.index item n inner := by
  constructor
  · intro h item n inner hp
    have hn : n = u.name := by
      obtain ⟨hs, vs', w, f, t', hd', hw, hn, _⟩ := hp
      rw [hd] at hd'; cases hd'
      cases selects_same hu hw
      exact hn.symm
    subst hn
    rw [(palletOf_iff hd hu).2 hp] at h
    cases h
  · intro h
    cases hp : Encoder.palletOf R t u with
    | none => rfl
    | some x => exact absurd ((palletOf_iff hd hu).1 hp) (h _ _ _)

/-! ### Parts -/

theorem parts_sound {enc : Nat → Value → Option Bytes} : ∀ {ids : List Nat} {vs : List Value} {bs : Bytes},
    Encoder.parts enc ids vs = some bs → ∃ ps : Parts, ps.length = ids.length ∧ ps.values = vs ∧ ps.bytes = bs ∧
      ∀ x ∈ ids.zip ps, enc x.1 x.2.1 = some x.2.2
  | [], [], bs, h => by
    cases h
    exact ⟨[], rfl, rfl, rfl, fun _ h => by cases h⟩
  | [], _ :: _, _, h => by cases h
  | _ :: _, [], _, h => by cases h
  | id :: ids, v :: vs, bs, h => by
    unfold Encoder.parts at h
    split at h
    · rename_i a b ha hb
      cases h
      obtain ⟨ps, h1, h2, h3, h4⟩ := parts_sound hb
      refine ⟨(v, a) :: ps, by simp [h1], by show v :: ps.values = _; rw [h2], by show a ++ ps.bytes = _; rw [h3], ?_⟩
      intro x hx
      rcases List.mem_cons.1 hx with rfl | hx
      · exact ha
      · exact h4 x hx
    · cases h

theorem parts_total {enc : Nat → Value → Option Bytes} : ∀ {ids : List Nat} {vs : List Value}, vs.length = ids.length →
    (∀ x ∈ ids.zip vs, ∃ bs, enc x.1 x.2 = some bs) → ∃ bs, Encoder.parts enc ids vs = some bs
  | [], [], _, _ => ⟨_, rfl⟩
  | [], _ :: _, h, _ => by cases h
  | _ :: _, [], h, _ => by cases h
  | id :: ids, v :: vs, h, he => by
    obtain ⟨a, ha⟩ := he (id, v) (List.mem_cons_self ..)
    obtain ⟨b, hb⟩ := parts_total (ids := ids) (vs := vs) (by simpa using h) fun x hx => he x (List.mem_cons_of_mem _ hx)
    refine ⟨a ++ b, ?_⟩
    unfold Encoder.parts
    dsimp only at ha
    rw [ha, hb]

/-- Bounds of the parts: the largest. -/
theorem eventually_all {α : Type} {P : Nat → α → Prop} : ∀ {l : List α}, (∀ x ∈ l, ∃ n0, ∀ n, n0 ≤ n → P n x) →
    ∃ n0, ∀ n, n0 ≤ n → ∀ x ∈ l, P n x
  | [], _ => ⟨0, fun _ _ _ h => by cases h⟩
  | a :: l, h => by
    obtain ⟨m, hm⟩ := h a (List.mem_cons_self ..)
    obtain ⟨k, hk⟩ := eventually_all (l := l) fun x hx => h x (List.mem_cons_of_mem _ hx)
    refine ⟨max m k, fun n hn x hx => ?_⟩
    rcases List.mem_cons.1 hx with rfl | hx
    · exact hm n (by omega)
    · exact hk n (by omega) x hx

theorem zip_fst_snd {α β : Type} : ∀ (l : List (α × β)), (l.map (·.1)).zip (l.map (·.2)) = l
  | [] => rfl
  | x :: l => by simp [zip_fst_snd l]

theorem zip_maps {α β : Type} : ∀ {as : List α} {bs : List β}, bs.length = as.length →
    (as.zip bs).map (·.1) = as ∧ (as.zip bs).map (·.2) = bs
  | [], [], _ => ⟨rfl, rfl⟩
  | [], _ :: _, h => by cases h
  | _ :: _, [], h => by cases h
  | a :: as, b :: bs, h => by
    obtain ⟨h1, h2⟩ := zip_maps (as := as) (bs := bs) (by simpa using h)
    exact ⟨by simp [h1], by simp [h2]⟩

theorem fields_sound {enc : Nat → Value → Option Bytes} {fs : List Field} {xs : List (Option String × Value)} {bs : Bytes}
    (h : Encoder.fields enc fs xs = some bs) : ∃ ps : Parts, ps.length = fs.length ∧ ps.named fs = xs ∧ ps.bytes = bs ∧
      ∀ x ∈ (fs.map (·.ty)).zip ps, enc x.1 x.2.1 = some x.2.2 := by
  unfold Encoder.fields at h
  split at h
  · rename_i hn
    obtain ⟨ps, h1, h2, h3, h4⟩ := parts_sound h
    refine ⟨ps, by rw [h1, List.length_map], ?_, h3, h4⟩
    rw [Parts.named, h2, ← hn, zip_fst_snd]
  · cases h

theorem fields_total {enc : Nat → Value → Option Bytes} {fs : List Field} {vs : List Value}
    (hl : vs.length = fs.length) (h : ∀ x ∈ (fs.map (·.ty)).zip vs, ∃ bs, enc x.1 x.2 = some bs) :
    ∃ bs, Encoder.fields enc fs (named fs vs) = some bs := by
  unfold Encoder.fields named
  obtain ⟨h1, h2⟩ := zip_maps (as := fs.map (·.name)) (bs := vs) (by rw [List.length_map, hl])
  rw [if_pos h1, h2]
  exact parts_total (by rw [List.length_map, hl]) h

theorem elements_zip {α : Type} {elem : Nat} : ∀ {vs : List α} {x : Nat × α}, x ∈ (vs.map fun _ => elem).zip vs →
    x.1 = elem ∧ x.2 ∈ vs
  | [], _, h => by cases h
  | v :: vs, x, h => by
    rcases List.mem_cons.1 h with rfl | h
    · exact ⟨rfl, List.mem_cons_self ..⟩
    · obtain ⟨h1, h2⟩ := elements_zip h
      exact ⟨h1, List.mem_cons_of_mem _ h2⟩

theorem elements_zip' {α : Type} {elem : Nat} : ∀ {vs : List α} {x : α}, x ∈ vs → (elem, x) ∈ (vs.map fun _ => elem).zip vs
  | [], _, h => by cases h
  | v :: vs, x, h => by
    rcases List.mem_cons.1 h with rfl | h
    · exact List.mem_cons_self ..
    · exact List.mem_cons_of_mem _ (elements_zip' h)

theorem elements_sound {enc : Nat → Value → Option Bytes} {elem : Nat} {vs : List Value} {bs : Bytes}
    (h : Encoder.parts enc (vs.map fun _ => elem) vs = some bs) : ∃ ps : Parts, ps.length = vs.length ∧ ps.values = vs ∧
      ps.bytes = bs ∧ ∀ x ∈ ps, enc elem x.1 = some x.2 := by
  obtain ⟨ps, h1, h2, h3, h4⟩ := parts_sound h
  rw [List.length_map] at h1
  refine ⟨ps, h1, h2, h3, fun x hx => ?_⟩
  refine h4 (elem, x) ?_
  have : (vs.map fun _ => elem) = ps.map fun _ => elem := by
    rw [List.map_const', List.map_const', h1]
  rw [this]
  exact elements_zip' hx

theorem elements_total {enc : Nat → Value → Option Bytes} {elem : Nat} {vs : List Value}
    (h : ∀ v ∈ vs, ∃ bs, enc elem v = some bs) : ∃ bs, Encoder.parts enc (vs.map fun _ => elem) vs = some bs := by
  refine parts_total (by rw [List.length_map]) fun x hx => ?_
  obtain ⟨h1, h2⟩ := elements_zip hx
  rw [h1]
  exact h _ h2

/-! ### Soundness -/

theorem findSome_some {α β : Type} {l : List α} {f : α → Option β} {b : β} (h : l.findSome? f = some b) :
    ∃ a ∈ l, f a = some b := List.exists_of_findSome?_eq_some h

theorem findSome_total {α β : Type} {l : List α} {f : α → Option β} {a : α} {b : β} (ha : a ∈ l) (h : f a = some b) :
    ∃ b', l.findSome? f = some b' := by
  cases hx : l.findSome? f with
  | some b' => exact ⟨b', rfl⟩
  | none =>
    rw [List.findSome?_eq_none_iff] at hx
    rw [hx a ha] at h
    cases h

theorem enum_sound {n : Nat} {enc : Nat → Value → Option Bytes} {id : Nat} {t : Typ} {vs : List Variant} {v : Value} {bs : Bytes}
    (he : ∀ id v bs, enc id v = some bs → Enc R false id v bs) (hr : R.resolve id = .ok t) (hs : Structural t.path)
    (hd : t.typeDef = .variant vs) (h : Encoder.enum R n enc t vs v = some bs) : Enc R false id v bs := by
  unfold Encoder.enum at h
  split at h
  · split at h
    · rename_i hv
      subst hv
      cases h
      exact .never hr hs hd
    · cases h
  · have h' := findSome_some h
    clear h
    obtain ⟨u, _, h⟩ := h'
    split at h
    · rename_i hc
      obtain ⟨rfl, h1, h2, h3⟩ := hc
      have hu := selected_iff.1 h1
      obtain ⟨bs', h4, rfl⟩ := Option.map_eq_some_iff.1 h
      obtain ⟨ps, g1, rfl, rfl, g4⟩ := fields_sound h4
      exact .variant hr hs hd hu (signature_none hd hu h2) ((palletOf_none hd hu).1 h3) g1 fun x hx => he _ _ _ (g4 x hx)
    · cases h
  · have h' := findSome_some h
    clear h
    obtain ⟨u, _, h⟩ := h'
    split at h
    · rename_i hc
      obtain ⟨h1, h2, h3⟩ := hc
      cases h
      exact .signature hr (signature_some hd (selected_iff.1 h2) h3) h1
    · cases h
  · have h' := findSome_some h
    clear h
    obtain ⟨u, _, h⟩ := h'
    split at h
    · rename_i hc
      obtain ⟨rfl, h1⟩ := hc
      have hu := selected_iff.1 h1
      split at h
      · cases h
      · rename_i item' ws hp
        split at h
        · rename_i hi
          subst hi
          have h' := findSome_some h
          clear h
          obtain ⟨w, _, h⟩ := h'
          split at h
          · rename_i hc
            obtain ⟨rfl, h2⟩ := hc
            have hw := selected_iff.1 h2
            obtain ⟨bs', h4, rfl⟩ := Option.map_eq_some_iff.1 h
            obtain ⟨ps, g1, rfl, rfl, g4⟩ := fields_sound h4
            exact .pallet hr ((palletOf_iff hd hu).1 hp) hw g1 fun x hx => he _ _ _ (g4 x hx)
          · cases h
        · cases h
    · cases h
  · cases h

theorem byDef_sound {n : Nat} {enc : Bool → Nat → Value → Option Bytes} {c : Bool} {id : Nat} {t : Typ} {v : Value} {bs : Bytes}
    (he : ∀ c id v bs, enc c id v = some bs → Enc R c id v bs) (hr : R.resolve id = .ok t) (hs : Structural t.path)
    (h : Encoder.byDef R n enc c t v = some bs) : Enc R c id v bs := by
  unfold Encoder.byDef at h
  split at h
  · rename_i f hd
    exact .newtype hr hs hd (he _ _ _ _ h)
  · rename_i fs hne hd
    split at h
    · rename_i xs
      split at h
      · rename_i hc
        obtain ⟨ps, g1, rfl, rfl, g4⟩ := fields_sound h
        cases fs with
        | nil =>
          have : ps = [] := List.length_eq_zero_iff.1 g1
          subst this
          exact .unit hr hs hd
        | cons f fs =>
          cases fs with
          | nil => exact absurd rfl (hne f)
          | cons g fs =>
            rcases hc with rfl | hc
            · exact .record hr hs hd (by simp) g1 fun x hx => he _ _ _ _ (g4 x hx)
            · cases hc
      · cases h
    · cases h
  · rename_i vs hd
    cases c with
    | true => cases h
    | false => exact enum_sound (he false) hr hs hd h
  · rename_i elem hd
    split at h
    · split at h
      · rename_i hc
        obtain ⟨rfl, h1, h2⟩ := hc
        obtain ⟨bs', h4, rfl⟩ := Option.map_eq_some_iff.1 h
        obtain ⟨ps, g1, rfl, rfl, g4⟩ := elements_sound h4
        rw [values_length] at h2 ⊢
        exact .sequence hr hs hd (coreOf_known h1) h2 fun x hx => he _ _ _ _ (g4 x hx)
      · cases h
    · cases h
  · rename_i len elem hd
    split at h
    · split at h
      · rename_i hc
        obtain ⟨rfl, h1, h2⟩ := hc
        obtain ⟨ps, g1, rfl, rfl, g4⟩ := elements_sound h
        rw [values_length] at h2
        exact .array hr hs (h2 ▸ hd) (coreOf_known h1) fun x hx => he _ _ _ _ (g4 x hx)
      · cases h
    · cases h
  · rename_i ids hd
    split at h
    · split at h
      · rename_i hc
        obtain ⟨ps, g1, rfl, rfl, g4⟩ := parts_sound h
        exact .tuple hr hs hd (fun h2 => by rcases hc with hc | hc; exact hc; omega) g1 fun x hx => he _ _ _ _ (g4 x hx)
      · cases h
    · cases h
  · rename_i p hd
    exact .primitive hr hs hd (prim_sound h)
  · rename_i inner hd
    cases c with
    | true => cases h
    | false => exact .compact hr hs hd (he _ _ _ _ h)
  · rename_i order store hd
    split at h
    · split at h
      · rename_i hc
        obtain ⟨rfl, h1, h2, h3⟩ := hc
        cases h
        exact .bits hr hs hd (bitOrder_iff.1 h1) (bitStore_iff.1 h2) (bits_enc _ _ _ h3)
      · cases h
    · cases h

/-- What the encoder writes is an encoding. -/
theorem encode_sound : ∀ {n : Nat} {c : Bool} {id : Nat} {v : Value} {bs : Bytes},
    Encoder.encode R n c id v = some bs → Enc R c id v bs
  | 0, _, _, _, _, h => by cases h
  | n + 1, c, id, v, bs, h => by
    unfold Encoder.encode at h
    split at h
    · cases h
    rename_i t hr
    split at h
    · rename_i k hs
      split at h
      · split at h
        · rename_i hc
          obtain ⟨rfl, rfl, h1⟩ := hc
          cases h
          exact .fixed hr hs h1
        · cases h
      · cases h
    · rename_i hs
      split at h
      · split at h
        · rename_i hc
          obtain ⟨rfl, h1⟩ := hc
          cases h
          exact .hash hr hs h1
        · cases h
      · cases h
    · rename_i hs
      split at h
      · split at h
        · rename_i hc
          obtain ⟨rfl, h1⟩ := hc
          cases h
          exact .era hr hs (eraOk_iff.1 h1)
        · cases h
      · cases h
    · rename_i k hs
      split at h
      · split at h
        · rename_i x hc
          obtain ⟨rfl, h1⟩ := hc
          cases h
          cases c
          · exact .per hr hs h1
          · have := Enc.perCompact (v := x) hr hs (Nat.lt_of_le_of_lt h1 (accuracy_fits _))
            rw [Nat.min_eq_left h1] at this
            exact this
        · cases h
      · cases h
    · rename_i g1 g2 g3 g4
      have hs : Structural t.path := by
        unfold Structural
        split
        · rename_i k hk; exact g1 k hk
        · rename_i hk; exact g3 hk
        · rename_i hk; exact g2 hk
        · rename_i k hk; exact g4 k hk
        · trivial
      exact byDef_sound (fun _ _ _ _ => encode_sound) hr hs h

/-! ### Every value is written -/

/-- From some depth on, the value is written. -/
def Written (R : Registry) (c : Bool) (id : Nat) (v : Value) : Prop :=
  ∃ n0, ∀ n, n0 ≤ n → ∃ bs, Encoder.encode R n c id v = some bs

theorem encode_byDef {n : Nat} {c : Bool} {id : Nat} {t : Typ} {v : Value} (hr : R.resolve id = .ok t)
    (hs : Structural t.path) : Encoder.encode R (n + 1) c id v = Encoder.byDef R n (Encoder.encode R n) c t v := by
  show (match R.resolve id with | .error _ => none | .ok t => _) = _
  rw [hr]
  dsimp only
  unfold Structural at hs
  split
  · rename_i h; rw [h] at hs; exact hs.elim
  · rename_i h; rw [h] at hs; exact hs.elim
  · rename_i h; rw [h] at hs; exact hs.elim
  · rename_i h; rw [h] at hs; exact hs.elim
  · rfl

/-- One level up. -/
theorem written_of {c : Bool} {id : Nat} {t : Typ} {v : Value} (hr : R.resolve id = .ok t) (hs : Structural t.path)
    (h : ∃ n0, ∀ n, n0 ≤ n → ∃ bs, Encoder.byDef R n (Encoder.encode R n) c t v = some bs) : Written R c id v := by
  obtain ⟨n0, h⟩ := h
  refine ⟨n0 + 1, fun n hn => ?_⟩
  obtain ⟨m, rfl⟩ : ∃ m, n = m + 1 := ⟨n - 1, by omega⟩
  obtain ⟨bs, hb⟩ := h m (by omega)
  exact ⟨bs, (encode_byDef hr hs).trans hb⟩

theorem typed_written {c : Bool} {id : Nat} {v : Value} (h : Typed R c id v) : Written R c id v := by
  induction h with
  | fixed h1 h2 h3 =>
    refine ⟨1, fun n hn => ?_⟩
    obtain ⟨m, rfl⟩ : ∃ m, n = m + 1 := ⟨n - 1, by omega⟩
    unfold Encoder.encode
    rw [h1]; dsimp only; rw [h2]; dsimp only
    exact ⟨_, if_pos ⟨rfl, rfl, h3⟩⟩
  | hash h1 h2 h3 =>
    refine ⟨1, fun n hn => ?_⟩
    obtain ⟨m, rfl⟩ : ∃ m, n = m + 1 := ⟨n - 1, by omega⟩
    unfold Encoder.encode
    rw [h1]; dsimp only; rw [h2]; dsimp only
    exact ⟨_, if_pos ⟨rfl, h3⟩⟩
  | era h1 h2 h3 =>
    refine ⟨1, fun n hn => ?_⟩
    obtain ⟨m, rfl⟩ : ∃ m, n = m + 1 := ⟨n - 1, by omega⟩
    unfold Encoder.encode
    rw [h1]; dsimp only; rw [h2]; dsimp only
    exact ⟨_, if_pos ⟨rfl, eraOk_iff.2 h3⟩⟩
  | per h1 h2 h3 =>
    refine ⟨1, fun n hn => ?_⟩
    obtain ⟨m, rfl⟩ : ∃ m, n = m + 1 := ⟨n - 1, by omega⟩
    unfold Encoder.encode
    rw [h1]; dsimp only; rw [h2]; dsimp only
    exact ⟨_, if_pos ⟨rfl, h3⟩⟩
  | newtype h1 h2 h3 _ ih =>
    refine written_of h1 h2 ?_
    obtain ⟨n0, ih⟩ := ih
    refine ⟨n0, fun n hn => ?_⟩
    unfold Encoder.byDef
    rw [h3]
    exact ih n hn
  | unit h1 h2 h3 =>
    refine written_of h1 h2 ⟨0, fun n _ => ?_⟩
    unfold Encoder.byDef
    rw [h3]
    exact ⟨_, if_pos (.inr rfl)⟩
  | record h1 h2 h3 h4 h5 _ ih =>
    rename_i fs vs _
    refine written_of h1 h2 ?_
    obtain ⟨n0, ih⟩ := eventually_all ih
    refine ⟨n0, fun n hn => ?_⟩
    unfold Encoder.byDef
    rw [h3]
    split
    · rename_i f hd
      cases hd
      exact absurd h4 (by simp)
    · rename_i hd
      cases hd
      dsimp only
      rw [if_pos (.inl rfl)]
      exact fields_total h5 (ih n hn)
    all_goals (rename_i hd; cases hd)
  | never h1 h2 h3 =>
    refine written_of h1 h2 ⟨0, fun n _ => ?_⟩
    unfold Encoder.byDef
    rw [h3]
    exact ⟨[], rfl⟩
  | variant h1 h2 h3 h4 h5 h6 h7 h8 ih =>
    rename_i u i vs
    refine written_of h1 h2 ?_
    cases selects_index h4
    obtain ⟨n0, ih⟩ := eventually_all ih
    have hk : ∀ f ∈ u.fields, Known R f.ty := by
      intro f hf
      obtain ⟨j, hj⟩ := List.getElem?_of_mem hf
      have hjl : j < vs.length := by
        rw [h7]
        exact (List.getElem?_eq_some_iff.1 hj).1
      obtain ⟨c', t, k, m, hc⟩ := typed_core (h8 (f.ty, vs[j]) (by
        refine List.mem_of_getElem? (i := j) ?_
        rw [List.getElem?_zip_eq_some]
        exact ⟨by rw [List.getElem?_map, hj]; rfl, List.getElem?_eq_getElem hjl⟩))
      exact ⟨_, _, _, _, hc⟩
    obtain ⟨n1, hsig⟩ := signature_total h3 h4 h5 hk
    refine ⟨max n0 n1, fun n hn => ?_⟩
    unfold Encoder.byDef
    rw [h3]
    obtain ⟨bs, hb⟩ := fields_total h7 (ih n (by omega))
    refine findSome_total (selects_mem h4).1 (b := u.index :: bs) ?_
    rw [if_pos ⟨rfl, selected_iff.2 h4, hsig n (by omega), (palletOf_none h3 h4).2 h6⟩, hb]
    rfl
  | signature h1 h2 h3 =>
    refine written_of h1 (by unfold Structural; rw [h2.1]; trivial) ?_
    have h2' := h2
    obtain ⟨_, us, u, f, hd, hu, _, _⟩ := h2
    cases selects_index hu
    obtain ⟨n0, hsig⟩ := signature_eq hd hu h2'
    refine ⟨n0, fun n hn => ?_⟩
    unfold Encoder.byDef
    rw [hd]
    exact findSome_total (selects_mem hu).1 (if_pos ⟨h3, selected_iff.2 hu, hsig n hn⟩)
  | pallet h1 h2 h3 h4 _ ih =>
    rename_i inner w i j item name vs _
    refine written_of h1 (by unfold Structural; rw [h2.1]; trivial) ?_
    have h2' := h2
    obtain ⟨_, us, u, f, t', hd, hu, hname, _⟩ := h2
    cases selects_index hu
    cases hname
    obtain ⟨n0, ih⟩ := eventually_all ih
    refine ⟨n0, fun n hn => ?_⟩
    unfold Encoder.byDef
    rw [hd]
    cases selects_index h3
    obtain ⟨bs, hb⟩ := fields_total h4 (ih n hn)
    obtain ⟨b', hb'⟩ := findSome_total (f := fun w' =>
        if w'.name = w.name ∧ Encoder.selected inner w' then
          (Encoder.fields (Encoder.encode R n false) w'.fields (named w.fields vs)).map (u.index :: w'.index :: ·) else none)
      (selects_mem h3).1 (b := u.index :: w.index :: bs)
      (by rw [if_pos ⟨rfl, selected_iff.2 h3⟩, hb]; rfl)
    refine findSome_total (selects_mem hu).1 (b := b') ?_
    rw [if_pos ⟨rfl, selected_iff.2 hu⟩, (palletOf_iff hd hu).2 h2']
    dsimp only
    rw [if_pos rfl]
    exact hb'
  | sequence h1 h2 h3 h4 h5 _ ih =>
    refine written_of h1 h2 ?_
    obtain ⟨n0, ih⟩ := eventually_all ih
    obtain ⟨n1, hk⟩ := known_coreOf h4
    refine ⟨max n0 n1, fun n hn => ?_⟩
    unfold Encoder.byDef
    rw [h3]
    dsimp only
    rw [if_pos ⟨rfl, hk n (by omega), h5⟩]
    obtain ⟨bs, hb⟩ := elements_total (ih n (by omega))
    rw [hb]
    exact ⟨_, rfl⟩
  | array h1 h2 h3 h4 _ ih =>
    refine written_of h1 h2 ?_
    obtain ⟨n0, ih⟩ := eventually_all ih
    obtain ⟨n1, hk⟩ := known_coreOf h4
    refine ⟨max n0 n1, fun n hn => ?_⟩
    unfold Encoder.byDef
    rw [h3]
    dsimp only
    rw [if_pos ⟨rfl, hk n (by omega), rfl⟩]
    exact elements_total (ih n (by omega))
  | tuple h1 h2 h3 h4 h5 _ ih =>
    rename_i ids vs _
    refine written_of h1 h2 ?_
    obtain ⟨n0, ih⟩ := eventually_all ih
    refine ⟨n0, fun n hn => ?_⟩
    unfold Encoder.byDef
    rw [h3]
    dsimp only
    rw [if_pos (by
      rcases Nat.lt_or_ge ids.length 2 with h | h
      · exact .inr h
      · exact .inl (h4 h))]
    exact parts_total h5 (ih n hn)
  | primitive h1 h2 h3 h4 =>
    refine written_of h1 h2 ⟨0, fun n _ => ?_⟩
    unfold Encoder.byDef
    rw [h3]
    exact prim_total h4
  | compact h1 h2 h3 _ ih =>
    refine written_of h1 h2 ?_
    obtain ⟨n0, ih⟩ := ih
    refine ⟨n0, fun n hn => ?_⟩
    unfold Encoder.byDef
    rw [h3]
    exact ih n hn
  | bits h1 h2 h3 h4 h5 h6 =>
    refine written_of h1 h2 ⟨0, fun n _ => ?_⟩
    unfold Encoder.byDef
    rw [h3]
    exact ⟨_, if_pos ⟨rfl, bitOrder_iff.2 h4, bitStore_iff.2 h5, h6⟩⟩

end Encoder'

end Verif
