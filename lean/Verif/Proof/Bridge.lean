import Verif.Proof.Fix
import Verif.Spec.Meaning
/-!
Helpers of the model against the vocabulary of the specification.
-/
namespace Verif
open Spec

variable {R : Registry}

/-! ### Sequences -/

theorem huskUInts_values {w : UW} {l : List PD} {vs : List Nat} (h : huskUInts w l = some vs) :
    vs.map (Value.uint w) = pdsValue l := by
  induction l generalizing vs with
  | nil => simp [huskUInts] at h; subst h; rfl
  | cons d ds ih =>
    unfold huskUInts at h
    split at h
    · rename_i heq; cases heq
    · rename_i heq
      cases heq
      split at h
      · rename_i hw; subst hw
        cases hh : huskUInts _ ds with
        | none => rw [hh] at h; cases h
        | some vs' =>
          rw [hh] at h
          simp at h; subst h
          rw [List.map_cons, ih hh]; rfl
      · cases h
    · cases h

theorem huskVecU8_values {l : List PD} {i : Option (List Info)} {r : List (List Nat) × Option (List Info)}
    (h : huskVecU8 i l = some r) :
    r.1.map (fun x => Value.seq (x.map (Value.uint .u8))) = pdsValue l := by
  induction l generalizing i r with
  | nil => simp [huskVecU8] at h; subst h; rfl
  | cons d ds ih =>
    unfold huskVecU8 at h
    split at h
    · rename_i heq; cases heq
    · rename_i a rest heq
      cases heq
      split at h
      · split at h
        · cases h
        · obtain ⟨r', h1, h2⟩ := Option.map_eq_some_iff.1 h
          subst h2
          simp only [List.map_cons, pdsValue, ← ih h1]; rfl
      · obtain ⟨r', h1, h2⟩ := Option.map_eq_some_iff.1 h
        subst h2
        simp only [List.map_cons, pdsValue, ← ih h1]; rfl
    · rename_i heq
      cases heq
      obtain ⟨r', h1, h2⟩ := Option.map_eq_some_iff.1 h
      subst h2
      simp only [List.map_cons, pdsValue, ← ih h1]; rfl
    · cases h

/-- The shortcut forms of sequences keep every element. -/
theorem wrapSequence_values {l : List PD} {s : Sequence} (h : wrapSequence l = some s) :
    sequenceValues s = pdsValue l := by
  unfold wrapSequence at h
  split at h
  · obtain ⟨vs, h1, rfl⟩ := Option.map_eq_some_iff.1 h
    exact huskUInts_values h1
  · obtain ⟨vs, h1, rfl⟩ := Option.map_eq_some_iff.1 h
    exact huskVecU8_values h1
  · cases h

theorem seqData_value (h : HuskedType) (l : List PD) : pdValue (seqData h l) = .seq (pdsValue l) := by
  unfold seqData
  cases hw : wrapSequence l with
  | none => rfl
  | some s => simp only [pdValue, wrapSequence_values hw]

/-! ### Special types -/

/-- The specification's name of a hinted type. -/
def TypeHinted.toSpecial : TypeHinted → Option Special
  | .none => Option.none
  | .fixed k => some (.fixed k)
  | .era => some .era
  | .h256 => some .hash
  | .multiSignature => some .multiSignature
  | .palletSpecific i => some (.pallet i)
  | .perThing k => some (.per k)
  | .uncheckedExtrinsic => some .extrinsic

theorem append_single_beq (ns ns' : List String) (a a' : String) :
    ((ns ++ [a]) == (ns' ++ [a'])) = (decide (a = a') && decide (ns = ns')) := by
  by_cases h : ns ++ [a] = ns' ++ [a']
  · obtain ⟨h1, h2⟩ := List.append_inj' h rfl
    simp at h2
    simp [h1, h2]
  · have : ¬ (a = a' ∧ ns = ns') := by rintro ⟨rfl, rfl⟩; exact h rfl
    rw [beq_eq_false_iff_ne.2 h, ← Bool.decide_and, decide_eq_false this]

theorem append_beq3 (ns : List String) (a x y z : String) :
    ((ns ++ [a]) == [x, y, z]) = (decide (a = z) && decide (ns = [x, y])) :=
  append_single_beq ns [x, y] a z

theorem append_beq4 (ns : List String) (a x y z w : String) :
    ((ns ++ [a]) == [x, y, z, w]) = (decide (a = w) && decide (ns = [x, y, z])) :=
  append_single_beq ns [x, y, z] a w

theorem special_eq (t : Typ) : special t.path = (TypeHinted.fromType t).toSpecial := by
  obtain ⟨path, params, td, docs⟩ := t
  show special path = _
  rcases List.eq_nil_or_concat path with rfl | ⟨ns, a, rfl⟩
  · rfl
  · rw [List.concat_eq_append]
    unfold special specialByPath TypeHinted.fromType Typ.ident Typ.namespace
    simp only [List.lookup, append_beq3, append_beq4, List.getLast?_append, List.getLast?_singleton,
      Option.some_or, List.dropLast_concat, Option.bind_some, specialByName]
    by_cases hP : a = "Public"
    · subst hP
      by_cases h1 : ns = ["sp_core", "ed25519"]
      · subst h1; rfl
      by_cases h2 : ns = ["sp_core", "sr25519"]
      · subst h2; rfl
      by_cases h3 : ns = ["sp_core", "ecdsa"]
      · subst h3; rfl
      simp [h1, h2, h3, TypeHinted.toSpecial]
    by_cases hS : a = "Signature"
    · subst hS
      by_cases h1 : ns = ["sp_core", "ed25519"]
      · subst h1; rfl
      by_cases h2 : ns = ["sp_core", "sr25519"]
      · subst h2; rfl
      by_cases h3 : ns = ["sp_core", "ecdsa"]
      · subst h3; rfl
      simp [h1, h2, h3, TypeHinted.toSpecial]
    by_cases hU : a = "UncheckedExtrinsic"
    · subst hU
      by_cases h1 : ns = ["sp_runtime", "generic", "unchecked_extrinsic"]
      · subst h1; rfl
      simp [h1, TypeHinted.toSpecial]
    simp only [hP, hS, hU, decide_false, Bool.false_and]
    have hb : ∀ s : String, (a == s) = decide (a = s) := fun s => rfl
    simp only [hb]
    by_cases g1 : a = "AccountId32"; · subst g1; rfl
    by_cases g2 : a = "AccountId20"; · subst g2; rfl
    by_cases g3 : a = "H160"; · subst g3; rfl
    by_cases g4 : a = "H256"; · subst g4; rfl
    by_cases g5 : a = "H512"; · subst g5; rfl
    by_cases g6 : a = "Era"; · subst g6; rfl
    by_cases g7 : a = "MultiSignature"; · subst g7; rfl
    by_cases g8 : a = "Call"; · subst g8; rfl
    by_cases g9 : a = "RuntimeCall"; · subst g9; rfl
    by_cases g10 : a = "Event"; · subst g10; rfl
    by_cases g11 : a = "RuntimeEvent"; · subst g11; rfl
    by_cases g12 : a = "Percent"; · subst g12; rfl
    by_cases g13 : a = "PerU16"; · subst g13; rfl
    by_cases g14 : a = "Permill"; · subst g14; rfl
    by_cases g15 : a = "Perbill"; · subst g15; rfl
    by_cases g16 : a = "Perquintill"; · subst g16; rfl
    simp [g1, g2, g3, g4, g5, g6, g7, g8, g9, g10, g11, g12, g13, g14, g15, g16, TypeHinted.toSpecial]

theorem hinted_none {t : Typ} : TypeHinted.fromType t = .none ↔ special t.path = none := by
  rw [special_eq]; cases TypeHinted.fromType t <;> simp [TypeHinted.toSpecial]
theorem hinted_fixed {t : Typ} {k : FixedKind} :
    TypeHinted.fromType t = .fixed k ↔ special t.path = some (.fixed k) := by
  rw [special_eq]; cases TypeHinted.fromType t <;> simp [TypeHinted.toSpecial]
theorem hinted_era {t : Typ} : TypeHinted.fromType t = .era ↔ special t.path = some .era := by
  rw [special_eq]; cases TypeHinted.fromType t <;> simp [TypeHinted.toSpecial]
theorem hinted_h256 {t : Typ} : TypeHinted.fromType t = .h256 ↔ special t.path = some .hash := by
  rw [special_eq]; cases TypeHinted.fromType t <;> simp [TypeHinted.toSpecial]
theorem hinted_multi {t : Typ} :
    TypeHinted.fromType t = .multiSignature ↔ special t.path = some .multiSignature := by
  rw [special_eq]; cases TypeHinted.fromType t <;> simp [TypeHinted.toSpecial]
theorem hinted_pallet {t : Typ} {i : PalletItem} :
    TypeHinted.fromType t = .palletSpecific i ↔ special t.path = some (.pallet i) := by
  rw [special_eq]; cases TypeHinted.fromType t <;> simp [TypeHinted.toSpecial]
theorem hinted_per {t : Typ} {k : PerKind} :
    TypeHinted.fromType t = .perThing k ↔ special t.path = some (.per k) := by
  rw [special_eq]; cases TypeHinted.fromType t <;> simp [TypeHinted.toSpecial]
theorem hinted_open {t : Typ} : (TypeHinted.fromType t).open = true ↔ Structural t.path := by
  unfold Structural
  rw [special_eq]; cases TypeHinted.fromType t <;> simp [TypeHinted.toSpecial, TypeHinted.open]

/-! ### Registry and variants -/

theorem get_ok {id : Nat} {t : Typ} : R.get id = .ok t ↔ R.resolve id = .ok t := by
  unfold Registry.get
  cases R.resolve id <;> simp

theorem find_selects {vs : List Variant} {i : UInt8} {v : Variant} :
    vs.find? (fun v => v.index == i) = some v ↔ Selects vs i v := by
  rw [List.find?_eq_some_iff_append]
  unfold Selects
  simp only [beq_iff_eq, Bool.not_eq_true', beq_eq_false_iff_ne, ne_eq]
  constructor
  · rintro ⟨h1, as, bs, h2, h3⟩; exact ⟨as, bs, h2, h1, h3⟩
  · rintro ⟨as, bs, h2, h1, h3⟩; exact ⟨h1, as, bs, h2, h3⟩

theorem Spec.Selects.unique {vs : List Variant} {i : UInt8} {v v' : Variant} (h : Selects vs i v)
    (h' : Selects vs i v') : v = v' := by
  have := (find_selects.2 h).symm.trans (find_selects.2 h')
  simpa using this

end Verif
