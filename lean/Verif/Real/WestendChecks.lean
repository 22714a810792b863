import Verif.Real.Westend
import Verif.Props.Checkers
import Verif.Props.Target32
/-!
# The types of Westend 9111 are as the theorems assume

The checks of `Spec/Checkers.lean`, run by the kernel on all 597 types of the metadata of the crate's documentation.
-/
namespace Verif.Westend
open Spec

/-- No two of the list are equal. -/
def apart {α : Type} [DecidableEq α] : List α → Bool
  | [] => true
  | a :: l => l.all (fun b => !decide (a = b)) && apart l

/-- The variants of the enums. -/
def enums (ts : List Typ) : List (List Variant) :=
  ts.filterMap fun t => match t.typeDef with | .variant vs => some vs | _ => none

theorem apart_distinct {α : Type} [DecidableEq α] {key : Variant → α} : ∀ {vs : List Variant}, apart (vs.map key) = true →
    ∀ v ∈ vs, ∀ w ∈ vs, key v = key w → v = w
  | [], _, _, hv, _, _, _ => by cases hv
  | a :: l, h, v, hv, w, hw, e => by
    simp only [List.map_cons, apart, Bool.and_eq_true, List.all_eq_true, List.mem_map, Bool.not_eq_true', decide_eq_false_iff_not,
      forall_exists_index, and_imp, forall_apply_eq_imp_iff₂] at h
    rcases List.mem_cons.1 hv with rfl | hv' <;> rcases List.mem_cons.1 hw with rfl | hw'
    · rfl
    · exact absurd e (h.1 w hw')
    · exact absurd e.symm (h.1 v hv')
    · exact apart_distinct h.2 v hv' w hw' e

theorem enums_mem {ts : List Typ} {id : Nat} {t : Typ} {vs : List Variant} (h : (Registry.portable ts).resolve id = .ok t)
    (hd : t.typeDef = .variant vs) : vs ∈ enums ts := by
  refine List.mem_filterMap.2 ⟨t, portable_typ h, ?_⟩
  rw [hd]

/-- The bytes of a text as one number. -/
def code (s : String) : Nat := s.toByteArray.data.toList.foldr (fun b n => b.toNat + 256 * n) 1

theorem bytes_pos : ∀ l : List UInt8, 1 ≤ l.foldr (fun b n => b.toNat + 256 * n) 1
  | [] => Nat.le_refl _
  | b :: l => by have := bytes_pos l; simp only [List.foldr_cons]; omega

theorem bytes_inj : ∀ {l m : List UInt8},
    l.foldr (fun b n => b.toNat + 256 * n) 1 = m.foldr (fun b n => b.toNat + 256 * n) 1 → l = m
  | [], [], _ => rfl
  | [], c :: m, h => by have := bytes_pos m; simp only [List.foldr_cons, List.foldr_nil] at h; omega
  | b :: l, [], h => by have := bytes_pos l; simp only [List.foldr_cons, List.foldr_nil] at h; omega
  | b :: l, c :: m, h => by
    have hb := b.toNat_lt
    have hc := c.toNat_lt
    simp only [List.foldr_cons] at h
    obtain rfl : b = c := UInt8.toNat_inj.1 (by omega)
    rw [bytes_inj (l := l) (m := m) (by omega)]

theorem code_inj {s t : String} (h : code s = code t) : s = t :=
  String.toByteArray_inj.1 (ByteArray.ext (Array.toList_inj.1 (bytes_inj h)))

theorem names_apart : (enums types).all (fun vs => apart (vs.map (fun v => code v.name))) = true := by decide +kernel
theorem indices_apart : (enums types).all (fun vs => apart (vs.map (·.index.toNat))) = true := by decide +kernel

/-- The registry of Westend. -/
abbrev registry : Registry := .portable types

/-- Variants of an enum have different names. -/
theorem namesDistinct : NamesDistinct registry := fun _ _ _ h hd v hv w hw e =>
  apart_distinct (List.all_eq_true.1 names_apart _ (enums_mem h hd)) v hv w hw (by rw [e])

/-- Variants of an enum have different indices. -/
theorem indicesDistinct : IndicesDistinct registry := fun _ _ _ h hd v hv w hw e =>
  apart_distinct (List.all_eq_true.1 indices_apart _ (enums_mem h hd)) v hv w hw (by rw [e])

theorem signaturesDistinct : SignaturesDistinct registry := signaturesDistinct_check (by decide +kernel)
theorem leavesNameless : LeavesNameless registry := (leavesNameless_check (by decide +kernel)).1
theorem noCompactArray : NoCompactArray registry := noCompactArray_check (by decide +kernel)
theorem emptyArraysGrounded : EmptyArraysGrounded registry := emptyArrays_check (by decide +kernel)
theorem solidVectors : SolidVectors registry := solidVectors_check (by decide +kernel)
theorem noU64Bits : ¬ HasU64Bits registry := noU64Bits_check (by decide +kernel)

/-- How deep the type is nested. -/
def rank (id : Nat) : Nat := ranks.getD id 0

theorem ranked : Ranked registry rank := ranked_check (by decide +kernel)

end Verif.Westend
