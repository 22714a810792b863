import Verif.Proof.HuskBridge
/-!
A ranking of types that goes down from each type that does not contain itself to its direct parts, and along
single-field structs and compacts whatever the type.
-/
namespace Verif
open Spec

variable {R : Registry}

/-- `Grounded` within `n` steps. -/
def GroundedIn (R : Registry) : Nat → Nat → Prop
  | 0, _ => False
  | n + 1, id => ∀ t, R.resolve id = .ok t → Structural t.path → ∀ i ∈ TypeDef.directIds t.typeDef, GroundedIn R n i

theorem GroundedIn.up {n : Nat} : ∀ {id : Nat}, GroundedIn R n id → GroundedIn R (n + 1) id := by
  induction n with
  | zero => intro id h; exact h.elim
  | succ n ih => intro id h t ht hs i hi; exact ih (h t ht hs i hi)

theorem GroundedIn.le {n m : Nat} (h : n ≤ m) {id : Nat} (hg : GroundedIn R n id) : GroundedIn R m id := by
  induction h with
  | refl => exact hg
  | step _ ih => exact ih.up

theorem GroundedIn.all {l : List Nat} (h : ∀ i ∈ l, ∃ n, GroundedIn R n i) : ∃ n, ∀ i ∈ l, GroundedIn R n i := by
  induction l with
  | nil => exact ⟨0, by simp⟩
  | cons a l ih =>
    obtain ⟨n, hn⟩ := ih (fun i hi => h i (by simp [hi]))
    obtain ⟨m, hm⟩ := h a (by simp)
    refine ⟨n + m, fun i hi => ?_⟩
    rcases List.mem_cons.1 hi with rfl | hi
    · exact hm.le (by omega)
    · exact (hn i hi).le (by omega)

theorem Spec.Grounded.within {id : Nat} (h : Grounded R id) : ∃ n, GroundedIn R n id := by
  induction h with
  | @mk id h ih =>
    cases hr : R.resolve id with
    | error e => exact ⟨1, fun t ht => by rw [hr] at ht; cases ht⟩
    | ok t =>
      by_cases hs : Structural t.path
      · obtain ⟨n, hn⟩ := GroundedIn.all (ih t hr hs)
        exact ⟨n + 1, fun t' ht' _ => by rw [hr] at ht'; cases ht'; exact hn⟩
      · exact ⟨1, fun t' ht' hs' => by rw [hr] at ht'; cases ht'; exact absurd hs' hs⟩

theorem exists_least {P : Nat → Prop} (h : ∃ n, P n) : ∃ n, P n ∧ ∀ m, P m → n ≤ m := by
  obtain ⟨n, hn⟩ := h
  induction n using Nat.strongRecOn with
  | ind n ih =>
    by_cases hlt : ∃ m, m < n ∧ P m
    · obtain ⟨m, h1, h2⟩ := hlt
      exact ih m h1 h2
    · refine ⟨n, hn, fun m hm => ?_⟩
      by_cases h : n ≤ m
      · exact h
      · exact absurd ⟨m, by omega, hm⟩ hlt

/-- The number of wrappers does not depend on where one starts. -/
theorem Spec.Core.count {c c' : Bool} {id coreId k : Nat} {core : Typ} (h : Core R c id c' core coreId k) :
    ∀ {d d' : Bool} {coreId' k' : Nat} {core' : Typ}, Core R d id d' core' coreId' k' → k = k' := by
  induction h with
  | stop hr hs =>
    intro d d' i k' co h'
    cases h' with
    | stop _ _ => rfl
    | struct h1 h2 h3 _ => rw [hr] at h1; cases h1; exact absurd h3 ((hs h2).1 _)
    | compact h1 h2 h3 _ => rw [hr] at h1; cases h1; exact absurd h3 ((hs h2).2 _)
  | struct hr hs hd _ ih =>
    intro d d' i k' co h'
    cases h' with
    | stop h1 h2 => rw [hr] at h1; cases h1; exact absurd hd ((h2 hs).1 _)
    | struct h1 h2 h3 h4 => rw [hr] at h1; cases h1; rw [hd] at h3; cases h3; rw [ih h4]
    | compact h1 h2 h3 _ => rw [hr] at h1; cases h1; rw [hd] at h3; cases h3
  | compact hr hs hd _ ih =>
    intro d d' i k' co h'
    cases h' with
    | stop h1 h2 => rw [hr] at h1; cases h1; exact absurd hd ((h2 hs).2 _)
    | struct h1 h2 h3 h4 => rw [hr] at h1; cases h1; rw [hd] at h3; cases h3
    | compact h1 h2 h3 h4 => rw [hr] at h1; cases h1; rw [hd] at h3; cases h3; rw [ih h4]

/-- A ranking that goes down from grounded types to their parts, and along wrappers. -/
structure Falling (R : Registry) (rk : Nat → Nat) : Prop where
  down : Down R rk
  part : ∀ {id : Nat} {t : Typ} {i : Nat}, Grounded R id → R.resolve id = .ok t → Structural t.path →
    i ∈ TypeDef.directIds t.typeDef → rk i < rk id

theorem structural_none {p : List String} (h : special p = none) : Structural p := by
  unfold Structural; rw [h]; trivial

theorem exists_falling (R : Registry) : ∃ rk, Falling R rk := by
  have h : ∀ id, ∃ n : Nat, (Grounded R id → GroundedIn R n id ∧ ∀ m, GroundedIn R m id → n ≤ m) ∧
      (¬ Grounded R id → ∀ {c c' core coreId k}, Core R c id c' core coreId k → k = n) := by
    intro id
    by_cases hg : Grounded R id
    · obtain ⟨n, hn⟩ := exists_least hg.within
      exact ⟨n, fun _ => hn, fun h => absurd hg h⟩
    · by_cases hc : ∃ c c' core coreId k, Core R c id c' core coreId k
      · obtain ⟨_, _, _, _, k, hc⟩ := hc
        exact ⟨k, fun h => absurd h hg, fun _ {c c' core coreId k'} h => h.count hc⟩
      · exact ⟨0, fun h => absurd h hg, fun _ {c c' core coreId k'} h => absurd ⟨_, _, _, _, _, h⟩ hc⟩
  obtain ⟨rk, hrk⟩ : ∃ rk : Nat → Nat, ∀ id, (Grounded R id → GroundedIn R (rk id) id ∧ ∀ m, GroundedIn R m id → rk id ≤ m) ∧
      (¬ Grounded R id → ∀ {c c' core coreId k}, Core R c id c' core coreId k → k = rk id) :=
    ⟨fun id => Classical.choose (h id), fun id => Classical.choose_spec (h id)⟩
  have hpart : ∀ {id : Nat} {t : Typ} {i : Nat}, Grounded R id → R.resolve id = .ok t → Structural t.path →
      i ∈ TypeDef.directIds t.typeDef → rk i < rk id := by
    intro id t i hg hr hs hi
    obtain ⟨h1, _⟩ := (hrk id).1 hg
    have hgi : Grounded R i := by cases hg with | mk h => exact h t hr hs i hi
    generalize rk id = n at h1
    cases n with
    | zero => exact h1.elim
    | succ n =>
      have := ((hrk i).1 hgi).2 n (h1 t hr hs i hi)
      omega
  have hwrap : ∀ {id i : Nat} {t : Typ} {c c' d d' : Bool} {co co' : Typ} {ci ci' k : Nat}, R.resolve id = .ok t →
      Structural t.path → TypeDef.directIds t.typeDef = [i] →
      Core R c id c' co ci (k + 1) → Core R d i d' co' ci' k → rk i < rk id := by
    intro id i t c c' d d' co co' ci ci' k hr hs hd h1 h2
    by_cases hg : Grounded R id
    · exact hpart hg hr hs (by rw [hd]; simp)
    · have hgi : ¬ Grounded R i := by
        intro hi
        refine hg (.mk (fun t' ht' _ j hj => ?_))
        rw [hr] at ht'; cases ht'
        rw [hd] at hj; simp at hj; subst hj; exact hi
      have := (hrk id).2 hg h1
      have := (hrk i).2 hgi h2
      omega
  refine ⟨rk, ⟨?_, ?_⟩, hpart⟩
  · intro id t f c c' core coreId k hr hs hd hc
    exact hwrap hr (structural_none hs) (by rw [hd]; rfl) (.struct hr hs hd hc) hc
  · intro id t i c' core coreId k hr hs hd hc
    exact hwrap hr (structural_none hs) (by rw [hd]; rfl) (.compact hr hs hd hc) hc

/-- A type with a value does not contain itself without an enum or a vector in between. -/
theorem enc_grounded (he : EmptyArraysGrounded R) {c : Bool} {id : Nat} {v : Value} {bs : Bytes}
    (h : Enc R c id v bs) : Grounded R id := by
  have hzip : ∀ {ids : List Nat} {ps : Parts} {i : Nat}, ps.length = ids.length → i ∈ ids → ∃ q, (i, q) ∈ ids.zip ps := by
    intro ids ps i hl hi
    obtain ⟨j, h1, rfl⟩ := List.mem_iff_getElem.1 hi
    exact ⟨ps[j]'(by omega), List.mem_iff_getElem.2 ⟨j, by simp [hl]; omega, by simp⟩⟩
  have leaf : ∀ {id : Nat} {t : Typ}, R.resolve id = .ok t → TypeDef.directIds t.typeDef = [] → Grounded R id := by
    intro id t hr hd
    refine .mk (fun t' ht' _ i hi => ?_)
    rw [hr] at ht'; cases ht'
    rw [hd] at hi; cases hi
  have known : ∀ {id : Nat} {t : Typ}, R.resolve id = .ok t → ¬ Structural t.path → Grounded R id := by
    intro id t hr hs
    refine .mk (fun t' ht' hs' i hi => ?_)
    rw [hr] at ht'; cases ht'
    exact absurd hs' hs
  induction h with
  | fixed hr hs _ | era hr hs _ | hash hr hs _ | per hr hs _ | perCompact hr hs _ =>
    exact known hr (by unfold Structural; rw [hs]; exact fun h => h)
  | newtype hr hs hd _ ih =>
    refine .mk (fun t' ht' _ i hi => ?_)
    rw [hr] at ht'; cases ht'
    rw [hd] at hi; simp [TypeDef.directIds] at hi; subst hi; exact ih
  | unit hr hs hd => exact leaf hr (by rw [hd]; rfl)
  | record hr hs hd _ hl _ ih =>
    refine .mk (fun t' ht' _ i hi => ?_)
    rw [hr] at ht'; cases ht'
    rw [hd] at hi
    obtain ⟨q, hq⟩ := hzip (by rw [hl, List.length_map]) (show i ∈ List.map _ _ from hi)
    exact ih _ hq
  | never hr hs hd | variant hr hs hd _ _ _ _ _ | sequence hr hs hd _ _ _ | primitive hr hs hd _
  | bits hr hs hd _ _ _ => exact leaf hr (by rw [hd]; rfl)
  | signature hr h2 _ => obtain ⟨_, vs, v, f, hd, _⟩ := h2; exact leaf hr (by rw [hd]; rfl)
  | pallet hr h2 _ _ _ => obtain ⟨_, vs, v, f, t', hd, _⟩ := h2; exact leaf hr (by rw [hd]; rfl)
  | @array id t elem ps hr hs hd hkn _ ih =>
    refine .mk (fun t' ht' _ i hi => ?_)
    rw [hr] at ht'; cases ht'
    rw [hd] at hi; simp [TypeDef.directIds] at hi; subst hi
    cases ps with
    | nil => exact he _ _ _ hr hs hd
    | cons q ps => exact ih q (by simp)
  | tuple hr hs hd _ hl _ ih =>
    refine .mk (fun t' ht' _ i hi => ?_)
    rw [hr] at ht'; cases ht'
    rw [hd] at hi
    obtain ⟨q, hq⟩ := hzip hl hi
    exact ih _ hq
  | compact hr hs hd _ ih =>
    refine .mk (fun t' ht' _ i hi => ?_)
    rw [hr] at ht'; cases ht'
    rw [hd] at hi; simp [TypeDef.directIds] at hi; subst hi; exact ih

/-- In a ranked registry no type contains itself without an enum or a vector in between. -/
theorem Spec.Ranked.grounded {rk : Nat → Nat} (h : Ranked R rk) (id : Nat) : Grounded R id := by
  generalize hn : rk id = n
  induction n using Nat.strongRecOn generalizing id with
  | ind n ih =>
    subst hn
    refine .mk (fun t ht _ i hi => ih (rk i) ?_ i rfl)
    have h1 := h id t ht
    cases hd : t.typeDef <;> rw [hd] at hi <;> simp only [TypeDef.directIds] at hi
    case composite fs =>
      obtain ⟨f, hf, rfl⟩ := List.mem_map.1 hi
      exact h1.1 _ hd f hf
    case tuple ids => exact h1.2.1 _ hd i hi
    case array n e => simp at hi; subst hi; exact h1.2.2.1 _ _ hd
    case compact e => simp at hi; subst hi; exact h1.2.2.2 _ hd
    all_goals cases hi

theorem Spec.Ranked.emptyArrays {rk : Nat → Nat} (h : Ranked R rk) : EmptyArraysGrounded R :=
  fun _ _ _ _ _ _ => h.grounded _

/-- Without arrays of zero length there is nothing to check. -/
theorem no_empty_arrays (h : ∀ id t elem, R.resolve id = .ok t → t.typeDef ≠ .array 0 elem) : EmptyArraysGrounded R :=
  fun _ _ _ hr _ hd => absurd hd (h _ _ _ hr)

end Verif
