import Verif.Spec.Proper
import Verif.Props.Extensions
/-!
# Accepted extensions are the proper ones: what is shown counts as what its type says
-/
namespace Verif
open Spec

variable {R : Registry}

theorem Spec.Through.unique {id : Nat} {t t' : Typ} (h : Through R id t) (h' : Through R id t') : t = t' := by
  induction h generalizing t' with
  | stop h1 h2 =>
    cases h' with
    | stop g1 _ => rw [h1] at g1; cases g1; rfl
    | compact g1 g2 g3 _ => rw [h1] at g1; cases g1; exact absurd g3 (h2 g2 _)
  | compact h1 h2 h3 _ ih =>
    cases h' with
    | stop g1 g2 => rw [h1] at g1; cases g1; exact absurd h3 (g2 h2 _)
    | compact g1 g2 g3 g4 => rw [h1] at g1; cases g1; rw [h3] at g3; cases g3; exact ih g4

/-- What shown data counts as. -/
def markOf : PD → Option Mark
  | .uint _ _ .specVersion => some .specVersion
  | .genesisHash _ => some .genesisHash
  | .blockHash _ => some .blockHash
  | .era _ => some .era
  | _ => none

theorem structural_special {path : List String} (h : Structural path) :
    special path ≠ some .hash ∧ special path ≠ some .era := by
  unfold Structural at h
  constructor <;> (intro hs; rw [hs] at h; exact h)

/-- A type with a definition other than an integer counts as nothing. -/
theorem marked_none {h : Hint} {t : Typ} (hs : Structural t.path) (hd : ∀ p w, t.typeDef = .primitive p → ¬ IsUInt p w)
    (m : Mark) : ¬ MarkedAs h t m := by
  obtain ⟨s1, s2⟩ := structural_special hs
  cases m with
  | specVersion => rintro ⟨_, _, p, w, h1, h2⟩; exact hd p w h1 h2
  | genesisHash => rintro ⟨_, h⟩; exact s1 h
  | blockHash => rintro ⟨_, h⟩; exact s1 h
  | era => intro h; exact s2 h

theorem marked_special_none {h : Hint} {t : Typ} {s : Special} (hs : special t.path = some s) (hn : ¬ Structural t.path)
    (h1 : s ≠ .hash) (h2 : s ≠ .era) (m : Mark) : ¬ MarkedAs h t m := by
  cases m with
  | specVersion => rintro ⟨_, h, _⟩; exact hn h
  | genesisHash => rintro ⟨_, h⟩; rw [hs] at h; cases h; exact h1 rfl
  | blockHash => rintro ⟨_, h⟩; rw [hs] at h; cases h; exact h1 rfl
  | era => intro h; unfold MarkedAs at h; rw [hs] at h; cases h; exact h2 rfl

/-- The type of shown data, its marks, and the single field if it has one. -/
def Fits (R : Registry) (h : Hint) (id : Nat) (d : ED) : Prop :=
  ∃ t, Through R id t ∧ (∀ m, markOf d.data = some m ↔ MarkedAs h t m) ∧
    ((∃ f fd, Structural t.path ∧ t.typeDef = .composite [f] ∧ d.data = .composite [fd] ∧
        Shown R (first h (fieldLabel f)) [] f.ty fd.data) ∨
     ((∀ fd, d.data ≠ .composite [fd]) ∧ ∀ f, Structural t.path → t.typeDef ≠ .composite [f]))

theorem fits_plain {h : Hint} {id : Nat} {d : ED} {t : Typ} (hr : R.resolve id = .ok t) (hs : Structural t.path)
    (hp : ∀ p w, t.typeDef = .primitive p → ¬ IsUInt p w) (hc : ∀ i, t.typeDef ≠ .compact i)
    (hf : ∀ f, t.typeDef ≠ .composite [f]) (hd : ∀ fd, d.data ≠ .composite [fd]) (hm : markOf d.data = none) :
    Fits R h id d := by
  refine ⟨t, .stop hr fun _ => hc, fun m => ?_, .inr ⟨hd, fun f _ => hf f⟩⟩
  rw [hm]
  exact ⟨fun h => (by cases h), fun h => absurd h (marked_none hs hp m)⟩

theorem fits_special {h : Hint} {id : Nat} {d : ED} {t : Typ} {s : Special} (hr : R.resolve id = .ok t)
    (hs : special t.path = some s) (hn : ¬ Structural t.path) (h1 : s ≠ .hash) (h2 : s ≠ .era)
    (hd : ∀ fd, d.data ≠ .composite [fd]) (hm : markOf d.data = none) : Fits R h id d := by
  refine ⟨t, .stop hr fun h => absurd h hn, fun m => ?_, .inr ⟨hd, fun f h => absurd h hn⟩⟩
  rw [hm]
  exact ⟨fun h => (by cases h), fun h => absurd h (marked_special_none hs hn h1 h2 m)⟩

theorem not_structural_hash {path : List String} (h : special path = some .hash) : ¬ Structural path := by
  unfold Structural; rw [h]; exact fun h => h

theorem not_structural_era {path : List String} (h : special path = some .era) : ¬ Structural path := by
  unfold Structural; rw [h]; exact fun h => h

theorem shown_fits {h : Hint} {is : List Info} {id : Nat} {d : ED} (hs : Shown R h is id d) : Fits R h id d := by
  have variantPlain : ∀ {t : Typ} {vs : List Variant} {id : Nat} {d : ED} {h : Hint}, R.resolve id = .ok t →
      Structural t.path → t.typeDef = .variant vs → (∀ fd, d.data ≠ .composite [fd]) → markOf d.data = none →
      Fits R h id d := by
    intro t vs id d h hr hs hd h1 h2
    exact fits_plain hr hs (fun p w h => by rw [hd] at h; cases h) (fun i h => by rw [hd] at h; cases h)
      (fun f h => by rw [hd] at h; cases h) h1 h2
  induction hs with
  | fixed h1 h2 =>
    exact fits_special h1 h2 (by unfold Structural; rw [h2]; exact fun h => h) (by simp) (by simp) (by simp) rfl
  | per h1 h2 =>
    exact fits_special h1 h2 (by unfold Structural; rw [h2]; exact fun h => h) (by simp) (by simp) (by simp) rfl
  | hash h1 h2 =>
    rename_i h _ _ t bs
    have hn := not_structural_hash h2
    refine ⟨t, .stop h1 fun h => absurd h hn, fun m => ?_, .inr ⟨?_, fun f h => absurd h hn⟩⟩
    · dsimp only
      unfold labelledHash
      by_cases hg : h = .checkGenesis
      · subst hg
        rw [if_pos rfl]
        cases m <;> simp [markOf, MarkedAs, h2, hn]
      · rw [if_neg hg]
        by_cases hm : h = .checkMortality
        · subst hm
          rw [if_pos rfl]
          cases m <;> simp [markOf, MarkedAs, h2, hn]
        · rw [if_neg hm]
          cases m <;> simp [markOf, MarkedAs, h2, hn, hg, hm]
    · intro fd
      dsimp only
      unfold labelledHash
      split
      · simp
      · split <;> simp
  | era h1 h2 =>
    rename_i t _
    have hn := not_structural_era h2
    refine ⟨t, .stop h1 fun h => absurd h hn, fun m => ?_, .inr ⟨by simp, fun f h => absurd h hn⟩⟩
    cases m <;> simp [markOf, MarkedAs, h2, hn]
  | struct h1 h2 h3 h4 _ h6 =>
    rename_i h _ _ t fields ds _ _
    refine ⟨t, .stop h1 fun _ i hi => ?_, fun m => ?_, ?_⟩
    · rw [h3] at hi; cases hi
    · exact ⟨fun h => (by cases h), fun h => absurd h (marked_none h2 (fun p w h => by rw [h3] at h; cases h) m)⟩
    · match fields, ds, h4 with
      | [], [], _ => exact .inr ⟨by simp, fun f _ h => by rw [h3] at h; cases h⟩
      | [f], [fd], _ =>
        have := h6 (f, fd) (by simp)
        have e : first (handed [f].length h) (fieldLabel f) = first h (fieldLabel f) := by simp [handed]
        dsimp only at this
        rw [e] at this
        exact .inl ⟨f, fd, h2, h3, rfl, this⟩
      | _ :: _ :: _, _ :: _ :: _, _ => exact .inr ⟨by simp, fun f _ h => by rw [h3] at h; cases h⟩
  | never h1 h2 h3 => exact variantPlain h1 h2 h3 (by simp) rfl
  | variant h1 h2 h3 => exact variantPlain h1 h2 h3 (by simp) rfl
  | signature h1 h2 =>
    obtain ⟨hs, vs, v, f, hd, _⟩ := h2
    exact variantPlain h1 (by unfold Structural; rw [hs]; trivial) hd (by simp) rfl
  | pallet h1 h2 h3 => exact variantPlain h1 (by unfold Structural; rw [h2]; trivial) h3 (by simp) rfl
  | list h1 h2 h3 =>
    refine fits_plain h1 h2 (fun p w h => ?_) (fun i h => ?_) (fun f h => ?_) (by simp) rfl <;>
      (rw [h] at h3; rcases h3 with h3 | h3 <;> cases h3)
  | collected h1 h2 h3 =>
    refine fits_plain h1 h2 (fun p w h => ?_) (fun i h => ?_) (fun f h => ?_) (by simp) rfl <;>
      (rw [h] at h3; rcases h3 with h3 | h3 <;> cases h3)
  | tuple h1 h2 h3 =>
    refine fits_plain h1 h2 (fun p w h => ?_) (fun i h => ?_) (fun f h => ?_) (by simp) rfl <;>
      (rw [h] at h3; cases h3)
  | bits h1 h2 h3 =>
    refine fits_plain h1 h2 (fun p w h => ?_) (fun i h => ?_) (fun f h => ?_) (by simp) rfl <;>
      (rw [h] at h3; cases h3)
  | uint h1 h2 h3 h4 =>
    rename_i h _ _ t p w v
    obtain ⟨s1, s2⟩ := structural_special h2
    refine ⟨t, .stop h1 fun _ i hi => ?_, fun m => ?_, .inr ⟨by simp, fun f _ hf => ?_⟩⟩
    · rw [h3] at hi; cases hi
    · have hlab : uintLabel h = .specVersion ↔ (h = .checkSpecVersion ∨ h = .fieldSpecVersion) := by
        cases h <;> simp [uintLabel]
      cases m with
      | specVersion =>
        have : markOf (.uint w v (uintLabel h)) = some .specVersion ↔ uintLabel h = .specVersion := by
          cases uintLabel h <;> simp [markOf]
        dsimp only
        rw [this, hlab]
        exact ⟨fun x => ⟨x, h2, p, w, h3, h4⟩, fun x => x.1⟩
      | genesisHash =>
        refine ⟨fun x => ?_, fun x => absurd x.2 s1⟩
        dsimp only at x
        cases hu : uintLabel h <;> rw [hu] at x <;> simp [markOf] at x
      | blockHash =>
        refine ⟨fun x => ?_, fun x => absurd x.2 s1⟩
        dsimp only at x
        cases hu : uintLabel h <;> rw [hu] at x <;> simp [markOf] at x
      | era =>
        refine ⟨fun x => ?_, fun x => absurd x s2⟩
        dsimp only at x
        cases hu : uintLabel h <;> rw [hu] at x <;> simp [markOf] at x
    · rw [h3] at hf; cases hf
  | text h1 h2 h3 =>
    refine fits_plain h1 h2 (fun p w h h' => ?_) (fun i h => ?_) (fun f h => ?_) (by simp) rfl <;>
      (rw [h] at h3; cases h3)
    cases h'
  | bool h1 h2 h3 =>
    refine fits_plain h1 h2 (fun p w h h' => ?_) (fun i h => ?_) (fun f h => ?_) (by simp) rfl <;>
      (rw [h] at h3; cases h3)
    cases h'
  | char h1 h2 h3 =>
    refine fits_plain h1 h2 (fun p w h h' => ?_) (fun i h => ?_) (fun f h => ?_) (by simp) rfl <;>
      (rw [h] at h3; cases h3)
    cases h'
  | u256 h1 h2 h3 =>
    refine fits_plain h1 h2 (fun p w h h' => ?_) (fun i h => ?_) (fun f h => ?_) (by simp) rfl <;>
      (rw [h] at h3; cases h3)
    cases h'
  | int h1 h2 h3 h4 =>
    refine fits_plain h1 h2 (fun p w h h' => ?_) (fun i h => ?_) (fun f h => ?_) (by simp) rfl <;>
      (rw [h] at h3; cases h3)
    cases h' <;> cases h4
  | compact h1 h2 h3 _ ih =>
    obtain ⟨t, g1, g2⟩ := ih
    exact ⟨t, .compact h1 h2 h3 g1, g2⟩

/-- The looked-at data counts as what the item's type says. -/
theorem lookAt_counts {item : String × Nat} {is : List Info} {d : ED} (hs : Shown R (extLabel item.1) is item.2 d) (m : Mark) :
    (∃ x, lookAt d.data = some x ∧ markOf x = some m) ↔ CountsAs R item m := by
  obtain ⟨t, h1, h2, h3⟩ := shown_fits hs
  rcases h3 with ⟨f, fd, g1, g2, g3, g4⟩ | ⟨g1, g2⟩
  · obtain ⟨t', k1, k2, _⟩ := shown_fits g4
    have hl : lookAt d.data = some fd.data.data := by rw [g3]; rfl
    have hno : ¬ MarkedAs (extLabel item.1) t m := marked_none g1 (fun p w h => by rw [g2] at h; cases h) m
    constructor
    · rintro ⟨x, hx, hm⟩
      rw [hl] at hx; cases hx
      exact ⟨t, h1, .inr ⟨f, t', g1, g2, k1, (k2 m).1 hm⟩⟩
    · rintro ⟨t2, j1, j2⟩
      cases h1.unique j1
      rcases j2 with j2 | ⟨f', t2', j2, j3, j4, j5⟩
      · exact absurd j2 hno
      · rw [g2] at j3; cases j3
        cases k1.unique j4
        exact ⟨_, hl, (k2 m).2 j5⟩
  · constructor
    · rintro ⟨x, hx, hm⟩
      refine ⟨t, h1, .inl ((h2 m).1 ?_)⟩
      have : x = d.data := by
        generalize d.data = y at hx g1
        unfold lookAt at hx
        split at hx
        · exact absurd rfl (g1 _)
        · cases hx
        · cases hx; rfl
      rw [← this]; exact hm
    · rintro ⟨t2, j1, j2⟩
      cases h1.unique j1
      rcases j2 with j2 | ⟨f', t2', j2, j3, j4, j5⟩
      · have hm := (h2 m).2 j2
        refine ⟨d.data, ?_, hm⟩
        generalize d.data = y at hm
        unfold lookAt
        split
        · cases hm
        · cases hm
        · rfl
      · exact absurd j3 (g2 f' j2)

/-- And has its value. -/
theorem lookAt_value {d : ED} {x : PD} (h : lookAt d.data = some x) : edValue d = pdValue x := by
  obtain ⟨y, is⟩ := d
  dsimp only at h
  unfold lookAt at h
  split at h
  · cases h
    rename_i f
    obtain ⟨_, _, _, ⟨z, _⟩⟩ := f
    rfl
  · cases h
  · cases h; rfl

/-! ### Lists with one such element -/

theorem filterMap_one {α β : Type} {f : α → Option β} : ∀ {l : List α} {b : β},
    l.filterMap f = [b] ↔ ∃ (i : Nat) (a : α), l[i]? = some a ∧ f a = some b ∧ ∀ (j : Nat) (c : α), l[j]? = some c → (∃ y, f c = some y) → j = i
  | [], b => by simp
  | a :: l, b => by
    rw [List.filterMap_cons]
    cases hf : f a with
    | none =>
      dsimp only
      rw [filterMap_one (l := l)]
      constructor
      · rintro ⟨i, a', h1, h2, h3⟩
        refine ⟨i + 1, a', h1, h2, fun j c hj hc => ?_⟩
        cases j with
        | zero =>
          simp only [List.getElem?_cons_zero, Option.some.injEq] at hj
          subst hj
          obtain ⟨y, hy⟩ := hc
          rw [hf] at hy; cases hy
        | succ j => rw [h3 j c hj hc]
      · rintro ⟨i, a', h1, h2, h3⟩
        cases i with
        | zero =>
          simp only [List.getElem?_cons_zero, Option.some.injEq] at h1
          subst h1
          rw [hf] at h2; cases h2
        | succ i =>
          refine ⟨i, a', h1, h2, fun j c hj hc => ?_⟩
          have := h3 (j + 1) c hj hc
          omega
    | some b' =>
      dsimp only
      constructor
      · intro h
        simp only [List.cons.injEq] at h
        obtain ⟨rfl, h⟩ := h
        refine ⟨0, a, rfl, hf, fun j c hj hc => ?_⟩
        cases j with
        | zero => rfl
        | succ j =>
          obtain ⟨y, hy⟩ := hc
          rw [List.filterMap_eq_nil_iff] at h
          rw [h c (List.mem_of_getElem? hj)] at hy
          cases hy
      · rintro ⟨i, a', h1, h2, h3⟩
        have hi := h3 0 a rfl ⟨b', hf⟩
        subst hi
        simp only [List.getElem?_cons_zero, Option.some.injEq] at h1
        subst h1
        rw [hf] at h2
        cases h2
        simp only [List.cons.injEq, true_and, List.filterMap_eq_nil_iff]
        intro c hc
        obtain ⟨j, hj⟩ := List.getElem?_of_mem hc
        cases hy : f c with
        | none => rfl
        | some y =>
          have := h3 (j + 1) c hj ⟨y, hy⟩
          omega

theorem filterMap_le_one {α β : Type} {f : α → Option β} : ∀ {l : List α},
    (l.filterMap f).length ≤ 1 ↔
      ∀ (i j : Nat) (a c : α), l[i]? = some a → l[j]? = some c → (∃ y, f a = some y) → (∃ y, f c = some y) → i = j
  | l => by
    constructor
    · intro h i j a c hi hj ⟨y, hy⟩ ⟨z, hz⟩
      cases hl : l.filterMap f with
      | nil =>
        rw [List.filterMap_eq_nil_iff] at hl
        rw [hl a (List.mem_of_getElem? hi)] at hy
        cases hy
      | cons b r =>
        rw [hl] at h
        have : r = [] := by cases r with | nil => rfl | cons _ _ => simp at h
        subst this
        obtain ⟨k, _, _, _, hk⟩ := filterMap_one.1 hl
        rw [hk i a hi ⟨y, hy⟩, hk j c hj ⟨z, hz⟩]
    · intro h
      cases hl : l.filterMap f with
      | nil => simp
      | cons b r =>
        have hb : b ∈ l.filterMap f := by rw [hl]; simp
        obtain ⟨a, ha, hab⟩ := List.mem_filterMap.1 hb
        obtain ⟨i, hi⟩ := List.getElem?_of_mem ha
        have : l.filterMap f = [b] := filterMap_one.2 ⟨i, a, hi, hab, fun j c hj hc => (h i j a c hi hj ⟨b, hab⟩ hc).symm⟩
        rw [hl] at this
        rw [this]
        exact Nat.le_refl 1

/-! ### Acceptance -/

/-- Extensions shown rightly for their items. -/
structure ShownItems (R : Registry) (items : List (String × Nat)) (exts : List ED) : Prop where
  length : exts.length = items.length
  shown : ∀ (i : Nat) (item : String × Nat) (d : ED), items[i]? = some item → exts[i]? = some d → Shown R (extLabel item.1) [] item.2 d

/-- Data of an extension that counts as `m`, read by `r`. -/
theorem countsAt_iff {items : List (String × Nat)} {exts : List ED} (hs : ShownItems R items exts) (m : Mark) (i : Nat)
    (v : Value) : CountsAt R items (exts.map edValue) m i v ↔
      ∃ d x, exts[i]? = some d ∧ lookAt d.data = some x ∧ markOf x = some m ∧ v = pdValue x := by
  constructor
  · rintro ⟨item, h1, h2, h3⟩
    rw [List.getElem?_map] at h2
    obtain ⟨d, hd, rfl⟩ := Option.map_eq_some_iff.1 h2
    obtain ⟨x, hx, hm⟩ := (lookAt_counts (hs.shown i item d h1 hd) m).2 h3
    exact ⟨d, x, hd, hx, hm, lookAt_value hx⟩
  · rintro ⟨d, x, hd, hx, hm, rfl⟩
    have hi : i < items.length := by
      rw [← hs.length]
      exact (List.getElem?_eq_some_iff.1 hd).1
    refine ⟨items[i], List.getElem?_eq_getElem hi, ?_, ?_⟩
    · rw [List.getElem?_map, hd]
      exact congrArg some (lookAt_value hx)
    · exact (lookAt_counts (hs.shown i _ d (List.getElem?_eq_getElem hi) hd) m).1 ⟨x, hx, hm⟩

/-- Reading marked data. -/
def readSpec : ED → Option Nat := fun e => (lookAt e.data).bind fun d =>
  match d with | .uint _ v .specVersion => some v | _ => none
def readGenesis : ED → Option Bytes := fun e => (lookAt e.data).bind fun d => match d with | .genesisHash h => some h | _ => none
def readBlock : ED → Option Bytes := fun e => (lookAt e.data).bind fun d => match d with | .blockHash h => some h | _ => none
def readEra : ED → Option Era := fun e => (lookAt e.data).bind fun d => match d with | .era h => some h | _ => none

theorem specVersions_read (exts : List ED) : specVersions (lookedAt exts) = exts.filterMap readSpec := by
  unfold specVersions lookedAt; rw [List.filterMap_filterMap]; rfl
theorem genesisHashes_read (exts : List ED) : genesisHashes (lookedAt exts) = exts.filterMap readGenesis := by
  unfold genesisHashes lookedAt; rw [List.filterMap_filterMap]; rfl
theorem blockHashes_read (exts : List ED) : blockHashes (lookedAt exts) = exts.filterMap readBlock := by
  unfold blockHashes lookedAt; rw [List.filterMap_filterMap]; rfl
theorem eras_read (exts : List ED) : eras (lookedAt exts) = exts.filterMap readEra := by
  unfold eras lookedAt; rw [List.filterMap_filterMap]; rfl

theorem readSpec_iff {d : ED} {n : Nat} : readSpec d = some n ↔
    ∃ x w, lookAt d.data = some x ∧ markOf x = some .specVersion ∧ pdValue x = .uint w n := by
  unfold readSpec
  cases lookAt d.data with
  | none => simp
  | some x =>
    simp only [Option.bind_some, Option.some.injEq]
    constructor
    · intro h
      split at h
      · cases h; exact ⟨_, _, rfl, rfl, rfl⟩
      · cases h
    · rintro ⟨y, w, rfl, h1, h2⟩
      unfold markOf at h1
      split at h1 <;> cases h1
      cases h2; rfl

theorem readGenesis_iff {d : ED} {g : Bytes} : readGenesis d = some g ↔
    ∃ x, lookAt d.data = some x ∧ markOf x = some .genesisHash ∧ pdValue x = .hash g := by
  unfold readGenesis
  cases lookAt d.data with
  | none => simp
  | some x =>
    simp only [Option.bind_some, Option.some.injEq]
    constructor
    · intro h
      split at h
      · cases h; exact ⟨_, rfl, rfl, rfl⟩
      · cases h
    · rintro ⟨y, rfl, h1, h2⟩
      unfold markOf at h1
      split at h1 <;> cases h1
      cases h2; rfl

theorem readBlock_iff {d : ED} {g : Bytes} : readBlock d = some g ↔
    ∃ x, lookAt d.data = some x ∧ markOf x = some .blockHash ∧ pdValue x = .hash g := by
  unfold readBlock
  cases lookAt d.data with
  | none => simp
  | some x =>
    simp only [Option.bind_some, Option.some.injEq]
    constructor
    · intro h
      split at h
      · cases h; exact ⟨_, rfl, rfl, rfl⟩
      · cases h
    · rintro ⟨y, rfl, h1, h2⟩
      unfold markOf at h1
      split at h1 <;> cases h1
      cases h2; rfl

theorem readEra_iff {d : ED} {e : Era} : readEra d = some e ↔
    ∃ x, lookAt d.data = some x ∧ markOf x = some .era ∧ pdValue x = .era e := by
  unfold readEra
  cases lookAt d.data with
  | none => simp
  | some x =>
    simp only [Option.bind_some, Option.some.injEq]
    constructor
    · intro h
      split at h
      · cases h; exact ⟨_, rfl, rfl, rfl⟩
      · cases h
    · rintro ⟨y, rfl, h1, h2⟩
      unfold markOf at h1
      split at h1 <;> cases h1
      cases h2; rfl

/-- Every marked data can be read. -/
theorem read_some {d : ED} {x : PD} (h : lookAt d.data = some x) :
    (markOf x = some .specVersion ↔ ∃ n, readSpec d = some n) ∧ (markOf x = some .genesisHash ↔ ∃ g, readGenesis d = some g) ∧
    (markOf x = some .blockHash ↔ ∃ g, readBlock d = some g) ∧ (markOf x = some .era ↔ ∃ e, readEra d = some e) := by
  unfold readSpec readGenesis readBlock readEra
  rw [h]
  simp only [Option.bind_some]
  refine ⟨⟨fun hm => ?_, fun ⟨n, hn⟩ => ?_⟩, ⟨fun hm => ?_, fun ⟨n, hn⟩ => ?_⟩, ⟨fun hm => ?_, fun ⟨n, hn⟩ => ?_⟩,
    ⟨fun hm => ?_, fun ⟨n, hn⟩ => ?_⟩⟩
  all_goals first
    | (unfold markOf at hm; split at hm <;> cases hm; exact ⟨_, rfl⟩)
    | (split at hn <;> cases hn; rfl)

/-- Accepted extensions are the proper ones. -/
theorem accepted_iff_proper {items : List (String × Nat)} {exts : List ED} (hs : ShownItems R items exts)
    (version : String) (expected : Option Bytes) :
    Accepted exts version expected ↔ Proper R items (exts.map edValue) version expected := by
  have c := countsAt_iff hs
  -- which places can be read
  have spec : ∀ i, (∃ d, exts[i]? = some d ∧ ∃ n, readSpec d = some n) ↔ ∃ v, CountsAt R items (exts.map edValue) .specVersion i v := by
    intro i
    simp only [c]
    constructor
    · rintro ⟨d, hd, n, hn⟩
      obtain ⟨x, w, h1, h2, h3⟩ := readSpec_iff.1 hn
      exact ⟨_, d, x, hd, h1, h2, rfl⟩
    · rintro ⟨v, d, x, hd, h1, h2, _⟩
      exact ⟨d, hd, (read_some h1).1.1 h2⟩
  have gen : ∀ i, (∃ d, exts[i]? = some d ∧ ∃ n, readGenesis d = some n) ↔ ∃ v, CountsAt R items (exts.map edValue) .genesisHash i v := by
    intro i
    simp only [c]
    constructor
    · rintro ⟨d, hd, n, hn⟩
      obtain ⟨x, h1, h2, h3⟩ := readGenesis_iff.1 hn
      exact ⟨_, d, x, hd, h1, h2, rfl⟩
    · rintro ⟨v, d, x, hd, h1, h2, _⟩
      exact ⟨d, hd, (read_some h1).2.1.1 h2⟩
  have blk : ∀ i, (∃ d, exts[i]? = some d ∧ ∃ n, readBlock d = some n) ↔ ∃ v, CountsAt R items (exts.map edValue) .blockHash i v := by
    intro i
    simp only [c]
    constructor
    · rintro ⟨d, hd, n, hn⟩
      obtain ⟨x, h1, h2, h3⟩ := readBlock_iff.1 hn
      exact ⟨_, d, x, hd, h1, h2, rfl⟩
    · rintro ⟨v, d, x, hd, h1, h2, _⟩
      exact ⟨d, hd, (read_some h1).2.2.1.1 h2⟩
  have er : ∀ i, (∃ d, exts[i]? = some d ∧ ∃ n, readEra d = some n) ↔ ∃ v, CountsAt R items (exts.map edValue) .era i v := by
    intro i
    simp only [c]
    constructor
    · rintro ⟨d, hd, n, hn⟩
      obtain ⟨x, h1, h2, h3⟩ := readEra_iff.1 hn
      exact ⟨_, d, x, hd, h1, h2, rfl⟩
    · rintro ⟨v, d, x, hd, h1, h2, _⟩
      exact ⟨d, hd, (read_some h1).2.2.2.1 h2⟩
  -- values at places
  have specAt : ∀ i n, (∃ d, exts[i]? = some d ∧ readSpec d = some n) ↔ ∃ w, CountsAt R items (exts.map edValue) .specVersion i (.uint w n) := by
    intro i n
    simp only [c, readSpec_iff]
    constructor
    · rintro ⟨d, hd, x, w, h1, h2, h3⟩
      exact ⟨w, d, x, hd, h1, h2, h3.symm⟩
    · rintro ⟨w, d, x, hd, h1, h2, h3⟩
      exact ⟨d, hd, x, w, h1, h2, h3.symm⟩
  have genAt : ∀ i n, (∃ d, exts[i]? = some d ∧ readGenesis d = some n) ↔ CountsAt R items (exts.map edValue) .genesisHash i (.hash n) := by
    intro i n
    simp only [c, readGenesis_iff]
    constructor
    · rintro ⟨d, hd, x, h1, h2, h3⟩
      exact ⟨d, x, hd, h1, h2, h3.symm⟩
    · rintro ⟨d, x, hd, h1, h2, h3⟩
      exact ⟨d, hd, x, h1, h2, h3.symm⟩
  have blkAt : ∀ i n, (∃ d, exts[i]? = some d ∧ readBlock d = some n) ↔ CountsAt R items (exts.map edValue) .blockHash i (.hash n) := by
    intro i n
    simp only [c, readBlock_iff]
    constructor
    · rintro ⟨d, hd, x, h1, h2, h3⟩
      exact ⟨d, x, hd, h1, h2, h3.symm⟩
    · rintro ⟨d, x, hd, h1, h2, h3⟩
      exact ⟨d, hd, x, h1, h2, h3.symm⟩
  have erAt : ∀ i n, (∃ d, exts[i]? = some d ∧ readEra d = some n) ↔ CountsAt R items (exts.map edValue) .era i (.era n) := by
    intro i n
    simp only [c, readEra_iff]
    constructor
    · rintro ⟨d, hd, x, h1, h2, h3⟩
      exact ⟨d, x, hd, h1, h2, h3.symm⟩
    · rintro ⟨d, x, hd, h1, h2, h3⟩
      exact ⟨d, hd, x, h1, h2, h3.symm⟩
  have mem : ∀ {α : Type} {f : ED → Option α} {a : α}, a ∈ exts.filterMap f ↔ ∃ (i : Nat) (d : ED), exts[i]? = some d ∧ f d = some a := by
    intro α f a
    rw [List.mem_filterMap]
    constructor
    · rintro ⟨d, hd, h⟩
      obtain ⟨i, hi⟩ := List.getElem?_of_mem hd
      exact ⟨i, d, hi, h⟩
    · rintro ⟨i, d, hd, h⟩
      exact ⟨d, List.mem_of_getElem? hd, h⟩
  constructor
  · rintro ⟨h1, h2, h3, h4, h5⟩
    rw [specVersions_read] at h1
    rw [genesisHashes_read] at h2 h5
    rw [eras_read] at h3 h5
    rw [blockHashes_read] at h4 h5
    rw [filterMap_le_one] at h3 h4
    refine ⟨?_, ?_, ?_, ?_, ?_⟩
    · obtain ⟨n, hn, hv⟩ := h1
      obtain ⟨i, d, hi, hd, hu⟩ := filterMap_one.1 hn
      obtain ⟨w, hw⟩ := (specAt i n).1 ⟨d, hi, hd⟩
      refine ⟨i, w, n, hw, hv, fun j v hj => ?_⟩
      obtain ⟨d', hd', hr⟩ := (spec j).2 ⟨v, hj⟩
      exact hu j d' hd' hr
    · obtain ⟨g, hg, hv⟩ := h2
      obtain ⟨i, d, hi, hd, hu⟩ := filterMap_one.1 hg
      refine ⟨i, g, (genAt i g).1 ⟨d, hi, hd⟩, hv, fun j v hj => ?_⟩
      obtain ⟨d', hd', hr⟩ := (gen j).2 ⟨v, hj⟩
      exact hu j d' hd' hr
    · intro i j v w hi hj
      obtain ⟨d, hd, hr⟩ := (er i).2 ⟨v, hi⟩
      obtain ⟨d', hd', hr'⟩ := (er j).2 ⟨w, hj⟩
      exact h3 i j d d' hd hd' hr hr'
    · intro i j v w hi hj
      obtain ⟨d, hd, hr⟩ := (blk i).2 ⟨v, hi⟩
      obtain ⟨d', hd', hr'⟩ := (blk j).2 ⟨w, hj⟩
      exact h4 i j d d' hd hd' hr hr'
    · intro i j k h g hi hj hk
      obtain ⟨d, e1, e2⟩ := (erAt i _).2 hi
      obtain ⟨d', e3, e4⟩ := (blkAt j _).2 hj
      obtain ⟨d'', e5, e6⟩ := (genAt k _).2 hk
      exact h5 (mem.2 ⟨i, d, e1, e2⟩) h (mem.2 ⟨j, d', e3, e4⟩) g (mem.2 ⟨k, d'', e5, e6⟩)
  · rintro ⟨⟨i, w, n, h1, h2, h3⟩, ⟨k, g, g1, g2, g3⟩, h4, h5, h6⟩
    refine ⟨⟨n, ?_, h2⟩, ⟨g, ?_, g2⟩, ?_, ?_, ?_⟩
    · rw [specVersions_read, filterMap_one]
      obtain ⟨d, hd, hr⟩ := (specAt i n).2 ⟨w, h1⟩
      refine ⟨i, d, hd, hr, fun j d' hd' hr' => ?_⟩
      obtain ⟨v, hv⟩ := (spec j).1 ⟨d', hd', hr'⟩
      exact h3 j v hv
    · rw [genesisHashes_read, filterMap_one]
      obtain ⟨d, hd, hr⟩ := (genAt k g).2 g1
      refine ⟨k, d, hd, hr, fun j d' hd' hr' => ?_⟩
      obtain ⟨v, hv⟩ := (gen j).1 ⟨d', hd', hr'⟩
      exact g3 j v hv
    · rw [eras_read, filterMap_le_one]
      intro i j a b ha hb hra hrb
      obtain ⟨v, hv⟩ := (er i).1 ⟨a, ha, hra⟩
      obtain ⟨v', hv'⟩ := (er j).1 ⟨b, hb, hrb⟩
      exact h4 i j v v' hv hv'
    · rw [blockHashes_read, filterMap_le_one]
      intro i j a b ha hb hra hrb
      obtain ⟨v, hv⟩ := (blk i).1 ⟨a, ha, hra⟩
      obtain ⟨v', hv'⟩ := (blk j).1 ⟨b, hb, hrb⟩
      exact h5 i j v v' hv hv'
    · rw [eras_read, blockHashes_read, genesisHashes_read]
      intro e1 h e2 g' e3
      obtain ⟨a, d, x1, x2⟩ := mem.1 e1
      obtain ⟨a', d', x3, x4⟩ := mem.1 e2
      obtain ⟨a'', d'', x5, x6⟩ := mem.1 e3
      exact h6 a a' a'' h g' ((erAt _ _).1 ⟨d, x1, x2⟩) ((blkAt _ _).1 ⟨d', x3, x4⟩) ((genAt _ _).1 ⟨d'', x5, x6⟩)

theorem Spec.ItemsAre.shownItems {items : List (String × Nat)} {ds : List ED} {bs : Bytes} (h : ItemsAre R items ds bs) :
    ShownItems R items ds := by
  obtain ⟨chunks, _, h1, h2, h3⟩ := h
  refine ⟨h2, fun i item d hi hd => ?_⟩
  obtain ⟨b, c, e1, e2, e3⟩ := mem_zip3 hi h2 h1
  rw [hd] at e1
  cases e1
  exact (h3 _ e3).2

end Verif
