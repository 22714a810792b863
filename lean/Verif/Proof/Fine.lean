import Verif.Proof.EraBits
import Verif.Model.Decode
/-! Outcomes without panic and without fuel exhaustion. -/
namespace Verif
open Spec

/-- The outcome is a value or a parser error. -/
def Fine {α : Type} (r : Res α) : Prop := ∀ f, r = .error f → ∃ e, f = .err e

theorem Fine.ok {α : Type} (a : α) : Fine (.ok a : Res α) := by intro f h; cases h
theorem Fine.err {α : Type} (e : PErr) : Fine (.error (.err e) : Res α) := by
  intro f h; cases h; exact ⟨e, rfl⟩

theorem Fine.internal {α : Type} (e : RegInternal) : Fine (failInternal e : Res α) := Fine.err _

theorem Fine.bind {α β : Type} {x : Res α} {f : α → Res β} (hx : Fine x)
    (hf : ∀ a, x = .ok a → Fine (f a)) : Fine (x >>= f) := by
  cases x with
  | error e => intro g hg; rw [error_bind] at hg; cases hg; exact hx _ rfl
  | ok a => rw [ok_bind]; exact hf a rfl

theorem Fine.cases {α : Type} {r : Res α} (h : Fine r) :
    (∃ a, r = .ok a) ∨ (∃ e, r = .error (.err e)) := by
  cases r with
  | ok a => exact .inl ⟨a, rfl⟩
  | error f => obtain ⟨e, rfl⟩ := h f rfl; exact .inr ⟨e, rfl⟩

theorem Registry.get_fine (R : Registry) (id : Nat) : Fine (R.get id) := by
  unfold Registry.get
  cases R.resolve id with
  | ok t => exact Fine.ok _
  | error e => exact Fine.err _

theorem Registry.get_lt {R : Registry} {id : Nat} {t : Typ} (h : R.get id = .ok t) :
    id < R.size := by
  apply Decidable.byContradiction; intro hc
  obtain ⟨e, he⟩ := R.bounded id (by omega)
  simp [Registry.get, he] at h

/-- Number of resolvable ids not yet seen. -/
def free (R : Registry) (seen : List Nat) : Nat :=
  ((List.range R.size).filter (fun i => !seen.contains i)).length

theorem free_le (R : Registry) (seen : List Nat) : free R seen ≤ R.size := by
  unfold free
  have := List.length_filter_le (fun i => !seen.contains i) (List.range R.size)
  simpa using this

theorem filter_length_lt {p q : Nat → Bool} {l : List Nat} {x : Nat} (hx : x ∈ l)
    (hpq : ∀ y, q y = true → p y = true) (h1 : p x = true) (h2 : q x = false) :
    (l.filter q).length < (l.filter p).length := by
  induction l with
  | nil => simp at hx
  | cons a l ih =>
    have hle : ∀ l : List Nat, (l.filter q).length ≤ (l.filter p).length := by
      intro l
      induction l with
      | nil => simp
      | cons c l ih =>
        simp only [List.filter_cons]
        by_cases hq : q c = true
        · simp only [hq, hpq c hq, if_true, List.length_cons]; omega
        · by_cases hp : p c = true
          · simp only [hq, hp, if_true, List.length_cons]; simp; omega
          · simp only [hq, hp]; simpa using ih
    rcases List.mem_cons.1 hx with rfl | hx
    · simp only [List.filter_cons, h1, h2, if_true, List.length_cons]
      have := hle l
      simp; omega
    · have := ih hx
      simp only [List.filter_cons]
      by_cases hq : q a = true
      · simp only [hq, hpq a hq, if_true, List.length_cons]; omega
      · by_cases hp : p a = true
        · simp only [hq, hp, if_true, List.length_cons]; simp; omega
        · simp only [hq, hp]; simpa using this

theorem free_append (R : Registry) {seen : List Nat} {id : Nat} (h1 : id < R.size)
    (h2 : seen.contains id = false) : free R (seen ++ [id]) < free R seen := by
  unfold free
  refine filter_length_lt (x := id) (by simpa using h1) ?_ (by simp at h2 ⊢; exact h2) (by simp)
  intro y hy
  simp at hy ⊢
  exact hy.1

theorem checkId_ok {c c' : Checker} {id : Nat} :
    c.checkId id = .ok c' ↔
      c.cycleCheck.contains id = false ∧ c' = { c with cycleCheck := c.cycleCheck ++ [id] } := by
  unfold Checker.checkId
  cases h : c.cycleCheck.contains id <;> simp [failInternal, eq_comm]

theorem checkId_fine (c : Checker) (id : Nat) : Fine (c.checkId id) := by
  unfold Checker.checkId
  split
  · exact Fine.internal _
  · exact Fine.ok _

theorem rejectCompact_fine (s : SpecialtySet) : Fine s.rejectCompact := by
  unfold SpecialtySet.rejectCompact
  split
  · exact Fine.internal _
  · exact Fine.ok _

theorem hintFromField_cycle (c : Checker) (f : Field) :
    (c.hintFromField f).cycleCheck = c.cycleCheck := by
  unfold Checker.hintFromField
  split <;> rfl

theorem huskLoop_fine (R : Registry) (n : Nat) : ∀ (ty : Typ) (id : Nat) (info : List Info)
    (c : Checker), free R c.cycleCheck < n → Fine (huskLoop R n ty id info c) := by
  induction n with
  | zero => intro ty id info c h; omega
  | succ n ih =>
    intro ty id info c h
    unfold huskLoop
    dsimp only
    split
    · split
      · rename_i f _
        refine Fine.bind (checkId_fine _ _) ?_
        intro c' hc
        obtain ⟨h1, rfl⟩ := checkId_ok.1 hc
        refine Fine.bind (R.get_fine _) ?_
        intro t ht
        refine ih _ _ _ _ ?_
        rw [hintFromField_cycle]
        have := free_append R (Registry.get_lt ht) h1
        dsimp only
        omega
      · rename_i inner _
        refine Fine.bind (rejectCompact_fine _) ?_
        intro _ _
        refine Fine.bind (checkId_fine _ _) ?_
        intro c' hc
        obtain ⟨h1, rfl⟩ := checkId_ok.1 hc
        refine Fine.bind (R.get_fine _) ?_
        intro t ht
        refine ih _ _ _ _ ?_
        have := free_append R (Registry.get_lt ht) h1
        dsimp only at *
        omega
      · exact Fine.ok _
    · exact Fine.ok _

theorem huskType_fine (R : Registry) (id : Nat) (c : Checker) : Fine (huskType R id c) := by
  unfold huskType
  refine Fine.bind (checkId_fine _ _) ?_
  intro c' _
  refine Fine.bind (R.get_fine _) ?_
  intro t _
  refine huskLoop_fine R _ _ _ _ _ ?_
  have := free_le R c'.cycleCheck
  dsimp only
  omega

theorem swallow_of_fine {α : Type} {r : Res α} (h : Fine r) : ∃ o, swallow r = .ok o := by
  rcases h.cases with ⟨a, rfl⟩ | ⟨e, rfl⟩
  · exact ⟨_, rfl⟩
  · exact ⟨_, rfl⟩

theorem swallow_fine {α : Type} {r : Res α} (h : Fine r) : Fine (swallow r) := by
  obtain ⟨o, ho⟩ := swallow_of_fine h
  rw [ho]; exact Fine.ok _

theorem signatureIndicator_total (R : Registry) (f : Field) : ∃ o, signatureIndicator R f = .ok o := by
  unfold signatureIndicator
  obtain ⟨o, ho⟩ := swallow_of_fine (huskType_fine R f.ty Checker.new)
  rw [ho, ok_bind]
  cases o with
  | none => exact ⟨_, rfl⟩
  | some h =>
    dsimp only
    split
    · rename_i len elem _
      obtain ⟨o, ho⟩ := swallow_of_fine (R.get_fine elem)
      rw [ho, ok_bind]
      cases o with
      | none => exact ⟨_, rfl⟩
      | some t =>
        dsimp only
        split
        · split
          · split
            · exact ⟨_, rfl⟩
            · split
              · exact ⟨_, rfl⟩
              · split <;> exact ⟨_, rfl⟩
          · exact ⟨_, rfl⟩
        · exact ⟨_, rfl⟩
    · exact ⟨_, rfl⟩

theorem readSlice_fine (b : Buf) (pos n : Nat) : Fine (b.readSlice pos n) := by
  unfold Buf.readSlice
  repeat' split
  all_goals first | exact Fine.err _ | exact Fine.ok _

theorem readByte_fine (b : Buf) (pos : Nat) : Fine (b.readByte pos) := by
  unfold Buf.readByte
  refine Fine.bind (readSlice_fine _ _ _) ?_
  intro s hs
  have := (readSlice_ok hs).2
  match s, this with
  | [x], _ => exact Fine.ok _

theorem pickVariant_fine (vs : List Variant) (b : Buf) (pos : Nat) : Fine (pickVariant vs b pos) := by
  unfold pickVariant
  refine Fine.bind (readByte_fine _ _) ?_
  intro i _
  split
  · exact Fine.ok _
  · exact Fine.err _

end Verif
