import Verif.Props.Decode
/-!
# Taking wrappers off element types (C44)
-/
namespace Verif
open Spec

variable {R : Registry}

theorem not_structural_cases {p : List String} (hs : special p = none) : Structural p := by
  unfold Structural; rw [hs]; trivial

/-- Encodings of a type are encodings of what is left when wrappers are taken off. -/
theorem Spec.Core.enc_core {c c' : Bool} {id coreId k : Nat} {core : Typ}
    (h : Core R c id c' core coreId k) {v : Value} {bs : Bytes} (he : Enc R c id v bs) :
    Enc R c' coreId v bs := by
  induction h with
  | stop _ _ => exact he
  | struct h1 h2 h3 _ ih =>
    apply ih
    cases he with
    | newtype hr _ hd he => rw [h1] at hr; cases hr; rw [h3] at hd; cases hd; exact he
    | unit hr' _ hd' | never hr' _ hd' | variant hr' _ hd' | array hr' _ hd'
    | primitive hr' _ hd' | tuple hr' _ hd' | sequence hr' _ hd' | bits hr' _ hd' | compact hr' _ hd' =>
      rw [h1] at hr'; cases hr'; rw [h3] at hd'; cases hd'
    | record hr' _ hd' hl => rw [h1] at hr'; cases hr'; rw [h3] at hd'; cases hd'; simp at hl
    | signature hr' h' =>
      rw [h1] at hr'; cases hr'; have := h'.1; rw [h2] at this; cases this
    | pallet hr' h' =>
      rw [h1] at hr'; cases hr'; have := h'.1; rw [h2] at this; cases this
    | fixed hr' hs' | hash hr' hs' | era hr' hs' | per hr' hs' | perCompact hr' hs' =>
      rw [h1] at hr'; cases hr'; rw [h2] at hs'; cases hs'
  | compact h1 h2 h3 _ ih =>
    apply ih
    cases he with
    | compact hr _ hd he => rw [h1] at hr; cases hr; rw [h3] at hd; cases hd; exact he
    | unit hr' _ hd' | never hr' _ hd' | variant hr' _ hd' | array hr' _ hd'
    | primitive hr' _ hd' | tuple hr' _ hd' | sequence hr' _ hd' | bits hr' _ hd' | newtype hr' _ hd'
    | record hr' _ hd' =>
      rw [h1] at hr'; cases hr'; rw [h3] at hd'; cases hd'
    | signature hr' h' =>
      rw [h1] at hr'; cases hr'; have := h'.1; rw [h2] at this; cases this
    | pallet hr' h' =>
      rw [h1] at hr'; cases hr'; have := h'.1; rw [h2] at this; cases this
    | fixed hr' hs' | hash hr' hs' | era hr' hs' | per hr' hs' =>
      rw [h1] at hr'; cases hr'; rw [h2] at hs'; cases hs'

/-- C44. The values of the resolved element type have exactly the same encodings as the
values of the original type (inside a compact, if one was taken off). -/
theorem huskType_faithful {id : Nat} {c : Checker} {h : HuskedType} (hh : huskType R id c = .ok h)
    (v : Value) (bs : Bytes) :
    Enc R false id v bs ↔ Enc R h.checker.specialtySet.compactAt.isSome h.id v bs := by
  obtain ⟨_, k, hc⟩ := huskType_core hh
  exact ⟨hc.enc_core, hc.enc⟩

/-- C44. Only single-field structs and at most one compact are taken off, and what is left
is neither of them (or is a type known by its path). -/
theorem huskType_strips {id : Nat} {c : Checker} {h : HuskedType} (hh : huskType R id c = .ok h) :
    R.resolve h.id = .ok h.ty ∧
    (∃ k, Core R false id h.checker.specialtySet.compactAt.isSome h.ty h.id k) ∧
    (special h.ty.path = none → (∀ f, h.ty.typeDef ≠ .composite [f]) ∧
      (∀ i, h.ty.typeDef ≠ .compact i)) := by
  obtain ⟨h1, k, hc⟩ := huskType_core hh
  refine ⟨h1, ⟨k, hc⟩, ?_⟩
  have : ∀ {d d' : Bool} {id coreId k : Nat} {core : Typ}, Core R d id d' core coreId k →
      special core.path = none → (∀ f, core.typeDef ≠ .composite [f]) ∧ (∀ i, core.typeDef ≠ .compact i) := by
    intro d d' id coreId k core hcore
    induction hcore with
    | stop _ hs => exact hs
    | struct _ _ _ _ ih => exact ih
    | compact _ _ _ _ ih => exact ih
  intro hs
  exact this hc hs

/-- C44. Resolution succeeds exactly when taking off wrappers ends at a known type. -/
theorem huskType_iff (id : Nat) : (∃ h, huskType R id Checker.new = .ok h) ↔ Known R id := by
  constructor
  · rintro ⟨h, hh⟩
    obtain ⟨_, k, hc⟩ := huskType_core hh
    exact ⟨_, _, _, _, hc⟩
  · rintro ⟨c', core, coreId, k, hc⟩
    obtain ⟨h, h1, _⟩ := huskType_of_core coreHeight_down hc (ch := Checker.new)
      (by intro x hx; cases hx)
    exact ⟨h, h1⟩

/-- `j` is what the single-field struct `id` holds. -/
def Wraps (R : Registry) (id j : Nat) : Prop :=
  ∃ t f, R.resolve id = .ok t ∧ special t.path = none ∧ t.typeDef = .composite [f] ∧ f.ty = j

/-- C44. A chain of wrappers that never ends is reported as cyclic metadata. -/
theorem huskType_cyclic {S : Nat → Prop} (hS : ∀ id, S id → ∃ j, Wraps R id j ∧ S j)
    {id : Nat} (hid : S id) :
    ∃ j, S j ∧ huskType R id Checker.new =
      .error (.err (.registry (.internal (.cyclicMetadata j)))) := by
  have hcyc : ∀ {c : Checker} {j : Nat}, c.cycleCheck.contains j = true →
      c.checkId j = .error (.err (.registry (.internal (.cyclicMetadata j)))) := by
    intro c j h; unfold Checker.checkId; rw [if_pos h]; rfl
  have key : ∀ n id ty info (c : Checker), free R c.cycleCheck < n → S id → R.resolve id = .ok ty →
      ∃ j, S j ∧ huskLoop R n ty id info c = .error (.err (.registry (.internal (.cyclicMetadata j)))) := by
    intro n
    induction n with
    | zero => intro id ty info c h; omega
    | succ n ih =>
      intro id ty info c hfree hs ht
      obtain ⟨j, ⟨t, f, h1, h2, h3, h4⟩, hj⟩ := hS id hs
      rw [ht] at h1; cases h1
      obtain ⟨_, ⟨tj, _, htj, _⟩, _⟩ := hS j hj
      subst h4
      unfold huskLoop
      simp only [if_pos (hinted_none.2 h2), h3]
      cases hcon : c.cycleCheck.contains f.ty with
      | true => exact ⟨f.ty, hj, by rw [hcyc hcon]; rfl⟩
      | false =>
        have hlt : f.ty < R.size := Registry.get_lt (get_ok.2 htj)
        have hfr := free_append R hlt hcon
        rw [checkId_ok.2 ⟨hcon, rfl⟩, ok_bind, get_ok.2 htj, ok_bind]
        exact ih _ _ _ _ (by rw [hintFromField_cycle]; simp only; omega) hj htj
  obtain ⟨_, ⟨t, _, ht, _⟩, _⟩ := hS id hid
  unfold huskType
  rw [checkId_ok.2 ⟨rfl, rfl⟩, ok_bind, get_ok.2 ht, ok_bind]
  exact key _ _ _ _ _ (Nat.lt_succ_of_le (free_le R _)) hid ht

example : Wraps Example.reg 10 10 := ⟨{ path := ["X"], typeDef := .composite [{ ty := 10 }] }, { ty := 10 }, rfl, rfl, rfl, rfl⟩

example : ∃ h, huskType Example.good 8 Checker.new = .ok h ∧ h.id = 4 := ⟨_, rfl, rfl⟩
example : ∃ h, huskType Example.good 2 Checker.new = .ok h ∧ h.id = 1 ∧
    h.checker.specialtySet.compactAt = some 2 := ⟨_, rfl, rfl, rfl⟩

end Verif
