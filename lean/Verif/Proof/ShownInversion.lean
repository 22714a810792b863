import Verif.Spec.Shown
/-!
# What a tree looks like, type by type

Used in `Props/Screen.lean` to spell out the trees of the types of a given registry.
-/
namespace Verif
open Spec

/-- The trees of a type whose path does not fix the layout, by its definition (only what is needed there). -/
def ShownDef (R : Registry) (h : Hint) (is : List Info) (t : Typ) (d : ED) : Prop :=
  match t.typeDef with
  | .composite fields => ∃ ds : List FD, d.data = .composite ds ∧ ds.length = fields.length ∧
      (∀ x ∈ fields.zip ds, x.2.fieldName = x.1.name) ∧
      (∀ x ∈ fields.zip ds, Shown R (first (handed fields.length h) (fieldLabel x.1)) [] x.1.ty x.2.data)
  | .variant vs => d.data = .emptyEnum ∨
      (∃ (v : Variant) (docs : String) (ds : List FD), v ∈ vs ∧ d.data = .variant v.name docs ds ∧ ds.length = v.fields.length ∧
        (∀ x ∈ v.fields.zip ds, x.2.fieldName = x.1.name) ∧
        (∀ x ∈ v.fields.zip ds, Shown R (fieldLabel x.1) [] x.1.ty x.2.data)) ∨
      (∃ (k : FixedKind) (bs : Bytes), d.data = .fixed k bs) ∨
      (∃ (t' : Typ) (inner : List Variant) (w v : Variant) (f : Field) (item : PalletItem) (docs : String) (info : Info)
        (ds : List FD), w ∈ vs ∧ w.fields = [f] ∧ R.resolve f.ty = .ok t' ∧ t'.typeDef = .variant inner ∧ v ∈ inner ∧
        d.data = .pallet item info docs w.name v.name ds ∧ ds.length = v.fields.length ∧
        (∀ x ∈ v.fields.zip ds, x.2.fieldName = x.1.name) ∧
        (∀ x ∈ v.fields.zip ds, Shown R (fieldLabel x.1) [] x.1.ty x.2.data))
  | .tuple ids => ∃ ds : List ED, d.data = .tuple ds ∧ ds.length = ids.length
  | .primitive p => (∃ w v, IsUInt p w ∧ d.data = .uint w v (uintLabel h)) ∨ ∀ w, ¬ IsUInt p w
  | .compact inner => Shown R h (is ++ ownInfo t) inner d
  | .sequence elem => ∃ (h' : Hint) (is' : List Info) (core : Nat) (es : List ED), Peel R .none [] elem h' is' core ∧
      (∀ e ∈ es, Shown R h' [] core e) ∧ (d.data = .sequenceRaw is' (es.map (·.data)) ∨
        ∃ s, Collected (es.map (·.data)) s ∧ d.data = .sequence is' s)
  | _ => True

/-- The trees of a type, by its path and its definition. -/
def ShownAs (R : Registry) (h : Hint) (is : List Info) (t : Typ) (d : ED) : Prop :=
  match special t.path with
  | some (.fixed k) => ∃ bs, d.data = .fixed k bs
  | some .hash => ∃ bs, d.data = labelledHash h bs
  | some .era => ∃ e, d.data = .era e
  | some (.per k) => ∃ v, d.data = .perThing k v
  | _ => ShownDef R h is t d

variable {R : Registry} {h : Hint} {is : List Info} {id : Nat} {t : Typ} {d : ED}

theorem shownAs_structural (hs : Structural t.path) : ShownAs R h is t d ↔ ShownDef R h is t d := by
  unfold Structural at hs
  unfold ShownAs
  cases hp : special t.path with
  | none => exact Iff.rfl
  | some s => rw [hp] at hs; cases s <;> first | exact Iff.rfl | exact hs.elim

theorem shown_as (hr : R.resolve id = .ok t) (hs : Shown R h is id d) : ShownAs R h is t d := by
  cases hs with
  | fixed h1 h2 => cases hr.symm.trans h1; unfold ShownAs; rw [h2]; exact ⟨_, rfl⟩
  | hash h1 h2 => cases hr.symm.trans h1; unfold ShownAs; rw [h2]; exact ⟨_, rfl⟩
  | era h1 h2 => cases hr.symm.trans h1; unfold ShownAs; rw [h2]; exact ⟨_, rfl⟩
  | per h1 h2 => cases hr.symm.trans h1; unfold ShownAs; rw [h2]; exact ⟨_, rfl⟩
  | struct h1 h2 h3 h4 h5 h6 =>
    cases hr.symm.trans h1; rw [shownAs_structural h2]; unfold ShownDef; rw [h3]
    exact ⟨_, rfl, h4, fun x hx => (h5 x hx).1, h6⟩
  | never h1 h2 h3 => cases hr.symm.trans h1; rw [shownAs_structural h2]; unfold ShownDef; rw [h3]; exact .inl rfl
  | variant h1 h2 h3 h4 h5 h6 h7 =>
    cases hr.symm.trans h1; rw [shownAs_structural h2]; unfold ShownDef; rw [h3]
    exact .inr (.inl ⟨_, _, _, h4, rfl, h5, fun x hx => (h6 x hx).1, h7⟩)
  | signature h1 h2 =>
    cases hr.symm.trans h1
    obtain ⟨hp, vs, w, f, hd, -⟩ := h2
    unfold ShownAs; rw [hp]; show ShownDef _ _ _ _ _; unfold ShownDef; rw [hd]
    exact .inr (.inr (.inl ⟨_, _, rfl⟩))
  | pallet h1 h2 h3 h4 h5 h6 h7 h8 h9 h10 h11 h12 =>
    cases hr.symm.trans h1
    unfold ShownAs; rw [h2]; show ShownDef _ _ _ _ _; unfold ShownDef; rw [h3]
    exact .inr (.inr (.inr ⟨_, _, _, _, _, _, _, _, _, h4, h5, h6, h8, h9, rfl, h10, fun x hx => (h11 x hx).1, h12⟩))
  | list h1 h2 h3 h4 h5 =>
    cases hr.symm.trans h1; rw [shownAs_structural h2]; unfold ShownDef
    rcases h3 with h3 | h3 <;> rw [h3]
    · exact ⟨_, _, _, _, h4, h5, .inl rfl⟩
    · trivial
  | collected h1 h2 h3 h4 h5 h6 =>
    cases hr.symm.trans h1; rw [shownAs_structural h2]; unfold ShownDef
    rcases h3 with h3 | h3 <;> rw [h3]
    · exact ⟨_, _, _, _, h4, h5, .inr ⟨_, h6, rfl⟩⟩
    · trivial
  | tuple h1 h2 h3 h4 => cases hr.symm.trans h1; rw [shownAs_structural h2]; unfold ShownDef; rw [h3]; exact ⟨_, rfl, h4⟩
  | uint h1 h2 h3 h4 =>
    cases hr.symm.trans h1; rw [shownAs_structural h2]; unfold ShownDef; rw [h3]; exact .inl ⟨_, _, h4, rfl⟩
  | text h1 h2 h3 => cases hr.symm.trans h1; rw [shownAs_structural h2]; unfold ShownDef; rw [h3]; exact .inr (by intro w h; cases h)
  | bool h1 h2 h3 => cases hr.symm.trans h1; rw [shownAs_structural h2]; unfold ShownDef; rw [h3]; exact .inr (by intro w h; cases h)
  | char h1 h2 h3 => cases hr.symm.trans h1; rw [shownAs_structural h2]; unfold ShownDef; rw [h3]; exact .inr (by intro w h; cases h)
  | u256 h1 h2 h3 => cases hr.symm.trans h1; rw [shownAs_structural h2]; unfold ShownDef; rw [h3]; exact .inr (by intro w h; cases h)
  | int h1 h2 h3 h4 =>
    cases hr.symm.trans h1; rw [shownAs_structural h2]; unfold ShownDef; rw [h3]
    exact .inr (by intro w h; cases h4 <;> cases h)
  | compact h1 h2 h3 h4 => cases hr.symm.trans h1; rw [shownAs_structural h2]; unfold ShownDef; rw [h3]; exact h4
  | bits h1 h2 h3 => cases hr.symm.trans h1; rw [shownAs_structural h2]; unfold ShownDef; rw [h3]; trivial

end Verif
