import Verif.Spec.Payload
/-!
# What the bytes of a type are, type by type

Used in `Proof/Westend.lean` to spell out the encodings of the types of a given registry.
-/
namespace Verif
open Spec

/-- The encodings of a type whose path does not fix the layout, by its definition. -/
def EncDef (R : Registry) (c : Bool) (t : Typ) (v : Value) (bs : Bytes) : Prop :=
  match t.typeDef with
  | .composite [] => v = .record [] ∧ bs = []
  | .composite [f] => Enc R c f.ty v bs
  | .composite fields => c = false ∧ ∃ ps : Parts, ps.length = fields.length ∧
      (∀ x ∈ (fields.map (·.ty)).zip ps, Enc R false x.1 x.2.1 x.2.2) ∧ v = .record (ps.named fields) ∧ bs = ps.bytes
  | .variant vs => c = false ∧
      ((vs = [] ∧ v = .never ∧ bs = []) ∨
       (∃ (w : Variant) (i : UInt8) (ps : Parts), Selects vs i w ∧ (∀ k, ¬ IsSignature R t i k) ∧
          (∀ item n inner, ¬ IsPallet R t i item n inner) ∧ ps.length = w.fields.length ∧
          (∀ x ∈ (w.fields.map (·.ty)).zip ps, Enc R false x.1 x.2.1 x.2.2) ∧
          v = .variant w.name (ps.named w.fields) ∧ bs = i :: ps.bytes) ∨
       (∃ (i : UInt8) (k : FixedKind) (b' : Bytes), IsSignature R t i k ∧ b'.length = k.len ∧ v = .fixed k b' ∧ bs = i :: b') ∨
       (∃ (inner : List Variant) (w : Variant) (i j : UInt8) (item : PalletItem) (name : String) (ps : Parts),
          IsPallet R t i item name inner ∧ Selects inner j w ∧ ps.length = w.fields.length ∧
          (∀ x ∈ (w.fields.map (·.ty)).zip ps, Enc R false x.1 x.2.1 x.2.2) ∧
          v = .pallet item name w.name (ps.named w.fields) ∧ bs = i :: j :: ps.bytes))
  | .sequence elem => c = false ∧ Known R elem ∧ ∃ ps : Parts, ps.length < 2 ^ 32 ∧ (∀ x ∈ ps, Enc R false elem x.1 x.2) ∧
      v = .seq ps.values ∧ bs = compactEncode ps.length ++ ps.bytes
  | .array n elem => c = false ∧ Known R elem ∧ ∃ ps : Parts, ps.length = n ∧ (∀ x ∈ ps, Enc R false elem x.1 x.2) ∧
      v = .seq ps.values ∧ bs = ps.bytes
  | .tuple ids => (2 ≤ ids.length → c = false) ∧ ∃ ps : Parts, ps.length = ids.length ∧
      (∀ x ∈ ids.zip ps, Enc R c x.1 x.2.1 x.2.2) ∧ v = .tuple ps.values ∧ bs = ps.bytes
  | .primitive p => EncPrim c p v bs
  | .compact inner => c = false ∧ Enc R true inner v bs
  | .bitSequence order store => c = false ∧ ∃ o s l, IsBitOrder R order o ∧ IsBitStore R store s ∧ BitsEnc s o l bs ∧
      v = .bits s o l

/-- The encodings of a type, by its path and its definition. -/
def EncAs (R : Registry) (c : Bool) (t : Typ) (v : Value) (bs : Bytes) : Prop :=
  match special t.path with
  | some (.fixed k) => (c = false ∧ v = .fixed k bs ∧ bs.length = k.len)
  | some .hash => (c = false ∧ v = .hash bs ∧ bs.length = 32)
  | some .era => (c = false ∧ ∃ e, EraOk e ∧ v = .era e ∧ bs = eraEncode e)
  | some (.per k) => (c = false ∧ ∃ n, n ≤ k.accuracy ∧ v = .per k n ∧ bs = leBytes k.inner.bytes n) ∨
      (c = true ∧ ∃ n, n < 2 ^ (8 * k.inner.bytes) ∧ v = .per k (min n k.accuracy) ∧ bs = compactEncode n)
  | _ => EncDef R c t v bs

variable {R : Registry} {c : Bool} {id : Nat} {t : Typ} {v : Value} {bs : Bytes}

theorem encAs_structural (hs : Structural t.path) : EncAs R c t v bs ↔ EncDef R c t v bs := by
  unfold Structural at hs
  unfold EncAs
  cases hp : special t.path with
  | none => exact Iff.rfl
  | some s => rw [hp] at hs; cases s <;> first | exact Iff.rfl | exact hs.elim

theorem enc_as (hr : R.resolve id = .ok t) : Enc R c id v bs ↔ EncAs R c t v bs := by
  constructor
  · intro h
    cases h with
    | fixed h1 h2 h3 => cases hr.symm.trans h1; unfold EncAs; rw [h2]; exact ⟨rfl, rfl, h3⟩
    | hash h1 h2 h3 => cases hr.symm.trans h1; unfold EncAs; rw [h2]; exact ⟨rfl, rfl, h3⟩
    | era h1 h2 h3 => cases hr.symm.trans h1; unfold EncAs; rw [h2]; exact ⟨rfl, _, h3, rfl, rfl⟩
    | per h1 h2 h3 => cases hr.symm.trans h1; unfold EncAs; rw [h2]; exact .inl ⟨rfl, _, h3, rfl, rfl⟩
    | perCompact h1 h2 h3 => cases hr.symm.trans h1; unfold EncAs; rw [h2]; exact .inr ⟨rfl, _, h3, rfl, rfl⟩
    | newtype h1 h2 h3 h4 => cases hr.symm.trans h1; rw [encAs_structural h2]; unfold EncDef; rw [h3]; exact h4
    | unit h1 h2 h3 => cases hr.symm.trans h1; rw [encAs_structural h2]; unfold EncDef; rw [h3]; exact ⟨rfl, rfl⟩
    | record h1 h2 h3 h4 h5 h6 =>
      cases hr.symm.trans h1; rw [encAs_structural h2]; unfold EncDef; rw [h3]
      rename_i fields ps
      match fields, h4 with
      | f :: g :: l, _ => exact ⟨rfl, ps, h5, h6, rfl, rfl⟩
    | never h1 h2 h3 => cases hr.symm.trans h1; rw [encAs_structural h2]; unfold EncDef; rw [h3]; exact ⟨rfl, .inl ⟨rfl, rfl, rfl⟩⟩
    | variant h1 h2 h3 h4 h5 h6 h7 h8 =>
      cases hr.symm.trans h1; rw [encAs_structural h2]; unfold EncDef; rw [h3]
      exact ⟨rfl, .inr (.inl ⟨_, _, _, h4, h5, h6, h7, h8, rfl, rfl⟩)⟩
    | signature h1 h2 h3 =>
      cases hr.symm.trans h1
      have h2' := h2
      obtain ⟨hp, vs, w, f, hd, -⟩ := h2
      unfold EncAs; rw [hp]; show EncDef _ _ _ _ _; unfold EncDef; rw [hd]
      exact ⟨rfl, .inr (.inr (.inl ⟨_, _, _, h2', h3, rfl, rfl⟩))⟩
    | pallet h1 h2 h3 h4 h5 =>
      cases hr.symm.trans h1
      have h2' := h2
      obtain ⟨hp, vs, w, f, t', hd, -⟩ := h2
      unfold EncAs; rw [hp]; show EncDef _ _ _ _ _; unfold EncDef; rw [hd]
      exact ⟨rfl, .inr (.inr (.inr ⟨_, _, _, _, _, _, _, h2', h3, h4, h5, rfl, rfl⟩))⟩
    | sequence h1 h2 h3 h4 h5 h6 =>
      cases hr.symm.trans h1; rw [encAs_structural h2]; unfold EncDef; rw [h3]; exact ⟨rfl, h4, _, h5, h6, rfl, rfl⟩
    | array h1 h2 h3 h4 h5 =>
      cases hr.symm.trans h1; rw [encAs_structural h2]; unfold EncDef; rw [h3]; exact ⟨rfl, h4, _, rfl, h5, rfl, rfl⟩
    | tuple h1 h2 h3 h4 h5 h6 =>
      cases hr.symm.trans h1; rw [encAs_structural h2]; unfold EncDef; rw [h3]; exact ⟨h4, _, h5, h6, rfl, rfl⟩
    | primitive h1 h2 h3 h4 => cases hr.symm.trans h1; rw [encAs_structural h2]; unfold EncDef; rw [h3]; exact h4
    | compact h1 h2 h3 h4 => cases hr.symm.trans h1; rw [encAs_structural h2]; unfold EncDef; rw [h3]; exact ⟨rfl, h4⟩
    | bits h1 h2 h3 h4 h5 h6 =>
      cases hr.symm.trans h1; rw [encAs_structural h2]; unfold EncDef; rw [h3]; exact ⟨rfl, _, _, _, h4, h5, h6, rfl⟩
  · intro h
    by_cases hs : Structural t.path
    · rw [encAs_structural hs] at h
      unfold EncDef at h
      split at h
      · rename_i hd; obtain ⟨rfl, rfl⟩ := h; exact .unit hr hs hd
      · rename_i hd; exact .newtype hr hs hd h
      · rename_i fields h1 h2 hd
        obtain ⟨rfl, ps, h3, h4, rfl, rfl⟩ := h
        refine .record hr hs hd ?_ h3 h4
        match fields, h1, h2 with
        | [], h1, _ => exact absurd rfl h1
        | [f], _, h2 => exact absurd rfl (h2 f)
        | _ :: _ :: _, _, _ => simp only [List.length_cons]; omega
      · rename_i vs hd
        obtain ⟨rfl, ⟨rfl, rfl, rfl⟩ | ⟨w, i, ps, h1, h2, h3, h4, h5, rfl, rfl⟩ | ⟨i, k, b', h1, h2, rfl, rfl⟩ |
          ⟨inner, w, i, j, item, name, ps, h1, h2, h3, h4, rfl, rfl⟩⟩ := h
        · exact .never hr hs hd
        · exact .variant hr hs hd h1 h2 h3 h4 h5
        · exact .signature hr h1 h2
        · exact .pallet hr h1 h2 h3 h4
      · rename_i hd; obtain ⟨rfl, h1, ps, h2, h3, rfl, rfl⟩ := h; exact .sequence hr hs hd h1 h2 h3
      · rename_i n elem hd; obtain ⟨rfl, h1, ps, rfl, h3, rfl, rfl⟩ := h; exact .array hr hs hd h1 h3
      · rename_i hd; obtain ⟨h1, ps, h2, h3, rfl, rfl⟩ := h; exact .tuple hr hs hd h1 h2 h3
      · rename_i hd; exact .primitive hr hs hd h
      · rename_i hd; obtain ⟨rfl, h⟩ := h; exact .compact hr hs hd h
      · rename_i hd; obtain ⟨rfl, o, s, l, h1, h2, h3, rfl⟩ := h; exact .bits hr hs hd h1 h2 h3
    · unfold EncAs at h
      unfold Structural at hs
      split at h
      · rename_i hp; obtain ⟨rfl, rfl, h1⟩ := h; exact .fixed hr hp h1
      · rename_i hp; obtain ⟨rfl, rfl, h1⟩ := h; exact .hash hr hp h1
      · rename_i hp; obtain ⟨rfl, e, h1, rfl, rfl⟩ := h; exact .era hr hp h1
      · rename_i hp
        obtain ⟨rfl, n, h1, rfl, rfl⟩ | ⟨rfl, n, h1, rfl, rfl⟩ := h
        · exact .per hr hp h1
        · exact .perCompact hr hp h1
      · exact absurd (by split <;> simp_all) hs

end Verif
