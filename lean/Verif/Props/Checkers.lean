import Verif.Spec.Checkers
import Verif.Props.FlakyTx
import Verif.Props.Shortened
import Verif.Props.Weight
/-!
# The assumptions on a registry can be checked

Each check of `Spec/Checkers.lean` is right: a list of types that passes makes a registry with the
property, so the theorems that assume it hold for that registry. `Verif/Test/Conformance.lean` runs the
checks on the metadata of real chains.
-/
namespace Verif
open Spec

variable {ts : List Typ}

theorem portable_get {id : Nat} {t : Typ} (h : (Registry.portable ts).resolve id = .ok t) : ts[id]? = some t := by
  simp only [Registry.portable] at h
  cases hx : ts[id]? with
  | none => rw [hx] at h; cases h
  | some t' => rw [hx] at h; cases h; rfl

theorem portable_typ {id : Nat} {t : Typ} (h : (Registry.portable ts).resolve id = .ok t) : t ∈ ts :=
  List.mem_of_getElem? (portable_get h)

theorem portable_reliable (id : Nat) : (Registry.portable ts).resolve id ≠ .error .external := by
  intro hr
  simp only [Registry.portable] at hr
  cases hx : ts[id]? with
  | none => rw [hx] at hr; cases hr
  | some t' => rw [hx] at hr; cases hr

theorem distinctBy_sound {κ : Type} [BEq κ] [LawfulBEq κ] {key : Variant → κ} {vs : List Variant}
    (h : Check.distinctBy key vs = true) {v w : Variant} (hv : v ∈ vs) (hw : w ∈ vs) (hk : key v = key w) : v = w := by
  have := List.all_eq_true.1 (List.all_eq_true.1 h v hv) w hw
  rw [hk] at this
  simpa using this

/-- Variants of every enum have different names. -/
theorem namesDistinct_check (h : Check.namesDistinct ts = true) : NamesDistinct (Registry.portable ts) := by
  intro id t vs hr hd v hv w hw hk
  have := List.all_eq_true.1 h t (portable_typ hr)
  rw [hd] at this
  exact distinctBy_sound this hv hw hk

/-- Variants of every enum have different indices. -/
theorem indicesDistinct_check (h : Check.indicesDistinct ts = true) : IndicesDistinct (Registry.portable ts) := by
  intro id t vs hr hd v hv w hw hk
  have := List.all_eq_true.1 h t (portable_typ hr)
  rw [hd] at this
  exact distinctBy_sound this hv hw hk

/-- Arrays and primitives have no names. -/
theorem leavesNameless_check (h : Check.leavesNameless ts = true) :
    LeavesNameless (Registry.portable ts) ∧ ArraysNameless (Registry.portable ts) := by
  have ha : ArraysNameless (Registry.portable ts) := by
    intro id t len elem hr hd
    have := List.all_eq_true.1 h t (portable_typ hr)
    rw [hd] at this
    simpa using this
  refine ⟨⟨ha, ?_⟩, ha⟩
  intro id t p hr hd
  have := List.all_eq_true.1 h t (portable_typ hr)
  rw [hd] at this
  simpa using this

/-- In every signature enum, one index for each kind of signature. -/
theorem signaturesDistinct_check (h : Check.signaturesDistinct ts = true) : SignaturesDistinct (Registry.portable ts) := by
  intro id t i j k hr h1 h2
  obtain ⟨hs, vs, v, f, hd, ⟨before, after, hvs, hvi, _⟩, hf, hname, _⟩ := h1
  obtain ⟨_, vs', v', f', hd', ⟨before', after', hvs', hvi', _⟩, hf', hname', _⟩ := h2
  rw [hd] at hd'; cases hd'
  have := List.all_eq_true.1 h t (portable_typ hr)
  rw [hd, hs] at this
  simp only [bne_self_eq_false, Bool.false_or] at this
  have hv : v ∈ vs := by rw [hvs]; simp
  have hv' : v' ∈ vs := by rw [hvs']; simp
  have mem : ∀ {v : Variant} {f : Field}, v ∈ vs → v.fields = [f] → (f.typeName, v.index) ∈ Check.loneFields vs := by
    intro v f hv hf
    unfold Check.loneFields
    rw [List.mem_filterMap]
    exact ⟨v, hv, by rw [hf]⟩
  have := List.all_eq_true.1 (List.all_eq_true.1 this _ (mem hv hf)) _ (mem hv' hf')
  have hn : f.typeName = f'.typeName := by
    rcases hname with ⟨rfl, e⟩ | ⟨rfl, e⟩ | ⟨rfl, e⟩ <;>
      rcases hname' with ⟨e2, e'⟩ | ⟨e2, e'⟩ | ⟨e2, e'⟩ <;> first | (cases e2; done) | rw [e, e']
  rw [hn] at this
  simp only [bne_self_eq_false, Bool.false_or, beq_iff_eq] at this
  rw [← hvi, ← hvi', this]

/-- No type contains itself directly. -/
theorem ranked_check {rk : Nat → Nat} (h : Check.ranked ts rk = true) : Ranked (Registry.portable ts) rk := by
  intro id t hr
  have hmem : (t, id) ∈ ts.zipIdx := List.mem_zipIdx_iff_getElem?.2 (portable_get hr)
  have h := List.all_eq_true.1 h _ hmem
  dsimp only at h
  refine ⟨?_, ?_, ?_, ?_⟩
  · intro fields hd f hf
    rw [hd] at h
    simpa using List.all_eq_true.1 h f hf
  · intro ids hd i hi
    rw [hd] at h
    simpa using List.all_eq_true.1 h i hi
  · intro n elem hd
    rw [hd] at h
    simpa using h
  · intro inner hd
    rw [hd] at h
    simpa using h

theorem notArray_sound {c c' : Bool} {id coreId k : Nat} {core : Typ} (h : Core (Registry.portable ts) c id c' core coreId k)
    (hc : c = true) : ∀ n, Check.notArray ts n id = true → ∀ len elem, core.typeDef ≠ .array len elem := by
  induction h with
  | stop hr _ =>
    intro n h len elem hd
    cases n with
    | zero => cases h
    | succ n =>
      unfold Check.notArray at h
      rw [portable_get hr] at h
      dsimp only at h
      rw [hd] at h
      cases h
  | struct hr hs hd _ ih =>
    intro n h
    cases n with
    | zero => cases h
    | succ n =>
      unfold Check.notArray at h
      rw [portable_get hr] at h
      dsimp only at h
      rw [hd] at h
      dsimp only at h
      rw [hs] at h
      exact ih hc n (by simpa using h)
  | compact _ _ _ _ _ => cases hc

/-- No compacts of arrays. -/
theorem noCompactArray_check (h : Check.noCompactArray ts = true) : NoCompactArray (Registry.portable ts) := by
  have key : ∀ {c c' : Bool} {id coreId k : Nat} {core : Typ}, Core (Registry.portable ts) c id c' core coreId k →
      c = false → c' = true → ∀ len elem, core.typeDef ≠ .array len elem := by
    intro c c' id coreId k core hcore
    induction hcore with
    | stop _ _ => intro h1 h2; rw [h1] at h2; cases h2
    | struct _ _ _ _ ih => exact ih
    | compact hr _ hd hcore _ =>
      intro _ _
      have := List.all_eq_true.1 h _ (portable_typ hr)
      rw [hd] at this
      exact notArray_sound hcore rfl _ this
  intro id core coreId k len elem hcore
  exact key hcore rfl rfl len elem

/-- Every pallet of the list has calls or events. -/
theorem palletsNonempty_check (h : Check.palletsNonempty ts = true) : PalletsNonempty (Registry.portable ts) := by
  rintro id t i item name inner hr ⟨hs, vs, v, f, t', hd, ⟨before, after, hvs, _⟩, _, hf, hr', hs', hd'⟩ rfl
  have := List.all_eq_true.1 h t (portable_typ hr)
  rw [hd, hs] at this
  have := List.all_eq_true.1 this v (by rw [hvs]; simp)
  rw [hf] at this
  dsimp only at this
  rw [portable_get hr'] at this
  obtain ⟨path, params, td, docs⟩ := t'
  dsimp only at hd' hs'
  subst hd'
  dsimp only at this
  rw [hs'] at this
  simp at this

theorem grounded_check {n : Nat} : ∀ {id : Nat}, Check.grounded ts n id = true → Grounded (Registry.portable ts) id := by
  induction n with
  | zero => intro id h; cases h
  | succ n ih =>
    intro id h
    refine .mk (fun t hr hs i hi => ?_)
    unfold Check.grounded at h
    rw [portable_get hr] at h
    simp only [Bool.or_eq_true, Bool.not_eq_true'] at h
    rcases h with h | h
    · exfalso
      unfold Check.structural at h
      unfold Structural at hs
      split at h <;> first | (simp_all; done) | cases h
    · exact ih (List.all_eq_true.1 h i hi)

/-- Elements of empty arrays do not contain themselves directly. -/
theorem emptyArrays_check (h : Check.emptyArrays ts = true) : EmptyArraysGrounded (Registry.portable ts) := by
  intro id t elem hr hs hd
  have := List.all_eq_true.1 h t (portable_typ hr)
  rw [hd] at this
  exact grounded_check this

/-- All of `Regular`. -/
theorem regular_check (h : Check.regular ts = true) : Regular (Registry.portable ts) := by
  unfold Check.regular at h
  simp only [Bool.and_eq_true] at h
  exact ⟨emptyArrays_check h.1.1, (leavesNameless_check h.1.2).1, noCompactArray_check h.2, portable_reliable⟩

/-- No call, event or signature takes part in the types `roots`. -/
theorem labelFree_check {ids roots : List Nat} (h : Check.labelFree ts ids roots = true) {id : Nat} (hid : id ∈ roots) :
    LabelFree (Registry.portable ts) id := by
  unfold Check.labelFree at h
  simp only [Bool.and_eq_true] at h
  obtain ⟨h1, h2⟩ := h
  have step : ∀ {id t}, id ∈ ids → (Registry.portable ts).resolve id = .ok t → Check.labelled t = false ∧
      (Structural t.path → ∀ x ∈ partIds t, x ∈ ids) := by
    intro id t hid hr
    have := List.all_eq_true.1 h1 id hid
    rw [portable_get hr] at this
    simp only [Bool.and_eq_true, Bool.not_eq_true', Bool.or_eq_true] at this
    refine ⟨this.1, fun hs x hx => ?_⟩
    rcases this.2 with h | h
    · exfalso
      unfold Structural at hs
      unfold Check.structural at h
      split at h
      all_goals first | (rename_i hq; rw [hq] at hs; exact hs) | cases h
    · have := List.all_eq_true.1 h x hx
      simpa using this
  have all : ∀ id', Reaches (Registry.portable ts) id id' → id' ∈ ids := by
    intro id' h
    induction h with
    | self =>
      have := List.all_eq_true.1 h2 id hid
      simpa using this
    | part _ hr hs hx ih => exact (step ih hr).2 hs _ hx
  intro id' t vs hre hr hd
  have := (step (all id' hre) hr).1
  unfold Check.labelled at this
  rw [hd] at this
  refine ⟨fun h => ?_, fun item h => ?_⟩ <;> (rw [h] at this; cases this)

theorem Spec.Parts.bytes_ne {ps : Parts} {x : Value × Bytes} (h : x ∈ ps) (hx : x.2 ≠ []) : ps.bytes ≠ [] := by
  intro e
  unfold Parts.bytes at e
  rw [List.flatMap_eq_nil_iff] at e
  exact hx (e x h)

theorem zip_any {ids : List Nat} {ps : Parts} {f : Nat → Bool} (hl : ps.length = ids.length) (h : ids.any f = true) :
    ∃ i x, (i, x) ∈ ids.zip ps ∧ f i = true := by
  induction ids generalizing ps with
  | nil => cases h
  | cons i ids ih =>
    cases ps with
    | nil => cases hl
    | cons x ps =>
      simp only [List.any_cons, Bool.or_eq_true] at h
      rcases h with h | h
      · exact ⟨i, x, by simp, h⟩
      · obtain ⟨j, y, h1, h2⟩ := ih (by simpa using hl) h
        exact ⟨j, y, by simp [h1], h2⟩

theorem takesBytes_structural {n id : Nat} {t : Typ} (hr : (Registry.portable ts).resolve id = .ok t)
    (hs : Structural t.path) (h : Check.takesBytes ts n id = true) : ∃ m, n = m + 1 ∧
      (match t.typeDef with
      | .composite fields => fields.any fun f => Check.takesBytes ts m f.ty
      | .tuple ids => ids.any fun i => Check.takesBytes ts m i
      | .array len elem => len != 0 && Check.takesBytes ts m elem
      | .compact inner => Check.takesBytes ts m inner
      | .variant vs => !vs.isEmpty
      | _ => true) = true := by
  cases n with
  | zero => cases h
  | succ m =>
    refine ⟨m, rfl, ?_⟩
    rw [Check.takesBytes, portable_get hr] at h
    simp only [Bool.or_eq_true, Bool.not_eq_true'] at h
    rcases h with h | h
    · exfalso
      unfold Structural at hs
      unfold Check.structural at h
      split at h
      all_goals first | (rename_i hq; rw [hq] at hs; exact hs) | cases h
    · exact h

theorem takesBytes_sound {n : Nat} {c : Bool} {id : Nat} {v : Value} {bs : Bytes}
    (he : Enc (Registry.portable ts) c id v bs) (h : Check.takesBytes ts n id = true) : bs ≠ [] := by
  induction he generalizing n with
  | @fixed _ _ k _ _ _ hl => rintro rfl; cases k <;> cases hl
  | hash _ _ hl => rintro rfl; cases hl
  | @era _ _ e _ _ _ => cases e <;> simp [eraEncode, leBytes]
  | @per _ _ k _ _ _ _ => exact leBytes_ne (by cases k <;> decide)
  | perCompact => exact List.length_pos_iff.1 (compactEncode_length_pos _)
  | newtype hr hs hd _ ih =>
    obtain ⟨m, _, h⟩ := takesBytes_structural hr hs h
    rw [hd] at h
    exact ih (by simpa using h)
  | unit hr hs hd =>
    obtain ⟨m, _, h⟩ := takesBytes_structural hr hs h
    rw [hd] at h
    cases h
  | @record _ _ fields ps hr hs hd _ hl _ ih =>
    obtain ⟨m, _, h⟩ := takesBytes_structural hr hs h
    rw [hd] at h
    dsimp only at h
    obtain ⟨i, x, h1, h2⟩ := zip_any (ids := fields.map (·.ty)) (ps := ps) (f := Check.takesBytes ts m)
      (by rw [List.length_map]; exact hl) (by rw [List.any_map]; exact h)
    exact Parts.bytes_ne (List.of_mem_zip h1).2 (ih _ h1 h2)
  | never hr hs hd =>
    obtain ⟨m, _, h⟩ := takesBytes_structural hr hs h
    rw [hd] at h
    cases h
  | variant => exact List.cons_ne_nil _ _
  | signature => exact List.cons_ne_nil _ _
  | pallet => exact List.cons_ne_nil _ _
  | sequence => exact compact_append_ne _ _
  | @array _ _ _ ps hr hs hd _ _ ih =>
    obtain ⟨m, _, h⟩ := takesBytes_structural hr hs h
    rw [hd] at h
    simp only [Bool.and_eq_true, bne_iff_ne] at h
    cases ps with
    | nil => exact absurd rfl h.1
    | cons x ps => exact Parts.bytes_ne (List.mem_cons_self ..) (ih x (List.mem_cons_self ..) h.2)
  | tuple hr hs hd _ hl _ ih =>
    obtain ⟨m, _, h⟩ := takesBytes_structural hr hs h
    rw [hd] at h
    dsimp only at h
    obtain ⟨i, x, h1, h2⟩ := zip_any hl h
    exact Parts.bytes_ne (List.of_mem_zip h1).2 (ih _ h1 h2)
  | primitive _ _ _ hp =>
    cases hp with
    | «false» | «true» => exact List.cons_ne_nil _ _
    | char => exact leBytes_ne (by decide)
    | str => exact compact_append_ne _ _
    | @uint _ w => exact leBytes_ne (by cases w <;> decide)
    | compact => exact List.length_pos_iff.1 (compactEncode_length_pos _)
    | u256 => exact leBytes_ne (by decide)
    | @int _ w => exact leBytes_ne (by cases w <;> decide)
  | compact hr hs hd _ ih =>
    obtain ⟨m, _, h⟩ := takesBytes_structural hr hs h
    rw [hd] at h
    exact ih h
  | bits _ _ _ _ _ hb => exact (bitsEnc_size hb).2

/-- Elements of vectors take at least one byte. -/
theorem solidVectors_check (h : Check.solidVectors ts = true) : SolidVectors (Registry.portable ts) := by
  intro id t elem hr hd v he
  have := List.all_eq_true.1 h t (portable_typ hr)
  rw [hd] at this
  exact takesBytes_sound he this rfl

/-- All checks pass for the example chain, and a registry that breaks each is found out. -/
example : Check.namesDistinct Example.chainTypes = true ∧ Check.indicesDistinct Example.chainTypes = true ∧
    Check.leavesNameless Example.chainTypes = true ∧ Check.signaturesDistinct Example.chainTypes = true ∧
    Check.ranked Example.chainTypes (fun i => if i = 7 then 1 else 0) = true ∧ Check.regular Example.chainTypes = true ∧ Check.palletsNonempty Example.chainTypes = true ∧
    Check.labelFree Example.chainTypes [1, 4, 5, 6, 7] [1, 5, 6, 7] = true ∧
    Check.solidVectors Example.chainTypes = true := by decide

example : Check.palletsNonempty FlakyExample.emptyPallet = false ∧
    Check.ranked [{ typeDef := .array 2 0 }] (fun i => i) = false ∧
    Check.emptyArrays [{ typeDef := .array 2 0 }] = true ∧
    Check.emptyArrays [{ typeDef := .array 0 1 }, { typeDef := .composite [{ ty := 0 }] }] = false ∧
    Check.emptyArrays [{ typeDef := .array 0 1 }, { typeDef := .sequence 0 }] = true ∧
    Check.namesDistinct [{ typeDef := .variant [{ name := "A", index := 0, fields := [] }, { name := "A", index := 1, fields := [] }] }] = false ∧
    Check.indicesDistinct [{ typeDef := .variant [{ name := "A", index := 0, fields := [] }, { name := "B", index := 0, fields := [] }] }] = false ∧
    Check.noCompactArray [{ typeDef := .primitive .u8 }, { typeDef := .array 4 0 }, { typeDef := .composite [{ ty := 1 }] }, { typeDef := .compact 2 }] = false ∧
    Check.labelFree Example.chainTypes [1, 4, 5, 6, 7] [2] = false ∧
    Check.solidVectors [{ typeDef := .tuple [] }, { typeDef := .composite [{ ty := 0 }, { ty := 0 }] }, { typeDef := .sequence 1 }] = false ∧
    Check.solidVectors Example.types = false := by decide

/-- The types of the example of C65 meet its assumption. -/
example : SolidVectors (Registry.portable WeightExample.solidTypes) := solidVectors_check (by decide)

end Verif
