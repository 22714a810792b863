import Verif.Props.Storage
import Verif.Props.Husk
import Verif.Props.Hints
import Verif.Spec.Metadata
/-!
# Metadata: version constant and extrinsic type parameters
-/
namespace Verif
open Spec

variable {R : Registry}

/-! ### C42 finding the constant -/

theorem versionIn_none : ∀ {cs : List Constant} {found : Option (Bytes × Nat)},
    (∀ x ∈ cs, x.name ≠ "Version") → versionIn cs found = found
  | [], _, _ => rfl
  | c :: cs, found, h => by
    unfold versionIn
    rw [if_neg (h c (by simp))]
    exact versionIn_none fun x hx => h x (by simp [hx])

theorem versionIn_append : ∀ (cs cs' : List Constant) (found : Option (Bytes × Nat)),
    versionIn (cs ++ cs') found = versionIn cs' (versionIn cs found)
  | [], _, _ => rfl
  | c :: cs, cs', found => by
    rw [List.cons_append]
    conv => lhs; unfold versionIn
    rw [versionIn_append cs cs']
    conv => rhs; arg 2; unfold versionIn

theorem last_version (cs : List Constant) :
    (∀ x ∈ cs, x.name ≠ "Version") ∨
    ∃ l c r, cs = l ++ c :: r ∧ c.name = "Version" ∧ ∀ x ∈ r, x.name ≠ "Version" := by
  induction cs with
  | nil => exact .inl (by simp)
  | cons c cs ih =>
    rcases ih with h | ⟨l, d, r, rfl, h1, h2⟩
    · by_cases hc : c.name = "Version"
      · exact .inr ⟨[], c, cs, rfl, hc, h⟩
      · exact .inl (by simpa using ⟨hc, h⟩)
    · exact .inr ⟨c :: l, d, r, rfl, h1, h2⟩

theorem first_system (ps : List Pallet) :
    (∀ x ∈ ps, x.name ≠ "System") ∨
    ∃ l p r, ps = l ++ p :: r ∧ p.name = "System" ∧ ∀ x ∈ l, x.name ≠ "System" := by
  induction ps with
  | nil => exact .inl (by simp)
  | cons c cs ih =>
    by_cases hc : c.name = "System"
    · exact .inr ⟨[], c, cs, rfl, hc, by simp⟩
    · rcases ih with h | ⟨l, d, r, rfl, h1, h2⟩
      · exact .inl (by simpa using ⟨hc, h⟩)
      · exact .inr ⟨c :: l, d, r, rfl, h1, by simpa using ⟨hc, h2⟩⟩

theorem systemPallet_first {l : List Pallet} {p : Pallet} {r : List Pallet} (hl : ∀ x ∈ l, x.name ≠ "System")
    (hp : p.name = "System") : systemPallet (l ++ p :: r) = some (versionIn p.constants none) := by
  induction l with
  | nil => unfold systemPallet; rw [List.nil_append]; dsimp only; rw [if_pos hp]
  | cons q l ih =>
    rw [List.cons_append]
    unfold systemPallet
    rw [if_neg (hl q (by simp))]
    exact ih fun x hx => hl x (by simp [hx])

theorem systemPallet_none {ps : List Pallet} (h : ∀ x ∈ ps, x.name ≠ "System") : systemPallet ps = none := by
  induction ps with
  | nil => rfl
  | cons q l ih =>
    unfold systemPallet
    rw [if_neg (h q (by simp))]
    exact ih fun x hx => h x (by simp [hx])

/-- C42. The constant that is found. -/
theorem versionConstant_of {pallets : List Pallet} {c : Constant} (h : IsVersionConstant pallets c) :
    versionConstant pallets = .ok (c.value, c.ty) := by
  obtain ⟨l, p, r, cs, cs', rfl, h1, h2, h3, h4, h5⟩ := h
  unfold versionConstant
  rw [systemPallet_first h1 h2, h3, versionIn_append]
  unfold versionIn
  rw [if_pos h4, versionIn_none h5]

/-- C42. Without a `System` pallet. -/
theorem versionConstant_noSystem {pallets : List Pallet} (h : ∀ p ∈ pallets, p.name ≠ "System") :
    versionConstant pallets = .error .noSystemPallet := by
  unfold versionConstant
  rw [systemPallet_none h]

/-- C42. Without a `Version` constant in the first `System` pallet. -/
theorem versionConstant_noVersion {l r : List Pallet} {p : Pallet} (hl : ∀ x ∈ l, x.name ≠ "System")
    (hp : p.name = "System") (h : ∀ c ∈ p.constants, c.name ≠ "Version") :
    versionConstant (l ++ p :: r) = .error .noVersionInConstants := by
  unfold versionConstant
  rw [systemPallet_first hl hp, versionIn_none h]

theorem versionConstant_ok {pallets : List Pallet} {x : Bytes × Nat} (h : versionConstant pallets = .ok x) :
    ∃ c, IsVersionConstant pallets c ∧ x = (c.value, c.ty) := by
  rcases first_system pallets with hs | ⟨l, p, r, rfl, hp, hl⟩
  · rw [versionConstant_noSystem hs] at h; cases h
  · rcases last_version p.constants with hv | ⟨cs, c, cs', hc, hn, hr⟩
    · rw [versionConstant_noVersion hl hp hv] at h; cases h
    · have hi : IsVersionConstant (l ++ p :: r) c := ⟨l, p, r, cs, cs', rfl, hl, hp, hc, hn, hr⟩
      rw [versionConstant_of hi] at h
      cases h
      exact ⟨c, hi, rfl⟩

/-! ### C42 labels are names -/

theorem shown_composite {h : Hint} {is : List Info} {id : Nat} {d : ED} (hs : Shown R h is id d)
    (hh : h = .none) {ds : List FD} (hd : d.data = .composite ds) :
    ∀ x ∈ ds, ∃ f : Field, x.fieldName = f.name ∧ Shown R (fieldLabel f) [] f.ty x.data := by
  induction hs with
  | struct h1 h2 h3 h4 h5 h6 _ =>
    simp only [PD.composite.injEq] at hd
    subst hd hh
    rename_i fields ds' _
    intro x hx
    obtain ⟨k, hk⟩ := List.mem_iff_getElem?.1 hx
    have hlt : k < fields.length := by
      rw [← h4]; exact (List.getElem?_eq_some_iff.1 hk).1
    have hz : (fields[k], x) ∈ fields.zip ds' :=
      List.mem_iff_getElem?.2 ⟨k, by rw [List.getElem?_zip_eq_some]; exact ⟨by simp [hlt], hk⟩⟩
    refine ⟨fields[k], (h5 _ hz).1, ?_⟩
    have := h6 _ hz
    have hn : handed fields.length Hint.none = .none := by unfold handed; split <;> rfl
    rw [hn] at this
    exact this
  | compact h1 h2 h3 h4 ih => exact ih hh hd
  | hash h1 h2 => unfold labelledHash at hd; repeat (split at hd <;> try cases hd)
  | _ => cases hd

theorem shown_uint {h : Hint} {is : List Info} {id : Nat} {d : ED} (hs : Shown R h is id d)
    {w : UW} {v : Nat} {sp : SpecUInt} (hd : d.data = .uint w v sp) : sp = uintLabel h := by
  induction hs with
  | uint => cases hd; rfl
  | compact h1 h2 h3 h4 ih => exact ih hd
  | hash h1 h2 => unfold labelledHash at hd; repeat (split at hd <;> try cases hd)
  | _ => cases hd

theorem shown_text {h : Hint} {is : List Info} {id : Nat} {d : ED} (hs : Shown R h is id d)
    {s : String} {sp : SpecStr} (hd : d.data = .text s sp) : sp = textLabel h := by
  induction hs with
  | text => cases hd; rfl
  | compact h1 h2 h3 h4 ih => exact ih hd
  | hash h1 h2 => unfold labelledHash at hd; repeat (split at hd <;> try cases hd)
  | _ => cases hd

theorem uintLabel_specVersion (f : Field) : uintLabel (fieldLabel f) = .specVersion ↔ f.name = some "spec_version" := by
  unfold fieldLabel
  constructor
  · intro h
    split at h
    · cases h
    split at h
    · assumption
    split at h
    · cases h
    split at h
    · cases h
    split at h <;> cases h
  · intro h
    rw [h]; rfl

theorem textLabel_specName (f : Field) : textLabel (fieldLabel f) = .specName ↔ f.name = some "spec_name" := by
  unfold fieldLabel
  constructor
  · intro h
    split at h
    · cases h
    split at h
    · cases h
    split at h
    · assumption
    split at h
    · cases h
    split at h <;> cases h
  · intro h
    rw [h]; rfl

/-- Labels of the fields are as their names say. -/
def Labelled (fs : List FD) : Prop :=
  ∀ x ∈ fs, (∀ w v sp, x.data.data = .uint w v sp → (sp = .specVersion ↔ x.fieldName = some "spec_version")) ∧
    (∀ s sp, x.data.data = .text s sp → (sp = .specName ↔ x.fieldName = some "spec_name"))

theorem labelled_of_decode {b : Buf} {id : Nat} {d : ED} (h : decodeAllAsType R b id = .ok d) {fs : List FD}
    (hd : d.data = .composite fs) : Labelled fs := by
  intro x hx
  obtain ⟨f, h1, h2⟩ := shown_composite (decodeAllAsType_shown h) rfl hd x hx
  constructor
  · intro w v sp hu
    rw [shown_uint h2 hu, uintLabel_specVersion, h1]
  · intro s sp hu
    rw [shown_text h2 hu, textLabel_specName, h1]

/-! ### C42 reading the fields -/

theorem numbersNamed_cons (name : String) (f : FD) (fs : List FD) :
    numbersNamed name (f :: fs) = numbersNamed name [f] ++ numbersNamed name fs := by
  unfold numbersNamed
  rw [← List.filterMap_append, ← List.filter_append]; rfl

theorem textsNamed_cons (name : String) (f : FD) (fs : List FD) :
    textsNamed name (f :: fs) = textsNamed name [f] ++ textsNamed name fs := by
  unfold textsNamed
  rw [← List.filterMap_append, ← List.filter_append]; rfl

/-- One step of the loop over the fields. -/
theorem specLoop_cons {f : FD} {fs : List FD} {version name : Option String} (hl : Labelled (f :: fs)) :
    (∃ v, numbersNamed "spec_version" [f] = [v] ∧ textsNamed "spec_name" [f] = [] ∧
      specLoop (f :: fs) version name =
        if version.isNone then specLoop fs (some (toString v)) name else .error .specVersionTwice) ∨
    (∃ s, numbersNamed "spec_version" [f] = [] ∧ textsNamed "spec_name" [f] = [s] ∧
      specLoop (f :: fs) version name =
        if name.isNone then specLoop fs version (some s) else .error .specNameTwice) ∨
    (numbersNamed "spec_version" [f] = [] ∧ textsNamed "spec_name" [f] = [] ∧
      specLoop (f :: fs) version name = specLoop fs version name) := by
  obtain ⟨h1, h2⟩ := hl f (by simp)
  have hn : numbersNamed "spec_version" [f] = if f.fieldName = some "spec_version" then
      (match f.data.data with | .uint _ v _ => [v] | _ => []) else [] := by
    unfold numbersNamed
    by_cases hf : f.fieldName = some "spec_version"
    · rw [if_pos hf]; simp only [List.filter, hf, decide_true, List.filterMap]
      cases f.data.data <;> rfl
    · rw [if_neg hf]; simp [hf]
  have ht : textsNamed "spec_name" [f] = if f.fieldName = some "spec_name" then
      (match f.data.data with | .text s _ => [s] | _ => []) else [] := by
    unfold textsNamed
    by_cases hf : f.fieldName = some "spec_name"
    · rw [if_pos hf]; simp only [List.filter, hf, decide_true, List.filterMap]
      cases f.data.data <;> rfl
    · rw [if_neg hf]; simp [hf]
  rw [hn, ht]
  conv => enter [1, 1, v, 2, 2, 1]; unfold specLoop
  conv => enter [2, 1, 1, v, 2, 2, 1]; unfold specLoop
  conv => enter [2, 2, 2, 2, 1]; unfold specLoop
  cases hd : f.data.data with
  | uint w v sp =>
    have := h1 w v sp hd
    by_cases hs : sp = .specVersion
    · left; refine ⟨v, ?_, ?_, ?_⟩
      · rw [if_pos (this.1 hs)]
      · rw [if_neg (by rw [this.1 hs]; decide)]
      · subst hs; rfl
    · right; right; refine ⟨?_, ?_, ?_⟩
      · rw [if_neg fun h => hs (this.2 h)]
      · simp
      · cases sp <;> first | rfl | exact absurd rfl hs
  | text s sp =>
    have := h2 s sp hd
    by_cases hs : sp = .specName
    · right; left; refine ⟨s, ?_, ?_, ?_⟩
      · rw [if_neg (by rw [this.1 hs]; decide)]
      · rw [if_pos (this.1 hs)]
      · subst hs; rfl
    · right; right; refine ⟨?_, ?_, ?_⟩
      · simp
      · rw [if_neg fun h => hs (this.2 h)]
      · cases sp <;> first | rfl | exact absurd rfl hs
  | _ => right; right; refine ⟨by simp, by simp, rfl⟩

/-- The loop with at most one version and one name in all. -/
theorem specLoop_ok {fs : List FD} (hl : Labelled fs) : ∀ {version name : Option String},
    version.toList.length + (numbersNamed "spec_version" fs).length ≤ 1 →
    name.toList.length + (textsNamed "spec_name" fs).length ≤ 1 →
    specLoop fs version name = .ok
      ((version.toList ++ (numbersNamed "spec_version" fs).map toString).head?,
       (name.toList ++ textsNamed "spec_name" fs).head?) := by
  induction fs with
  | nil =>
    intro version name _ _
    cases version <;> cases name <;> rfl
  | cons f fs ih =>
    intro version name h1 h2
    have hl' : Labelled fs := fun x hx => hl x (by simp [hx])
    rw [numbersNamed_cons, List.length_append] at h1
    rw [textsNamed_cons, List.length_append] at h2
    rw [numbersNamed_cons, textsNamed_cons]
    rcases specLoop_cons (version := version) (name := name) hl with ⟨v, g1, g2, g3⟩ | ⟨s, g1, g2, g3⟩ | ⟨g1, g2, g3⟩
    · rw [g1] at h1
      simp only [List.length_cons, List.length_nil] at h1
      have hv : version = none := by cases version <;> simp at h1 ⊢ <;> omega
      subst hv
      rw [g3, if_pos (by rfl), ih hl' (by simp; omega) (by omega), g1, g2]
      simp
    · rw [g2] at h2
      simp only [List.length_cons, List.length_nil] at h2
      have hv : name = none := by cases name <;> simp at h2 ⊢ <;> omega
      subst hv
      rw [g3, if_pos (by rfl), ih hl' (by omega) (by simp; omega), g1, g2]
      simp
    · rw [g3, ih hl' (by omega) (by omega), g1, g2]
      simp

/-- The loop with more than one version or name fails. -/
theorem specLoop_twice {fs : List FD} (hl : Labelled fs) : ∀ {version name : Option String},
    1 < version.toList.length + (numbersNamed "spec_version" fs).length ∨
    1 < name.toList.length + (textsNamed "spec_name" fs).length →
    (1 < version.toList.length + (numbersNamed "spec_version" fs).length ∧
      specLoop fs version name = .error .specVersionTwice) ∨
    (1 < name.toList.length + (textsNamed "spec_name" fs).length ∧
      specLoop fs version name = .error .specNameTwice) := by
  induction fs with
  | nil =>
    intro version name h
    cases version <;> cases name <;> simp [numbersNamed, textsNamed] at h
  | cons f fs ih =>
    intro version name h
    have hl' : Labelled fs := fun x hx => hl x (by simp [hx])
    rw [numbersNamed_cons, List.length_append, textsNamed_cons, List.length_append] at h ⊢
    rcases specLoop_cons (version := version) (name := name) hl with ⟨v, g1, g2, g3⟩ | ⟨s, g1, g2, g3⟩ | ⟨g1, g2, g3⟩
    · rw [g1, g2] at h ⊢
      rw [g3]
      cases version with
      | some x => left; exact ⟨by simp; omega, rfl⟩
      | none =>
        rw [if_pos (by rfl)]
        have := ih hl' (version := some (toString v)) (name := name)
        simp at h this ⊢
        exact this h
    · rw [g1, g2] at h ⊢
      rw [g3]
      cases name with
      | some x => right; exact ⟨by simp; omega, rfl⟩
      | none =>
        rw [if_pos (by rfl)]
        have := ih hl' (version := version) (name := some s)
        simp at h this ⊢
        exact this h
    · rw [g1, g2] at h ⊢
      rw [g3]
      simpa using ih hl' (version := version) (name := name) (by simpa using h)

theorem specFromData_iff {fs : List FD} (hl : Labelled fs) {s : SpecNameVersion} :
    specFromData (.composite fs) = .ok s ↔
      ∃ v n, numbersNamed "spec_version" fs = [v] ∧ textsNamed "spec_name" fs = [n] ∧
        s = ⟨toString v, n⟩ := by
  unfold specFromData
  dsimp only
  by_cases h1 : (numbersNamed "spec_version" fs).length ≤ 1
  · by_cases h2 : (textsNamed "spec_name" fs).length ≤ 1
    · rw [specLoop_ok hl (by simpa using h1) (by simpa using h2), eok_bind]
      match h3 : numbersNamed "spec_version" fs, h4 : textsNamed "spec_name" fs with
      | [], _ => simp
      | [v], [] => simp
      | [v], [n] =>
        simp
        exact eq_comm
      | [v], _ :: _ :: _ => rw [h4] at h2; simp at h2
      | _ :: _ :: _, _ => rw [h3] at h1; simp at h1
    · constructor
      · intro h
        rcases specLoop_twice hl (version := none) (name := none) (.inr (by simpa using h2)) with ⟨_, h3⟩ | ⟨_, h3⟩ <;>
          rw [h3, eerror_bind] at h <;> cases h
      · rintro ⟨v, n, _, h, _⟩; rw [h] at h2; simp at h2
  · constructor
    · intro h
      rcases specLoop_twice hl (version := none) (name := none) (.inl (by simpa using h1)) with ⟨_, h3⟩ | ⟨_, h3⟩ <;>
        rw [h3, eerror_bind] at h <;> cases h
    · rintro ⟨v, n, h, _, _⟩; rw [h] at h1; simp at h1

/-- C42. Spec name and version are returned exactly if the `Version` constant of the
`System` pallet decodes completely as a struct in which exactly one field is an unsigned
integer named `spec_version` and exactly one is a text named `spec_name`; these are
returned, the number in decimal. -/
theorem specNameVersionOf_iff {types : List Typ} {pallets : List Pallet} {s : SpecNameVersion} :
    specNameVersionOf types pallets = .ok s ↔
      ∃ c d fs v n, IsVersionConstant pallets c ∧
        decodeAllAsType (.portable types) (Buf.ofBytes c.value) c.ty = .ok d ∧ d.data = .composite fs ∧
        numbersNamed "spec_version" fs = [v] ∧ textsNamed "spec_name" fs = [n] ∧ s = ⟨toString v, n⟩ := by
  constructor
  · intro h
    unfold specNameVersionOf at h
    split at h
    · cases h
    rename_i value ty hc
    obtain ⟨c, hi, hx⟩ := versionConstant_ok hc
    cases hx
    split at h
    · rename_i d hd
      split at h
      · rename_i s' hs
        cases h
        have hcomp : ∃ fs, d.data = .composite fs := by
          unfold specFromData at hs
          split at hs
          · rename_i fs hf; exact ⟨fs, hf⟩
          · cases hs
        obtain ⟨fs, hf⟩ := hcomp
        rw [hf] at hs
        obtain ⟨v, n, h1, h2, h3⟩ := (specFromData_iff (labelled_of_decode hd hf)).1 hs
        exact ⟨c, d, fs, v, n, hi, hd, hf, h1, h2, h3⟩
      · cases h
    all_goals cases h
  · rintro ⟨c, d, fs, v, n, hi, hd, hf, h1, h2, rfl⟩
    unfold specNameVersionOf
    rw [versionConstant_of hi]
    dsimp only
    rw [hd]
    dsimp only
    rw [hf, (specFromData_iff (labelled_of_decode hd hf)).2 ⟨v, n, h1, h2, rfl⟩]

/-- C42. In terms of bytes: the constant is an encoding of the decoded struct. -/
theorem specNameVersionOf_sound {types : List Typ} {pallets : List Pallet} {s : SpecNameVersion}
    (h : specNameVersionOf types pallets = .ok s) :
    ∃ c fs v n, IsVersionConstant pallets c ∧
      Enc (.portable types) false c.ty (pdValue (.composite fs)) c.value ∧
      numbersNamed "spec_version" fs = [v] ∧ textsNamed "spec_name" fs = [n] ∧ s = ⟨toString v, n⟩ := by
  obtain ⟨c, ⟨d, info⟩, fs, v, n, h1, h2, h3, h4, h5, h6⟩ := specNameVersionOf_iff.1 h
  have := decodeAllAsType_sound h2
  dsimp only at h3
  subst h3
  exact ⟨c, fs, v, n, h1, this, h4, h5, h6⟩

/-- C42. The errors. -/
theorem specNameVersionOf_errors {types : List Typ} {pallets : List Pallet} :
    ((∀ p ∈ pallets, p.name ≠ "System") → specNameVersionOf types pallets = .error (.err .noSystemPallet)) ∧
    (∀ l p r, pallets = l ++ p :: r → (∀ x ∈ l, x.name ≠ "System") → p.name = "System" →
      (∀ c ∈ p.constants, c.name ≠ "Version") →
      specNameVersionOf types pallets = .error (.err .noVersionInConstants)) ∧
    ∀ c, IsVersionConstant pallets c →
      (∀ e, decodeAllAsType (.portable types) (Buf.ofBytes c.value) c.ty = .error (.err e) →
        specNameVersionOf types pallets = .error (.err .runtimeVersionNotDecodeable)) ∧
      (∀ d, decodeAllAsType (.portable types) (Buf.ofBytes c.value) c.ty = .ok d →
        (∀ fs, d.data ≠ .composite fs) →
        specNameVersionOf types pallets = .error (.err .unexpectedRuntimeVersionFormat)) ∧
      (∀ d fs, decodeAllAsType (.portable types) (Buf.ofBytes c.value) c.ty = .ok d → d.data = .composite fs →
        (2 ≤ (numbersNamed "spec_version" fs).length → (textsNamed "spec_name" fs).length ≤ 1 →
          specNameVersionOf types pallets = .error (.err .specVersionTwice)) ∧
        ((numbersNamed "spec_version" fs).length ≤ 1 → 2 ≤ (textsNamed "spec_name" fs).length →
          specNameVersionOf types pallets = .error (.err .specNameTwice)) ∧
        (2 ≤ (numbersNamed "spec_version" fs).length → 2 ≤ (textsNamed "spec_name" fs).length →
          specNameVersionOf types pallets = .error (.err .specVersionTwice) ∨
          specNameVersionOf types pallets = .error (.err .specNameTwice)) ∧
        (numbersNamed "spec_version" fs = [] → (textsNamed "spec_name" fs).length ≤ 1 →
          specNameVersionOf types pallets = .error (.err .noSpecVersion)) ∧
        (∀ v, numbersNamed "spec_version" fs = [v] → textsNamed "spec_name" fs = [] →
          specNameVersionOf types pallets = .error (.err .noSpecName))) := by
  refine ⟨?_, ?_, ?_⟩
  · intro h
    unfold specNameVersionOf
    rw [versionConstant_noSystem h]
  · rintro l p r rfl h1 h2 h3
    unfold specNameVersionOf
    rw [versionConstant_noVersion h1 h2 h3]
  · intro c hc
    have step : ∀ d fs, decodeAllAsType (.portable types) (Buf.ofBytes c.value) c.ty = .ok d →
        d.data = .composite fs → ∀ e, specFromData (.composite fs) = .error e →
        specNameVersionOf types pallets = .error (.err e) := by
      intro d fs hd hf e he
      unfold specNameVersionOf
      rw [versionConstant_of hc]
      dsimp only
      rw [hd]
      dsimp only
      rw [hf, he]
    refine ⟨?_, ?_, ?_⟩
    · intro e he
      unfold specNameVersionOf
      rw [versionConstant_of hc]
      dsimp only
      rw [he]
    · intro d hd hf
      unfold specNameVersionOf
      rw [versionConstant_of hc]
      dsimp only
      rw [hd]
      dsimp only
      have : specFromData d.data = .error .unexpectedRuntimeVersionFormat := by
        unfold specFromData
        split
        · rename_i fs hfs; exact absurd hfs (hf fs)
        · rfl
      rw [this]
    · intro d fs hd hf
      have hl := labelled_of_decode hd hf
      have hstep := step d fs hd hf
      refine ⟨?_, ?_, ?_, ?_, ?_⟩
      · intro h1 h2
        apply hstep
        unfold specFromData
        dsimp only
        rcases specLoop_twice hl (version := none) (name := none) (.inl (by simp; omega)) with ⟨_, h3⟩ | ⟨h4, _⟩
        · rw [h3, eerror_bind]
        · simp at h4; omega
      · intro h1 h2
        apply hstep
        unfold specFromData
        dsimp only
        rcases specLoop_twice hl (version := none) (name := none) (.inr (by simp; omega)) with ⟨h4, _⟩ | ⟨_, h3⟩
        · simp at h4; omega
        · rw [h3, eerror_bind]
      · intro h1 h2
        rcases specLoop_twice hl (version := none) (name := none) (.inl (by simp; omega)) with ⟨_, h3⟩ | ⟨_, h3⟩
        · left; apply hstep; unfold specFromData; dsimp only; rw [h3, eerror_bind]
        · right; apply hstep; unfold specFromData; dsimp only; rw [h3, eerror_bind]
      · intro h1 h2
        apply hstep
        unfold specFromData
        dsimp only
        rw [specLoop_ok hl (by simp [h1]) (by simpa using h2), eok_bind, h1]
        rfl
      · intro v h1 h2
        apply hstep
        unfold specFromData
        dsimp only
        rw [specLoop_ok hl (by simp [h1]) (by simp [h2]), eok_bind, h1, h2]
        rfl

theorem specNameVersionOf_calm (types : List Typ) (pallets : List Pallet) : Calm (specNameVersionOf types pallets) := by
  unfold specNameVersionOf
  split
  · exact .err _
  · rcases (decodeAllAsType_fine (R := .portable types) (value := Buf.ofBytes _) _).cases with ⟨d, hd⟩ | ⟨e, he⟩
    · rw [hd]
      dsimp only
      split
      · exact .ok _
      · exact .err _
    · rw [he]; exact .err _

/-! ### C43 type parameters -/

theorem paramTy_nil (name : String) : paramTy [] name = none := rfl

/-- Last parameter of the name, if there is one, else what was found before. -/
def orParam (found : Option Nat) (params : List (String × Option Nat)) (name : String) : Option Nat :=
  if params.any (fun x => decide (x.1 = name)) then paramTy params name else found

theorem orParam_cons (found ty : Option Nat) (n : String) (ps : List (String × Option Nat)) (name : String) :
    orParam found ((n, ty) :: ps) name = orParam (if n = name then ty else found) ps name := by
  unfold orParam paramTy
  by_cases hn : n = name
  · subst hn
    by_cases hp : ps.any (fun x => decide (x.1 = n)) = true
    · have hne : (ps.filter fun x => decide (x.1 = n)) ≠ [] := by
        obtain ⟨x, hx, hd⟩ := List.any_eq_true.1 hp
        exact List.ne_nil_of_mem (List.mem_filter.2 ⟨hx, hd⟩)
      simp only [List.any_cons, decide_true, Bool.true_or, if_true, hp, List.filter_cons,
        List.getLast?_cons]
      cases hl : (ps.filter fun x => decide (x.1 = n)).getLast? with
      | none => exact absurd (List.getLast?_eq_none_iff.1 hl) hne
      | some y => simp
    · have hnil : (ps.filter fun x => decide (x.1 = n)) = [] := by
        rw [List.filter_eq_nil_iff]
        intro x hx hd
        exact hp (List.any_eq_true.2 ⟨x, hx, hd⟩)
      simp [hnil, hp]
  · simp only [List.any_cons, List.filter_cons, hn, decide_false, Bool.false_or, if_false, Bool.false_eq_true]

theorem paramsLoop_eq : ∀ (ps : List (String × Option Nat)) (a s e c : Option Nat),
    paramsLoop ps (a, s, e, c) =
      (orParam a ps "Address", orParam s ps "Signature", orParam e ps "Extra", orParam c ps "Call")
  | [], a, s, e, c => rfl
  | (n, ty) :: ps, a, s, e, c => by
    unfold paramsLoop
    rw [orParam_cons, orParam_cons, orParam_cons, orParam_cons]
    by_cases h1 : n = "Address"
    · subst h1; exact paramsLoop_eq ps _ _ _ _
    rw [if_neg h1, if_neg h1]
    by_cases h2 : n = "Signature"
    · subst h2; exact paramsLoop_eq ps _ _ _ _
    rw [if_neg h2, if_neg h2]
    by_cases h3 : n = "Extra"
    · subst h3; exact paramsLoop_eq ps _ _ _ _
    rw [if_neg h3, if_neg h3]
    by_cases h4 : n = "Call"
    · subst h4; exact paramsLoop_eq ps _ _ _ _
    rw [if_neg h4, if_neg h4]
    exact paramsLoop_eq ps _ _ _ _

theorem orParam_none (params : List (String × Option Nat)) (name : String) :
    orParam none params name = paramTy params name := by
  unfold orParam
  split
  · rfl
  · rename_i h
    have hnil : (params.filter fun x => decide (x.1 = name)) = [] := by
      rw [List.filter_eq_nil_iff]
      intro x hx hd
      exact h (List.any_eq_true.2 ⟨x, hx, hd⟩)
    unfold paramTy
    rw [hnil]; rfl

/-- C43. The four types are those of the last parameters with the names. -/
theorem processParams_eq (params : List (String × Option Nat)) :
    processParams params =
      match paramTy params "Address", paramTy params "Call", paramTy params "Extra", paramTy params "Signature" with
      | none, _, _, _ => .error .noAddressParam
      | _, none, _, _ => .error .noCallParam
      | _, _, none, _ => .error .noExtraParam
      | _, _, _, none => .error .noSignatureParam
      | some a, some c, some e, some s => .ok ⟨a, c, s, e⟩ := by
  unfold processParams
  rw [paramsLoop_eq]
  simp only [orParam_none]
  cases paramTy params "Address" <;> cases paramTy params "Call" <;> cases paramTy params "Extra" <;>
    cases paramTy params "Signature" <;> rfl

/-! ### C43 the extrinsic type -/

/-- Errors are internal registry errors. -/
def Internal {α : Type} (r : Res α) : Prop :=
  (∃ a, r = .ok a) ∨ ∃ e, r = .error (.err (.registry (.internal e)))

theorem Internal.bind {α β : Type} {x : Res α} {f : α → Res β} (hx : Internal x)
    (hf : ∀ a, x = .ok a → Internal (f a)) : Internal (x >>= f) := by
  rcases hx with ⟨a, rfl⟩ | ⟨e, rfl⟩
  · exact hf a rfl
  · exact .inr ⟨e, rfl⟩

theorem get_internal (types : List Typ) (id : Nat) : Internal ((Registry.portable types).get id) := by
  unfold Registry.get Registry.portable
  dsimp only
  cases types[id]? with
  | none => exact .inr ⟨_, rfl⟩
  | some t => exact .inl ⟨_, rfl⟩

theorem checkId_internal (c : Checker) (id : Nat) : Internal (c.checkId id) := by
  unfold Checker.checkId
  split
  · exact .inr ⟨_, rfl⟩
  · exact .inl ⟨_, rfl⟩

theorem rejectCompact_internal (s : SpecialtySet) : Internal s.rejectCompact := by
  unfold SpecialtySet.rejectCompact
  split
  · exact .inr ⟨_, rfl⟩
  · exact .inl ⟨_, rfl⟩

theorem huskLoop_internal (types : List Typ) (n : Nat) : ∀ (ty : Typ) (id : Nat) (info : List Info)
    (c : Checker), free (.portable types) c.cycleCheck < n →
    Internal (huskLoop (.portable types) n ty id info c) := by
  induction n with
  | zero => intro ty id info c h; omega
  | succ n ih =>
    intro ty id info c h
    unfold huskLoop
    dsimp only
    split
    · split
      · refine .bind (checkId_internal _ _) ?_
        intro c' hc
        obtain ⟨h1, rfl⟩ := checkId_ok.1 hc
        refine .bind (get_internal _ _) ?_
        intro t ht
        refine ih _ _ _ _ ?_
        rw [hintFromField_cycle]
        have := free_append (.portable types) (Registry.get_lt ht) h1
        dsimp only
        omega
      · refine .bind (rejectCompact_internal _) ?_
        intro _ _
        refine .bind (checkId_internal _ _) ?_
        intro c' hc
        obtain ⟨h1, rfl⟩ := checkId_ok.1 hc
        refine .bind (get_internal _ _) ?_
        intro t ht
        refine ih _ _ _ _ ?_
        have := free_append (.portable types) (Registry.get_lt ht) h1
        dsimp only at *
        omega
      · exact .inl ⟨_, rfl⟩
    · exact .inl ⟨_, rfl⟩

theorem huskType_internal (types : List Typ) (id : Nat) (c : Checker) :
    Internal (huskType (.portable types) id c) := by
  unfold huskType
  refine .bind (checkId_internal _ _) ?_
  intro c' _
  refine .bind (get_internal _ _) ?_
  intro t _
  refine huskLoop_internal types _ _ _ _ _ ?_
  have := free_le (.portable types) c'.cycleCheck
  dsimp only
  omega

theorem Internal.calm {α : Type} {r : Res α} (h : Internal r) : Calm (liftRegistry r) := by
  rcases h with ⟨a, rfl⟩ | ⟨e, rfl⟩
  · exact .ok a
  · exact .err _

theorem liftRegistry_ok {α : Type} {r : Res α} {a : α} : liftRegistry r = .ok a ↔ r = .ok a := by
  unfold liftRegistry
  split <;> simp_all

theorem paramsIfU8_iff {types : List Typ} {elem : Nat} {h : HuskedType} {p : ExtrinsicParams} :
    paramsIfU8 types elem h = .ok p ↔
      (∃ t, (Registry.portable types).resolve elem = .ok t ∧ t.typeDef = .primitive .u8) ∧
      processParams h.ty.params = .ok p := by
  unfold paramsIfU8
  rw [ebind_ok]
  simp only [liftRegistry_ok, Registry.get_ok]
  constructor
  · rintro ⟨t, h1, h2⟩
    split at h2
    · rename_i hu
      refine ⟨⟨t, h1, hu⟩, ?_⟩
      split at h2
      · rename_i p' hp; cases h2; exact hp
      · cases h2
    · cases h2
  · rintro ⟨⟨t, h1, h2⟩, h3⟩
    refine ⟨t, h1, ?_⟩
    rw [if_pos h2, h3]

theorem processParams_iff {params : List (String × Option Nat)} {p : ExtrinsicParams} :
    processParams params = .ok p ↔
      paramTy params "Address" = some p.addressTy ∧ paramTy params "Call" = some p.callTy ∧
      paramTy params "Signature" = some p.signatureTy ∧ paramTy params "Extra" = some p.extraTy := by
  rw [processParams_eq]
  cases paramTy params "Address" <;> cases paramTy params "Call" <;> cases paramTy params "Extra" <;>
    cases paramTy params "Signature" <;> simp
  constructor
  · rintro rfl; exact ⟨rfl, rfl, rfl, rfl⟩
  · rintro ⟨rfl, rfl, rfl, rfl⟩; rfl

/-- C43. The parameters of V14 metadata are found exactly if the extrinsic type, once
wrappers are taken off, is a vector of bytes (or a single-field struct with one) with
the four type parameters; they are the types of the last parameters with these names. -/
theorem V14_extrinsicTypeParams_iff {m : V14} {p : ExtrinsicParams} :
    m.extrinsicTypeParams = .ok p ↔
      ∃ c t coreId k, Core (.portable m.types) false m.extrinsicTy c t coreId k ∧
        IsExtrinsicDef (.portable m.types) t.typeDef ∧
        paramTy t.params "Address" = some p.addressTy ∧ paramTy t.params "Call" = some p.callTy ∧
        paramTy t.params "Signature" = some p.signatureTy ∧ paramTy t.params "Extra" = some p.extraTy := by
  unfold V14.extrinsicTypeParams
  rw [ebind_ok]
  simp only [liftRegistry_ok, ← processParams_iff]
  constructor
  · rintro ⟨h, h1, h2⟩
    obtain ⟨_, k, hc⟩ := huskType_core h1
    refine ⟨_, h.ty, h.id, k, hc, ?_⟩
    split at h2
    · rename_i elem hd
      obtain ⟨⟨t, g1, g2⟩, g3⟩ := paramsIfU8_iff.1 h2
      exact ⟨.inl ⟨elem, t, hd, g1, g2⟩, g3⟩
    · rename_i fields hd
      split at h2
      · rename_i f
        obtain ⟨ft, k1, h2⟩ := ebind_ok.1 h2
        rw [liftRegistry_ok, Registry.get_ok] at k1
        split at h2
        · rename_i elem hd'
          obtain ⟨⟨t, g1, g2⟩, g3⟩ := paramsIfU8_iff.1 h2
          exact ⟨.inr ⟨f, ft, hd, k1, elem, t, hd', g1, g2⟩, g3⟩
        · cases h2
      · cases h2
    · cases h2
  · rintro ⟨c, t, coreId, k, hc, hd, hp⟩
    obtain ⟨h, h1, rfl, rfl, _, _⟩ := huskType_of_core coreHeight_down hc (ch := Checker.new)
      (by intro x hx; cases hx)
    refine ⟨h, h1, ?_⟩
    rcases hd with ⟨elem, t, hd, g1, g2⟩ | ⟨f, ft, hd, k1, elem, t, hd', g1, g2⟩
    · rw [hd]
      exact paramsIfU8_iff.2 ⟨⟨t, g1, g2⟩, hp⟩
    · rw [hd]
      dsimp only
      rw [Registry.get_ok.2 k1, liftRegistry_ok.2 rfl, eok_bind]
      rw [hd']
      exact paramsIfU8_iff.2 ⟨⟨t, g1, g2⟩, hp⟩

/-- C43. A missing parameter is an error that names it; they are looked for in the order
address, call, extra, signature. -/
theorem V14_extrinsicTypeParams_missing {m : V14} {c : Bool} {t : Typ} {coreId k : Nat}
    (hc : Core (.portable m.types) false m.extrinsicTy c t coreId k)
    (hd : IsExtrinsicDef (.portable m.types) t.typeDef) :
    (paramTy t.params "Address" = none → m.extrinsicTypeParams = .error (.err .noAddressParam)) ∧
    ∀ a, paramTy t.params "Address" = some a →
      (paramTy t.params "Call" = none → m.extrinsicTypeParams = .error (.err .noCallParam)) ∧
      ∀ b, paramTy t.params "Call" = some b →
        (paramTy t.params "Extra" = none → m.extrinsicTypeParams = .error (.err .noExtraParam)) ∧
        ∀ e, paramTy t.params "Extra" = some e →
          (paramTy t.params "Signature" = none → m.extrinsicTypeParams = .error (.err .noSignatureParam)) := by
  obtain ⟨h, h1, rfl, rfl, _, _⟩ := huskType_of_core coreHeight_down hc (ch := Checker.new)
    (by intro x hx; cases hx)
  have key : ∀ e, processParams h.ty.params = .error e → m.extrinsicTypeParams = .error (.err e) := by
    intro e he
    unfold V14.extrinsicTypeParams
    rw [h1, liftRegistry_ok.2 rfl, eok_bind]
    have hu : ∀ elem t, (Registry.portable m.types).resolve elem = .ok t → t.typeDef = .primitive .u8 →
        paramsIfU8 m.types elem h = .error (.err e) := by
      intro elem t g1 g2
      unfold paramsIfU8
      rw [Registry.get_ok.2 g1, liftRegistry_ok.2 rfl, eok_bind, if_pos g2, he]
    rcases hd with ⟨elem, t, hd, g1, g2⟩ | ⟨f, ft, hd, k1, elem, t, hd', g1, g2⟩
    · rw [hd]
      exact hu elem t g1 g2
    · rw [hd]
      dsimp only
      rw [Registry.get_ok.2 k1, liftRegistry_ok.2 rfl, eok_bind, hd']
      exact hu elem t g1 g2
  refine ⟨?_, ?_⟩
  · intro ha; apply key; rw [processParams_eq, ha]
  intro a ha
  refine ⟨?_, ?_⟩
  · intro hb; apply key; rw [processParams_eq, ha, hb]
  intro b hb
  refine ⟨?_, ?_⟩
  · intro hx; apply key; rw [processParams_eq, ha, hb, hx]
  intro e hx hs
  apply key; rw [processParams_eq, ha, hb, hx, hs]

/-- C43. A type that is not a vector of bytes is refused, with its id. -/
theorem V14_extrinsicTypeParams_unexpected {m : V14} {c : Bool} {t : Typ} {coreId k : Nat}
    (hc : Core (.portable m.types) false m.extrinsicTy c t coreId k)
    (hd : (∃ elem u, t.typeDef = .sequence elem ∧ (Registry.portable m.types).resolve elem = .ok u ∧
        u.typeDef ≠ .primitive .u8) ∨
      (∃ f u, t.typeDef = .composite [f] ∧ (Registry.portable m.types).resolve f.ty = .ok u ∧
        ∀ elem, u.typeDef ≠ .sequence elem) ∨
      ((∀ elem, t.typeDef ≠ .sequence elem) ∧ ∀ f, t.typeDef ≠ .composite [f])) :
    m.extrinsicTypeParams = .error (.err (.unexpectedExtrinsicType coreId)) := by
  obtain ⟨h, h1, rfl, rfl, _, _⟩ := huskType_of_core coreHeight_down hc (ch := Checker.new)
    (by intro x hx; cases hx)
  unfold V14.extrinsicTypeParams
  rw [h1, liftRegistry_ok.2 rfl, eok_bind]
  rcases hd with ⟨elem, u, hd, g1, g2⟩ | ⟨f, u, hd, g1, g2⟩ | ⟨g1, g2⟩
  · rw [hd]
    dsimp only
    unfold paramsIfU8
    rw [Registry.get_ok.2 g1, liftRegistry_ok.2 rfl, eok_bind, if_neg g2]
  · rw [hd]
    dsimp only
    rw [Registry.get_ok.2 g1, liftRegistry_ok.2 rfl, eok_bind]
    split
    · rename_i elem he; exact absurd he (g2 elem)
    · rfl
  · split
    · rename_i elem he; exact absurd he (g1 elem)
    · rename_i fields he
      split
      · rename_i f; exact absurd he (g2 f)
      · rfl
    · rfl

theorem V14_extrinsicTypeParams_calm (m : V14) : Calm m.extrinsicTypeParams := by
  have hu : ∀ elem h, Calm (paramsIfU8 m.types elem h) := by
    intro elem h
    unfold paramsIfU8
    refine .bind (get_internal _ _).calm fun t _ => ?_
    split
    · split
      · exact .ok _
      · exact .err _
    · exact .err _
  unfold V14.extrinsicTypeParams
  refine .bind (huskType_internal _ _ _).calm fun h _ => ?_
  split
  · exact hu _ _
  · split
    · refine .bind (get_internal _ _).calm fun t _ => ?_
      split
      · exact hu _ _
      · exact .err _
    · exact .err _
  · exact .err _

/-- C42, C43. The lookups in V14 metadata end with a value or an error. -/
theorem V14_metadata_calm (m : V14) : CalmMetadata m.metadata.toMetadata ∧
    Calm m.metadata.extrinsicTypeParams ∧ Calm m.metadata.extrinsicVersion :=
  ⟨⟨.bind (V14_extrinsicTypeParams_calm m) fun _ _ => .ok _, (specNameVersionOf_calm _ _).mapOut _, .ok _⟩,
    V14_extrinsicTypeParams_calm m, .ok _⟩

/-- C42, C43. The lookups in V15 metadata end with a value or an error. -/
theorem V15_metadata_calm (m : V15) : CalmMetadata m.metadata.toMetadata ∧
    Calm m.metadata.extrinsicTypeParams ∧ Calm m.metadata.extrinsicVersion :=
  ⟨⟨.ok _, specNameVersionOf_calm _ _, .ok _⟩, .ok _, .ok _⟩

/-- C43. The call type of V14 metadata is the `Call` parameter of the extrinsic type. -/
theorem V14_callTy_iff {m : V14} {id : Nat} : m.metadata.callTy = .ok id ↔
    ∃ p, m.extrinsicTypeParams = .ok p ∧ p.callTy = id := by
  show (m.extrinsicTypeParams >>= fun p => .ok p.callTy) = .ok id ↔ _
  rw [ebind_ok]
  simp

/-- C42 for V14 metadata. -/
theorem V14_specNameVersion_iff {m : V14} {s : SpecNameVersion} :
    m.metadata.specNameVersion = .ok s ↔ specNameVersionOf m.types m.pallets = .ok s := mapOut_ok

/-- C42 for V15 metadata. -/
theorem V15_specNameVersion_iff {m : V15} {s : SpecNameVersion} :
    m.metadata.specNameVersion = .ok s ↔ specNameVersionOf m.types m.pallets = .ok s := Iff.rfl

/-! ### Examples -/

namespace Example

/-- Types: `0: u8`, `1: u32`, `2: str`, `3: RuntimeVersion`, `4: UncheckedExtrinsic`,
`5: Vec<u8>`, `6: Vec<u32>`. -/
def metaTypes : List Typ :=
  [ { typeDef := .primitive .u8 }, { typeDef := .primitive .u32 }, { typeDef := .primitive .str },
    { path := ["sp_version", "RuntimeVersion"], typeDef := .composite
        [{ name := some "spec_name", ty := 2 }, { name := some "impl_name", ty := 2 },
         { name := some "spec_version", ty := 1 }, { name := some "transaction_version", ty := 1 }] },
    { path := ["sp_runtime", "generic", "unchecked_extrinsic", "UncheckedExtrinsic"],
      params := [("Address", some 0), ("Call", some 1), ("Signature", some 2), ("Extra", some 3)],
      typeDef := .composite [{ ty := 5 }] },
    { typeDef := .sequence 0 }, { typeDef := .sequence 1 } ]

/-- Encoded version. -/
def versionBytes : Bytes := [8, 97, 98, 4, 99] ++ [44, 1, 0, 0] ++ [7, 0, 0, 0]

/-- Metadata of the example. -/
def v14 : V14 where
  types := metaTypes
  pallets := [⟨"Balances", [⟨"Version", 0, [1]⟩]⟩, ⟨"System", [⟨"Version", 0, [1]⟩, ⟨"Version", 3, versionBytes⟩]⟩,
    ⟨"System", [⟨"Version", 0, [1]⟩]⟩]
  extrinsicTy := 4
  extrinsicVersion := 4
  signedExtensions := []

example : v14.metadata.specNameVersion = .ok ⟨"300", "ab"⟩ := rfl

example : IsVersionConstant v14.pallets ⟨"Version", 3, versionBytes⟩ :=
  ⟨[⟨"Balances", [⟨"Version", 0, [1]⟩]⟩], _, _, [⟨"Version", 0, [1]⟩], [], rfl, by simp, rfl, rfl, rfl, by simp⟩

example : v14.metadata.extrinsicTypeParams = .ok ⟨0, 1, 2, 3⟩ := rfl

example : ({ v14 with extrinsicTy := 5 } : V14).metadata.extrinsicTypeParams = .error (.err .noAddressParam) ∧
    ({ v14 with extrinsicTy := 6 } : V14).metadata.extrinsicTypeParams = .error (.err (.unexpectedExtrinsicType 6)) ∧
    ({ v14 with extrinsicTy := 1 } : V14).metadata.extrinsicTypeParams = .error (.err (.unexpectedExtrinsicType 1)) ∧
    ({ v14 with extrinsicTy := 9 } : V14).metadata.extrinsicTypeParams =
      .error (.err (.extrinsicTypeNotResolved (.typeNotResolved 9))) := ⟨rfl, rfl, rfl, rfl⟩

example : ({ v14 with pallets := [⟨"System", [⟨"Version", 0, [1]⟩]⟩] } : V14).metadata.specNameVersion =
      .error (.err (.version .unexpectedRuntimeVersionFormat)) ∧
    ({ v14 with pallets := [⟨"System", []⟩] } : V14).metadata.specNameVersion =
      .error (.err (.version .noVersionInConstants)) ∧
    ({ v14 with pallets := [⟨"System", [⟨"Version", 0, []⟩]⟩] } : V14).metadata.specNameVersion =
      .error (.err (.version .runtimeVersionNotDecodeable)) ∧
    ({ v14 with pallets := [] } : V14).metadata.specNameVersion =
      .error (.err (.version .noSystemPallet)) := ⟨rfl, rfl, rfl, rfl⟩

/-- A later parameter without type hides an earlier one. -/
example : processParams [("Address", some 0), ("Address", none), ("Call", some 1), ("Extra", some 2), ("Signature", some 3)] =
    .error .noAddressParam := rfl

end Example

end Verif
