import Verif.Proof.HuskBridge
/-!
Everything decoded is a value with that encoding.
-/
namespace Verif
open Spec

variable {R : Registry} {Q : Rel}

/-- The recursive calls yield encoded values. -/
structure SoundRel (R : Registry) (Q : Rel) : Prop where
  symbol : ∀ {id p d bs}, Q (.symbol id) p d bs → Enc R p.compactAt.isSome id (edValue d) bs
  resolved : ∀ {ty id p d bs}, R.resolve id = .ok ty → Q (.resolved ty id) p d bs →
    Enc R p.compactAt.isSome id (edValue d) bs

theorem forgetHint_compact (c : Checker) :
    c.forgetHint.specialtySet.compactAt = c.specialtySet.compactAt := by
  unfold Checker.forgetHint SpecialtySet.forgetHint
  cases h : c.specialtySet.hint <;> simp_all

theorem fieldsChecker_compact (n : Nat) (c : Checker) :
    (fieldsChecker n c).specialtySet.compactAt = c.specialtySet.compactAt := by
  unfold fieldsChecker
  split
  · exact forgetHint_compact c
  · rfl

theorem fieldsChecker_cycle (n : Nat) (c : Checker) :
    (fieldsChecker n c).cycleCheck = c.cycleCheck := by
  unfold fieldsChecker
  split
  · exact forgetHint_cycle c
  · rfl

theorem updateFromPath_compact (s : SpecialtySet) (t : Typ) :
    (s.updateFromPath t).compactAt = s.compactAt := by
  unfold SpecialtySet.updateFromPath
  split <;> rfl

theorem FieldsRel.sound (hQ : SoundRel R Q) {c : Checker} {fs : List Field} {ds : List FD} {bs : Bytes}
    (h : FieldsRel Q c fs ds bs) :
    ∃ ps : Parts, ps.length = fs.length ∧ bs = ps.bytes ∧ fdsValue ds = ps.named fs ∧
      ∀ x ∈ (fs.map (·.ty)).zip ps, Enc R c.specialtySet.compactAt.isSome x.1 x.2.1 x.2.2 := by
  induction h with
  | nil => exact ⟨[], rfl, rfl, rfl, by simp⟩
  | @cons f fs p d ds x y hp hq _ ih =>
    obtain ⟨ps, h1, h2, h3, h4⟩ := ih
    obtain ⟨_, _, _, h5⟩ := forField_ok hp
    have h6 := hQ.symbol hq
    have h7 : p.compactAt = c.specialtySet.compactAt := by
      unfold Propagated.compactAt; rw [h5, hintFromField_compact]
    rw [h7] at h6
    refine ⟨(edValue d, x) :: ps, by simp [h1], ?_, ?_, ?_⟩
    · simp [Parts.bytes, h2]
    · simp only [fdsValue, h3, Parts.named, Parts.values, List.map_cons, List.zip_cons_cons, mkFD, fdValue]
    · intro z hz
      simp only [List.map_cons, List.zip_cons_cons, List.mem_cons] at hz
      rcases hz with rfl | hz
      · exact h6
      · exact h4 z hz

theorem ElemsRel.sound (hQ : SoundRel R Q) {h : HuskedType} {elem k : Nat}
    (hr : R.resolve h.id = .ok h.ty)
    (hx : ∀ {v bs}, Enc R h.checker.specialtySet.compactAt.isSome h.id v bs → Enc R false elem v bs)
    {ds : List PD} {bs : Bytes} (hh : ElemsRel Q h ds bs) :
    ∃ ps : Parts, ps.length = ds.length ∧ bs = ps.bytes ∧ pdsValue ds = ps.values ∧
      ∀ x ∈ ps, Enc R false elem x.1 x.2 := by
  induction hh with
  | nil => exact ⟨[], rfl, rfl, rfl, by simp⟩
  | @cons d ds x y hq _ ih =>
    obtain ⟨ps, h1, h2, h3, h4⟩ := ih
    have h6 := hx (hQ.resolved hr hq)
    refine ⟨(edValue d, x) :: ps, by simp [h1], ?_, ?_, ?_⟩
    · simp [Parts.bytes, h2]
    · simp only [pdsValue, h3, Parts.values, List.map_cons]
      cases d; rfl
    · intro z hz
      rcases List.mem_cons.1 hz with rfl | hz
      · exact h6
      · exact h4 z hz

theorem TupleRel.sound (hQ : SoundRel R Q) {c : Checker} {ids : List Nat} {ds : List ED} {bs : Bytes}
    (h : TupleRel R Q c ids ds bs) :
    ∃ ps : Parts, ps.length = ids.length ∧ bs = ps.bytes ∧ edsValue ds = ps.values ∧
      ∀ x ∈ ids.zip ps, Enc R c.specialtySet.compactAt.isSome x.1 x.2.1 x.2.2 := by
  induction h with
  | nil => exact ⟨[], rfl, rfl, rfl, by simp⟩
  | @cons id ids ty p d ds x y ht hp hq _ ih =>
    obtain ⟨ps, h1, h2, h3, h4⟩ := ih
    obtain ⟨_, _, _, h5⟩ := forTy_ok hp
    have h6 := hQ.resolved (get_ok.1 ht) hq
    have h7 : p.compactAt = c.specialtySet.compactAt := by
      unfold Propagated.compactAt; rw [h5, updateFromPath_compact]
    rw [h7] at h6
    refine ⟨(edValue d, x) :: ps, by simp [h1], ?_, ?_, ?_⟩
    · simp [Parts.bytes, h2]
    · simp only [edsValue, h3, Parts.values, List.map_cons]
    · intro z hz
      simp only [List.zip_cons_cons, List.mem_cons] at hz
      rcases hz with rfl | hz
      · exact h6
      · exact h4 z hz

/-- Wrapping a core value. -/
theorem Spec.Core.enc {c c' : Bool} {id coreId k : Nat} {core : Typ}
    (h : Core R c id c' core coreId k) {v : Value} {bs : Bytes} (he : Enc R c' coreId v bs) :
    Enc R c id v bs := by
  have hst : ∀ {p : List String}, special p = none → Structural p := by
    intro p hp; unfold Structural; rw [hp]; trivial
  induction h with
  | stop _ _ => exact he
  | struct h1 h2 h3 _ ih => exact .newtype h1 (hst h2) h3 (ih he)
  | compact h1 h2 h3 _ ih => exact .compact h1 (hst h2) h3 (ih he)

theorem PrimRel.sound {s : SpecialtySet} {p : Prim} {d : PD} {bs : Bytes} (h : PrimRel s p d bs) :
    EncPrim s.compactAt.isSome p (pdValue d) bs := by
  cases h with
  | bool v hc => rw [hc]; cases v; exact .false; exact .true
  | char v hc => rw [hc]; exact .char v
  | str t hc hl => rw [hc]; exact .str t hl
  | @uint p w v hw hv =>
    have hu : IsUInt p w := by cases p <;> simp [uwOf] at hw <;> subst hw <;> constructor
    cases s.compactAt.isSome with
    | true => exact .compact hu hv
    | false => exact .uint hu hv
  | u256 hc hv => rw [hc]; exact .u256 hv
  | @int p w v hw hc hv =>
    have hu : IsInt p w := by cases p <;> simp [iwOf] at hw <;> subst hw <;> constructor
    rw [hc]; exact .int hu hv.1 hv.2

theorem FieldsTop.sound_new (hQ : SoundRel R Q) {fs : List Field} {ds : List FD} {bs : Bytes}
    (h : FieldsTop Q fs Checker.new ds bs) :
    ∃ ps : Parts, ps.length = fs.length ∧ bs = ps.bytes ∧ fdsValue ds = ps.named fs ∧
      ∀ x ∈ (fs.map (·.ty)).zip ps, Enc R false x.1 x.2.1 x.2.2 := by
  obtain ⟨ps, h1, h2, h3, h4⟩ := h.rel.sound hQ
  rw [fieldsChecker_compact] at h4
  exact ⟨ps, h1, h2, h3, h4⟩

theorem DefRel.sound (hQ : SoundRel R Q) {ty : Typ} {id : Nat} {p : Propagated} {d : ED} {bs : Bytes}
    (hr : R.resolve id = .ok ty) (hs : Structural ty.path) (h : DefRel R Q ty id p d bs) :
    Enc R p.compactAt.isSome id (edValue d) bs := by
  have hno : p.compactAt = none → p.compactAt.isSome = false := fun h => by rw [h]; rfl
  cases h with
  | @composite fields ds _ hd hf =>
    obtain ⟨ps, h1, h2, h3, h4⟩ := hf.rel.sound hQ
    rw [fieldsChecker_compact] at h4
    simp only [edValue, pdValue, h3]
    subst h2
    match fields, ps, h1 with
    | [], [], _ => exact .unit hr hs hd
    | [f], [x], _ =>
      have h5 := h4 _ (by simp; rfl)
      have : Parts.bytes [x] = x.2 := by simp [Parts.bytes]
      rw [this]
      exact .newtype hr hs hd h5
    | f :: g :: fs, x :: y :: ps, h1 =>
      have hc : p.checker.specialtySet.compactAt = none := hf.noCompact (by simp)
      rw [hc] at h4
      have : p.compactAt.isSome = false := hno hc
      rw [this]
      exact .record hr hs hd (by simp) h1 h4
  | emptyEnum hd hc => rw [hno hc]; exact .never hr hs hd
  | enum hd hc hv hsp hf =>
    obtain ⟨ps, h1, h2, h3, h4⟩ := hf.sound_new hQ
    obtain ⟨h5, h6⟩ := (enumSpecial_none hd).1 hsp
    rw [hno hc]
    simp only [edValue, pdValue, h3]
    subst h2
    exact .variant hr hs hd (find_selects.1 hv) h5 h6 h1 h4
  | sequence hd hc hh hl he =>
    obtain ⟨h1, k, h2⟩ := huskType_core hh
    obtain ⟨ps, h3, h4, h5, h6⟩ := he.sound (k := k) hQ h1 (fun he => h2.enc he)
    rw [hno hc]
    simp only [edValue, seqData_value, h5]
    subst h4
    rw [← h3]
    exact .sequence hr hs hd ⟨_, _, _, _, h2⟩ (by omega) h6
  | array hd hc hh he =>
    obtain ⟨h1, k, h2⟩ := huskType_core hh
    obtain ⟨ps, h3, h4, h5, h6⟩ := he.sound (k := k) hQ h1 (fun he => h2.enc he)
    rw [hno hc]
    simp only [edValue, seqData_value, h5]
    subst h4
    rw [← h3] at hd
    exact .array hr hs hd ⟨_, _, _, _, h2⟩ h6
  | tuple hd hc ht =>
    obtain ⟨ps, h1, h2, h3, h4⟩ := ht.sound hQ
    rw [fieldsChecker_compact] at h4
    simp only [edValue, pdValue, h3]
    subst h2
    exact .tuple hr hs hd (fun hl => hno (hc hl)) h1 h4
  | primitive hd hp =>
    exact .primitive hr hs hd hp.sound
  | compact hd hc hck hq =>
    have h1 := hQ.symbol hq
    obtain ⟨_, rfl⟩ := checkId_ok.1 hck
    rw [hno hc]
    exact .compact hr hs hd h1
  | @bits order store k l _ hd hc hk he =>
    rw [hno hc]
    obtain ⟨s, o⟩ := k
    obtain ⟨h1, h2⟩ := bitKind_iff.1 hk
    exact .bits hr hs hd h1 h2 he

theorem TyRel.sound (hQ : SoundRel R Q) {ty : Typ} {id : Nat} {p : Propagated} {d : ED} {bs : Bytes}
    (hr : R.resolve id = .ok ty) (h : TyRel R Q ty id p d bs) :
    Enc R p.compactAt.isSome id (edValue d) bs := by
  have hno : p.compactAt = none → p.compactAt.isSome = false := fun h => by rw [h]; rfl
  cases h with
  | ofDef ho h => exact h.sound hQ hr (hinted_open.1 ho)
  | fixed hh hc hl => rw [hno hc]; exact .fixed hr (hinted_fixed.1 hh) hl
  | era hh hc he => rw [hno hc]; exact .era hr (hinted_era.1 hh) he
  | h256 hh hc hl =>
    rw [hno hc]
    have : ∀ s (b : Bytes), pdValue (h256Data s b) = .hash b := by intro s b; cases s <;> rfl
    simp only [edValue, this]
    exact .hash hr (hinted_h256.1 hh) hl
  | per hh hc hv => rw [hno hc]; exact .per hr (hinted_per.1 hh) hv
  | perCompact hh hc hv => rw [hc]; exact .perCompact hr (hinted_per.1 hh) hv
  | signature hd hc hh he hl => rw [hno hc]; exact .signature hr ((enumSpecial_fixed hd).1 he) hl
  | pallet hd hc hh he hv hf =>
    obtain ⟨ps, h1, h2, h3, h4⟩ := hf.sound_new hQ
    rw [hno hc]
    simp only [edValue, pdValue, h3]
    subst h2
    exact .pallet hr ((enumSpecial_pallet hd).1 ⟨_, he⟩) (find_selects.1 hv) h1 h4

theorem addInfo_compact (p : Propagated) (i : Info) : (p.addInfo i).compactAt = p.compactAt := by
  unfold Propagated.compactAt; rw [addInfo_checker]

theorem runN_sound (n : Nat) : SoundRel R (RunN R n) := by
  induction n with
  | zero => exact ⟨fun h => h.elim, fun _ h => h.elim⟩
  | succ n ih =>
    constructor
    · rintro id p d bs ⟨ty, id', h1, h2⟩
      obtain ⟨t, ht, h1⟩ := bind_ok.1 h1
      cases h1
      have := h2.sound ih (get_ok.1 ht)
      rwa [addInfo_compact] at this
    · rintro ty id p d bs hr ⟨ty', id', h1, h2⟩
      cases h1
      have := h2.sound ih hr
      rwa [addInfo_compact] at this

theorem run_sound : SoundRel R (Run R) :=
  ⟨fun ⟨n, h⟩ => (runN_sound n).symbol h, fun hr ⟨n, h⟩ => (runN_sound n).resolved hr h⟩

end Verif
