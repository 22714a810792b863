import Verif.Proof.Sound
import Verif.Proof.Grounded
/-!
Every encoded value is decoded, if elements of zero-length arrays do not contain
themselves without an enum or a vector in between.
-/
namespace Verif
open Spec

variable {R : Registry} {rk : Nat → Nat}

theorem run_symbol {id : Nat} {t : Typ} {p : Propagated} {d : ED} {bs : Bytes}
    (hr : R.resolve id = .ok t) (h : Run R (.resolved t id) p d bs) : Run R (.symbol id) p d bs := by
  rw [run_iff] at h ⊢
  obtain ⟨ty, id', h1, h2⟩ := h
  cases h1
  exact ⟨t, id, by simp only [TyIn.resolve, get_ok.2 hr, ok_bind], h2⟩

/-- The value is decoded from its encoding. -/
structure Good (R : Registry) (rk : Nat → Nat) (c : Bool) (id : Nat) (v : Value) (bs : Bytes) : Prop where
  ex : ∃ t, R.resolve id = .ok t
  plain : ∀ {t : Typ} {p : Propagated}, R.resolve id = .ok t → p.compactAt.isSome = c →
    (∀ x ∈ p.checker.cycleCheck, rk id ≤ rk x) → ∃ d, Run R (.resolved t id) p d bs ∧ edValue d = v
  core : ∀ {c' : Bool} {core : Typ} {coreId k : Nat} {p : Propagated}, Core R c id c' core coreId k →
    p.compactAt.isSome = c' → (∀ x ∈ p.checker.cycleCheck, rk coreId ≤ rk x) →
    ∃ d, Run R (.resolved core coreId) p d bs ∧ edValue d = v

/-- Types that are their own core. -/
theorem Good.of_plain {c : Bool} {id : Nat} {t : Typ} {v : Value} {bs : Bytes} (hr : R.resolve id = .ok t)
    (hw : special t.path = none → (∀ f, t.typeDef ≠ .composite [f]) ∧ (∀ i, t.typeDef ≠ .compact i))
    (h : ∀ p : Propagated, p.compactAt.isSome = c → (∀ x ∈ p.checker.cycleCheck, rk id ≤ rk x) →
      ∃ d, TyRel R (Run R) t id p d bs ∧ edValue d = v) : Good R rk c id v bs := by
  have hrun : ∀ p : Propagated, p.compactAt.isSome = c → (∀ x ∈ p.checker.cycleCheck, rk id ≤ rk x) →
      ∃ d, Run R (.resolved t id) p d bs ∧ edValue d = v := by
    intro p hc hcyc
    obtain ⟨d, h1, h2⟩ := h (p.addInfo (Info.fromTy t)) (by rw [addInfo_compact]; exact hc)
      (by rw [addInfo_checker]; exact hcyc)
    exact ⟨d, run_iff.2 ⟨t, id, rfl, h1⟩, h2⟩
  constructor
  · exact ⟨t, hr⟩
  · intro t' p hr' hc hcyc
    rw [hr] at hr'; cases hr'
    exact hrun p hc hcyc
  · intro c' core coreId k p hcore hc hcyc
    cases hcore with
    | stop h1 _ => rw [hr] at h1; cases h1; exact hrun p hc hcyc
    | struct h1 h2 h3 _ => rw [hr] at h1; cases h1; exact absurd h3 ((hw h2).1 _)
    | compact h1 h2 h3 _ => rw [hr] at h1; cases h1; exact absurd h3 ((hw h2).2 _)

theorem not_mem_of_lt {l : List Nat} {id : Nat} (h : ∀ x ∈ l, rk id < rk x) : l.contains id = false := by
  cases hcon : l.contains id with
  | false => rfl
  | true => have := h id (by simpa using hcon); omega

theorem cycle_push {l : List Nat} {id : Nat} (h : ∀ x ∈ l, rk id < rk x) :
    ∀ x ∈ l ++ [id], rk id ≤ rk x := by
  intro x hx
  rcases List.mem_append.1 hx with hx | hx
  · exact Nat.le_of_lt (h x hx)
  · simp at hx; subst hx; exact Nat.le_refl _

theorem fields_complete {c : Bool} (ch : Checker) (hc : ch.specialtySet.compactAt.isSome = c) :
    ∀ (fs : List Field) (ps : Parts), ps.length = fs.length →
    (∀ f ∈ fs, ∀ x ∈ ch.cycleCheck, rk f.ty < rk x) →
    (∀ x ∈ (fs.map (·.ty)).zip ps, Good R rk c x.1 x.2.1 x.2.2) →
    ∃ ds, FieldsRel (Run R) ch fs ds ps.bytes ∧ fdsValue ds = ps.named fs := by
  intro fs
  induction fs with
  | nil =>
    intro ps hl _ _
    have : ps = [] := by cases ps; rfl; simp at hl
    subst this
    exact ⟨[], .nil, rfl⟩
  | cons f fs ih =>
    intro ps hl hcyc hg
    match ps, hl with
    | q :: ps, hl =>
      obtain ⟨ds, h1, h2⟩ := ih ps (by simpa using hl) (fun g hgm => hcyc g (by simp [hgm]))
        (fun x hx => hg x (by simp only [List.map_cons, List.zip_cons_cons, List.mem_cons]; exact .inr hx))
      have hgf := hg (f.ty, q) (by simp)
      have hf := hcyc f (by simp)
      have hfor : Propagated.forField ch f =
          .ok { checker := { (ch.hintFromField f) with cycleCheck := (ch.hintFromField f).cycleCheck ++ [f.ty] } } := by
        unfold Propagated.forField Checker.updateForField
        rw [checkId_ok.2 ⟨by rw [hintFromField_cycle]; exact not_mem_of_lt hf, rfl⟩]
        rfl
      obtain ⟨t, ht⟩ := hgf.ex
      obtain ⟨d, h3, h4⟩ := hgf.plain ht (p := { checker := { (ch.hintFromField f) with
          cycleCheck := (ch.hintFromField f).cycleCheck ++ [f.ty] } })
        (by show ((ch.hintFromField f).specialtySet.compactAt).isSome = c
            rw [hintFromField_compact]; exact hc)
        (by rw [hintFromField_cycle]; exact cycle_push hf)
      refine ⟨mkFD f d :: ds, ?_, ?_⟩
      · have : Parts.bytes (q :: ps) = q.2 ++ Parts.bytes ps := by simp [Parts.bytes]
        rw [this]
        exact .cons hfor (run_symbol ht h3) h1
      · simp only [fdsValue, h2, Parts.named, Parts.values, List.map_cons, List.zip_cons_cons, mkFD, fdValue, h4]

theorem tuple_complete {c : Bool} (ch : Checker) (hc : ch.specialtySet.compactAt.isSome = c) :
    ∀ (ids : List Nat) (ps : Parts), ps.length = ids.length →
    (∀ i ∈ ids, ∀ x ∈ ch.cycleCheck, rk i < rk x) →
    (∀ x ∈ ids.zip ps, Good R rk c x.1 x.2.1 x.2.2) →
    ∃ ds, TupleRel R (Run R) ch ids ds ps.bytes ∧ edsValue ds = ps.values := by
  intro ids
  induction ids with
  | nil =>
    intro ps hl _ _
    have : ps = [] := by cases ps; rfl; simp at hl
    subst this
    exact ⟨[], .nil, rfl⟩
  | cons id ids ih =>
    intro ps hl hcyc hg
    match ps, hl with
    | q :: ps, hl =>
      obtain ⟨ds, h1, h2⟩ := ih ps (by simpa using hl) (fun g hgm => hcyc g (by simp [hgm]))
        (fun x hx => hg x (by simp only [List.zip_cons_cons, List.mem_cons]; exact .inr hx))
      have hgf := hg (id, q) (by simp)
      have hf := hcyc id (by simp)
      obtain ⟨t, ht⟩ := hgf.ex
      have hfor : Propagated.forTy ch t id =
          .ok { checker := { specialtySet := ch.specialtySet.updateFromPath t,
                             cycleCheck := ch.cycleCheck ++ [id] } } := by
        unfold Propagated.forTy Checker.updateForTy
        rw [checkId_ok.2 ⟨not_mem_of_lt hf, rfl⟩]
        rfl
      obtain ⟨d, h3, h4⟩ := hgf.plain ht
        (p := ⟨⟨ch.specialtySet.updateFromPath t, ch.cycleCheck ++ [id]⟩, []⟩)
        (by show (ch.specialtySet.updateFromPath t).compactAt.isSome = c
            rw [updateFromPath_compact]; exact hc)
        (cycle_push hf)
      refine ⟨d :: ds, ?_, ?_⟩
      · have : Parts.bytes (q :: ps) = q.2 ++ Parts.bytes ps := by simp [Parts.bytes]
        rw [this]
        exact .cons (get_ok.2 ht) hfor h3 h1
      · simp only [edsValue, h2, Parts.values, List.map_cons, h4]

theorem elems_complete {elem : Nat} {h : HuskedType} {k : Nat}
    (hcore : Core R false elem h.checker.specialtySet.compactAt.isSome h.ty h.id k)
    (hcyc : ∀ x ∈ h.checker.cycleCheck, rk h.id ≤ rk x) :
    ∀ (ps : Parts), (∀ x ∈ ps, Good R rk false elem x.1 x.2) →
    ∃ ds, ds.length = ps.length ∧ ElemsRel (Run R) h ds ps.bytes ∧ pdsValue ds = ps.values := by
  intro ps
  induction ps with
  | nil => intro _; exact ⟨[], rfl, .nil, rfl⟩
  | cons q ps ih =>
    intro hg
    obtain ⟨ds, h0, h1, h2⟩ := ih (fun x hx => hg x (by simp [hx]))
    obtain ⟨d, h3, h4⟩ := (hg q (by simp)).core hcore (p := Propagated.withChecker h.checker) rfl hcyc
    refine ⟨d.data :: ds, by simp [h0], ?_, ?_⟩
    · have : Parts.bytes (q :: ps) = q.2 ++ Parts.bytes ps := by simp [Parts.bytes]
      rw [this]
      exact .cons h3 h1
    · simp only [pdsValue, h2, Parts.values, List.map_cons]
      rw [← h4]; cases d; rfl

theorem fieldsTop_new {fs : List Field} {ps : Parts} (hl : ps.length = fs.length)
    (hg : ∀ x ∈ (fs.map (·.ty)).zip ps, Good R rk false x.1 x.2.1 x.2.2) :
    ∃ ds, FieldsTop (Run R) fs Checker.new ds ps.bytes ∧ fdsValue ds = ps.named fs := by
  obtain ⟨ds, h1, h2⟩ := fields_complete (R := R) (rk := rk) (fieldsChecker fs.length Checker.new)
    (by rw [fieldsChecker_compact]; rfl) fs ps hl
    (by rw [fieldsChecker_cycle]; intro f _ x hx; cases hx) hg
  exact ⟨ds, ⟨fun _ => rfl, h1⟩, h2⟩

theorem isSome_false {α : Type} {o : Option α} (h : o.isSome = false) : o = none := by
  cases o with
  | none => rfl
  | some _ => cases h

theorem prim_complete {s : SpecialtySet} {p : Prim} {v : Value} {bs : Bytes} {c : Bool}
    (hc : s.compactAt.isSome = c) (h : EncPrim c p v bs) : ∃ d, PrimRel s p d bs ∧ pdValue d = v := by
  cases h with
  | false => exact ⟨.bool false, .bool false (isSome_false hc), rfl⟩
  | true => exact ⟨.bool true, .bool true (isSome_false hc), rfl⟩
  | char v => exact ⟨_, .char v (isSome_false hc), rfl⟩
  | str v hl => exact ⟨_, .str v (isSome_false hc) hl, rfl⟩
  | @uint p w v hu hv =>
    refine ⟨.uint w v s.hint.unsignedInteger, ?_, rfl⟩
    have : leBytes w.bytes v = if s.compactAt.isSome then compactEncode v else leBytes w.bytes v := by
      rw [hc]; rfl
    rw [this]
    refine .uint ?_ hv
    cases hu <;> rfl
  | @compact p w v hu hv =>
    refine ⟨.uint w v s.hint.unsignedInteger, ?_, rfl⟩
    have : compactEncode v = if s.compactAt.isSome then compactEncode v else leBytes w.bytes v := by
      rw [hc]; rfl
    rw [this]
    refine .uint ?_ hv
    cases hu <;> rfl
  | u256 hv => exact ⟨_, .u256 (isSome_false hc) hv, rfl⟩
  | int hu h1 h2 =>
    refine ⟨_, .int ?_ (isSome_false hc) ⟨h1, h2⟩, rfl⟩
    cases hu <;> rfl

theorem enc_good (he : EmptyArraysGrounded R) (hk : Falling R rk) {c : Bool} {id : Nat} {v : Value} {bs : Bytes}
    (h : Enc R c id v bs) : Good R rk c id v bs := by
  induction h with
  | fixed hr hs hl =>
    refine .of_plain hr (fun h => by rw [hs] at h; cases h) (fun p hc _ => ?_)
    exact ⟨_, .fixed (hinted_fixed.2 hs) (isSome_false hc) hl, rfl⟩
  | hash hr hs hl =>
    refine .of_plain hr (fun h => by rw [hs] at h; cases h) (fun p hc _ => ?_)
    refine ⟨_, .h256 (hinted_h256.2 hs) (isSome_false hc) hl, ?_⟩
    have : ∀ s (b : Bytes), pdValue (h256Data s b) = .hash b := by intro s b; cases s <;> rfl
    simp only [edValue, this]
  | era hr hs he =>
    refine .of_plain hr (fun h => by rw [hs] at h; cases h) (fun p hc _ => ?_)
    exact ⟨_, .era (hinted_era.2 hs) (isSome_false hc) he, rfl⟩
  | per hr hs hv =>
    refine .of_plain hr (fun h => by rw [hs] at h; cases h) (fun p hc _ => ?_)
    exact ⟨_, .per (hinted_per.2 hs) (isSome_false hc) hv, rfl⟩
  | perCompact hr hs hv =>
    refine .of_plain hr (fun h => by rw [hs] at h; cases h) (fun p hc _ => ?_)
    exact ⟨_, .perCompact (hinted_per.2 hs) hc hv, rfl⟩
  | @newtype c id t f v bs hr hs hd henc ih =>
    have hlt : rk f.ty < rk id := hk.part (enc_grounded he (.newtype hr hs hd henc)) hr hs (by rw [hd]; simp [TypeDef.directIds])
    have hrun : ∀ p : Propagated, p.compactAt.isSome = c → (∀ x ∈ p.checker.cycleCheck, rk id ≤ rk x) →
        ∃ d, TyRel R (Run R) t id p d bs ∧ edValue d = v := by
      intro p hc hcyc
      obtain ⟨ds, h1, h2⟩ := fields_complete (R := R) (rk := rk) p.checker hc [f] [(v, bs)] rfl
        (by intro g hg x hx; simp at hg; subst hg; have := hcyc x hx; omega)
        (by intro x hx; simp at hx; subst hx; exact ih)
      have hb : Parts.bytes [(v, bs)] = bs := by simp [Parts.bytes]
      rw [hb] at h1
      refine ⟨⟨.composite ds, p.info⟩, .ofDef (hinted_open.2 hs) (.composite hd ⟨fun h => by simp at h, h1⟩), ?_⟩
      simp only [edValue, pdValue, h2]; rfl
    constructor
    · exact ⟨t, hr⟩
    · intro t' p hr' hc hcyc
      rw [hr] at hr'; cases hr'
      obtain ⟨d, h1, h2⟩ := hrun (p.addInfo (Info.fromTy t)) (by rw [addInfo_compact]; exact hc)
        (by rw [addInfo_checker]; exact hcyc)
      exact ⟨d, run_iff.2 ⟨t, id, rfl, h1⟩, h2⟩
    · intro c' core coreId k p hcore hc hcyc
      cases hcore with
      | stop h1 _ =>
        rw [hr] at h1; cases h1
        obtain ⟨d, h1, h2⟩ := hrun (p.addInfo (Info.fromTy t)) (by rw [addInfo_compact]; exact hc)
          (by rw [addInfo_checker]; exact hcyc)
        exact ⟨d, run_iff.2 ⟨t, id, rfl, h1⟩, h2⟩
      | struct h1 h2 h3 h4 =>
        rw [hr] at h1; cases h1
        rw [hd] at h3; cases h3
        exact ih.core h4 hc hcyc
      | compact h1 h2 h3 h4 => rw [hr] at h1; cases h1; rw [hd] at h3; cases h3
  | @unit c id t hr hs hd =>
    refine .of_plain hr (fun _ => by rw [hd]; simp) (fun p hc _ => ?_)
    exact ⟨⟨.composite [], p.info⟩, .ofDef (hinted_open.2 hs) (.composite hd ⟨fun h => by simp at h, .nil⟩), rfl⟩
  | @record id t fields ps hr hs hd hlen hl henc ih =>
    have hg := enc_grounded he (.record hr hs hd hlen hl henc)
    refine .of_plain hr (fun _ => by rw [hd]; constructor <;> intro x hx <;> cases hx; simp at hlen)
      (fun p hc hcyc => ?_)
    have hc' : p.checker.specialtySet.compactAt = none := isSome_false hc
    obtain ⟨ds, h1, h2⟩ := fields_complete (R := R) (rk := rk) (c := false)
      (fieldsChecker fields.length p.checker)
      (by rw [fieldsChecker_compact, hc']; rfl) fields ps hl
      (by rw [fieldsChecker_cycle]; intro f hf x hx
          have := hk.part hg hr hs (by rw [hd]; exact List.mem_map_of_mem hf : f.ty ∈ _)
          have := hcyc x hx; omega) ih
    refine ⟨⟨.composite ds, p.info⟩, .ofDef (hinted_open.2 hs) (.composite hd ⟨fun _ => hc', h1⟩), ?_⟩
    simp only [edValue, pdValue, h2]
    match fields, ps, hl, hlen with
    | f :: g :: fs, x :: y :: ps, _, _ => rfl
  | never hr hs hd =>
    refine .of_plain hr (fun _ => by rw [hd]; simp) (fun p hc _ => ?_)
    exact ⟨⟨.emptyEnum, p.info⟩, .ofDef (hinted_open.2 hs) (.emptyEnum hd (isSome_false hc)), rfl⟩
  | variant hr hs hd hsel h1 h2 hl _ ih =>
    refine .of_plain hr (fun _ => by rw [hd]; simp) (fun p hc _ => ?_)
    obtain ⟨ds, h3, h4⟩ := fieldsTop_new hl ih
    refine ⟨_, .ofDef (hinted_open.2 hs) (.enum hd (isSome_false hc) (find_selects.2 hsel)
      ((enumSpecial_none hd).2 ⟨h1, h2⟩) h3), ?_⟩
    simp only [edValue, pdValue, h4]
  | signature hr hsig hl =>
    have hsig' := hsig
    obtain ⟨h1, vs, v, f, hd, _⟩ := hsig'
    refine .of_plain hr (fun _ => by rw [hd]; simp) (fun p hc _ => ?_)
    exact ⟨_, .signature hd (isSome_false hc) (hinted_multi.2 h1) ((enumSpecial_fixed hd).2 hsig) hl, rfl⟩
  | pallet hr hpal hsel hl _ ih =>
    have hpal' := hpal
    obtain ⟨h1, vs, v, f, t', hd, _⟩ := hpal'
    refine .of_plain hr (fun _ => by rw [hd]; simp) (fun p hc _ => ?_)
    obtain ⟨info, h5⟩ := (enumSpecial_pallet hd).2 hpal
    obtain ⟨ds, h3, h4⟩ := fieldsTop_new hl ih
    refine ⟨_, .pallet hd (isSome_false hc) (hinted_pallet.2 h1) h5 (find_selects.2 hsel) h3, ?_⟩
    simp only [edValue, pdValue, h4]
  | @sequence id t elem ps hr hs hd hkn hl _ ih =>
    refine .of_plain hr (fun _ => by rw [hd]; simp) (fun p hc hcyc => ?_)
    obtain ⟨c', core, coreId, k, hcore⟩ := hkn
    obtain ⟨h, h1, rfl, rfl, h4, h5⟩ := huskType_of_core (hk.down) hcore
      (ch := p.checker.dropCycleCheck) (by intro x hx; cases hx)
    subst h4
    obtain ⟨ds, h6, h7, h8⟩ := elems_complete hcore h5 ps ih
    rw [← h6]
    refine ⟨_, .ofDef (hinted_open.2 hs) (.sequence hd (isSome_false hc) h1 (by omega) h7), ?_⟩
    simp only [edValue, seqData_value, h8]
  | @array id t elem ps hr hs hd hkn henc ih =>
    have hg := enc_grounded he (.array hr hs hd hkn henc)
    refine .of_plain hr (fun _ => by rw [hd]; simp) (fun p hc hcyc => ?_)
    obtain ⟨c', core, coreId, k, hcore⟩ := hkn
    have hlt : rk elem < rk id := hk.part hg hr hs (by rw [hd]; simp [TypeDef.directIds])
    obtain ⟨h, h1, rfl, rfl, h4, h5⟩ := huskType_of_core (hk.down) hcore
      (ch := p.checker) (by intro x hx; have := hcyc x hx; omega)
    subst h4
    obtain ⟨ds, h6, h7, h8⟩ := elems_complete hcore h5 ps ih
    rw [← h6] at hd
    refine ⟨_, .ofDef (hinted_open.2 hs) (.array hd (isSome_false hc) h1 h7), ?_⟩
    simp only [edValue, seqData_value, h8]
  | @tuple c id t ids ps hr hs hd hlen hl henc ih =>
    have hg := enc_grounded he (.tuple hr hs hd hlen hl henc)
    refine .of_plain hr (fun _ => by rw [hd]; simp) (fun p hc hcyc => ?_)
    obtain ⟨ds, h1, h2⟩ := tuple_complete (R := R) (rk := rk) (c := c)
      (fieldsChecker ids.length p.checker)
      (by rw [fieldsChecker_compact]; exact hc) ids ps hl
      (by rw [fieldsChecker_cycle]; intro i hi x hx
          have := hk.part hg hr hs (by rw [hd]; exact hi : i ∈ _)
          have := hcyc x hx; omega) ih
    refine ⟨⟨.tuple ds, p.info⟩, .ofDef (hinted_open.2 hs) (.tuple hd (fun h => ?_) h1), ?_⟩
    · have := hlen h; subst this; exact isSome_false hc
    · simp only [edValue, pdValue, h2]
  | primitive hr hs hd hp =>
    refine .of_plain hr (fun _ => by rw [hd]; simp) (fun p hc _ => ?_)
    obtain ⟨d, h1, h2⟩ := prim_complete (s := p.checker.specialtySet) hc hp
    exact ⟨⟨d, p.info⟩, .ofDef (hinted_open.2 hs) (.primitive hd h1), h2⟩
  | @compact id t inner v bs hr hs hd henc ih =>
    have hlt : rk inner < rk id := hk.part (enc_grounded he (.compact hr hs hd henc)) hr hs (by rw [hd]; simp [TypeDef.directIds])
    have hrun : ∀ p : Propagated, p.compactAt.isSome = false →
        (∀ x ∈ p.checker.cycleCheck, rk id ≤ rk x) →
        ∃ d, TyRel R (Run R) t id p d bs ∧ edValue d = v := by
      intro p hc hcyc
      obtain ⟨t', ht'⟩ := ih.ex
      have hlt' : ∀ x ∈ p.checker.cycleCheck, rk inner < rk x := by
        intro x hx; have := hcyc x hx; omega
      have hck := (checkId_ok (c := compactChecker p.checker id) (id := inner)).2 ⟨not_mem_of_lt hlt', rfl⟩
      obtain ⟨d, h1, h2⟩ := ih.plain ht' (p := { p with checker := { compactChecker p.checker id with
          cycleCheck := (compactChecker p.checker id).cycleCheck ++ [inner] } }) rfl (cycle_push hlt')
      exact ⟨d, .ofDef (hinted_open.2 hs) (.compact hd (isSome_false hc) hck (run_symbol ht' h1)), h2⟩
    constructor
    · exact ⟨t, hr⟩
    · intro t' p hr' hc hcyc
      rw [hr] at hr'; cases hr'
      obtain ⟨d, h1, h2⟩ := hrun (p.addInfo (Info.fromTy t)) (by rw [addInfo_compact]; exact hc)
        (by rw [addInfo_checker]; exact hcyc)
      exact ⟨d, run_iff.2 ⟨t, id, rfl, h1⟩, h2⟩
    · intro c' core coreId k p hcore hc hcyc
      cases hcore with
      | stop h1 _ =>
        rw [hr] at h1; cases h1
        obtain ⟨d, h1, h2⟩ := hrun (p.addInfo (Info.fromTy t)) (by rw [addInfo_compact]; exact hc)
          (by rw [addInfo_checker]; exact hcyc)
        exact ⟨d, run_iff.2 ⟨t, id, rfl, h1⟩, h2⟩
      | struct h1 h2 h3 h4 => rw [hr] at h1; cases h1; rw [hd] at h3; cases h3
      | compact h1 h2 h3 h4 =>
        rw [hr] at h1; cases h1
        rw [hd] at h3; cases h3
        exact ih.core h4 hc hcyc
  | bits hr hs hd ho hst he =>
    refine .of_plain hr (fun _ => by rw [hd]; simp) (fun p hc _ => ?_)
    exact ⟨_, .ofDef (hinted_open.2 hs) (.bits hd (isSome_false hc) (bitKind_iff.2 ⟨ho, hst⟩) he), rfl⟩

end Verif
