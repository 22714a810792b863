import Verif.Proof.FlakyComplete
/-! A valid encoding is rejected only by a failure of the memory: all types. -/
namespace Verif
open Spec

variable {σ : Type} {D : Device σ} {R : Registry} {b : Buf} {rk : Nat → Nat}

theorem reads_of {u : Value} {pos : Nat} {bs : Bytes} {x : Dev σ (ED × Nat)} {d : ED} (h : Yields x (fun r => r = (d, pos + bs.length)))
    (hv : edValue d = u) : Yields x (ReadsD u pos bs) :=
  h.mono (fun r hr => by subst hr; exact ⟨rfl, hv ▸ .same⟩)

theorem hasNever_named {C : List (Option String × Value) → Value}
    (hC : ∀ {o : Option String} {v : Value} {fs : List (Option String × Value)}, (o, v) ∈ fs → HasNever v → HasNever (C fs))
    {fields : List Field} {ps : Parts} (hl : ps.length = fields.length) {x : Nat × Value × Bytes}
    (hx : x ∈ (fields.map (·.ty)).zip ps) (h : HasNever x.2.1) : HasNever (C (ps.named fields)) := by
  obtain ⟨i, h1, rfl⟩ := List.mem_iff_getElem.1 hx
  simp only [List.length_zip, List.length_map] at h1
  refine hC (o := (fields[i]'(by omega)).name) (List.mem_iff_getElem.2 ⟨i, ?_, ?_⟩) h
  · simp only [Parts.named, Parts.values, List.length_zip, List.length_map]; exact h1
  · simp [Parts.named, Parts.values]

/-- An enum without variants reads as nothing. -/
theorem enc_never {id : Nat} {t : Typ} {item : PalletItem} {u : Value} {bs : Bytes} (hr : R.resolve id = .ok t)
    (hsp : special t.path = some (.pallet item)) (hd : t.typeDef = .variant [])
    (h : Enc (unlabelled R) false id u bs) : u = .never := by
  have hr' := unlabelled_resolve hr
  have hd' : (unlabel t).typeDef = .variant [] := by rw [unlabel_typeDef]; exact hd
  have hst : ∀ {t'}, (unlabelled R).resolve id = .ok t' → t' = unlabel t := by
    intro t' h; rw [hr'] at h; cases h; rfl
  have hs : special (unlabel t).path = none := by
    unfold unlabel; rw [hd]; dsimp only; rw [hsp]; exact special_nil
  have hno : ∀ {i : UInt8} {v : Variant}, ¬ Selects [] i v := by
    rintro i v ⟨a, b, h, _⟩; cases a <;> cases h
  cases h with
  | never _ _ _ => rfl
  | fixed h1 h2 | hash h1 h2 | era h1 h2 | per h1 h2 => cases hst h1; rw [hs] at h2; cases h2
  | newtype h1 _ h2 | unit h1 _ h2 | record h1 _ h2 | sequence h1 _ h2 | array h1 _ h2 | tuple h1 _ h2
  | primitive h1 _ h2 | compact h1 _ h2 | bits h1 _ h2 =>
    cases hst h1; rw [hd'] at h2; cases h2
  | variant h1 _ h2 h3 => cases hst h1; rw [hd'] at h2; cases h2; exact absurd h3 hno
  | signature h1 h2 => cases hst h1; have := h2.1; rw [hs] at this; cases this
  | pallet h1 h2 => cases hst h1; have := h2.1; rw [hs] at this; cases this

theorem enc_goodD (H : HonestD External D R b) (hrel : Reliable b) (hz : EmptyArraysGrounded R) (hk : Falling R rk) (hn : LeavesNameless R)
    {c : Bool} {id : Nat} {u : Value} {bs : Bytes} (h : Enc (unlabelled R) c id u bs) :
    ¬ TellsEmpty R u → GoodD D R b rk c id u bs := by
  have hgr : ∀ {c : Bool} {id : Nat} {u : Value} {bs : Bytes}, Enc (unlabelled R) c id u bs → Grounded R id :=
    fun h => unlabelled_grounded (enc_grounded (unlabelled_emptyArrays hz) h)
  have hrej : ∀ {p : Propagated}, p.compactAt.isSome = false → p.rejectCompact = .ok () :=
    fun hc => propReject_ok.2 (isSome_false hc)
  induction h with
  | fixed hr hs hl =>
    intro hpn
    obtain ⟨t, hr0, rfl⟩ := unlabelled_inv hr; clear hr; have hr := hr0; clear hr0
    have hs := special_back hs
    refine .of_plain hr (fun h => by rw [hs] at h; cases h) (fun h => by unfold Structural at h; rw [hs] at h; exact h.elim)
      (fun n pos p hc _ hat => ?_)
    refine step_special H hs (.inl ⟨_, rfl, rfl⟩) (reads_of (withInfoD_yields p.info
      (leaf_yields (parseFixedD_follows H _ pos p.compactAt) (parseFixed_parses _ p.compactAt) hrel
        ⟨isSome_false hc, rfl, hl⟩ hat)) rfl)
  | hash hr hs hl =>
    intro hpn
    obtain ⟨t, hr0, rfl⟩ := unlabelled_inv hr; clear hr; have hr := hr0; clear hr0
    have hs := special_back hs
    refine .of_plain hr (fun h => by rw [hs] at h; cases h) (fun h => by unfold Structural at h; rw [hs] at h; exact h.elim)
      (fun n pos p hc _ hat => ?_)
    have : ∀ s (b : Bytes), pdValue (h256Data s b) = .hash b := by intro s b; cases s <;> rfl
    refine step_special H hs (.inr (.inr (.inl ⟨rfl, rfl⟩))) (Yields.step (hrej hc) (reads_of (withInfoD_yields p.info
      (leaf_yields (specialCaseH256D_follows H pos _) (specialCaseH256_parses _) hrel ⟨rfl, hl⟩ hat)) (this _ _)))
  | era hr hs he =>
    intro hpn
    obtain ⟨t, hr0, rfl⟩ := unlabelled_inv hr; clear hr; have hr := hr0; clear hr0
    have hs := special_back hs
    refine .of_plain hr (fun h => by rw [hs] at h; cases h) (fun h => by unfold Structural at h; rw [hs] at h; exact h.elim)
      (fun n pos p hc _ hat => ?_)
    refine step_special H hs (.inr (.inl ⟨rfl, rfl⟩)) (Yields.step (hrej hc) (Yields.bind
      (leaf_yields (specialCaseEraD_follows H pos) specialCaseEra_parses hrel ⟨he, rfl⟩ hat) (fun r hr => ?_)))
    subst hr
    exact .ok ⟨rfl, .same⟩
  | @per id t k v hr hs hv =>
    intro hpn
    obtain ⟨t, hr0, rfl⟩ := unlabelled_inv hr; clear hr; have hr := hr0; clear hr0
    have hs := special_back hs
    refine .of_plain hr (fun h => by rw [hs] at h; cases h) (fun h => by unfold Structural at h; rw [hs] at h; exact h.elim)
      (fun n pos p hc _ hat => ?_)
    refine step_special H hs (.inr (.inr (.inr ⟨_, rfl, rfl⟩))) (reads_of (withInfoD_yields p.info
      (leaf_yields (parsePerD_follows H _ pos p.compactAt) (parsePer_parses _ p.compactAt) hrel
        (a := .perThing k v) ⟨_, rfl, ?_⟩ hat)) rfl)
    rw [hc]; exact ⟨hv, rfl⟩
  | @perCompact id t k v hr hs hv =>
    intro hpn
    obtain ⟨t, hr0, rfl⟩ := unlabelled_inv hr; clear hr; have hr := hr0; clear hr0
    have hs := special_back hs
    refine .of_plain hr (fun h => by rw [hs] at h; cases h) (fun h => by unfold Structural at h; rw [hs] at h; exact h.elim)
      (fun n pos p hc _ hat => ?_)
    refine step_special H hs (.inr (.inr (.inr ⟨_, rfl, rfl⟩))) (reads_of (withInfoD_yields p.info
      (leaf_yields (parsePerD_follows H _ pos p.compactAt) (parsePer_parses _ p.compactAt) hrel
        (a := .perThing k (min v k.accuracy)) ⟨_, rfl, ?_⟩ hat)) rfl)
    rw [hc]; exact ⟨_, hv, rfl, rfl⟩
  | @newtype c id t f v bs hr hs hd henc ih =>
    have hg := hgr (.newtype hr hs hd henc)
    intro hpn
    have ih := ih hpn
    obtain ⟨t, hr0, rfl⟩ := unlabelled_inv hr; clear hr; have hr := hr0; clear hr0
    have hs := structural_back hs
    rw [unlabel_typeDef] at hd
    have hlt : rk f.ty < rk id := hk.part hg hr hs (by rw [hd]; simp [TypeDef.directIds])
    have hne : ∀ vs, t.typeDef ≠ .variant vs := by rw [hd]; intro vs h; cases h
    have hrun : ∀ n pos (p : Propagated), p.compactAt.isSome = c → (∀ x ∈ p.checker.cycleCheck, rk id ≤ rk x) →
        At b.bytes pos bs → Yields (decodeFD D n (.resolved t id) pos p) (ReadsD v pos bs) := by
      intro n pos p hc hcyc hat
      cases n with
      | zero => exact .fuel
      | succ n =>
        show Yields (fromTypeD D t pos >>= fun r => decodeCheckedD D (decodeFD D n) r.1 t id r.2 (p.addInfo (Info.fromTy t))) _
        refine step_structural H hs hne ?_
        generalize hp' : p.addInfo (Info.fromTy t) = p'
        rw [← addInfo_compact p (Info.fromTy t), hp'] at hc
        rw [← addInfo_checker p (Info.fromTy t), hp'] at hcyc
        unfold decodeTypeDefD
        rw [hd]
        have hb : Parts.bytes [(v, bs)] = bs := by simp [Parts.bytes]
        refine Yields.bind (fieldsD_complete (rk := rk) H n p'.checker hc [f] [(v, bs)] pos rfl
          (by intro g hg x hx; simp at hg; subst hg; have := hcyc x hx; omega)
          (by intro x hx; simp at hx; subst hx; exact ih) (by rw [hb]; exact hat)) (fun r hr => ?_)
        obtain ⟨h1, vs, h2, h3, h4⟩ := hr
        rw [hb] at h1
        refine .ok ⟨h1, ?_⟩
        simp only [edValue, pdValue, h2]
        match vs, h3 with
        | [w], _ => exact h4 (v, w) (by simp [Parts.values])
    constructor
    · exact ⟨t, hr⟩
    · intro n t' p pos hr' hc hcyc hat
      rw [hr] at hr'; cases hr'
      exact hrun n pos p hc hcyc hat
    · intro n c' core coreId k p pos hcore hc hcyc hat
      cases hcore with
      | stop h1 _ => rw [hr] at h1; cases h1; exact hrun n pos p hc hcyc hat
      | struct h1 h2 h3 h4 =>
        rw [hr] at h1; cases h1
        rw [hd] at h3; cases h3
        exact ih.core h4 hc hcyc hat
      | compact h1 h2 h3 h4 => rw [hr] at h1; cases h1; rw [hd] at h3; cases h3
    · intro n t' vs pos hr' _ hd' _ _
      rw [hr] at hr'; cases hr'
      exact absurd hd' (hne vs)
  | @unit c id t hr hs hd =>
    intro hpn
    obtain ⟨t, hr0, rfl⟩ := unlabelled_inv hr; clear hr; have hr := hr0; clear hr0
    have hs := structural_back hs
    rw [unlabel_typeDef] at hd
    refine .of_plain hr (fun _ => by rw [hd]; simp) (fun _ h => by rw [hd] at h; cases h) (fun n pos p hc _ hat => ?_)
    refine step_structural H hs (by rw [hd]; intro vs h; cases h) ?_
    unfold decodeTypeDefD
    rw [hd]
    exact .ok ⟨rfl, .same⟩
  | @record id t fields ps hr hs hd hlen hl henc ih =>
    have hg := hgr (.record hr hs hd hlen hl henc)
    intro hpn
    have ih := fun x hx => ih x hx (fun h => hpn ⟨h.1, hasNever_named .record hl hx h.2⟩)
    obtain ⟨t, hr0, rfl⟩ := unlabelled_inv hr; clear hr; have hr := hr0; clear hr0
    have hs := structural_back hs
    rw [unlabel_typeDef] at hd
    refine .of_plain hr (fun _ => by rw [hd]; constructor <;> intro x hx <;> cases hx; simp at hlen)
      (fun _ h => by rw [hd] at h; cases h) (fun n pos p hc hcyc hat => ?_)
    refine step_structural H hs (by rw [hd]; intro vs h; cases h) ?_
    have hc' : p.checker.specialtySet.compactAt = none := isSome_false hc
    unfold decodeTypeDefD
    rw [hd]
    refine Yields.bind (P := fun r : List FD × Nat => r.2 = pos + ps.bytes.length ∧
      ∃ vs, fdsValue r.1 = (fields.map (·.name)).zip vs ∧ PartsRead ps vs) ?_ (fun r hr => ?_)
    · unfold decodeFieldsD
      rw [if_pos (by omega)]
      refine Yields.step (a := ()) (rejectCompact_ok.2 hc') ?_
      refine fieldsD_complete (rk := rk) H n p.checker.forgetHint (by rw [forgetHint_compact, hc']; rfl) fields ps pos hl ?_ ih hat
      intro f hf x hx
      have := hk.part hg hr hs (by rw [hd]; exact List.mem_map_of_mem hf : f.ty ∈ _)
      have := hcyc x hx
      omega
    · obtain ⟨h1, vs, h2, h3, h4⟩ := hr
      refine .ok ⟨h1, ?_⟩
      simp only [edValue, pdValue, h2]
      have h5 : vs.length = fields.length := by
        have : ps.values.length = ps.length := by simp [Parts.values]
        omega
      have : recordValue ((fields.map (·.name)).zip vs) = .record ((fields.map (·.name)).zip vs) := by
        match fields, vs, h5, hlen with
        | f :: g :: fs, x :: y :: vs, _, _ => rfl
      rw [this]
      exact .record h3 h4
  | @never id t hr hs hd =>
    intro hpn
    obtain ⟨t, hr0, rfl⟩ := unlabelled_inv hr; clear hr; have hr := hr0; clear hr0
    have hs := structural_back hs
    rw [unlabel_typeDef] at hd
    refine .of_plain hr (fun _ => by rw [hd]; simp) (fun {n vs pos} _ h hne _ => ?_) (fun n pos p hc _ hat => ?_)
    · rw [hd] at h; cases h; exact absurd rfl hne
    · refine Yields.bind (fromTypeD_recog H t pos) (fun r hr => ?_)
      have hno : ∀ {i : UInt8} {v : Variant}, ¬ Selects [] i v := by
        rintro i v ⟨a, b, h, _⟩; cases a <;> cases h
      unfold Structural at hs
      cases hr with
      | plain _ =>
        show Yields (decodeTypeDefD D _ t id pos p) _
        unfold decodeTypeDefD
        rw [hd]
        exact Yields.step (hrej hc) (.ok ⟨rfl, .same⟩)
      | fixed h1 => rw [h1] at hs; exact hs.elim
      | era h1 => rw [h1] at hs; exact hs.elim
      | h256 h1 => rw [h1] at hs; exact hs.elim
      | per h1 => rw [h1] at hs; exact hs.elim
      | signature _ h1 =>
        obtain ⟨_, vs, v, f, hd', hsel, _⟩ := h1
        rw [hd] at hd'; cases hd'; exact absurd hsel hno
      | pallet _ h1 =>
        obtain ⟨_, vs, v, f, t', hd', hsel, _⟩ := h1
        rw [hd] at hd'; cases hd'; exact absurd hsel hno
  | @variant id t vs v i ps hr hs hd hsel h1 h2 hl he ih =>
    intro hpn
    have ih := fun x hx => ih x hx (fun h => hpn ⟨h.1, hasNever_named .variant hl hx h.2⟩)
    obtain ⟨t, hr0, rfl⟩ := unlabelled_inv hr; clear hr; have hr := hr0; clear hr0
    have hs := structural_back hs
    rw [unlabel_typeDef] at hd
    have hvar : ∀ n pos, At b.bytes pos (i :: ps.bytes) → Yields (decodeVariantD D (decodeFD D n) vs pos)
        (ReadsVariant (.variant v.name (ps.named v.fields)) pos (i :: ps.bytes)) :=
      fun n pos hat => variantD_complete H hrel hsel hl ih hat
    refine .of_plain hr (fun _ => by rw [hd]; simp) (fun {n vs' pos} _ h _ hat => ?_) (fun n pos p hc _ hat => ?_)
    · rw [hd] at h; cases h; exact hvar n pos hat
    · have hbyte := readByte_at hrel hat
      have hat2 : At b.bytes (pos + 1) ps.bytes := (at_append (xs := [i]) (ys := ps.bytes)).1 hat |>.2
      have hsame : ∀ {vs' : List Variant} {i' : UInt8} {v' : Variant}, b.readByte pos = .ok i' → t.typeDef = .variant vs' →
          Selects vs' i' v' → v' = v ∧ i' = i := by
        intro vs' i' v' h1 h2 h3
        rw [hd] at h2; cases h2
        rw [hbyte] at h1; cases h1
        have h4 := find_selects.2 h3
        rw [find_selects.2 hsel] at h4
        cases h4
        exact ⟨rfl, rfl⟩
      refine Yields.bind (fromTypeD_recog H t pos) (fun r hr => ?_)
      unfold Structural at hs
      cases hr with
      | plain _ =>
        show Yields (decodeTypeDefD D _ t id pos p) _
        unfold decodeTypeDefD
        rw [hd]
        refine Yields.step (hrej hc) ?_
        split
        · rename_i hem
          obtain ⟨_, _, hvs, _⟩ := hsel
          rw [hvs] at hem
          simp at hem
        · refine Yields.bind (hvar n pos hat) (fun r hr => ?_)
          obtain ⟨h3, names, us, ws, h4, h5, h6, h7⟩ := hr
          refine .ok ⟨h3, ?_⟩
          simp only [edValue, pdValue, h5]
          rw [h4]
          exact .variant h6 h7
      | fixed h1 => rw [h1] at hs; exact hs.elim
      | era h1 => rw [h1] at hs; exact hs.elim
      | h256 h1 => rw [h1] at hs; exact hs.elim
      | per h1 => rw [h1] at hs; exact hs.elim
      | @signature i' k hi hsig =>
        obtain ⟨_, vs', v', f, hd', hsel', hf, _, c', core, coreId, j, elem, et, hcore, hcd, hel, hed⟩ := hsig
        obtain ⟨rfl, rfl⟩ := hsame hi hd' hsel'
        rw [hf] at hl
        match ps, hl with
        | [q], _ =>
          have hq := he (f.ty, q) (by rw [hf]; simp)
          obtain ⟨hlen, hu⟩ := enc_array_u8 hn hcore hcd hel hed hq
          have hb : Parts.bytes [q] = q.2 := by simp [Parts.bytes]
          rw [hb] at hat2
          refine (withInfoD_yields p.info (leaf_yields (parseFixedD_follows H k (pos + 1) p.compactAt)
            (parseFixed_parses k p.compactAt) hrel ⟨isSome_false hc, rfl, hlen⟩ hat2)).mono (fun r hr => ?_)
          subst hr
          refine ⟨by rw [hb]; simp only [List.length_cons]; omega, ?_⟩
          have : Parts.named v'.fields [q] = [(f.name, q.1)] := by rw [hf]; rfl
          rw [this, hu]
          exact .signature hlen
      | @pallet i' item name info inner hi hpal =>
        have hpal' := hpal
        obtain ⟨_, vs', v', f, t', hd', hsel', hname, hf, hr', hsp', hdi⟩ := hpal'
        obtain ⟨rfl, rfl⟩ := hsame hi hd' hsel'
        have hg := ih
        rw [hf] at hl
        match ps, hl with
        | [q], _ =>
          have hq := ih (f.ty, q) (by rw [hf]; simp)
          have hb : Parts.bytes [q] = q.2 := by simp [Parts.bytes]
          rw [hb] at hat2
          refine Yields.step (hrej hc) ?_
          have hne : inner ≠ [] := by
            intro h0
            refine hpn ⟨fun h => h _ _ _ _ _ _ hr hpal h0, ?_⟩
            have hq' := enc_never hr' hsp' (h0 ▸ hdi) (he (f.ty, q) (by rw [hf]; simp))
            exact .variant (o := f.name) (v := q.1) (by rw [hf]; simp [Parts.named, Parts.values])
              (by dsimp only at hq'; rw [hq']; exact .never)
          refine Yields.bind (hq.enum hr' (by unfold Structural; rw [hsp']; trivial) hdi
            hne hat2) (fun r hr => ?_)
          obtain ⟨h3, names, us, ws, h4, h5, h6, h7⟩ := hr
          refine .ok ⟨by rw [hb]; dsimp only; rw [h3]; simp only [List.length_cons]; omega, ?_⟩
          have : Parts.named v'.fields [q] = [(f.name, q.1)] := by rw [hf]; rfl
          dsimp only at h4
          rw [this, h4, hname]
          simp only [edValue, pdValue, h5]
          exact .pallet h6 h7
  | signature hr hsig _ =>
    intro hpn
    obtain ⟨t, hr0, rfl⟩ := unlabelled_inv hr; clear hr; have hr := hr0; clear hr0
    have hd := hsig
    obtain ⟨_, vs, _, _, hd, _⟩ := hd
    rw [unlabel_typeDef] at hd
    exact absurd hsig (not_signature_unlabelled hd _ _)
  | pallet hr hpal _ _ _ =>
    intro hpn
    obtain ⟨t, hr0, rfl⟩ := unlabelled_inv hr; clear hr; have hr := hr0; clear hr0
    have hd := hpal
    obtain ⟨_, vs, _, _, _, hd, _⟩ := hd
    rw [unlabel_typeDef] at hd
    exact absurd hpal (not_pallet_unlabelled hd _ _ _ _)
  | @sequence id t elem ps hr hs hd hkn hl _ ih =>
    intro hpn
    have ih := fun x hx => ih x hx (fun h => hpn ⟨h.1, .seq (List.mem_map_of_mem hx) h.2⟩)
    obtain ⟨t, hr0, rfl⟩ := unlabelled_inv hr; clear hr; have hr := hr0; clear hr0
    have hs := structural_back hs
    rw [unlabel_typeDef] at hd
    refine .of_plain hr (fun _ => by rw [hd]; simp) (fun _ h => by rw [hd] at h; cases h) (fun n pos p hc hcyc hat => ?_)
    refine step_structural H hs (by rw [hd]; intro vs h; cases h) ?_
    unfold decodeTypeDefD
    rw [hd]
    obtain ⟨hat1, hat2⟩ := at_append.1 hat
    refine Yields.bind (leaf_yields (getCompactD_follows H (compactUInt .u32) pos) (Parses.compact (w := .u32)) hrel
      ⟨hl, rfl⟩ hat1) (fun r hr => ?_)
    subst hr
    refine (elementsSetD_complete (rk := rk) (p := { p with checker := p.checker.dropCycleCheck }) H hk
      (isSome_false (o := p.compactAt) hc) (known_back hkn) (by intro x hx; cases hx) rfl ih hat2).mono ?_
    rintro r ⟨h1, h2⟩
    exact ⟨by rw [h1]; simp; omega, h2⟩
  | @array id t elem ps hr hs hd hkn henc ih =>
    have hg := hgr (.array hr hs hd hkn henc)
    intro hpn
    have ih := fun x hx => ih x hx (fun h => hpn ⟨h.1, .seq (List.mem_map_of_mem hx) h.2⟩)
    obtain ⟨t, hr0, rfl⟩ := unlabelled_inv hr; clear hr; have hr := hr0; clear hr0
    have hs := structural_back hs
    rw [unlabel_typeDef] at hd
    refine .of_plain hr (fun _ => by rw [hd]; simp) (fun _ h => by rw [hd] at h; cases h) (fun n pos p hc hcyc hat => ?_)
    refine step_structural H hs (by rw [hd]; intro vs h; cases h) ?_
    unfold decodeTypeDefD
    rw [hd]
    have hlt : rk elem < rk id := hk.part hg hr hs (by rw [hd]; simp [TypeDef.directIds])
    exact elementsSetD_complete (rk := rk) H hk (isSome_false hc) (known_back hkn)
      (by intro x hx; have := hcyc x hx; omega) rfl ih hat
  | @tuple c id t ids ps hr hs hd hlen hl henc ih =>
    have hg := hgr (.tuple hr hs hd hlen hl henc)
    intro hpn
    have ih := fun x hx => ih x hx (fun h => hpn ⟨h.1, .tuple (List.mem_map_of_mem (List.of_mem_zip hx).2) h.2⟩)
    obtain ⟨t, hr0, rfl⟩ := unlabelled_inv hr; clear hr; have hr := hr0; clear hr0
    have hs := structural_back hs
    rw [unlabel_typeDef] at hd
    refine .of_plain hr (fun _ => by rw [hd]; simp) (fun _ h => by rw [hd] at h; cases h) (fun n pos p hc hcyc hat => ?_)
    refine step_structural H hs (by rw [hd]; intro vs h; cases h) ?_
    unfold decodeTypeDefD
    rw [hd]
    have hq : ∃ p', (if 1 < ids.length then (p.rejectCompact >>= fun _ => .ok p.forgetHint) else .ok p) = .ok p' ∧
        p'.checker.specialtySet.compactAt.isSome = c ∧ p'.checker.cycleCheck = p.checker.cycleCheck := by
      split
      · rename_i h1
        have := hlen h1
        subst this
        rw [hrej hc]
        exact ⟨_, rfl, by
          show p.checker.forgetHint.specialtySet.compactAt.isSome = false
          rw [forgetHint_compact]; exact hc, rfl⟩
      · exact ⟨_, rfl, hc, rfl⟩
    obtain ⟨p', h1, h2, h3⟩ := hq
    refine Yields.step h1 ?_
    refine Yields.bind (tupleD_complete (rk := rk) H n p'.checker h2 ids ps pos hl ?_ ih hat) (fun r hr => ?_)
    · rw [h3]
      intro i hi x hx
      have := hk.part hg hr hs (by rw [hd]; exact hi : i ∈ _)
      have := hcyc x hx
      omega
    · obtain ⟨h4, h5⟩ := hr
      exact .ok ⟨h4, .tuple h5.1 h5.2⟩
  | @primitive c id t pr v bs hr hs hd hp =>
    intro hpn
    obtain ⟨t, hr0, rfl⟩ := unlabelled_inv hr; clear hr; have hr := hr0; clear hr0
    have hs := structural_back hs
    rw [unlabel_typeDef] at hd
    refine .of_plain hr (fun _ => by rw [hd]; simp) (fun _ h => by rw [hd] at h; cases h) (fun n pos p hc _ hat => ?_)
    refine step_structural H hs (by rw [hd]; intro vs h; cases h) ?_
    unfold decodeTypeDefD
    rw [hd]
    obtain ⟨d, h1, h2⟩ := prim_complete (s := p.checker.specialtySet) hc hp
    exact reads_of (withInfoD_yields p.info (leaf_yields (decodePrimitiveD_follows H pr pos _)
      (decodePrimitive_parses pr p.checker.specialtySet) hrel h1 hat)) h2
  | @compact id t inner v bs hr hs hd henc ih =>
    have hg := hgr (.compact hr hs hd henc)
    intro hpn
    have ih := ih hpn
    obtain ⟨t, hr0, rfl⟩ := unlabelled_inv hr; clear hr; have hr := hr0; clear hr0
    have hs := structural_back hs
    rw [unlabel_typeDef] at hd
    have hlt : rk inner < rk id := hk.part hg hr hs (by rw [hd]; simp [TypeDef.directIds])
    have hne : ∀ vs, t.typeDef ≠ .variant vs := by rw [hd]; intro vs h; cases h
    have hrun : ∀ n pos (p : Propagated), p.compactAt.isSome = false → (∀ x ∈ p.checker.cycleCheck, rk id ≤ rk x) →
        At b.bytes pos bs → Yields (decodeFD D n (.resolved t id) pos p) (ReadsD v pos bs) := by
      intro n pos p hc hcyc hat
      cases n with
      | zero => exact .fuel
      | succ n =>
        show Yields (fromTypeD D t pos >>= fun r => decodeCheckedD D (decodeFD D n) r.1 t id r.2 (p.addInfo (Info.fromTy t))) _
        refine step_structural H hs hne ?_
        generalize hp' : p.addInfo (Info.fromTy t) = p'
        rw [← addInfo_compact p (Info.fromTy t), hp'] at hc
        rw [← addInfo_checker p (Info.fromTy t), hp'] at hcyc
        unfold decodeTypeDefD
        rw [hd]
        have hlt' : ∀ x ∈ p'.checker.cycleCheck, rk inner < rk x := by
          intro x hx; have := hcyc x hx; omega
        have hck := (checkId_ok (c := compactChecker p'.checker id) (id := inner)).2 ⟨not_mem_of_lt hlt', rfl⟩
        exact Yields.step (hrej hc) (Yields.step hck (ih.symbol H rfl (cycle_push hlt') hat))
    constructor
    · exact ⟨t, hr⟩
    · intro n t' p pos hr' hc hcyc hat
      rw [hr] at hr'; cases hr'
      exact hrun n pos p hc hcyc hat
    · intro n c' core coreId k p pos hcore hc hcyc hat
      cases hcore with
      | stop h1 _ => rw [hr] at h1; cases h1; exact hrun n pos p hc hcyc hat
      | struct h1 h2 h3 h4 => rw [hr] at h1; cases h1; rw [hd] at h3; cases h3
      | compact h1 h2 h3 h4 =>
        rw [hr] at h1; cases h1
        rw [hd] at h3; cases h3
        exact ih.core h4 hc hcyc hat
    · intro n t' vs pos hr' _ hd' _ _
      rw [hr] at hr'; cases hr'
      exact absurd hd' (hne vs)
  | @bits id t order store o s l bs hr hs hd ho hst he =>
    intro hpn
    obtain ⟨t, hr0, rfl⟩ := unlabelled_inv hr; clear hr; have hr := hr0; clear hr0
    have hs := structural_back hs
    rw [unlabel_typeDef] at hd
    have ho' : IsBitOrder R order o := by
      obtain ⟨t', fs, h1, h2, h3⟩ := ho
      obtain ⟨t0, h1', rfl⟩ := unlabelled_inv h1
      rw [unlabel_typeDef] at h2
      rw [unlabel_of_not_variant (by rw [h2]; intro vs h; cases h)] at h3
      exact ⟨t0, fs, h1', h2, h3⟩
    have hst' : IsBitStore R store s := by
      obtain ⟨t', p, h1, h2, h3⟩ := hst
      obtain ⟨t0, h1', rfl⟩ := unlabelled_inv h1
      rw [unlabel_typeDef] at h2
      exact ⟨t0, p, h1', h2, h3⟩
    refine .of_plain hr (fun _ => by rw [hd]; simp) (fun _ h => by rw [hd] at h; cases h) (fun n pos p hc _ hat => ?_)
    refine step_structural H hs (by rw [hd]; intro vs h; cases h) ?_
    unfold decodeTypeDefD
    rw [hd]
    exact Yields.step (hrej hc) (reads_of (withInfoD_yields p.info (leaf_yields (decodeBitSequenceD_follows H order store id pos)
      (decodeBitSequence_parses R order store id) hrel ⟨(s, o), bitKind_iff.2 ⟨ho', hst'⟩, l, rfl, he⟩ hat)) rfl)

/-- Labels hide no enum without variants. -/
theorem hasNever_labels {u v : Value} (hl : Labels u v) : HasNever u → HasNever v := by
  have key : ∀ {us vs : List Value} {x : Value}, us.length = vs.length → (∀ x ∈ us.zip vs, HasNever x.1 → HasNever x.2) →
      x ∈ us → HasNever x → ∃ y ∈ vs, HasNever y := by
    intro us vs x hl ih hx h
    obtain ⟨i, h1, rfl⟩ := List.mem_iff_getElem.1 hx
    exact ⟨vs[i], List.getElem_mem _, ih (us[i], vs[i])
      (List.mem_iff_getElem.2 ⟨i, by simp only [List.length_zip]; omega, by simp⟩) h⟩
  have keyN : ∀ {names : List (Option String)} {us vs : List Value} {o : Option String} {x : Value}, us.length = vs.length →
      (∀ x ∈ us.zip vs, HasNever x.1 → HasNever x.2) → (o, x) ∈ names.zip us → HasNever x →
      ∃ o' y, (o', y) ∈ names.zip vs ∧ HasNever y := by
    intro names us vs o x hl ih hx h
    obtain ⟨i, h1, h2⟩ := List.mem_iff_getElem.1 hx
    simp only [List.length_zip] at h1
    simp only [List.getElem_zip, Prod.mk.injEq] at h2
    obtain ⟨rfl, rfl⟩ := h2
    exact ⟨names[i], vs[i], List.mem_iff_getElem.2 ⟨i, by simp only [List.length_zip]; omega, by simp⟩,
      ih (us[i], vs[i]) (List.mem_iff_getElem.2 ⟨i, by simp only [List.length_zip]; omega, by simp⟩) h⟩
  induction hl with
  | same => exact id
  | seq hl _ ih =>
    intro h; cases h with
    | seq hm h => obtain ⟨y, h1, h2⟩ := key hl ih hm h; exact .seq h1 h2
  | tuple hl _ ih =>
    intro h; cases h with
    | tuple hm h => obtain ⟨y, h1, h2⟩ := key hl ih hm h; exact .tuple h1 h2
  | record hl _ ih =>
    intro h; cases h with
    | record hm h => obtain ⟨o, y, h1, h2⟩ := keyN hl ih hm h; exact .record h1 h2
  | variant hl _ ih =>
    intro h; cases h with
    | variant hm h => obtain ⟨o, y, h1, h2⟩ := keyN hl ih hm h; exact .variant h1 h2
  | pallet hl _ ih =>
    intro h; cases h with
    | variant hm h =>
      simp only [List.mem_singleton, Prod.mk.injEq] at hm
      obtain ⟨rfl, rfl⟩ := hm
      cases h with
      | variant hm h => obtain ⟨o, y, h1, h2⟩ := keyN hl ih hm h; exact .pallet h1 h2
  | signature _ =>
    intro h; cases h with
    | variant hm h =>
      simp only [List.mem_singleton, Prod.mk.injEq] at hm
      obtain ⟨rfl, rfl⟩ := hm
      cases h with
      | seq hm h =>
        obtain ⟨a, _, rfl⟩ := List.mem_map.1 hm
        cases h

theorem not_tellsEmpty {u v : Value} (h : Labels u v) (hv : ¬ TellsEmpty R v) : ¬ TellsEmpty R u :=
  fun hu => hv ⟨hu.1, hasNever_labels h hu.2⟩

/-- A valid encoding is read, unless the memory fails. -/
theorem decodeD_complete (H : HonestD External D R b) (hrel : Reliable b) (hk : EmptyArraysGrounded R) (hn : LeavesNameless R)
    {c : Bool} {id : Nat} {u : Value} {bs : Bytes} (hpn : ¬ TellsEmpty R u) (h : Enc (unlabelled R) c id u bs)
    {p : Propagated} {pos : Nat} (hc : p.compactAt.isSome = c) (hcyc : p.checker.cycleCheck = []) (hat : At b.bytes pos bs)
    (s : σ) : (∃ d, (decodeD D (.symbol id) pos p s).1 = .ok (d, pos + bs.length) ∧ Labels u (edValue d)) ∨
      ∃ e, External e ∧ (decodeD D (.symbol id) pos p s).1 = .error e := by
  obtain ⟨rk, hf⟩ := exists_falling R
  have hy := (enc_goodD H hrel hk hf hn h hpn).symbol H (n := (D.len - pos) * (D.size + 1) + D.size + 2) hc
    (by rw [hcyc]; intro x hx; cases hx) hat s
  rcases hy with ⟨⟨d, q⟩, h1, h2, h3⟩ | ⟨e, he | rfl, h1⟩
  · dsimp only at h2; subst h2; exact .inl ⟨d, h1, h3⟩
  · exact .inr ⟨e, he, h1⟩
  · rcases decodeD_symbol H id pos p s with ⟨a, h2, _⟩ | ⟨e, h2⟩
    · unfold decodeD at h2; rw [h1] at h2; cases h2
    · unfold decodeD at h2; rw [h1] at h2; cases h2

end Verif
