import Verif.Proof.Flaky
import Verif.Proof.Labels
/-! A valid encoding is rejected only by a failure of the memory. -/
namespace Verif
open Spec

variable {σ α β : Type} {D : Device σ} {R : Registry} {b : Buf} {rk : Nat → Nat}

/-- The memory's own error, or the bound of the model. -/
def Stop (e : Fail) : Prop := External e ∨ e = .fuel

/-- In every state: a value with the property, or the memory fails. -/
def Yields (x : Dev σ α) (P : α → Prop) : Prop :=
  ∀ s, (∃ a, (x s).1 = .ok a ∧ P a) ∨ (∃ e, Stop e ∧ (x s).1 = .error e)

theorem Yields.ok {a : α} {P : α → Prop} (h : P a) : Yields (σ := σ) (Dev.of (.ok a)) P :=
  fun _ => .inl ⟨a, rfl, h⟩

theorem Yields.fuel {P : α → Prop} : Yields (σ := σ) (Dev.of (.error .fuel)) P :=
  fun _ => .inr ⟨_, .inr rfl, rfl⟩

theorem Yields.bind {x : Dev σ α} {k : α → Dev σ β} {P : α → Prop} {Q : β → Prop} (hx : Yields x P)
    (hk : ∀ a, P a → Yields (k a) Q) : Yields (x >>= k) Q := by
  intro s
  show (∃ a, (Dev.bind x k s).1 = .ok a ∧ Q a) ∨ (∃ e, Stop e ∧ (Dev.bind x k s).1 = .error e)
  have h := hx s
  unfold Dev.bind
  rcases hxs : x s with ⟨o, s'⟩
  rw [hxs] at h
  rcases h with ⟨a, h, ha⟩ | ⟨e, he, h⟩
  · dsimp only at h; subst h; exact hk a ha s'
  · dsimp only at h; subst h; exact .inr ⟨e, he, rfl⟩

theorem Yields.mono {x : Dev σ α} {P Q : α → Prop} (hx : Yields x P) (h : ∀ a, P a → Q a) : Yields x Q := by
  intro s
  rcases hx s with ⟨a, h1, h2⟩ | h1
  · exact .inl ⟨a, h1, h a h2⟩
  · exact .inr h1

theorem Follows.yields {x : Dev σ α} {r : Res α} {a : α} {P : α → Prop} (h : Follows External x r) (hr : r = .ok a)
    (hp : P a) : Yields x P := by
  intro s
  rcases h s with ⟨e, he, h⟩ | h
  · exact .inr ⟨e, .inl he, h⟩
  · exact .inl ⟨a, by rw [h, hr], hp⟩

/-- Pure parts that succeed. -/
theorem Yields.step {r : Res α} {a : α} {k : α → Dev σ β} {Q : β → Prop} (hr : r = .ok a) (h : Yields (k a) Q) :
    Yields (Dev.of r >>= k) Q :=
  Yields.bind (P := fun x => x = a) (fun _ => .inl ⟨a, hr, rfl⟩) (fun _ hx => hx ▸ h)

theorem fromTypeD_recog (H : HonestD External D R b) (ty : Typ) (pos : Nat) :
    Yields (fromTypeD D ty pos) (Recog R b ty pos) := by
  intro s
  left
  rcases fromTypeD_blurs external_err H ty pos s with h | ⟨_, ho, h⟩
  · obtain ⟨r, h1, h2⟩ := fromType_recog (R := R) (b := b) ty pos
    exact ⟨r, by rw [h, h1], h2⟩
  · exact ⟨_, h, .plain (hinted_open.1 ho)⟩

/-- Types read by their definition, whatever the recognition. -/
theorem step_structural (H : HonestD External D R b) {rec : DecD σ} {ty : Typ} {id pos : Nat} {p : Propagated}
    {Q : ED × Nat → Prop} (hs : Structural ty.path) (hne : ∀ vs, ty.typeDef ≠ .variant vs)
    (h : Yields (decodeTypeDefD D rec ty id pos p) Q) :
    Yields (fromTypeD D ty pos >>= fun r => decodeCheckedD D rec r.1 ty id r.2 p) Q := by
  refine Yields.bind (fromTypeD_recog H ty pos) (fun r hr => ?_)
  unfold Structural at hs
  cases hr with
  | plain _ => exact h
  | fixed h1 => rw [h1] at hs; exact hs.elim
  | era h1 => rw [h1] at hs; exact hs.elim
  | h256 h1 => rw [h1] at hs; exact hs.elim
  | per h1 => rw [h1] at hs; exact hs.elim
  | signature _ h1 => obtain ⟨_, vs, _, _, hd, _⟩ := h1; exact absurd hd (hne vs)
  | pallet _ h1 => obtain ⟨_, vs, _, _, _, hd, _⟩ := h1; exact absurd hd (hne vs)

/-- Types known by path. -/
theorem step_special (H : HonestD External D R b) {rec : DecD σ} {ty : Typ} {id pos : Nat} {p : Propagated}
    {Q : ED × Nat → Prop} {sp : Special} {tc : TypeChecked} (hsp : special ty.path = some sp)
    (hk : (∃ k, sp = .fixed k ∧ tc = .fixed k) ∨ (sp = .era ∧ tc = .era) ∨ (sp = .hash ∧ tc = .h256) ∨
      ∃ k, sp = .per k ∧ tc = .perThing k)
    (h : Yields (decodeCheckedD D rec tc ty id pos p) Q) :
    Yields (fromTypeD D ty pos >>= fun r => decodeCheckedD D rec r.1 ty id r.2 p) Q := by
  refine Yields.bind (fromTypeD_recog H ty pos) (fun r hr => ?_)
  cases hr with
  | plain h1 =>
    unfold Structural at h1
    rw [hsp] at h1
    rcases hk with ⟨k, rfl, rfl⟩ | ⟨rfl, rfl⟩ | ⟨rfl, rfl⟩ | ⟨k, rfl, rfl⟩ <;> exact h1.elim
  | fixed h1 => rw [hsp] at h1; rcases hk with ⟨k, rfl, rfl⟩ | ⟨rfl, rfl⟩ | ⟨rfl, rfl⟩ | ⟨k, rfl, rfl⟩ <;> cases h1; exact h
  | era h1 => rw [hsp] at h1; rcases hk with ⟨k, rfl, rfl⟩ | ⟨rfl, rfl⟩ | ⟨rfl, rfl⟩ | ⟨k, rfl, rfl⟩ <;> cases h1; exact h
  | h256 h1 => rw [hsp] at h1; rcases hk with ⟨k, rfl, rfl⟩ | ⟨rfl, rfl⟩ | ⟨rfl, rfl⟩ | ⟨k, rfl, rfl⟩ <;> cases h1; exact h
  | per h1 => rw [hsp] at h1; rcases hk with ⟨k, rfl, rfl⟩ | ⟨rfl, rfl⟩ | ⟨rfl, rfl⟩ | ⟨k, rfl, rfl⟩ <;> cases h1; exact h
  | signature _ h1 => have h1 := h1.1; rw [hsp] at h1; rcases hk with ⟨k, rfl, rfl⟩ | ⟨rfl, rfl⟩ | ⟨rfl, rfl⟩ | ⟨k, rfl, rfl⟩ <;> cases h1
  | pallet _ h1 => have h1 := h1.1; rw [hsp] at h1; rcases hk with ⟨k, rfl, rfl⟩ | ⟨rfl, rfl⟩ | ⟨rfl, rfl⟩ | ⟨k, rfl, rfl⟩ <;> cases h1

/-- The value is read there, perhaps with labels. -/
def ReadsD (u : Value) (pos : Nat) (bs : Bytes) (r : ED × Nat) : Prop :=
  r.2 = pos + bs.length ∧ Labels u (edValue r.1)

/-- An enum variant with fields is read there. -/
def ReadsVariant (u : Value) (pos : Nat) (bs : Bytes) (r : Variant × List FD × Nat) : Prop :=
  r.2.2 = pos + bs.length ∧ ∃ (names : List (Option String)) (us vs : List Value), u = .variant r.1.name (names.zip us) ∧
    fdsValue r.2.1 = names.zip vs ∧ us.length = vs.length ∧ ∀ x ∈ us.zip vs, Labels x.1 x.2

structure GoodD (D : Device σ) (R : Registry) (b : Buf) (rk : Nat → Nat) (c : Bool) (id : Nat) (u : Value) (bs : Bytes) :
    Prop where
  ex : ∃ t, R.resolve id = .ok t
  plain : ∀ {n : Nat} {t : Typ} {p : Propagated} {pos : Nat}, R.resolve id = .ok t → p.compactAt.isSome = c →
    (∀ x ∈ p.checker.cycleCheck, rk id ≤ rk x) → At b.bytes pos bs →
    Yields (decodeFD D n (.resolved t id) pos p) (ReadsD u pos bs)
  core : ∀ {n : Nat} {c' : Bool} {core : Typ} {coreId k : Nat} {p : Propagated} {pos : Nat}, Core R c id c' core coreId k →
    p.compactAt.isSome = c' → (∀ x ∈ p.checker.cycleCheck, rk coreId ≤ rk x) → At b.bytes pos bs →
    Yields (decodeFD D n (.resolved core coreId) pos p) (ReadsD u pos bs)
  enum : ∀ {n : Nat} {t : Typ} {vs : List Variant} {pos : Nat}, R.resolve id = .ok t → Structural t.path →
    t.typeDef = .variant vs → vs ≠ [] → At b.bytes pos bs →
    Yields (decodeVariantD D (decodeFD D n) vs pos) (ReadsVariant u pos bs)

theorem GoodD.symbol (H : HonestD External D R b) {c : Bool} {id : Nat} {u : Value} {bs : Bytes} (h : GoodD D R b rk c id u bs)
    {n : Nat} {p : Propagated} {pos : Nat} (hc : p.compactAt.isSome = c)
    (hcyc : ∀ x ∈ p.checker.cycleCheck, rk id ≤ rk x) (hat : At b.bytes pos bs) :
    Yields (decodeFD D n (.symbol id) pos p) (ReadsD u pos bs) := by
  obtain ⟨t, ht⟩ := h.ex
  have hp := h.plain (n := n) (p := p) ht hc hcyc hat
  cases n with
  | zero => exact .fuel
  | succ n =>
    show Yields ((TyIn.symbol id).resolveD D >>= _) _
    refine Yields.bind ((resolveD_follows H (.symbol id)).yields (a := (t, id)) (P := fun r => r = (t, id)) ?_ rfl)
      (fun r hr => ?_)
    · show (R.get id >>= _) = _
      rw [get_ok.2 ht]; rfl
    · subst hr
      exact hp

theorem GoodD.of_plain {c : Bool} {id : Nat} {t : Typ} {u : Value} {bs : Bytes} (hr : R.resolve id = .ok t)
    (hw : special t.path = none → (∀ f, t.typeDef ≠ .composite [f]) ∧ (∀ i, t.typeDef ≠ .compact i))
    (he : ∀ {n : Nat} {vs : List Variant} {pos : Nat}, Structural t.path →
      t.typeDef = .variant vs → vs ≠ [] → At b.bytes pos bs →
      Yields (decodeVariantD D (decodeFD D n) vs pos) (ReadsVariant u pos bs))
    (h : ∀ n pos (p : Propagated), p.compactAt.isSome = c → (∀ x ∈ p.checker.cycleCheck, rk id ≤ rk x) →
      At b.bytes pos bs →
      Yields (fromTypeD D t pos >>= fun r => decodeCheckedD D (decodeFD D n) r.1 t id r.2 p) (ReadsD u pos bs)) :
    GoodD D R b rk c id u bs := by
  have hrun : ∀ n pos (p : Propagated), p.compactAt.isSome = c → (∀ x ∈ p.checker.cycleCheck, rk id ≤ rk x) →
      At b.bytes pos bs → Yields (decodeFD D n (.resolved t id) pos p) (ReadsD u pos bs) := by
    intro n pos p hc hcyc hat
    cases n with
    | zero => exact .fuel
    | succ n =>
      exact h n pos (p.addInfo (Info.fromTy t)) (by rw [addInfo_compact]; exact hc)
        (by rw [addInfo_checker]; exact hcyc) hat
  constructor
  · exact ⟨t, hr⟩
  · intro n t' p pos hr' hc hcyc hat
    rw [hr] at hr'; cases hr'
    exact hrun n pos p hc hcyc hat
  · intro n c' core coreId k p pos hcore hc hcyc hat
    cases hcore with
    | stop h1 _ => rw [hr] at h1; cases h1; exact hrun n pos p hc hcyc hat
    | struct h1 h2 h3 _ => rw [hr] at h1; cases h1; exact absurd h3 ((hw h2).1 _)
    | compact h1 h2 h3 _ => rw [hr] at h1; cases h1; exact absurd h3 ((hw h2).2 _)
  · intro n t' vs pos hr' hs hd hne hat
    rw [hr] at hr'; cases hr'
    exact he hs hd hne hat

/-- Parts read one after another. -/
def PartsRead (ps : Parts) (vs : List Value) : Prop :=
  ps.values.length = vs.length ∧ ∀ x ∈ ps.values.zip vs, Labels x.1 x.2

theorem PartsRead.cons {ps : Parts} {vs : List Value} {q : Value × Bytes} {v : Value} (h : Labels q.1 v) (hp : PartsRead ps vs) :
    PartsRead (q :: ps) (v :: vs) := by
  refine ⟨by have := hp.1; simp only [Parts.values, List.map_cons, List.length_cons] at this ⊢; omega, ?_⟩
  intro x hx
  simp only [Parts.values, List.map_cons, List.zip_cons_cons, List.mem_cons] at hx
  rcases hx with rfl | hx
  · exact h
  · exact hp.2 x hx

theorem fieldsD_complete (H : HonestD External D R b) {c : Bool} (n : Nat) (ch : Checker)
    (hc : ch.specialtySet.compactAt.isSome = c) :
    ∀ (fs : List Field) (ps : Parts) (pos : Nat), ps.length = fs.length →
    (∀ f ∈ fs, ∀ x ∈ ch.cycleCheck, rk f.ty < rk x) →
    (∀ x ∈ (fs.map (·.ty)).zip ps, GoodD D R b rk c x.1 x.2.1 x.2.2) → At b.bytes pos ps.bytes →
    Yields (decodeFieldsLoopD (decodeFD D n) ch fs pos) (fun r => r.2 = pos + ps.bytes.length ∧
      ∃ vs, fdsValue r.1 = (fs.map (·.name)).zip vs ∧ PartsRead ps vs) := by
  intro fs
  induction fs with
  | nil =>
    intro ps pos hl _ _ _
    have : ps = [] := by cases ps; rfl; simp at hl
    subst this
    exact .ok ⟨rfl, [], rfl, rfl, by simp⟩
  | cons f fs ih =>
    intro ps pos hl hcyc hg hat
    match ps, hl with
    | q :: ps, hl =>
      have hb : Parts.bytes (q :: ps) = q.2 ++ Parts.bytes ps := by simp [Parts.bytes]
      rw [hb] at hat
      obtain ⟨hat1, hat2⟩ := at_append.1 hat
      have hgf := hg (f.ty, q) (by simp)
      have hf := hcyc f (by simp)
      have hfor : Propagated.forField ch f =
          .ok { checker := { (ch.hintFromField f) with cycleCheck := (ch.hintFromField f).cycleCheck ++ [f.ty] } } := by
        unfold Propagated.forField Checker.updateForField
        rw [checkId_ok.2 ⟨by rw [hintFromField_cycle]; exact not_mem_of_lt hf, rfl⟩]
        rfl
      refine Yields.step hfor ?_
      refine Yields.bind (hgf.symbol H (by
          show ((ch.hintFromField f).specialtySet.compactAt).isSome = c
          rw [hintFromField_compact]; exact hc) (by rw [hintFromField_cycle]; exact cycle_push hf) hat1) (fun d hd => ?_)
      obtain ⟨h1, h2⟩ := hd
      rw [h1]
      refine Yields.bind (ih ps (pos + q.2.length) (by simpa using hl) (fun g hgm => hcyc g (by simp [hgm]))
        (fun x hx => hg x (by simp only [List.map_cons, List.zip_cons_cons, List.mem_cons]; exact .inr hx)) hat2) (fun r hr => ?_)
      obtain ⟨h3, vs, h4, h5⟩ := hr
      refine .ok ⟨?_, edValue d.1 :: vs, ?_, h5.cons h2⟩
      · show r.2 = _
        rw [h3, hb]; simp; omega
      · simp only [fdsValue, h4, List.map_cons, List.zip_cons_cons, fdValue]

theorem tupleD_complete (H : HonestD External D R b) {c : Bool} (n : Nat) (ch : Checker)
    (hc : ch.specialtySet.compactAt.isSome = c) :
    ∀ (ids : List Nat) (ps : Parts) (pos : Nat), ps.length = ids.length →
    (∀ i ∈ ids, ∀ x ∈ ch.cycleCheck, rk i < rk x) →
    (∀ x ∈ ids.zip ps, GoodD D R b rk c x.1 x.2.1 x.2.2) → At b.bytes pos ps.bytes →
    Yields (decodeTupleLoopD D (decodeFD D n) ch ids pos) (fun r => r.2 = pos + ps.bytes.length ∧
      PartsRead ps (edsValue r.1)) := by
  intro ids
  induction ids with
  | nil =>
    intro ps pos hl _ _ _
    have : ps = [] := by cases ps; rfl; simp at hl
    subst this
    exact .ok ⟨rfl, rfl, by simp [edsValue]⟩
  | cons id ids ih =>
    intro ps pos hl hcyc hg hat
    match ps, hl with
    | q :: ps, hl =>
      have hb : Parts.bytes (q :: ps) = q.2 ++ Parts.bytes ps := by simp [Parts.bytes]
      rw [hb] at hat
      obtain ⟨hat1, hat2⟩ := at_append.1 hat
      have hgf := hg (id, q) (by simp)
      have hf := hcyc id (by simp)
      obtain ⟨t, ht⟩ := hgf.ex
      have hfor : Propagated.forTy ch t id =
          .ok { checker := { specialtySet := ch.specialtySet.updateFromPath t,
                             cycleCheck := ch.cycleCheck ++ [id] } } := by
        unfold Propagated.forTy Checker.updateForTy
        rw [checkId_ok.2 ⟨not_mem_of_lt hf, rfl⟩]
        rfl
      refine Yields.bind ((H.get id).yields (a := t) (P := fun r => r = t) (get_ok.2 ht) rfl) (fun t' ht' => ?_)
      subst ht'
      refine Yields.step hfor ?_
      refine Yields.bind (hgf.plain ht (p := ⟨⟨ch.specialtySet.updateFromPath _, ch.cycleCheck ++ [id]⟩, []⟩) (by
          show (ch.specialtySet.updateFromPath _).compactAt.isSome = c
          rw [updateFromPath_compact]; exact hc) (cycle_push hf) hat1) (fun d hd => ?_)
      obtain ⟨h1, h2⟩ := hd
      rw [h1]
      refine Yields.bind (ih ps (pos + q.2.length) (by simpa using hl) (fun g hgm => hcyc g (by simp [hgm]))
        (fun x hx => hg x (by simp only [List.zip_cons_cons, List.mem_cons]; exact .inr hx)) hat2) (fun r hr => ?_)
      obtain ⟨h3, h5⟩ := hr
      refine .ok ⟨?_, ?_⟩
      · show r.2 = _
        rw [h3, hb]; simp; omega
      · simp only [edsValue]; exact h5.cons h2

theorem elemsD_complete {elem : Nat} {h : HuskedType} {k : Nat} (n : Nat)
    (hcore : Core R false elem h.checker.specialtySet.compactAt.isSome h.ty h.id k)
    (hcyc : ∀ x ∈ h.checker.cycleCheck, rk h.id ≤ rk x) :
    ∀ (ps : Parts) (pos : Nat), (∀ x ∈ ps, GoodD D R b rk false elem x.1 x.2) → At b.bytes pos ps.bytes →
    Yields (decodeElementsLoopD (decodeFD D n) h ps.length pos) (fun r => r.2 = pos + ps.bytes.length ∧
      PartsRead ps (pdsValue r.1)) := by
  intro ps
  induction ps with
  | nil => intro pos _ _; exact .ok ⟨rfl, rfl, by simp [pdsValue]⟩
  | cons q ps ih =>
    intro pos hg hat
    have hb : Parts.bytes (q :: ps) = q.2 ++ Parts.bytes ps := by simp [Parts.bytes]
    rw [hb] at hat
    obtain ⟨hat1, hat2⟩ := at_append.1 hat
    refine Yields.bind ((hg q (by simp)).core hcore (p := Propagated.withChecker h.checker) rfl hcyc hat1) (fun d hd => ?_)
    obtain ⟨h1, h2⟩ := hd
    rw [h1]
    refine Yields.bind (ih (pos + q.2.length) (fun x hx => hg x (by simp [hx])) hat2) (fun r hr => ?_)
    obtain ⟨h3, h5⟩ := hr
    refine .ok ⟨?_, ?_⟩
    · show r.2 = _
      rw [h3, hb]; simp; omega
    · simp only [pdsValue]
      refine h5.cons ?_
      obtain ⟨⟨d, i⟩, _⟩ := d
      exact h2

theorem elementsSetD_complete (H : HonestD External D R b) (hk : Falling R rk) {elem n : Nat} {p : Propagated} {pos : Nat}
    {ps : Parts} {len : Nat} (hc : p.compactAt = none) (hkn : Known R elem) (hcyc : ∀ x ∈ p.checker.cycleCheck, rk elem < rk x)
    (hl : len = ps.length) (hg : ∀ x ∈ ps, GoodD D R b rk false elem x.1 x.2) (hat : At b.bytes pos ps.bytes) :
    Yields (decodeElementsSetD D (decodeFD D n) elem len pos p) (fun r => r.2 = pos + ps.bytes.length ∧
      Labels (.seq ps.values) (edValue r.1)) := by
  obtain ⟨c', core, coreId, k, hcore⟩ := hkn
  obtain ⟨h, h1, rfl, rfl, h4, h5⟩ := huskType_of_core (hk.down) hcore hcyc
  subst h4
  refine Yields.step (a := ()) (propReject_ok.2 hc) ?_
  refine Yields.bind ((huskTypeD_follows H elem p.checker).yields h1 (P := fun r => r = h) rfl) (fun r hr => ?_)
  subst hr
  split
  · rename_i hz
    rw [hl] at hz
    have : ps = [] := List.length_eq_zero_iff.1 hz
    subst this
    refine .ok ⟨rfl, ?_⟩
    exact .same
  · subst hl
    refine Yields.bind (elemsD_complete n hcore h5 ps pos hg hat) (fun o ho => ?_)
    obtain ⟨l, q⟩ := o
    obtain ⟨h6, h7⟩ := ho
    have hv := seqData_value r l
    unfold seqData at hv
    dsimp only at h6 h7 ⊢
    cases hw : wrapSequence l with
    | none => rw [hw] at hv; exact .ok ⟨h6, by simp only [edValue, hv]; exact .seq h7.1 h7.2⟩
    | some x => rw [hw] at hv; exact .ok ⟨h6, by simp only [edValue, hv]; exact .seq h7.1 h7.2⟩

theorem readByte_at (hrel : Reliable b) {pos : Nat} {i : UInt8} {rest : Bytes}
    (hat : At b.bytes pos (i :: rest)) : b.readByte pos = .ok i := by
  have h1 : At b.bytes pos [i] := (at_append (xs := [i]) (ys := rest)).1 hat |>.1
  have := (Parses.byte (b := b) (k := fun x q => .ok (x, q)) (Q := fun x y bs => y = x ∧ bs = [])
    (fun x => (Parses.pure x).congr (by intro a bs; exact Iff.rfl))).complete hrel (a := i) (bs := [i]) ⟨i, [], rfl, rfl, rfl⟩ h1
  obtain ⟨x, h2, h3⟩ := bind_ok.1 this
  cases h3
  exact h2

theorem variantD_complete (H : HonestD External D R b) (hrel : Reliable b) {n : Nat} {vs : List Variant} {v : Variant} {i : UInt8}
    {ps : Parts} {pos : Nat} (hsel : Selects vs i v) (hl : ps.length = v.fields.length)
    (hg : ∀ x ∈ (v.fields.map (·.ty)).zip ps, GoodD D R b rk false x.1 x.2.1 x.2.2)
    (hat : At b.bytes pos (i :: ps.bytes)) :
    Yields (decodeVariantD D (decodeFD D n) vs pos) (ReadsVariant (.variant v.name (ps.named v.fields)) pos (i :: ps.bytes)) := by
  have hb := readByte_at hrel hat
  have hat2 : At b.bytes (pos + 1) ps.bytes := (at_append (xs := [i]) (ys := ps.bytes)).1 hat |>.2
  refine Yields.bind ((pickVariantD_follows H vs pos).yields (a := v) (P := fun w => w = v) ?_ rfl) (fun w hw => ?_)
  · unfold pickVariant
    rw [hb, ok_bind, find_selects.2 hsel]
  · subst hw
    rw [H.add (by have := (readByte_ok hb).le; simpa [Buf.len] using this)]
    refine Yields.step (a := pos + 1) rfl ?_
    have hloop := fieldsD_complete (rk := rk) H n (fieldsChecker w.fields.length Checker.new)
      (by rw [fieldsChecker_compact]; rfl) w.fields ps (pos + 1) hl
      (by rw [fieldsChecker_cycle]; intro f _ x hx; cases hx) hg hat2
    refine Yields.bind (P := fun r : List FD × Nat => r.2 = pos + 1 + ps.bytes.length ∧
      ∃ vs, fdsValue r.1 = (w.fields.map (·.name)).zip vs ∧ PartsRead ps vs) ?_ (fun r hr => ?_)
    · unfold decodeFieldsD
      unfold fieldsChecker at hloop
      split
      · rename_i h1
        rw [if_pos h1] at hloop
        exact Yields.step (a := ()) rfl hloop
      · rename_i h1
        rw [if_neg h1] at hloop
        exact hloop
    · obtain ⟨h1, vs', h2, h3⟩ := hr
      refine .ok ⟨?_, w.fields.map (·.name), ps.values, vs', rfl, h2, h3.1, h3.2⟩
      dsimp only
      rw [h1]
      simp only [List.length_cons]
      omega

/-! ### From the registry without labels back -/

theorem unlabelled_inv {id : Nat} {t' : Typ} (h : (unlabelled R).resolve id = .ok t') :
    ∃ t, R.resolve id = .ok t ∧ t' = unlabel t := by
  change (R.resolve id).map unlabel = _ at h
  cases hr : R.resolve id with
  | ok t0 => rw [hr] at h; injection h with h; exact ⟨t0, rfl, h.symm⟩
  | error e => rw [hr] at h; cases h

theorem structural_back {t : Typ} (h : Structural (unlabel t).path) : Structural t.path := by
  unfold Structural at *
  rcases unlabel_special t with he | ⟨he | ⟨i, he⟩, _⟩
  · rw [← he]; exact h
  · rw [he]; trivial
  · rw [he]; trivial

theorem special_back {t : Typ} {s : Special} (h : special (unlabel t).path = some s) : special t.path = some s := by
  rcases unlabel_special t with he | ⟨_, he⟩
  · rw [← he]; exact h
  · rw [he] at h; cases h

theorem core_back {c c' : Bool} {id coreId k : Nat} {core : Typ} (h : Core (unlabelled R) c id c' core coreId k) :
    ∃ core', Core R c id c' core' coreId k ∧ core = unlabel core' := by
  induction h with
  | stop hr hs =>
    obtain ⟨t, h1, rfl⟩ := unlabelled_inv hr
    rw [unlabel_typeDef] at hs
    refine ⟨t, .stop h1 (fun h => hs ?_), rfl⟩
    rcases unlabel_special t with he | ⟨he | ⟨i, he⟩, _⟩
    · rw [he]; exact h
    · rw [h] at he; cases he
    · rw [h] at he; cases he
  | struct hr hs hd _ ih =>
    obtain ⟨t, h1, rfl⟩ := unlabelled_inv hr
    obtain ⟨core', h2, rfl⟩ := ih
    rw [unlabel_typeDef] at hd
    rw [unlabel_of_not_variant (by rw [hd]; intro vs h; cases h)] at hs
    exact ⟨core', .struct h1 hs hd h2, rfl⟩
  | compact hr hs hd _ ih =>
    obtain ⟨t, h1, rfl⟩ := unlabelled_inv hr
    obtain ⟨core', h2, rfl⟩ := ih
    rw [unlabel_typeDef] at hd
    rw [unlabel_of_not_variant (by rw [hd]; intro vs h; cases h)] at hs
    exact ⟨core', .compact h1 hs hd h2, rfl⟩

theorem known_back {id : Nat} (h : Known (unlabelled R) id) : Known R id := by
  obtain ⟨c', core, coreId, k, h⟩ := h
  obtain ⟨core', h, _⟩ := core_back h
  exact ⟨_, _, _, _, h⟩

theorem leaf_yields {x : Dev σ (α × Nat)} {f : Nat → Res (α × Nat)} {Q : α → Bytes → Prop} {pos : Nat} {a : α} {bs : Bytes}
    (hx : Follows External x (f pos)) (hp : Parses b f Q) (hrel : Reliable b) (hq : Q a bs) (hat : At b.bytes pos bs) :
    Yields x (fun r => r = (a, pos + bs.length)) :=
  hx.yields (hp.complete hrel hq hat) rfl

theorem withInfoD_yields {x : Dev σ (PD × Nat)} {d : PD} {q : Nat} (info : List Info) (h : Yields x (fun r => r = (d, q))) :
    Yields (withInfoD info x) (fun r => r = (⟨d, info⟩, q)) :=
  Yields.bind h (fun r hr => by subst hr; exact .ok rfl)

/-- What a byte array is, looked at through its wrappers. -/
theorem enc_array_u8 (hn : LeavesNameless R) {c c' : Bool} {id coreId k : Nat} {core : Typ} (hcore : Core R c id c' core coreId k)
    {len elem : Nat} {et : Typ} (hcd : core.typeDef = .array len elem) (he : R.resolve elem = .ok et)
    (hed : et.typeDef = .primitive .u8) {u : Value} {bs : Bytes} (h : Enc (unlabelled R) c id u bs) :
    bs.length = len ∧ u = .seq (bs.map fun x => .uint .u8 x.toNat) := by
  have hue : unlabel et = et := unlabel_of_not_variant (by rw [hed]; intro vs h; cases h)
  have hpe : et.path = [] := hn.2 _ _ _ he hed
  induction hcore generalizing u bs with
  | @stop c id t hr hs =>
    have hpath : t.path = [] := hn.1 _ _ _ _ hr hcd
    have hu : unlabel t = t := unlabel_of_not_variant (by rw [hcd]; intro vs h; cases h)
    have hr' : (unlabelled R).resolve id = .ok t := by rw [unlabelled_resolve hr, hu]
    have hone : ∀ {v : Value} {x : Bytes}, Enc (unlabelled R) false elem v x → ∃ a : UInt8, x = [a] ∧ v = .uint .u8 a.toNat := by
      intro v x hx
      have her : (unlabelled R).resolve elem = .ok et := by rw [unlabelled_resolve he, hue]
      have hsn : special et.path = none := by rw [hpe]; exact special_nil
      cases hx with
      | primitive h1 h2 h3 h4 =>
        rw [her] at h1; cases h1
        rw [hed] at h3; cases h3
        cases h4 with
        | uint hu hv =>
          cases hu
          rename_i v
          have hv : v < 256 := by simpa [UW.bytes] using hv
          refine ⟨UInt8.ofNat v, ?_, ?_⟩
          · show [UInt8.ofNat (v % 256)] = _
            rw [Nat.mod_eq_of_lt hv]
          · simp [Nat.mod_eq_of_lt hv]
        | int hu _ _ => cases hu
      | fixed h1 h2 _ => rw [her] at h1; cases h1; rw [hsn] at h2; cases h2
      | hash h1 h2 _ => rw [her] at h1; cases h1; rw [hsn] at h2; cases h2
      | era h1 h2 _ => rw [her] at h1; cases h1; rw [hsn] at h2; cases h2
      | per h1 h2 _ => rw [her] at h1; cases h1; rw [hsn] at h2; cases h2
      | signature h1 h2 _ => rw [her] at h1; cases h1; have := h2.1; rw [hsn] at this; cases this
      | pallet h1 h2 _ _ _ => rw [her] at h1; cases h1; have := h2.1; rw [hsn] at this; cases this
      | newtype h1 _ h3 _ => rw [her] at h1; cases h1; rw [hed] at h3; cases h3
      | unit h1 _ h3 => rw [her] at h1; cases h1; rw [hed] at h3; cases h3
      | record h1 _ h3 => rw [her] at h1; cases h1; rw [hed] at h3; cases h3
      | never h1 _ h3 => rw [her] at h1; cases h1; rw [hed] at h3; cases h3
      | variant h1 _ h3 => rw [her] at h1; cases h1; rw [hed] at h3; cases h3
      | sequence h1 _ h3 => rw [her] at h1; cases h1; rw [hed] at h3; cases h3
      | array h1 _ h3 => rw [her] at h1; cases h1; rw [hed] at h3; cases h3
      | tuple h1 _ h3 => rw [her] at h1; cases h1; rw [hed] at h3; cases h3
      | compact h1 _ h3 => rw [her] at h1; cases h1; rw [hed] at h3; cases h3
      | bits h1 _ h3 => rw [her] at h1; cases h1; rw [hed] at h3; cases h3
    have hall : ∀ ps : Parts, (∀ x ∈ ps, Enc (unlabelled R) false elem x.1 x.2) →
        ps.bytes.length = ps.length ∧ ps.values = ps.bytes.map fun x => .uint .u8 x.toNat := by
      intro ps
      induction ps with
      | nil => intro _; exact ⟨rfl, rfl⟩
      | cons q ps ih =>
        intro hg
        obtain ⟨h1, h2⟩ := ih (fun x hx => hg x (by simp [hx]))
        obtain ⟨a, h3, h4⟩ := hone (hg q (by simp))
        have hb : Parts.bytes (q :: ps) = q.2 ++ Parts.bytes ps := by simp [Parts.bytes]
        rw [hb, h3]
        refine ⟨by simp [h1], ?_⟩
        show q.1 :: Parts.values ps = _
        rw [h2, h4]; rfl
    have hsn : special t.path = none := by rw [hpath]; exact special_nil
    cases h with
    | array h1 _ h3 _ h5 =>
      rw [hr'] at h1; cases h1
      rw [hcd] at h3; cases h3
      obtain ⟨h6, h7⟩ := hall _ h5
      exact ⟨h6, by rw [h7]⟩
    | fixed h1 h2 _ => rw [hr'] at h1; cases h1; rw [hsn] at h2; cases h2
    | hash h1 h2 _ => rw [hr'] at h1; cases h1; rw [hsn] at h2; cases h2
    | era h1 h2 _ => rw [hr'] at h1; cases h1; rw [hsn] at h2; cases h2
    | per h1 h2 _ => rw [hr'] at h1; cases h1; rw [hsn] at h2; cases h2
    | perCompact h1 h2 _ => rw [hr'] at h1; cases h1; rw [hsn] at h2; cases h2
    | signature h1 h2 _ => rw [hr'] at h1; cases h1; have := h2.1; rw [hsn] at this; cases this
    | pallet h1 h2 _ _ _ => rw [hr'] at h1; cases h1; have := h2.1; rw [hsn] at this; cases this
    | newtype h1 _ h3 _ => rw [hr'] at h1; cases h1; rw [hcd] at h3; cases h3
    | unit h1 _ h3 => rw [hr'] at h1; cases h1; rw [hcd] at h3; cases h3
    | record h1 _ h3 => rw [hr'] at h1; cases h1; rw [hcd] at h3; cases h3
    | never h1 _ h3 => rw [hr'] at h1; cases h1; rw [hcd] at h3; cases h3
    | variant h1 _ h3 => rw [hr'] at h1; cases h1; rw [hcd] at h3; cases h3
    | sequence h1 _ h3 => rw [hr'] at h1; cases h1; rw [hcd] at h3; cases h3
    | primitive h1 _ h3 => rw [hr'] at h1; cases h1; rw [hcd] at h3; cases h3
    | tuple h1 _ h3 => rw [hr'] at h1; cases h1; rw [hcd] at h3; cases h3
    | compact h1 _ h3 => rw [hr'] at h1; cases h1; rw [hcd] at h3; cases h3
    | bits h1 _ h3 => rw [hr'] at h1; cases h1; rw [hcd] at h3; cases h3
  | @struct c c' id t core f coreId k hr hsn hd _ ih =>
    have hu : unlabel t = t := unlabel_of_not_variant (by rw [hd]; intro vs h; cases h)
    have hr' : (unlabelled R).resolve id = .ok t := by rw [unlabelled_resolve hr, hu]
    cases h with
    | newtype h1 _ h3 h4 => rw [hr'] at h1; cases h1; rw [hd] at h3; cases h3; exact ih hcd h4
    | fixed h1 h2 _ => rw [hr'] at h1; cases h1; rw [hsn] at h2; cases h2
    | hash h1 h2 _ => rw [hr'] at h1; cases h1; rw [hsn] at h2; cases h2
    | era h1 h2 _ => rw [hr'] at h1; cases h1; rw [hsn] at h2; cases h2
    | per h1 h2 _ => rw [hr'] at h1; cases h1; rw [hsn] at h2; cases h2
    | perCompact h1 h2 _ => rw [hr'] at h1; cases h1; rw [hsn] at h2; cases h2
    | signature h1 h2 _ => rw [hr'] at h1; cases h1; have := h2.1; rw [hsn] at this; cases this
    | pallet h1 h2 _ _ _ => rw [hr'] at h1; cases h1; have := h2.1; rw [hsn] at this; cases this
    | unit h1 _ h3 => rw [hr'] at h1; cases h1; rw [hd] at h3; cases h3
    | record h1 _ h3 h4 => rw [hr'] at h1; cases h1; rw [hd] at h3; cases h3; simp at h4
    | never h1 _ h3 => rw [hr'] at h1; cases h1; rw [hd] at h3; cases h3
    | variant h1 _ h3 => rw [hr'] at h1; cases h1; rw [hd] at h3; cases h3
    | sequence h1 _ h3 => rw [hr'] at h1; cases h1; rw [hd] at h3; cases h3
    | array h1 _ h3 => rw [hr'] at h1; cases h1; rw [hd] at h3; cases h3
    | primitive h1 _ h3 => rw [hr'] at h1; cases h1; rw [hd] at h3; cases h3
    | tuple h1 _ h3 => rw [hr'] at h1; cases h1; rw [hd] at h3; cases h3
    | compact h1 _ h3 => rw [hr'] at h1; cases h1; rw [hd] at h3; cases h3
    | bits h1 _ h3 => rw [hr'] at h1; cases h1; rw [hd] at h3; cases h3
  | @compact c' id t core inner coreId k hr hsn hd _ ih =>
    have hu : unlabel t = t := unlabel_of_not_variant (by rw [hd]; intro vs h; cases h)
    have hr' : (unlabelled R).resolve id = .ok t := by rw [unlabelled_resolve hr, hu]
    cases h with
    | compact h1 _ h3 h4 => rw [hr'] at h1; cases h1; rw [hd] at h3; cases h3; exact ih hcd h4
    | fixed h1 h2 _ => rw [hr'] at h1; cases h1; rw [hsn] at h2; cases h2
    | hash h1 h2 _ => rw [hr'] at h1; cases h1; rw [hsn] at h2; cases h2
    | era h1 h2 _ => rw [hr'] at h1; cases h1; rw [hsn] at h2; cases h2
    | per h1 h2 _ => rw [hr'] at h1; cases h1; rw [hsn] at h2; cases h2
    | signature h1 h2 _ => rw [hr'] at h1; cases h1; have := h2.1; rw [hsn] at this; cases this
    | pallet h1 h2 _ _ _ => rw [hr'] at h1; cases h1; have := h2.1; rw [hsn] at this; cases this
    | newtype h1 _ h3 _ => rw [hr'] at h1; cases h1; rw [hd] at h3; cases h3
    | unit h1 _ h3 => rw [hr'] at h1; cases h1; rw [hd] at h3; cases h3
    | record h1 _ h3 h4 => rw [hr'] at h1; cases h1; rw [hd] at h3; cases h3
    | never h1 _ h3 => rw [hr'] at h1; cases h1; rw [hd] at h3; cases h3
    | variant h1 _ h3 => rw [hr'] at h1; cases h1; rw [hd] at h3; cases h3
    | sequence h1 _ h3 => rw [hr'] at h1; cases h1; rw [hd] at h3; cases h3
    | array h1 _ h3 => rw [hr'] at h1; cases h1; rw [hd] at h3; cases h3
    | primitive h1 _ h3 => rw [hr'] at h1; cases h1; rw [hd] at h3; cases h3
    | tuple h1 _ h3 => rw [hr'] at h1; cases h1; rw [hd] at h3; cases h3
    | bits h1 _ h3 => rw [hr'] at h1; cases h1; rw [hd] at h3; cases h3

end Verif
