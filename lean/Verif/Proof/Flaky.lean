import Verif.Proof.Device
import Verif.Proof.Sound
/-! Everything decoded on unsteady memory is a value with that encoding; nothing panics. -/
namespace Verif
open Spec

variable {σ α β : Type} {D : Device σ} {R : Registry} {b : Buf}

/-- In every state: a value with the property, or a parser error. -/
def Sat (x : Dev σ α) (P : α → Prop) : Prop :=
  ∀ s, (∃ a, (x s).1 = .ok a ∧ P a) ∨ (∃ e, (x s).1 = .error (.err e))

theorem Sat.of {r : Res α} {P : α → Prop} (hf : Fine r) (hp : ∀ a, r = .ok a → P a) : Sat (σ := σ) (Dev.of r) P := by
  intro s
  rcases hf.cases with ⟨a, rfl⟩ | ⟨e, rfl⟩
  · exact .inl ⟨a, rfl, hp a rfl⟩
  · exact .inr ⟨e, rfl⟩

theorem Sat.ok {a : α} {P : α → Prop} (h : P a) : Sat (σ := σ) (Dev.of (.ok a)) P :=
  fun _ => .inl ⟨a, rfl, h⟩

theorem Sat.bind {x : Dev σ α} {k : α → Dev σ β} {P : α → Prop} {Q : β → Prop} (hx : Sat x P)
    (hk : ∀ a, P a → Sat (k a) Q) : Sat (x >>= k) Q := by
  intro s
  show (∃ a, (Dev.bind x k s).1 = .ok a ∧ Q a) ∨ (∃ e, (Dev.bind x k s).1 = .error (.err e))
  have h := hx s
  unfold Dev.bind
  rcases hxs : x s with ⟨o, s'⟩
  rw [hxs] at h
  rcases h with ⟨a, h, ha⟩ | ⟨e, h⟩
  · dsimp only at h; subst h; exact hk a ha s'
  · dsimp only at h; subst h; exact .inr ⟨e, rfl⟩

theorem Sat.mono {x : Dev σ α} {P Q : α → Prop} (hx : Sat x P) (h : ∀ a, P a → Q a) : Sat x Q := by
  intro s
  rcases hx s with ⟨a, h1, h2⟩ | h1
  · exact .inl ⟨a, h1, h a h2⟩
  · exact .inr h1

theorem external_err (e : Fail) (h : External e) : ∃ pe, e = .err pe := by
  rcases h with rfl | rfl <;> exact ⟨_, rfl⟩

theorem Follows.sat {x : Dev σ α} {r : Res α} {P : α → Prop} (h : Follows External x r) (hf : Fine r)
    (hp : ∀ a, r = .ok a → P a) : Sat x P := by
  intro s
  rcases h s with ⟨e, he, h⟩ | h
  · obtain ⟨pe, rfl⟩ := external_err e he
    exact .inr ⟨pe, h⟩
  · rcases hf.cases with ⟨a, ha⟩ | ⟨e, he⟩
    · exact .inl ⟨a, by rw [h, ha], hp a ha⟩
    · exact .inr ⟨e, by rw [h, he]⟩

/-- Bytes with the property were consumed. -/
def Took (b : Buf) (pos pos' : Nat) (Q : Bytes → Prop) : Prop :=
  ∃ bs, Has b.bytes pos bs ∧ pos' = pos + bs.length ∧ Q bs

theorem Took.mono {pos pos' : Nat} {Q Q' : Bytes → Prop} (h : Took b pos pos' Q) (hq : ∀ bs, Q bs → Q' bs) :
    Took b pos pos' Q' := by
  obtain ⟨bs, h1, h2, h3⟩ := h
  exact ⟨bs, h1, h2, hq bs h3⟩

theorem Took.le {pos pos' : Nat} {Q : Bytes → Prop} (h : Took b pos pos' Q) : pos ≤ pos' := by
  obtain ⟨bs, _, h2, _⟩ := h; omega

theorem Took.nil {pos : Nat} {Q : Bytes → Prop} (h : Q []) : Took b pos pos Q := ⟨[], .inl rfl, rfl, h⟩

theorem Took.append {pos p1 p2 : Nat} {Q Q' Q'' : Bytes → Prop} (h1 : Took b pos p1 Q) (h2 : Took b p1 p2 Q')
    (hq : ∀ x y, Q x → Q' y → Q'' (x ++ y)) : Took b pos p2 Q'' := by
  obtain ⟨x, a1, rfl, a3⟩ := h1
  obtain ⟨y, b1, rfl, b3⟩ := h2
  exact ⟨x ++ y, a1.append b1, by simp; omega, hq x y a3 b3⟩

/-- Recursive calls: below the bound, or for a type that can not be resolved. -/
structure RecGood (R : Registry) (b : Buf) (rec : DecD σ) (m : Nat) : Prop where
  symbol : ∀ id pos p, (measure R b pos p.checker < m ∨ ∃ e, R.get id = .error e) →
    Sat (rec (.symbol id) pos p) (fun r => Took b pos r.2 (EncLoose R p.compactAt.isSome id (edValue r.1)))
  resolved : ∀ ty id pos p, R.resolve id = .ok ty → measure R b pos p.checker < m →
    Sat (rec (.resolved ty id) pos p) (fun r => Took b pos r.2 (EncLoose R p.compactAt.isSome id (edValue r.1)))

/-- Encodings of the parts, field by field. -/
def PartsOf (R : Registry) (c : Bool) (ids : List Nat) (ps : Parts) : Prop :=
  ps.length = ids.length ∧ ∀ x ∈ ids.zip ps, EncLoose R c x.1 x.2.1 x.2.2

theorem PartsOf.cons {c : Bool} {id : Nat} {ids : List Nat} {ps : Parts} {v : Value} {bs : Bytes}
    (h : EncLoose R c id v bs) (hp : PartsOf R c ids ps) : PartsOf R c (id :: ids) ((v, bs) :: ps) := by
  refine ⟨by simp [hp.1], ?_⟩
  intro z hz
  simp only [List.zip_cons_cons, List.mem_cons] at hz
  rcases hz with rfl | hz
  · exact h
  · exact hp.2 z hz

variable {rec : DecD σ} {m : Nat}

theorem decodeFieldsLoopD_sat (hr : RecGood R b rec m) (c : Checker) (fs : List Field) :
    ∀ pos, measure R b pos c < m + 1 → Sat (decodeFieldsLoopD rec c fs pos)
      (fun r => Took b pos r.2 (fun bs => ∃ ps : Parts, bs = ps.bytes ∧ fdsValue r.1 = ps.named fs ∧
        PartsOf R c.specialtySet.compactAt.isSome (fs.map (·.ty)) ps)) := by
  induction fs with
  | nil =>
    intro pos _
    exact Sat.ok (Took.nil ⟨[], rfl, rfl, rfl, by simp⟩)
  | cons f fs ih =>
    intro pos hm
    refine Sat.bind (Sat.of (forField_fine c f) (P := fun p => Propagated.forField c f = .ok p) (fun a h => h))
      (fun p hp => ?_)
    obtain ⟨h1, h2, h3, h5⟩ := forField_ok hp
    refine Sat.bind (hr.symbol f.ty pos p ?_) (fun d hd => ?_)
    · rcases (R.get_fine f.ty).cases with ⟨t, ht⟩ | ⟨e, he⟩
      · left
        have := free_append R (Registry.get_lt ht) h1
        unfold measure at hm ⊢
        rw [h2]; omega
      · exact .inr ⟨_, he⟩
    · obtain ⟨d, p1⟩ := d
      refine Sat.bind (ih p1 ?_) (fun l hl => ?_)
      · have := measure_mono (R := R) (b := b) c hd.le
        dsimp only at this
        omega
      · have h7 : p.compactAt = c.specialtySet.compactAt := by
          unfold Propagated.compactAt; rw [h5, hintFromField_compact]
        rw [h7] at hd
        refine Sat.ok (hd.append hl ?_)
        rintro x y hx ⟨ps, rfl, h8, h9⟩
        refine ⟨(edValue d, x) :: ps, by simp [Parts.bytes], ?_, PartsOf.cons hx h9⟩
        simp only [fdsValue, h8, Parts.named, Parts.values, List.map_cons, List.zip_cons_cons, fdValue]

theorem decodeFieldsD_sat (hr : RecGood R b rec m) (fs : List Field) (pos : Nat) (c : Checker)
    (hm : measure R b pos c < m + 1) : Sat (decodeFieldsD rec fs pos c)
      (fun r => (1 < fs.length → c.specialtySet.compactAt = none) ∧
        Took b pos r.2 (fun bs => ∃ ps : Parts, bs = ps.bytes ∧ fdsValue r.1 = ps.named fs ∧
          PartsOf R c.specialtySet.compactAt.isSome (fs.map (·.ty)) ps)) := by
  unfold decodeFieldsD
  split
  · refine Sat.bind (Sat.of (rejectCompact_fine _) (P := fun _ => c.specialtySet.compactAt = none) ?_) (fun _ hc => ?_)
    · intro _ h; exact (rejectCompact_ok).1 h
    · have := decodeFieldsLoopD_sat hr c.forgetHint fs pos hm
      rw [forgetHint_compact] at this
      exact this.mono (fun r h => ⟨fun _ => hc, h⟩)
  · rename_i h
    exact (decodeFieldsLoopD_sat hr c fs pos hm).mono (fun r h' => ⟨fun h'' => absurd h'' h, h'⟩)

theorem decodeElementsLoopD_sat (hr : RecGood R b rec m) {h : HuskedType} {elem : Nat}
    (hres : R.resolve h.id = .ok h.ty)
    (hx : ∀ {v bs}, EncLoose R h.checker.specialtySet.compactAt.isSome h.id v bs → EncLoose R false elem v bs)
    (n : Nat) : ∀ pos, measure R b pos h.checker < m → Sat (decodeElementsLoopD rec h n pos)
      (fun r => Took b pos r.2 (fun bs => ∃ ps : Parts, ps.length = n ∧ bs = ps.bytes ∧ pdsValue r.1 = ps.values ∧
        ∀ x ∈ ps, EncLoose R false elem x.1 x.2)) := by
  induction n with
  | zero =>
    intro pos _
    exact Sat.ok (Took.nil ⟨[], rfl, rfl, rfl, by simp⟩)
  | succ n ih =>
    intro pos hm
    refine Sat.bind (hr.resolved _ _ pos _ hres hm) (fun d hd => ?_)
    obtain ⟨d, p1⟩ := d
    refine Sat.bind (ih p1 ?_) (fun l hl => ?_)
    · have := measure_mono (R := R) (b := b) h.checker hd.le
      dsimp only at this
      omega
    · refine Sat.ok (hd.append hl ?_)
      rintro x y hx' ⟨ps, rfl, rfl, h8, h9⟩
      refine ⟨(edValue d, x) :: ps, by simp, by simp [Parts.bytes], ?_, ?_⟩
      · simp only [pdsValue, h8, Parts.values, List.map_cons]
        cases d; rfl
      · intro z hz
        rcases List.mem_cons.1 hz with rfl | hz
        · exact hx hx'
        · exact h9 z hz

theorem Spec.Core.encLoose {c c' : Bool} {id coreId k : Nat} {core : Typ}
    (h : Core R c id c' core coreId k) {v : Value} {bs : Bytes} (he : EncLoose R c' coreId v bs) :
    EncLoose R c id v bs := by
  have hst : ∀ {p : List String}, special p = none → Structural p := by
    intro p hp; unfold Structural; rw [hp]; trivial
  induction h with
  | stop _ _ => exact he
  | struct h1 h2 h3 _ ih => exact .newtype h1 (hst h2) h3 (ih he)
  | compact h1 h2 h3 _ ih => exact .compact h1 (hst h2) h3 (ih he)

theorem decodeElementsSetD_sat (H : HonestD External D R b) (hr : RecGood R b rec m) (elem n pos : Nat)
    (p : Propagated) (hm : measure R b pos p.checker < m + 1) : Sat (decodeElementsSetD D rec elem n pos p)
      (fun r => p.compactAt = none ∧ Known R elem ∧ Took b pos r.2 (fun bs => ∃ ps : Parts, ps.length = n ∧
        bs = ps.bytes ∧ edValue r.1 = .seq ps.values ∧ ∀ x ∈ ps, EncLoose R false elem x.1 x.2)) := by
  refine Sat.bind (Sat.of (rejectCompact_fine _) (P := fun _ => p.compactAt = none)
    (fun _ h => propReject_ok.1 h)) (fun _ hc => ?_)
  refine Sat.bind ((huskTypeD_follows H elem p.checker).sat (huskType_fine _ _ _)
    (P := fun h => huskType R elem p.checker = .ok h) (fun _ h => h)) (fun h hh => ?_)
  obtain ⟨h1, k, h2⟩ := huskType_core hh
  have hk : Known R elem := ⟨_, _, _, _, h2⟩
  split
  · rename_i hn
    exact Sat.ok ⟨hc, hk, Took.nil ⟨[], hn.symm, rfl, rfl, by simp⟩⟩
  · have := huskType_free hh
    refine Sat.bind (decodeElementsLoopD_sat hr h1 (fun he => h2.encLoose he) n pos ?_) (fun l hl => ?_)
    · unfold measure at *; omega
    · obtain ⟨l, q⟩ := l
      have key : ∀ pd, pdValue pd = .seq (pdsValue l) →
          p.compactAt = none ∧ Known R elem ∧ Took b pos q (fun bs => ∃ ps : Parts, ps.length = n ∧
            bs = ps.bytes ∧ edValue ⟨pd, p.info⟩ = .seq ps.values ∧ ∀ x ∈ ps, EncLoose R false elem x.1 x.2) := by
        intro pd hpd
        refine ⟨hc, hk, hl.mono ?_⟩
        rintro bs ⟨ps, h3, h4, h5, h6⟩
        exact ⟨ps, h3, h4, by rw [edValue, hpd, ← h5], h6⟩
      have hv := seqData_value h l
      unfold seqData at hv
      dsimp only at hl ⊢
      cases hw : wrapSequence l with
      | none => rw [hw] at hv; exact Sat.ok (key _ hv)
      | some x => rw [hw] at hv; exact Sat.ok (key _ hv)

theorem decodeTupleLoopD_sat (H : HonestD External D R b) (hr : RecGood R b rec m) (c : Checker) (ids : List Nat) :
    ∀ pos, measure R b pos c < m + 1 → Sat (decodeTupleLoopD D rec c ids pos)
      (fun r => Took b pos r.2 (fun bs => ∃ ps : Parts, bs = ps.bytes ∧ edsValue r.1 = ps.values ∧
        PartsOf R c.specialtySet.compactAt.isSome ids ps)) := by
  induction ids with
  | nil =>
    intro pos _
    exact Sat.ok (Took.nil ⟨[], rfl, rfl, rfl, by simp⟩)
  | cons id ids ih =>
    intro pos hm
    refine Sat.bind ((H.get id).sat (R.get_fine id) (P := fun t => R.get id = .ok t) (fun _ h => h)) (fun t ht => ?_)
    refine Sat.bind (Sat.of (forTy_fine c t id) (P := fun p => Propagated.forTy c t id = .ok p) (fun a h => h))
      (fun p hp => ?_)
    obtain ⟨h1, h2, h3, h5⟩ := forTy_ok hp
    refine Sat.bind (hr.resolved t id pos p (get_ok.1 ht) ?_) (fun d hd => ?_)
    · have := free_append R (Registry.get_lt ht) h1
      unfold measure at hm ⊢
      rw [h2]; omega
    · obtain ⟨d, p1⟩ := d
      refine Sat.bind (ih p1 ?_) (fun l hl => ?_)
      · have := measure_mono (R := R) (b := b) c hd.le
        dsimp only at this
        omega
      · have h7 : p.compactAt = c.specialtySet.compactAt := by
          unfold Propagated.compactAt; rw [h5, updateFromPath_compact]
        rw [h7] at hd
        refine Sat.ok (hd.append hl ?_)
        rintro x y hx ⟨ps, rfl, h8, h9⟩
        refine ⟨(edValue d, x) :: ps, by simp [Parts.bytes], ?_, PartsOf.cons hx h9⟩
        simp only [edsValue, h8, Parts.values, List.map_cons]

theorem pickVariantD_sat (H : HonestD External D R b) (vs : List Variant) (pos : Nat) :
    Sat (pickVariantD D vs pos) (fun v => ∃ i, b.readByte pos = .ok i ∧
      vs.find? (fun v => v.index == i) = some v) := by
  refine (pickVariantD_follows H vs pos).sat (pickVariant_fine _ _ _) ?_
  intro v h
  unfold pickVariant at h
  obtain ⟨i, h1, h2⟩ := bind_ok.1 h
  split at h2
  · cases h2; exact ⟨i, h1, by assumption⟩
  · cases h2

theorem took_byte {pos pos' : Nat} {i : UInt8} {Q : Bytes → Prop} (hi : b.readByte pos = .ok i)
    (h : Took b (pos + 1) pos' Q) : Took b pos pos' (fun bs => ∃ rest, bs = i :: rest ∧ Q rest) := by
  have h1 : Took b pos (pos + 1) (fun bs => bs = [i]) := ⟨[i], .inr (readByte_ok hi), rfl, rfl⟩
  exact h1.append h (fun x y hx hy => ⟨y, by rw [hx]; rfl, hy⟩)

theorem decodeVariantD_sat (H : HonestD External D R b) (hr : RecGood R b rec m) (vs : List Variant) (pos : Nat)
    (c : Checker) (hm : measure R b pos c < m + 1) : Sat (decodeVariantD D rec vs pos)
      (fun r => Took b pos r.2.2 (fun bs => ∃ i ps, bs = i :: Parts.bytes ps ∧
        vs.find? (fun v => v.index == i) = some r.1 ∧ fdsValue r.2.1 = ps.named r.1.fields ∧
        PartsOf R false (r.1.fields.map (·.ty)) ps)) := by
  refine Sat.bind (pickVariantD_sat H vs pos) (fun v hv => ?_)
  obtain ⟨i, hi, hf⟩ := hv
  have hle : pos + 1 ≤ b.len := (readByte_ok hi).le
  have hd := measure_drop (R := R) c Checker.new (show pos < pos + 1 by omega) hle
  rw [H.add hle]
  refine Sat.bind (P := fun q => q = pos + 1) (Sat.ok rfl) (fun q hq => ?_)
  subst hq
  refine Sat.bind (decodeFieldsD_sat hr v.fields (pos + 1) Checker.new (by omega)) (fun r h => ?_)
  refine Sat.ok ((took_byte hi h.2).mono ?_)
  rintro bs ⟨rest, rfl, ps, rfl, h3, h4⟩
  exact ⟨i, ps, rfl, hf, h3, h4⟩

theorem withInfoD_sat {x : Dev σ (PD × Nat)} {P : PD × Nat → Prop} (info : List Info) (h : Sat x P) :
    Sat (withInfoD info x) (fun r => P (r.1.data, r.2)) :=
  Sat.bind h (fun _ hp => Sat.ok hp)

/-- The part of a leaf decoder: what it takes on fixed memory. -/
theorem leaf_sat {x : Dev σ (α × Nat)} {f : Nat → Res (α × Nat)} {Q : α → Bytes → Prop} {pos : Nat}
    (hx : Follows External x (f pos)) (hf : Fine (f pos)) (hp : Parses b f Q) :
    Sat x (fun r => Took b pos r.2 (Q r.1)) :=
  hx.sat hf (fun r h => hp.sound (pos := pos) (a := r.1) (pos' := r.2) h)

theorem decodeTypeDefD_sat (H : HonestD External D R b) (hr : RecGood R b rec m) {ty : Typ} {id : Nat} (pos : Nat)
    (p : Propagated) (hres : R.resolve id = .ok ty) (hs : Structural ty.path)
    (hm : measure R b pos p.checker < m + 1) : Sat (decodeTypeDefD D rec ty id pos p)
      (fun r => Took b pos r.2 (EncLoose R p.compactAt.isSome id (edValue r.1))) := by
  have hno : p.compactAt = none → p.compactAt.isSome = false := fun h => by rw [h]; rfl
  have hrej : ∀ (_ : Unit), Sat (σ := σ) (Dev.of p.rejectCompact) (fun _ => p.compactAt = none) :=
    fun _ => Sat.of (rejectCompact_fine _) (fun _ h => propReject_ok.1 h)
  unfold decodeTypeDefD
  cases hd : ty.typeDef with
  | composite fields =>
    refine Sat.bind (decodeFieldsD_sat hr fields pos p.checker hm) (fun r h => ?_)
    refine Sat.ok (h.2.mono ?_)
    rintro bs ⟨ps, rfl, h3, h1, h4⟩
    simp only [edValue, pdValue, h3]
    have h1 : ps.length = fields.length := by simpa using h1
    match fields, ps, h1 with
    | [], [], _ => exact .unit hres hs hd
    | [f], [x], _ =>
      have h5 := h4 _ (by simp; rfl)
      have : Parts.bytes [x] = x.2 := by simp [Parts.bytes]
      rw [this]
      exact .newtype hres hs hd h5
    | f :: g :: fs, x :: y :: ps, h1 =>
      have hc : p.compactAt = none := h.1 (by simp)
      rw [show p.checker.specialtySet.compactAt = none from hc] at h4
      rw [hno hc]
      exact .record hres hs hd (by simp) h1 h4
  | variant vs =>
    refine Sat.bind (hrej ()) (fun _ hc => ?_)
    rw [hno hc]
    split
    · rename_i he
      refine Sat.ok (Took.nil ?_)
      exact .never hres hs (by rw [hd]; cases vs with | nil => rfl | cons _ _ => cases he)
    · refine Sat.bind (decodeVariantD_sat H hr vs pos p.checker hm) (fun r h => ?_)
      refine Sat.ok (h.mono ?_)
      rintro bs ⟨i, ps, rfl, hv, h3, h1, h4⟩
      simp only [edValue, pdValue, h3]
      exact .variant hres hs hd (find_selects.1 hv) (by simpa using h1) h4
  | sequence elem =>
    refine Sat.bind (leaf_sat (getCompactD_follows H (compactUInt .u32) pos) (getCompact_fine _ _ _)
      (Parses.compact (w := .u32))) (fun r h => ?_)
    obtain ⟨n, q⟩ := r
    dsimp only at h ⊢
    have hq : pos < q ∧ q ≤ b.len := by
      obtain ⟨bs, h1, rfl, _, h3⟩ := h
      have h4 := compactEncode_length_pos n
      rcases h1 with rfl | h1
      · rw [← h3] at h4; simp at h4
      · have := h1.le; subst h3; simp only [Buf.len]; omega
    have hdrop := measure_drop (R := R) p.checker p.checker.dropCycleCheck hq.1 hq.2
    refine (decodeElementsSetD_sat H hr elem n q { p with checker := p.checker.dropCycleCheck }
      (by dsimp only; omega)).mono ?_
    rintro ⟨d, q'⟩ ⟨hc, hk, ht⟩
    have hc : p.compactAt = none := hc
    rw [hno hc]
    refine h.append ht ?_
    rintro x y ⟨h1, rfl⟩ ⟨ps, h3, rfl, h5, h6⟩
    dsimp only at h5 ⊢
    rw [h5, ← h3]
    exact .sequence hres hs hd hk (by rw [h3]; exact h1) h6
  | array len elem =>
    refine (decodeElementsSetD_sat H hr elem len pos p hm).mono ?_
    rintro ⟨d, q'⟩ ⟨hc, hk, ht⟩
    rw [hno hc]
    refine ht.mono ?_
    rintro x ⟨ps, h3, rfl, h5, h6⟩
    dsimp only at h5 ⊢
    rw [h5]
    exact .array hres hs (by rw [hd, h3]) hk h6
  | tuple ids =>
    have hfine : Fine (if 1 < ids.length then (p.rejectCompact >>= fun _ => .ok p.forgetHint) else .ok p) := by
      split
      · exact Fine.bind (rejectCompact_fine _) (fun _ _ => Fine.ok _)
      · exact Fine.ok _
    refine Sat.bind (Sat.of hfine (P := fun p' => (1 < ids.length → p.compactAt = none) ∧
      p'.checker.cycleCheck = p.checker.cycleCheck ∧ p'.compactAt = p.compactAt ∧ p'.info = p.info) ?_)
      (fun p' hp' => ?_)
    · intro a h
      split at h
      · obtain ⟨_, h1, h2⟩ := bind_ok.1 h
        cases h2
        exact ⟨fun _ => propReject_ok.1 h1, rfl, forgetHint_compact _, rfl⟩
      · rename_i hn
        cases h
        exact ⟨fun h => absurd h hn, rfl, rfl, rfl⟩
    · obtain ⟨hc, hcy, hca, _⟩ := hp'
      refine Sat.bind (decodeTupleLoopD_sat H hr p'.checker ids pos ?_) (fun r h => ?_)
      · unfold measure at *; rw [hcy]; exact hm
      · refine Sat.ok (h.mono ?_)
        rintro bs ⟨ps, rfl, h3, h1, h4⟩
        simp only [edValue, pdValue, h3]
        rw [show p'.checker.specialtySet.compactAt = p.compactAt from hca] at h4
        exact .tuple hres hs hd (fun hl => hno (hc hl)) h1 h4
  | primitive pr =>
    refine (withInfoD_sat p.info (leaf_sat (decodePrimitiveD_follows H pr pos _) (decodePrimitive_fine _ _ _ _)
      (decodePrimitive_parses pr p.checker.specialtySet))).mono ?_
    rintro ⟨⟨d, i⟩, q⟩ h
    exact h.mono (fun bs hp => .primitive hres hs hd hp.sound)
  | compact inner =>
    refine Sat.bind (hrej ()) (fun _ hc => ?_)
    refine Sat.bind (Sat.of (checkId_fine _ _) (P := fun c => (compactChecker p.checker id).checkId inner = .ok c)
      (fun a h => h)) (fun c hck => ?_)
    obtain ⟨h1, rfl⟩ := checkId_ok.1 hck
    refine (hr.symbol inner pos _ ?_).mono ?_
    · rcases (R.get_fine inner).cases with ⟨t, ht⟩ | ⟨e, he⟩
      · left
        have := free_append R (Registry.get_lt ht) h1
        unfold measure at hm ⊢
        dsimp only [compactChecker] at *
        omega
      · exact .inr ⟨_, he⟩
    · intro r h
      rw [hno hc]
      exact h.mono (fun bs he => .compact hres hs hd he)
  | bitSequence order store =>
    refine Sat.bind (hrej ()) (fun _ hc => ?_)
    rw [hno hc]
    refine (withInfoD_sat p.info (leaf_sat (decodeBitSequenceD_follows H order store id pos)
      (decodeBitSequence_fine _ _ _ _ _ _) (decodeBitSequence_parses R order store id))).mono ?_
    rintro ⟨⟨d, i⟩, q⟩ h
    refine h.mono ?_
    rintro bs ⟨⟨s, o⟩, hk, l, rfl, he⟩
    obtain ⟨h1, h2⟩ := bitKind_iff.1 hk
    exact .bits hres hs hd h1 h2 he

/-- Outcomes of recognition. -/
inductive Recog (R : Registry) (b : Buf) (ty : Typ) (pos : Nat) : TypeChecked × Nat → Prop
  | plain : Structural ty.path → Recog R b ty pos (.none, pos)
  | fixed {k : FixedKind} : special ty.path = some (.fixed k) → Recog R b ty pos (.fixed k, pos)
  | era : special ty.path = some .era → Recog R b ty pos (.era, pos)
  | h256 : special ty.path = some .hash → Recog R b ty pos (.h256, pos)
  | per {k : PerKind} : special ty.path = some (.per k) → Recog R b ty pos (.perThing k, pos)
  | signature {i : UInt8} {k : FixedKind} : b.readByte pos = .ok i → IsSignature R ty i k →
      Recog R b ty pos (.fixed k, pos + 1)
  | pallet {i : UInt8} {item : PalletItem} {n : String} {info : Info} {inner : List Variant} :
      b.readByte pos = .ok i → IsPallet R ty i item n inner →
      Recog R b ty pos (.palletSpecific n info inner item, pos + 1)

theorem fromType_recog (ty : Typ) (pos : Nat) : ∃ r, TypeChecked.fromType R ty b pos = .ok r ∧ Recog R b ty pos r := by
  by_cases ho : (TypeHinted.fromType ty).open = true
  · have hs := hinted_open.1 ho
    by_cases hv : ∃ vs, ty.typeDef = .variant vs
    · obtain ⟨vs, hd⟩ := hv
      rcases (readByte_fine b pos).cases with ⟨i, hi⟩ | ⟨e, he⟩
      · refine ⟨_, fromType_enum_ok ho hd hi, ?_⟩
        rcases enumSpecial_cases (R := R) (TypeHinted.fromType ty) vs i with h | ⟨k, hh, h⟩ | ⟨item, n, inf, vs', hh, h⟩
        · rw [h]; exact .plain hs
        · rw [h]; exact .signature hi ((enumSpecial_fixed hd).1 h)
        · rw [h]; exact .pallet hi ((enumSpecial_pallet hd).1 ⟨_, h⟩)
      · exact ⟨_, fromType_enum_err ho hd he, .plain hs⟩
    · exact ⟨_, fromType_nonEnum ho (fun vs h => hv ⟨vs, h⟩), .plain hs⟩
  · unfold TypeChecked.fromType
    cases hh : TypeHinted.fromType ty with
    | fixed k => exact ⟨_, rfl, .fixed (hinted_fixed.1 hh)⟩
    | era => exact ⟨_, rfl, .era (hinted_era.1 hh)⟩
    | h256 => exact ⟨_, rfl, .h256 (hinted_h256.1 hh)⟩
    | perThing k => exact ⟨_, rfl, .per (hinted_per.1 hh)⟩
    | _ => rw [hh] at ho; exact absurd rfl ho

theorem fromTypeD_sat (H : HonestD External D R b) (ty : Typ) (pos : Nat) :
    Sat (fromTypeD D ty pos) (Recog R b ty pos) := by
  intro s
  left
  rcases fromTypeD_blurs external_err H ty pos s with h | ⟨_, ho, h⟩
  · obtain ⟨r, h1, h2⟩ := fromType_recog (R := R) (b := b) ty pos
    exact ⟨r, by rw [h, h1], h2⟩
  · exact ⟨_, h, .plain (hinted_open.1 ho)⟩

theorem decodeStepD_sat (H : HonestD External D R b) (hr : RecGood R b rec m) (ty : Typ) (id pos : Nat)
    (p : Propagated) (hres : R.resolve id = .ok ty) (hm : measure R b pos p.checker < m + 1) :
    Sat (fromTypeD D ty pos >>= fun r => decodeCheckedD D rec r.1 ty id r.2 (p.addInfo (Info.fromTy ty)))
      (fun r => Took b pos r.2 (EncLoose R p.compactAt.isSome id (edValue r.1))) := by
  refine Sat.bind (fromTypeD_sat H ty pos) (fun r h => ?_)
  have hca := addInfo_compact p (Info.fromTy ty)
  have hck := addInfo_checker p (Info.fromTy ty)
  generalize hp' : p.addInfo (Info.fromTy ty) = p' at hca hck
  rw [← hca]
  have hno : p'.compactAt = none → p'.compactAt.isSome = false := fun h => by rw [h]; rfl
  have hrej : ∀ (_ : Unit), Sat (σ := σ) (Dev.of p'.rejectCompact) (fun _ => p'.compactAt = none) :=
    fun _ => Sat.of (rejectCompact_fine _) (fun _ h => propReject_ok.1 h)
  rw [← hck] at hm
  cases h with
  | plain hs => exact decodeTypeDefD_sat H hr pos p' hres hs hm
  | @fixed k hs =>
    refine (withInfoD_sat p'.info (leaf_sat (parseFixedD_follows H k pos p'.compactAt) (parseFixed_fine _ _ _ _)
      (parseFixed_parses k p'.compactAt))).mono ?_
    rintro ⟨⟨d, i⟩, q⟩ h
    refine h.mono ?_
    rintro bs ⟨hc, rfl, hl⟩
    rw [hno hc]
    exact .fixed hres hs hl
  | era hs =>
    refine Sat.bind (hrej ()) (fun _ hc => ?_)
    rw [hno hc]
    refine Sat.bind (leaf_sat (specialCaseEraD_follows H pos) (specialCaseEra_fine _ _) specialCaseEra_parses)
      (fun r h => ?_)
    refine Sat.ok (h.mono ?_)
    rintro bs ⟨h2, rfl⟩
    exact .era hres hs h2
  | h256 hs =>
    refine Sat.bind (hrej ()) (fun _ hc => ?_)
    rw [hno hc]
    refine (withInfoD_sat p'.info (leaf_sat (specialCaseH256D_follows H pos _) (specialCaseH256_fine _ _ _)
      (specialCaseH256_parses _))).mono ?_
    rintro ⟨⟨d, i⟩, q⟩ h
    refine h.mono ?_
    rintro bs ⟨rfl, h2⟩
    have : ∀ s (b : Bytes), pdValue (h256Data s b) = .hash b := by intro s b; cases s <;> rfl
    simp only [edValue, this]
    exact .hash hres hs h2
  | @per k hs =>
    refine (withInfoD_sat p'.info (leaf_sat (parsePerD_follows H k pos p'.compactAt) (parsePer_fine _ _ _ _)
      (parsePer_parses k p'.compactAt))).mono ?_
    rintro ⟨⟨d, i⟩, q⟩ h
    refine h.mono ?_
    clear h
    rintro bs ⟨v, rfl, h⟩
    split at h
    · rename_i hc
      obtain ⟨v', h1, rfl, rfl⟩ := h
      rw [hc]
      exact .perCompact hres hs h1
    · rename_i hc
      obtain ⟨h1, rfl⟩ := h
      rw [hno (by simpa using hc)]
      exact .per hres hs h1
  | @signature i k hi hs =>
    refine (withInfoD_sat p'.info (leaf_sat (parseFixedD_follows H k (pos + 1) p'.compactAt)
      (parseFixed_fine _ _ _ _) (parseFixed_parses k p'.compactAt))).mono ?_
    rintro ⟨⟨d, j⟩, q⟩ h
    refine (took_byte hi h).mono ?_
    rintro bs ⟨rest, rfl, hc, rfl, hl⟩
    rw [hno hc]
    exact .signature hres hs hl
  | @pallet i item n info inner hi hs =>
    refine Sat.bind (hrej ()) (fun _ hc => ?_)
    rw [hno hc]
    have hmono := measure_mono (R := R) (b := b) p'.checker (show pos ≤ pos + 1 by omega)
    refine Sat.bind (decodeVariantD_sat H hr inner (pos + 1) p'.checker (by omega)) (fun r h => ?_)
    refine Sat.ok ((took_byte hi h).mono ?_)
    rintro bs ⟨rest, rfl, j, ps, rfl, hv, h3, h1, h4⟩
    simp only [edValue, pdValue, h3]
    exact .pallet hres hs (find_selects.1 hv) (by simpa using h1) h4

theorem decodeFD_good (H : HonestD External D R b) (n : Nat) : RecGood R b (decodeFD D (n + 1)) n := by
  have hsym : ∀ (rec : DecD σ) id pos p m, RecGood R b rec m →
      (measure R b pos p.checker < m + 1 ∨ ∃ e, R.get id = .error e) →
      Sat (decodeStepD D rec (.symbol id) pos p)
        (fun r => Took b pos r.2 (EncLoose R p.compactAt.isSome id (edValue r.1))) := by
    intro rec id pos p m hr hm
    refine Sat.bind ((resolveD_follows H (.symbol id)).sat
      (Fine.bind (R.get_fine _) (fun _ _ => Fine.ok _)) (P := fun t => R.get id = .ok t.1 ∧ t.2 = id) ?_) (fun t ht => ?_)
    · intro a h
      obtain ⟨t, h1, h2⟩ := bind_ok.1 h
      cases h2; exact ⟨h1, rfl⟩
    · obtain ⟨ty, id'⟩ := t
      obtain ⟨h1, rfl⟩ := ht
      rcases hm with hm | ⟨e, he⟩
      · exact decodeStepD_sat H hr ty _ pos p (get_ok.1 h1) hm
      · rw [h1] at he; cases he
  have hzero : ∀ id pos p, (∃ e, R.get id = .error e) →
      Sat (decodeStepD D (decodeFD D 0) (.symbol id) pos p)
        (fun r => Took b pos r.2 (EncLoose R p.compactAt.isSome id (edValue r.1))) := by
    intro id pos p ⟨e, he⟩
    refine Sat.bind ((resolveD_follows H (.symbol id)).sat
      (Fine.bind (R.get_fine _) (fun _ _ => Fine.ok _)) (P := fun t => False) ?_) (fun t ht => ht.elim)
    intro a h
    obtain ⟨t, h1, h2⟩ := bind_ok.1 h
    rw [he] at h1; cases h1
  induction n with
  | zero =>
    refine ⟨fun id pos p h => ?_, fun ty id pos p _ h => absurd h (Nat.not_lt_zero _)⟩
    rcases h with h | h
    · exact absurd h (Nat.not_lt_zero _)
    · exact hzero id pos p h
  | succ n ih =>
    exact ⟨fun id pos p h => hsym _ id pos p n ih h,
      fun ty id pos p hres h => Sat.bind (P := fun t => t = (ty, id)) (Sat.ok rfl)
        (fun t ht => by subst ht; exact decodeStepD_sat H ih ty id pos p hres h)⟩

theorem decodeD_symbol (H : HonestD External D R b) (id pos : Nat) (p : Propagated) :
    Sat (decodeD D (.symbol id) pos p)
      (fun r => Took b pos r.2 (EncLoose R p.compactAt.isSome id (edValue r.1))) := by
  unfold decodeD
  rw [H.len, H.size]
  exact (decodeFD_good H (((b.len - pos) * (R.size + 1) + R.size) + 1)).symbol id pos p
    (.inl (by have := measure_le (R := R) (b := b) pos p.checker; unfold depthBound at this; omega))

end Verif
