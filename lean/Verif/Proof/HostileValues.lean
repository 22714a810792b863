import Verif.Proof.Hostile
import Verif.Proof.FlakyTx
/-! Whatever the memory answers, what is shown is a value of the type. -/
namespace Verif
open Spec

variable {σ α β : Type} {D : Device σ} {R : Registry} {b : Buf}

/-- In every state: a result has the property. -/
def Post (x : Dev σ α) (P : α → Prop) : Prop := ∀ s a, (x s).1 = .ok a → P a

theorem Sat.post {x : Dev σ α} {P : α → Prop} (h : Sat x P) : Post x P := by
  intro s a ha
  rcases h s with ⟨a', h1, h2⟩ | ⟨e, h1⟩
  · rw [ha] at h1; cases h1; exact h2
  · rw [ha] at h1; cases h1

theorem Post.of {r : Res α} {P : α → Prop} (h : ∀ a, r = .ok a → P a) : Post (σ := σ) (Dev.of r) P := fun _ a ha => h a ha
theorem Post.ok {a : α} {P : α → Prop} (h : P a) : Post (σ := σ) (Dev.of (.ok a)) P := Post.of (fun _ ha => by cases ha; exact h)
theorem Post.error {e : Fail} {P : α → Prop} : Post (σ := σ) (Dev.of (.error e)) P := Post.of (fun _ ha => by cases ha)
theorem Post.internal {e : RegInternal} {P : α → Prop} : Post (σ := σ) (Dev.of (failInternal e)) P :=
  Post.of (fun _ ha => by cases ha)

theorem Post.bind {x : Dev σ α} {k : α → Dev σ β} {P : α → Prop} {Q : β → Prop} (hx : Post x P)
    (hk : ∀ a, P a → Post (k a) Q) : Post (x >>= k) Q := by
  intro s r h
  have h : (Dev.bind x k s).1 = .ok r := h
  have hp := hx s
  unfold Dev.bind at h
  rcases hxs : x s with ⟨o, s'⟩
  rw [hxs] at h hp
  cases o with
  | error e => cases h
  | ok y => exact hk y (hp y rfl) s' r h

theorem Post.mono {x : Dev σ α} {P Q : α → Prop} (hx : Post x P) (h : ∀ a, P a → Q a) : Post x Q :=
  fun s a ha => h a (hx s a ha)

theorem Post.trivially (x : Dev σ α) : Post x (fun _ => True) := fun _ _ _ => trivial

theorem Post.swallow {x : Dev σ α} {P : α → Prop} (h : Post x P) : Post (swallowD x) (fun o => ∀ a, o = some a → P a) := by
  intro s o ho
  have hs := h s
  unfold swallowD at ho
  rcases hx : x s with ⟨r, s'⟩
  rw [hx] at hs ho
  cases r with
  | ok a => cases ho; rintro a' h'; cases h'; exact hs a rfl
  | error f =>
    cases f with
    | err e => cases ho; rintro a' h'; cases h'
    | panic => cases ho
    | fuel => cases ho

/-- The types are told truly. -/
def TrueTypes (D : Device σ) (R : Registry) : Prop := ∀ id, Post (D.get id) (fun t => R.get id = .ok t)

theorem eraOk_of_decodeAll {x : Bytes} {e : Era} (h : Era.decodeAll x = some e) : EraOk e := by
  match x with
  | [] => cases h
  | [f] =>
    by_cases hf : f = 0
    · subst hf; cases h; trivial
    · simp [Era.decodeAll, Era.decode, hf] at h
  | f :: s :: rest =>
    by_cases hf : f = 0
    · subst hf; cases h
    · cases rest with
      | nil =>
        cases hd : Era.decode [f, s] with
        | none => simp [Era.decodeAll, hd] at h
        | some r =>
          obtain ⟨e', r⟩ := r
          cases r with
          | cons c cs => simp [Era.decodeAll, hd] at h
          | nil =>
            have h' : e' = e := by simpa [Era.decodeAll, hd] using h
            subst h'
            exact ((Era.decode_two hf).1 hd).1
      | cons c cs =>
        exfalso
        revert h
        simp only [Era.decodeAll, Era.decode, if_neg hf]
        intro h
        split at h
        · rename_i heq
          split at heq <;> simp at heq
        · cases h

/-! ### Types -/

theorem huskLoopD_post (T : TrueTypes D R) (n : Nat) : ∀ (ty : Typ) (id : Nat) (info : List Info) (c : Checker),
    Post (huskLoopD D n ty id info c) (fun h => huskLoop R n ty id info c = .ok h) := by
  induction n with
  | zero => intro ty id info c; exact Post.error
  | succ n ih =>
    intro ty id info c
    unfold huskLoopD huskLoop
    dsimp only
    by_cases hh : TypeHinted.fromType ty = .none
    · rw [if_pos hh, if_pos hh]
      cases hd : ty.typeDef with
      | composite fs =>
        match fs with
        | [] => exact Post.ok rfl
        | f :: g :: fs => exact Post.ok rfl
        | [f] =>
          dsimp only
          refine Post.bind (Post.of (P := fun c' => c.checkId f.ty = .ok c') (fun _ h => h)) (fun c' hc => ?_)
          refine Post.bind (T _) (fun t ht => ?_)
          rw [hc, ok_bind, ht, ok_bind]
          exact ih _ _ _ _
      | compact inner =>
        dsimp only
        refine Post.bind (Post.of (P := fun u => c.rejectCompact = .ok u) (fun _ h => h)) (fun u hu => ?_)
        refine Post.bind (Post.of (P := fun c' => ({ c with
          specialtySet := { c.specialtySet with compactAt := some id } } : Checker).checkId inner = .ok c') (fun _ h => h)) (fun c' hc => ?_)
        refine Post.bind (T _) (fun t ht => ?_)
        rw [hu, ok_bind, hc, ok_bind, ht, ok_bind]
        exact ih _ _ _ _
      | _ => exact Post.ok rfl
    · rw [if_neg hh, if_neg hh]
      exact Post.ok rfl

theorem huskTypeD_post (T : TrueTypes D R) (hs : D.size = R.size) (id : Nat) (c : Checker) :
    Post (huskTypeD D id c) (fun h => huskType R id c = .ok h) := by
  unfold huskTypeD huskType
  refine Post.bind (Post.of (P := fun c' => c.checkId id = .ok c') (fun _ h => h)) (fun c' hc => ?_)
  refine Post.bind (T _) (fun t ht => ?_)
  rw [hc, ok_bind, ht, ok_bind, hs]
  exact huskLoopD_post T _ _ _ _ _

theorem signatureIndicatorD_post (T : TrueTypes D R) (hs : D.size = R.size) (f : Field) :
    Post (signatureIndicatorD D f) (fun o => ∀ k, o = some k → signatureIndicator R f = .ok (some k)) := by
  unfold signatureIndicatorD signatureIndicator
  refine Post.bind (huskTypeD_post T hs f.ty Checker.new).swallow (fun o ho => ?_)
  cases o with
  | none => exact Post.ok (fun k h => by cases h)
  | some h =>
    rw [swallow_some.2 (ho h rfl), ok_bind]
    dsimp only
    cases hd : h.ty.typeDef with
    | array len elem =>
      dsimp only
      refine Post.bind (T elem).swallow (fun o ho => ?_)
      cases o with
      | none => exact Post.ok (fun k h => by cases h)
      | some t =>
        rw [swallow_some.2 (ho t rfl), ok_bind]
        dsimp only
        by_cases hp : t.typeDef = .primitive .u8
        · rw [if_pos hp, if_pos hp]
          cases f.typeName with
          | none => exact Post.ok (fun k h => by cases h)
          | some tn =>
            dsimp only
            by_cases h1 : signatureEcdsaIdSet.contains tn
            · rw [if_pos h1, if_pos h1]; exact Post.ok (fun k h => by rw [h])
            · rw [if_neg h1, if_neg h1]
              by_cases h2 : signatureEd25519IdSet.contains tn
              · rw [if_pos h2, if_pos h2]; exact Post.ok (fun k h => by rw [h])
              · rw [if_neg h2, if_neg h2]
                by_cases h3 : signatureSr25519IdSet.contains tn
                · rw [if_pos h3, if_pos h3]; exact Post.ok (fun k h => by rw [h])
                · rw [if_neg h3, if_neg h3]; exact Post.ok (fun k h => by cases h)
        · rw [if_neg hp, if_neg hp]; exact Post.ok (fun k h => by cases h)
    | _ => exact Post.ok (fun k h => by cases h)

theorem pickVariantD_post (vs : List Variant) (pos : Nat) :
    Post (pickVariantD D vs pos) (fun v => ∃ i, vs.find? (fun v => v.index == i) = some v) := by
  refine Post.bind (Post.trivially _) (fun i _ => ?_)
  split
  · exact Post.ok ⟨i, by assumption⟩
  · exact Post.error

/-- Outcomes of recognition, with bytes that were read at some time. -/
inductive RecogSome (R : Registry) (ty : Typ) : TypeChecked → Prop
  | plain : Structural ty.path → RecogSome R ty .none
  | fixed {k : FixedKind} : special ty.path = some (.fixed k) → RecogSome R ty (.fixed k)
  | era : special ty.path = some .era → RecogSome R ty .era
  | h256 : special ty.path = some .hash → RecogSome R ty .h256
  | per {k : PerKind} : special ty.path = some (.per k) → RecogSome R ty (.perThing k)
  | signature {i : UInt8} {k : FixedKind} : IsSignature R ty i k → RecogSome R ty (.fixed k)
  | pallet {i : UInt8} {item : PalletItem} {n : String} {info : Info} {inner : List Variant} :
      IsPallet R ty i item n inner → RecogSome R ty (.palletSpecific n info inner item)

theorem fromTypeD_post (T : TrueTypes D R) (hs : D.size = R.size) (ty : Typ) (pos : Nat) :
    Post (fromTypeD D ty pos) (fun r => RecogSome R ty r.1) := by
  have hplain : (TypeHinted.fromType ty).open = true → ∀ q : Nat, Post (σ := σ) (Dev.of (.ok (TypeChecked.none, q)))
      (fun r => RecogSome R ty r.1) := fun ho _ => Post.ok (.plain (hinted_open.1 ho))
  unfold fromTypeD
  cases hh : TypeHinted.fromType ty with
  | none => exact hplain (by rw [hh]; rfl) _
  | fixed k => exact Post.ok (.fixed (hinted_fixed.1 hh))
  | era => exact Post.ok (.era (hinted_era.1 hh))
  | h256 => exact Post.ok (.h256 (hinted_h256.1 hh))
  | perThing k => exact Post.ok (.per (hinted_per.1 hh))
  | uncheckedExtrinsic => exact hplain (by rw [hh]; rfl) _
  | multiSignature =>
    have hp := hplain (by rw [hh]; rfl)
    dsimp only
    unfold checkMultiSignatureD
    split
    · rename_i vs hd
      refine Post.bind (pickVariantD_post vs pos).swallow (fun o ho => ?_)
      cases o with
      | none => exact hp _
      | some v =>
        obtain ⟨i, hi⟩ := ho v rfl
        dsimp only
        split
        · rename_i f hf
          refine Post.bind (signatureIndicatorD_post T hs f) (fun o ho => ?_)
          cases o with
          | none => exact hp _
          | some k =>
            refine Post.bind (Post.trivially _) (fun q _ => Post.ok (.signature (i := i) ((enumSpecial_fixed hd).1 ?_)))
            unfold enumSpecial
            rw [hh, hi]
            dsimp only
            rw [hf]
            dsimp only
            rw [ho k rfl]
        · exact hp _
    · exact hp _
  | palletSpecific item =>
    have hp := hplain (by rw [hh]; rfl)
    dsimp only
    unfold checkPalletSpecificD
    split
    · rename_i vs hd
      refine Post.bind (pickVariantD_post vs pos).swallow (fun o ho => ?_)
      cases o with
      | none => exact hp _
      | some v =>
        obtain ⟨i, hi⟩ := ho v rfl
        dsimp only
        split
        · rename_i f hf
          refine Post.bind (T f.ty).swallow (fun o ho => ?_)
          cases o with
          | none => exact hp _
          | some t =>
            have ht := ho t rfl
            dsimp only
            cases hh' : TypeHinted.fromType t with
            | palletSpecific item' =>
              dsimp only
              by_cases hi' : item ≠ item'
              · rw [if_pos hi']; exact hp _
              · rw [if_neg hi']
                cases hd' : t.typeDef with
                | variant vs' =>
                  refine Post.bind (Post.trivially _) (fun q _ => Post.ok (.pallet (i := i) ((enumSpecial_pallet hd).1 ⟨Info.fromTy t, ?_⟩)))
                  unfold enumSpecial
                  rw [hh, hi]
                  dsimp only
                  rw [hf]
                  dsimp only
                  rw [ht]
                  dsimp only
                  rw [hh']
                  dsimp only
                  rw [if_neg hi', hd']
                | _ => exact hp _
            | _ => exact hp _
        · exact hp _
    · exact hp _

theorem decodeBitSequenceD_post (T : TrueTypes D R) (order store id pos : Nat) :
    Post (decodeBitSequenceD D order store id pos) (fun r => ∃ k, bitKind R order store id = .ok k ∧
      ∃ bits bs, r.1 = .bitVec k.1 k.2 bits ∧ BitsEnc k.1 k.2 bits bs) := by
  refine Post.bind (P := fun o => findBitOrder R order id = .ok o) ?_ (fun o ho => ?_)
  · refine Post.bind (T order) (fun t ht => Post.of (fun o ho => ?_))
    unfold findBitOrder
    rw [ht, ok_bind]
    unfold bitOrderOf at ho
    cases hd : t.typeDef with
    | composite fs =>
      rw [hd] at ho
      dsimp only at ho ⊢
      cases hi : t.ident with
      | none => rw [hi] at ho; cases ho
      | some x => rw [hi] at ho; exact ho
    | _ => rw [hd] at ho; cases ho
  · refine Post.bind (T store) (fun t ht => ?_)
    cases hd : t.typeDef with
    | primitive p =>
      dsimp only
      cases hst : BitStore.ofPrim p with
      | none => exact Post.internal
      | some st =>
        dsimp only
        refine Post.bind (Post.trivially _) (fun r _ => ?_)
        cases hb : bitVecDecodeAll st o r.1 with
        | none => exact Post.error
        | some bits =>
          refine Post.ok ⟨(st, o), ?_, bits, r.1, rfl, bitVecDecodeAll_iff.1 hb⟩
          unfold bitKind
          rw [ho, ok_bind, ht, ok_bind, hd]
          dsimp only
          rw [hst]
    | _ => exact Post.internal

/-! ### Recursion -/

/-- The value has an encoding as the type. -/
def Possible (R : Registry) (c : Bool) (id : Nat) (v : Value) : Prop := ∃ bs, EncLoose R c id v bs

/-- Recursive calls. -/
structure RecPost (R : Registry) (rec : DecD σ) : Prop where
  symbol : ∀ id pos p, Post (rec (.symbol id) pos p) (fun r => Possible R p.compactAt.isSome id (edValue r.1))
  resolved : ∀ ty id pos p, R.resolve id = .ok ty →
    Post (rec (.resolved ty id) pos p) (fun r => Possible R p.compactAt.isSome id (edValue r.1))

variable {rec : DecD σ}

theorem decodeFieldsLoopD_post (hr : RecPost R rec) (c : Checker) (fs : List Field) :
    ∀ pos, Post (decodeFieldsLoopD rec c fs pos) (fun r => ∃ ps : Parts, fdsValue r.1 = ps.named fs ∧
      PartsOf R c.specialtySet.compactAt.isSome (fs.map (·.ty)) ps) := by
  induction fs with
  | nil => exact fun pos => Post.ok ⟨[], rfl, rfl, by simp⟩
  | cons f fs ih =>
    intro pos
    refine Post.bind (Post.of (P := fun p => Propagated.forField c f = .ok p) (fun a h => h)) (fun p hp => ?_)
    obtain ⟨_, _, _, h5⟩ := forField_ok hp
    refine Post.bind (hr.symbol f.ty pos p) (fun d hd => Post.bind (ih d.2) (fun l hl => Post.ok ?_))
    have h7 : p.compactAt = c.specialtySet.compactAt := by
      unfold Propagated.compactAt; rw [h5, hintFromField_compact]
    rw [h7] at hd
    obtain ⟨x, hx⟩ := hd
    obtain ⟨ps, h8, h9⟩ := hl
    refine ⟨(edValue d.1, x) :: ps, ?_, PartsOf.cons hx h9⟩
    simp only [fdsValue, h8, Parts.named, Parts.values, List.map_cons, List.zip_cons_cons, fdValue]

theorem decodeFieldsD_post (hr : RecPost R rec) (fs : List Field) (pos : Nat) (c : Checker) :
    Post (decodeFieldsD rec fs pos c) (fun r => (1 < fs.length → c.specialtySet.compactAt = none) ∧
      ∃ ps : Parts, fdsValue r.1 = ps.named fs ∧ PartsOf R c.specialtySet.compactAt.isSome (fs.map (·.ty)) ps) := by
  unfold decodeFieldsD
  split
  · refine Post.bind (Post.of (P := fun _ => c.specialtySet.compactAt = none) ?_) (fun _ hc => ?_)
    · intro _ h; exact (rejectCompact_ok).1 h
    · have := decodeFieldsLoopD_post hr c.forgetHint fs pos
      rw [forgetHint_compact] at this
      exact this.mono (fun r h => ⟨fun _ => hc, h⟩)
  · rename_i h
    exact (decodeFieldsLoopD_post hr c fs pos).mono (fun r h' => ⟨fun h'' => absurd h'' h, h'⟩)

theorem decodeElementsLoopD_post (hr : RecPost R rec) {h : HuskedType} {elem : Nat}
    (hres : R.resolve h.id = .ok h.ty)
    (hx : ∀ {v bs}, EncLoose R h.checker.specialtySet.compactAt.isSome h.id v bs → EncLoose R false elem v bs)
    (n : Nat) : ∀ pos, Post (decodeElementsLoopD rec h n pos) (fun r => ∃ ps : Parts, ps.length = n ∧
        pdsValue r.1 = ps.values ∧ ∀ x ∈ ps, EncLoose R false elem x.1 x.2) := by
  induction n with
  | zero => exact fun pos => Post.ok ⟨[], rfl, rfl, by simp⟩
  | succ n ih =>
    intro pos
    refine Post.bind (hr.resolved _ _ pos _ hres) (fun d hd => Post.bind (ih d.2) (fun l hl => Post.ok ?_))
    obtain ⟨x, hx'⟩ := hd
    obtain ⟨ps, rfl, h8, h9⟩ := hl
    obtain ⟨⟨d, i⟩, q⟩ := d
    refine ⟨(pdValue d, x) :: ps, by simp, ?_, ?_⟩
    · simp only [pdsValue, h8, Parts.values, List.map_cons]
    · intro z hz
      rcases List.mem_cons.1 hz with rfl | hz
      · exact hx hx'
      · exact h9 z hz

theorem decodeElementsSetD_post (T : TrueTypes D R) (hs : D.size = R.size) (hr : RecPost R rec) (elem n pos : Nat)
    (p : Propagated) : Post (decodeElementsSetD D rec elem n pos p)
      (fun r => p.compactAt = none ∧ Known R elem ∧ ∃ ps : Parts, ps.length = n ∧
        edValue r.1 = .seq ps.values ∧ ∀ x ∈ ps, EncLoose R false elem x.1 x.2) := by
  refine Post.bind (Post.of (P := fun _ => p.compactAt = none) (fun _ h => propReject_ok.1 h)) (fun _ hc => ?_)
  refine Post.bind (huskTypeD_post T hs elem p.checker) (fun h hh => ?_)
  obtain ⟨h1, k, h2⟩ := huskType_core hh
  have hk : Known R elem := ⟨_, _, _, _, h2⟩
  split
  · rename_i hn
    exact Post.ok ⟨hc, hk, [], hn.symm, rfl, by simp⟩
  · refine Post.bind (decodeElementsLoopD_post hr h1 (fun he => h2.encLoose he) n pos) (fun l hl => ?_)
    obtain ⟨l, q⟩ := l
    obtain ⟨ps, h3, h5, h6⟩ := hl
    have hv := seqData_value h l
    unfold seqData at hv
    dsimp only at h5 ⊢
    cases hw : wrapSequence l with
    | none => rw [hw] at hv; exact Post.ok ⟨hc, hk, ps, h3, by rw [edValue, hv, ← h5], h6⟩
    | some x => rw [hw] at hv; exact Post.ok ⟨hc, hk, ps, h3, by rw [edValue, hv, ← h5], h6⟩

theorem decodeTupleLoopD_post (T : TrueTypes D R) (hr : RecPost R rec) (c : Checker) (ids : List Nat) :
    ∀ pos, Post (decodeTupleLoopD D rec c ids pos) (fun r => ∃ ps : Parts, edsValue r.1 = ps.values ∧
        PartsOf R c.specialtySet.compactAt.isSome ids ps) := by
  induction ids with
  | nil => exact fun pos => Post.ok ⟨[], rfl, rfl, by simp⟩
  | cons id ids ih =>
    intro pos
    refine Post.bind (T id) (fun t ht => ?_)
    refine Post.bind (Post.of (P := fun p => Propagated.forTy c t id = .ok p) (fun a h => h)) (fun p hp => ?_)
    obtain ⟨h1, h2, h3, h5⟩ := forTy_ok hp
    refine Post.bind (hr.resolved t id pos p (get_ok.1 ht)) (fun d hd => Post.bind (ih d.2) (fun l hl => Post.ok ?_))
    have h7 : p.compactAt = c.specialtySet.compactAt := by
      unfold Propagated.compactAt; rw [h5, updateFromPath_compact]
    rw [h7] at hd
    obtain ⟨x, hx⟩ := hd
    obtain ⟨ps, h8, h9⟩ := hl
    refine ⟨(edValue d.1, x) :: ps, ?_, PartsOf.cons hx h9⟩
    simp only [edsValue, h8, Parts.values, List.map_cons]

theorem decodeVariantD_post (hr : RecPost R rec) (vs : List Variant) (pos : Nat) : Post (decodeVariantD D rec vs pos)
    (fun r => ∃ i ps, vs.find? (fun v => v.index == i) = some r.1 ∧ fdsValue r.2.1 = Parts.named r.1.fields ps ∧
      PartsOf R false (r.1.fields.map (·.ty)) ps) := by
  refine Post.bind (pickVariantD_post vs pos) (fun v hv => ?_)
  obtain ⟨i, hi⟩ := hv
  refine Post.bind (Post.trivially _) (fun q _ => ?_)
  refine Post.bind (decodeFieldsD_post hr v.fields q Checker.new) (fun r h => Post.ok ?_)
  obtain ⟨_, ps, h3, h4⟩ := h
  exact ⟨i, ps, hi, h3, h4⟩

theorem withInfoD_post {x : Dev σ (PD × Nat)} {P : PD → Prop} (info : List Info) (h : Post x (fun r => P r.1)) :
    Post (withInfoD info x) (fun r => P r.1.data) :=
  Post.bind h (fun _ hp => Post.ok hp)

theorem decodeTypeDefD_post (H : HostileD D R b) (T : TrueTypes D R) (hr : RecPost R rec) {ty : Typ} {id : Nat} (pos : Nat)
    (p : Propagated) (hres : R.resolve id = .ok ty) (hs : Structural ty.path) :
    Post (decodeTypeDefD D rec ty id pos p) (fun r => Possible R p.compactAt.isSome id (edValue r.1)) := by
  have hno : p.compactAt = none → p.compactAt.isSome = false := fun h => by rw [h]; rfl
  have hrej : ∀ (_ : Unit), Post (σ := σ) (Dev.of p.rejectCompact) (fun _ => p.compactAt = none) :=
    fun _ => Post.of (fun _ h => propReject_ok.1 h)
  unfold decodeTypeDefD
  cases hd : ty.typeDef with
  | composite fields =>
    refine Post.bind (decodeFieldsD_post hr fields pos p.checker) (fun r h => Post.ok ?_)
    obtain ⟨hcc, ps, h3, h1, h4⟩ := h
    simp only [edValue, pdValue, h3]
    have h1 : ps.length = fields.length := by simpa using h1
    match fields, ps, h1 with
    | [], [], _ => exact ⟨_, .unit hres hs hd⟩
    | [f], [x], _ =>
      have h5 := h4 (f.ty, x) (by simp)
      exact ⟨x.2, .newtype hres hs hd h5⟩
    | f :: g :: fs, x :: y :: ps, h1 =>
      have hc : p.compactAt = none := hcc (by simp)
      rw [show p.checker.specialtySet.compactAt = none from hc] at h4
      rw [hno hc]
      exact ⟨_, .record hres hs hd (by simp) h1 h4⟩
  | variant vs =>
    refine Post.bind (hrej ()) (fun _ hc => ?_)
    rw [hno hc]
    split
    · rename_i he
      exact Post.ok ⟨_, .never hres hs (by rw [hd]; cases vs with | nil => rfl | cons _ _ => cases he)⟩
    · refine Post.bind (decodeVariantD_post hr vs pos) (fun r h => Post.ok ?_)
      obtain ⟨i, ps, hv, h3, h1, h4⟩ := h
      simp only [edValue, pdValue, h3]
      exact ⟨_, .variant hres hs hd (find_selects.1 hv) (by simpa using h1) h4⟩
  | sequence elem =>
    refine Post.bind (getCompactD_safe H (compactUInt .u32) pos).post (fun r h => ?_)
    refine (decodeElementsSetD_post T H.size hr elem r.1 r.2 { p with checker := p.checker.dropCycleCheck }).mono ?_
    rintro ⟨d, q'⟩ ⟨hc, hk, ps, h3, h5, h6⟩
    have hc : p.compactAt = none := hc
    rw [hno hc]
    dsimp only at h5 ⊢
    rw [h5]
    exact ⟨_, .sequence hres hs hd hk (by rw [h3]; exact compactUInt_lt h.2.2.choose_spec) h6⟩
  | array len elem =>
    refine (decodeElementsSetD_post T H.size hr elem len pos p).mono ?_
    rintro ⟨d, q'⟩ ⟨hc, hk, ps, h3, h5, h6⟩
    rw [hno hc]
    dsimp only at h5 ⊢
    rw [h5]
    exact ⟨_, .array hres hs (by rw [hd, h3]) hk h6⟩
  | tuple ids =>
    refine Post.bind (Post.of (P := fun p' => (1 < ids.length → p.compactAt = none) ∧ p'.compactAt = p.compactAt) ?_)
      (fun p' hp' => ?_)
    · intro a h
      split at h
      · obtain ⟨_, h1, h2⟩ := bind_ok.1 h
        cases h2
        exact ⟨fun _ => propReject_ok.1 h1, forgetHint_compact _⟩
      · rename_i hn
        cases h
        exact ⟨fun h => absurd h hn, rfl⟩
    · obtain ⟨hc, hca⟩ := hp'
      refine Post.bind (decodeTupleLoopD_post T hr p'.checker ids pos) (fun r h => Post.ok ?_)
      obtain ⟨ps, h3, h1, h4⟩ := h
      simp only [edValue, pdValue, h3]
      rw [show p'.checker.specialtySet.compactAt = p.compactAt from hca] at h4
      exact ⟨_, .tuple hres hs hd (fun hl => hno (hc hl)) h1 h4⟩
  | primitive pr =>
    refine (withInfoD_post p.info (P := fun d => ∃ bs, PrimRel p.checker.specialtySet pr d bs) ((decodePrimitiveD_safe H pr pos _).post.mono (fun r h => h.2))).mono ?_
    rintro ⟨⟨d, i⟩, q⟩ ⟨bs, h⟩
    exact ⟨bs, .primitive hres hs hd h.sound⟩
  | compact inner =>
    refine Post.bind (hrej ()) (fun _ hc => ?_)
    refine Post.bind (Post.of (P := fun c => (compactChecker p.checker id).checkId inner = .ok c)
      (fun a h => h)) (fun c hck => ?_)
    obtain ⟨h1, rfl⟩ := checkId_ok.1 hck
    refine (hr.symbol inner pos _).mono ?_
    rintro r ⟨bs, h⟩
    rw [hno hc]
    exact ⟨bs, .compact hres hs hd h⟩
  | bitSequence order store =>
    refine Post.bind (hrej ()) (fun _ hc => ?_)
    rw [hno hc]
    refine (withInfoD_post p.info (P := fun d => ∃ k, bitKind R order store id = .ok k ∧
      ∃ bits bs, d = .bitVec k.1 k.2 bits ∧ BitsEnc k.1 k.2 bits bs) (decodeBitSequenceD_post T order store id pos)).mono ?_
    rintro ⟨⟨d, i⟩, q⟩ ⟨⟨s, o⟩, hk, bits, bs, h, he⟩
    dsimp only at h
    subst h
    obtain ⟨h1, h2⟩ := bitKind_iff.1 hk
    exact ⟨bs, .bits hres hs hd h1 h2 he⟩

theorem decodeStepD_post (H : HostileD D R b) (T : TrueTypes D R) (hr : RecPost R rec) (ty : Typ) (id pos : Nat)
    (p : Propagated) (hres : R.resolve id = .ok ty) :
    Post (fromTypeD D ty pos >>= fun r => decodeCheckedD D rec r.1 ty id r.2 (p.addInfo (Info.fromTy ty)))
      (fun r => Possible R p.compactAt.isSome id (edValue r.1)) := by
  refine Post.bind (fromTypeD_post T H.size ty pos) (fun r h => ?_)
  have hca := addInfo_compact p (Info.fromTy ty)
  generalize p.addInfo (Info.fromTy ty) = p' at hca
  rw [← hca]
  obtain ⟨sp, q⟩ := r
  dsimp only at h ⊢
  have hno : p'.compactAt = none → p'.compactAt.isSome = false := fun h => by rw [h]; rfl
  have hrej : ∀ (_ : Unit), Post (σ := σ) (Dev.of p'.rejectCompact) (fun _ => p'.compactAt = none) :=
    fun _ => Post.of (fun _ h => propReject_ok.1 h)
  cases h with
  | plain hs => exact decodeTypeDefD_post H T hr q p' hres hs
  | @fixed k hs =>
    refine (withInfoD_post p'.info (P := fun d => p'.compactAt = none ∧ ∃ bs, d = .fixed k bs ∧ bs.length = k.len) ((parseFixedD_safe H k q p'.compactAt).post.mono (fun r h => h.2))).mono ?_
    rintro ⟨⟨d, i⟩, q⟩ ⟨hc, bs, h, hl⟩
    dsimp only at h
    subst h
    rw [hno hc]
    exact ⟨bs, .fixed hres hs hl⟩
  | era hs =>
    refine Post.bind (hrej ()) (fun _ hc => ?_)
    rw [hno hc]
    refine Post.bind (specialCaseEraD_safe H q).post (fun r h => Post.ok ?_)
    obtain ⟨_, x, hx⟩ := h
    exact ⟨_, .era hres hs (eraOk_of_decodeAll hx)⟩
  | h256 hs =>
    refine Post.bind (hrej ()) (fun _ hc => ?_)
    rw [hno hc]
    refine (withInfoD_post p'.info (P := fun d => ∃ bs, d = h256Data p'.checker.specialtySet.hint.hash256 bs ∧ bs.length = 32) ((specialCaseH256D_safe H q _).post.mono (fun r h => h.2))).mono ?_
    rintro ⟨⟨d, i⟩, q⟩ ⟨bs, h, hl⟩
    dsimp only at h
    subst h
    have : ∀ s (b : Bytes), pdValue (h256Data s b) = .hash b := by intro s b; cases s <;> rfl
    simp only [edValue, this]
    exact ⟨bs, .hash hres hs hl⟩
  | @per k hs =>
    refine (withInfoD_post p'.info (P := fun d => ∃ v, d = .perThing k v ∧ v ≤ k.accuracy) ((parsePerD_safe H k q p'.compactAt).post.mono (fun r h => h.2))).mono ?_
    rintro ⟨⟨d, i⟩, q⟩ ⟨v, h, hv⟩
    dsimp only at h
    subst h
    cases hc : p'.compactAt.isSome with
    | false => exact ⟨_, .per hres hs hv⟩
    | true =>
      have := EncLoose.perCompact (R := R) (v := v) hres hs (Nat.lt_of_le_of_lt hv (accuracy_lt k))
      rw [Nat.min_eq_left hv] at this
      exact ⟨_, this⟩
  | @signature i k hs =>
    refine (withInfoD_post p'.info (P := fun d => p'.compactAt = none ∧ ∃ bs, d = .fixed k bs ∧ bs.length = k.len) ((parseFixedD_safe H k q p'.compactAt).post.mono (fun r h => h.2))).mono ?_
    rintro ⟨⟨d, j⟩, q⟩ ⟨hc, bs, h, hl⟩
    dsimp only at h
    subst h
    rw [hno hc]
    exact ⟨_, .signature hres hs hl⟩
  | @pallet i item n info inner hs =>
    refine Post.bind (hrej ()) (fun _ hc => ?_)
    rw [hno hc]
    refine Post.bind (decodeVariantD_post hr inner q) (fun r h => Post.ok ?_)
    obtain ⟨j, ps, hv, h3, h1, h4⟩ := h
    simp only [edValue, pdValue, h3]
    exact ⟨_, .pallet hres hs (find_selects.1 hv) (by simpa using h1) h4⟩

theorem decodeFD_post (H : HostileD D R b) (T : TrueTypes D R) (n : Nat) : RecPost R (decodeFD D n) := by
  induction n with
  | zero => exact ⟨fun _ _ _ => Post.error, fun _ _ _ _ _ => Post.error⟩
  | succ n ih =>
    refine ⟨fun id pos p => ?_, fun ty id pos p hres => ?_⟩
    · refine Post.bind (P := fun t => R.get id = .ok t.1 ∧ t.2 = id) (Post.bind (T id) (fun t ht => Post.ok ⟨ht, rfl⟩))
        (fun t ht => ?_)
      obtain ⟨ty, id'⟩ := t
      obtain ⟨h1, rfl⟩ := ht
      exact decodeStepD_post H T ih ty _ pos p (get_ok.1 h1)
    · exact Post.bind (P := fun t => t = (ty, id)) (Post.ok rfl) (fun t ht => by subst ht; exact decodeStepD_post H T ih ty id pos p hres)

theorem decodeD_post (H : HostileD D R b) (T : TrueTypes D R) (id pos : Nat) (p : Propagated) :
    Post (decodeD D (.symbol id) pos p) (fun r => Possible R p.compactAt.isSome id (edValue r.1)) := by
  unfold decodeD
  exact (decodeFD_post H T _).symbol id pos p

end Verif
