import Verif.Proof.Cost
/-! Cost of the memory accesses: types. -/
namespace Verif
open Spec

variable {σ α β : Type} {D : Device σ} {R : Registry} {b : Buf} {c : σ → Nat}

/-! ### More nested calls do not change an outcome -/

/-- The outcome is the same, unless the first one runs out of nested calls. -/
def Below (x y : Dev σ α) : Prop := ∀ s, (x s).1 = .error .fuel ∨ x s = y s

theorem Below.refl (x : Dev σ α) : Below x x := fun _ => .inr rfl

theorem Below.bind {x y : Dev σ α} {k l : α → Dev σ β} (hx : Below x y) (hk : ∀ a, Below (k a) (l a)) :
    Below (x >>= k) (y >>= l) := by
  intro s
  show (Dev.bind x k s).1 = _ ∨ Dev.bind x k s = Dev.bind y l s
  unfold Dev.bind
  rcases hx s with h | h
  · left
    rcases hxs : x s with ⟨o, s'⟩
    rw [hxs] at h
    dsimp only at h
    subst h
    rfl
  · rw [← h]
    rcases x s with ⟨o, s'⟩
    cases o with
    | error e => exact .inr rfl
    | ok a => exact hk a s'

theorem Below.trans {x y z : Dev σ α} (h1 : Below x y) (h2 : Below y z) : Below x z := by
  intro s
  rcases h1 s with h | h
  · exact .inl h
  · rcases h2 s with g | g
    · rw [← h] at g; exact .inl g
    · exact .inr (h.trans g)

/-- Recursive calls with more room. -/
def RecBelow (r r' : DecD σ) : Prop := ∀ t pos p, Below (r t pos p) (r' t pos p)

variable {r r' : DecD σ}

theorem decodeFieldsLoopD_below (h : RecBelow r r') (ch : Checker) : ∀ (fs : List Field) pos,
    Below (decodeFieldsLoopD r ch fs pos) (decodeFieldsLoopD r' ch fs pos)
  | [], _ => .refl _
  | _ :: fs, _ => (Below.refl _).bind fun _ => (h _ _ _).bind fun d => (decodeFieldsLoopD_below h ch fs d.2).bind fun _ => .refl _

theorem decodeFieldsD_below (h : RecBelow r r') (fs : List Field) (pos : Nat) (ch : Checker) :
    Below (decodeFieldsD r fs pos ch) (decodeFieldsD r' fs pos ch) := by
  unfold decodeFieldsD
  split
  · exact (Below.refl _).bind fun _ => decodeFieldsLoopD_below h _ _ _
  · exact decodeFieldsLoopD_below h _ _ _

theorem decodeElementsLoopD_below (h : RecBelow r r') (t : HuskedType) : ∀ n pos,
    Below (decodeElementsLoopD r t n pos) (decodeElementsLoopD r' t n pos)
  | 0, _ => .refl _
  | n + 1, _ => (h _ _ _).bind fun d => (decodeElementsLoopD_below h t n d.2).bind fun _ => .refl _

theorem decodeElementsSetD_below (h : RecBelow r r') (elem n pos : Nat) (p : Propagated) :
    Below (decodeElementsSetD D r elem n pos p) (decodeElementsSetD D r' elem n pos p) := by
  refine (Below.refl _).bind fun _ => (Below.refl _).bind fun t => ?_
  split
  · exact .refl _
  · exact (decodeElementsLoopD_below h t n pos).bind fun _ => .refl _

theorem decodeVariantD_below (h : RecBelow r r') (vs : List Variant) (pos : Nat) :
    Below (decodeVariantD D r vs pos) (decodeVariantD D r' vs pos) :=
  (Below.refl _).bind fun _ => (Below.refl _).bind fun _ => (decodeFieldsD_below h _ _ _).bind fun _ => .refl _

theorem decodeTupleLoopD_below (h : RecBelow r r') (ch : Checker) : ∀ (ids : List Nat) pos,
    Below (decodeTupleLoopD D r ch ids pos) (decodeTupleLoopD D r' ch ids pos)
  | [], _ => .refl _
  | _ :: ids, _ => (Below.refl _).bind fun _ => (Below.refl _).bind fun _ => (h _ _ _).bind fun d =>
    (decodeTupleLoopD_below h ch ids d.2).bind fun _ => .refl _

theorem decodeStepD_below (h : RecBelow r r') : RecBelow (decodeStepD D r) (decodeStepD D r') := by
  intro t pos p
  refine (Below.refl _).bind fun t => (Below.refl _).bind fun rec => ?_
  unfold decodeCheckedD
  split
  · unfold decodeTypeDefD
    split
    · exact (decodeFieldsD_below h _ _ _).bind fun _ => .refl _
    · refine (Below.refl _).bind fun _ => ?_
      split
      · exact .refl _
      · exact (decodeVariantD_below h _ _).bind fun _ => .refl _
    · exact (Below.refl _).bind fun _ => decodeElementsSetD_below h _ _ _ _
    · exact decodeElementsSetD_below h _ _ _ _
    · exact (Below.refl _).bind fun _ => (decodeTupleLoopD_below h _ _ _).bind fun _ => .refl _
    · exact .refl _
    · exact (Below.refl _).bind fun _ => (Below.refl _).bind fun _ => h _ _ _
    · exact .refl _
  · exact .refl _
  · exact .refl _
  · exact .refl _
  · exact (Below.refl _).bind fun _ => (decodeVariantD_below h _ _).bind fun _ => .refl _
  · exact .refl _

theorem decodeFD_succ (n : Nat) : RecBelow (decodeFD D n) (decodeFD D (n + 1)) := by
  induction n with
  | zero => exact fun _ _ _ _ => .inl rfl
  | succ n ih => exact decodeStepD_below ih

theorem decodeFD_below {n m : Nat} (h : n ≤ m) : RecBelow (decodeFD D n) (decodeFD D m) := by
  induction h with
  | refl => exact fun _ _ _ => .refl _
  | step _ ih => exact fun t pos p => (ih t pos p).trans (decodeFD_succ _ t pos p)

theorem Below.outs {x y : Dev σ α} (h : Below x y) {a : α} (ha : Outs x a) : Outs y a := by
  obtain ⟨s, ha⟩ := ha
  rcases h s with h | h
  · rw [ha] at h; cases h
  · exact ⟨s, by rw [← h, ha]⟩

/-- What the recursive calls yield is a value with that encoding. -/
def RecOk (R : Registry) (b : Buf) (rec : DecD σ) : Prop := ∀ ty id pos p a, R.resolve id = .ok ty →
  Outs (rec (.resolved ty id) pos p) a → Took b pos a.2 (EncLoose R p.compactAt.isSome id (edValue a.1))

theorem decodeFD_ok (H : HonestD External D R b) (n : Nat) : RecOk R b (decodeFD D n) := by
  intro ty id pos p a hr ha
  have hle : n ≤ max n (measure R b pos p.checker + 1) + 1 := by omega
  refine ((decodeFD_good H (max n (measure R b pos p.checker + 1))).resolved ty id pos p hr (by omega)).outs
    ((decodeFD_below hle _ _ _).outs ha)

/-! ### Nothing but zero-sized parts in an empty encoding -/

theorem parts_empty {ps : Parts} (h : ps.bytes = []) {x : Value × Bytes} (hx : x ∈ ps) : x.2 = [] := by
  unfold Parts.bytes at h
  exact List.flatMap_eq_nil_iff.1 h x hx

theorem Spec.EncLoose.empty {k : Bool} {id : Nat} {v : Value} {bs : Bytes} (h : EncLoose R k id v bs) :
    bs = [] → Enc R k id v [] := by
  induction h with
  | @fixed id t k bs h1 h2 h3 => rintro rfl; exact .fixed h1 h2 h3
  | hash h1 h2 h3 => rintro rfl; exact .hash h1 h2 h3
  | @era id t e h1 h2 h3 => intro h; have := Enc.era h1 h2 h3; rwa [h] at this
  | per h1 h2 h3 => intro h; have := Enc.per h1 h2 h3; rwa [h] at this
  | perCompact h1 h2 h3 => intro h; have := Enc.perCompact h1 h2 h3; rwa [h] at this
  | newtype h1 h2 h3 _ ih => intro h; exact .newtype h1 h2 h3 (ih h)
  | unit h1 h2 h3 => intro _; exact .unit h1 h2 h3
  | @record id t fields ps h1 h2 h3 h4 h5 _ ih =>
    intro h
    have := Enc.record h1 h2 h3 h4 h5 (fun x hx => by
      have h6 := parts_empty h (List.of_mem_zip hx).2
      have h7 := ih x hx h6
      rwa [← h6] at h7)
    rwa [h] at this
  | never h1 h2 h3 => intro _; exact .never h1 h2 h3
  | variant => intro h; cases h
  | signature => intro h; cases h
  | pallet => intro h; cases h
  | @sequence id t elem ps => intro h; exact absurd h (by
      intro e
      have := compactEncode_length_pos ps.length
      rw [(List.append_eq_nil_iff.1 e).1] at this
      simp at this)
  | array h1 h2 h3 h4 _ ih =>
    intro h
    have := Enc.array h1 h2 h3 h4 (fun x hx => by
      have h6 := parts_empty h hx
      have h7 := ih x hx h6
      rwa [← h6] at h7)
    rwa [h] at this
  | tuple h1 h2 h3 h4 h5 _ ih =>
    intro h
    have := Enc.tuple h1 h2 h3 h4 h5 (fun x hx => by
      have h6 := parts_empty h (List.of_mem_zip hx).2
      have h7 := ih x hx h6
      rwa [← h6] at h7)
    rwa [h] at this
  | primitive h1 h2 h3 h4 => rintro rfl; exact .primitive h1 h2 h3 h4
  | compact h1 h2 h3 _ ih => intro h; exact .compact h1 h2 h3 (ih h)
  | bits h1 h2 h3 h4 h5 h6 => rintro rfl; exact .bits h1 h2 h3 h4 h5 h6

/-! ### Looking through types -/

variable {sz : Nat → Nat} {K : Nat}

theorem core_toll (T : Toll R sz K) {k k' : Bool} {id cid n : Nat} {t : Typ} (h : Core R k id k' t cid n) :
    sz cid ≤ sz id := by
  induction h with
  | stop _ _ => exact Nat.le_refl _
  | struct h1 _ h3 _ ih =>
    have := T.struct h1 h3
    simp only [fieldsCost, List.map_cons, List.map_nil, List.sum_cons, List.sum_nil] at this
    omega
  | compact h1 _ h3 _ ih =>
    have := T.compact h1 h3
    omega

theorem huskLoop_spends (T : Toll R sz K) (M : Metered D c) (H : HonestD External D R b) (n : Nat) :
    ∀ (ty : Typ) (id : Nat) (info : List Info) (ch : Checker), R.resolve id = .ok ty →
      Spends c (huskLoopD D n ty id info ch) (sz id - ownCost) := by
  induction n with
  | zero => intro ty id info ch _; exact .of _ _
  | succ n ih =>
    intro ty id info ch hr
    have go : ∀ (i : Nat) (info : List Info) (ch : Checker), ownCost + sz i ≤ sz id →
        Spends c (D.get i >>= fun ty => huskLoopD D n ty i info ch) (sz id - ownCost) := by
      intro i info ch h
      have h1 := T.lookup i
      refine (Spends.bind (m := sz i - ownCost) (get_spends M i) (fun t ht => ih t i info ch (get_ok.1 ((H.get i).outs ht)))).mono ?_
      unfold ownCost at *
      omega
    unfold huskLoopD
    dsimp only
    generalize (if (Info.fromTy ty).isEmpty = true then info else info ++ [Info.fromTy ty]) = info'
    split
    · split
      · rename_i f hd
        have h1 := T.struct hr hd
        simp only [fieldsCost, List.map_cons, List.map_nil, List.sum_cons, List.sum_nil] at h1
        exact Spends.free (fun ch => go f.ty _ _ (by omega))
      · rename_i inner hd
        have h1 := T.compact hr hd
        exact Spends.free (fun _ => Spends.free (fun ch => go inner _ _ h1))
      · exact .of _ _
    · exact .of _ _

theorem husk_spends (T : Toll R sz K) (M : Metered D c) (H : HonestD External D R b) (id : Nat) (ch : Checker) :
    Spends c (huskTypeD D id ch) (sz id) := by
  refine Spends.free (fun ch' => ?_)
  have h1 := T.lookup id
  refine (Spends.bind (m := sz id - ownCost) (get_spends M id) (fun t ht =>
    huskLoop_spends T M H _ t id _ _ (get_ok.1 ((H.get id).outs ht)))).mono ?_
  unfold ownCost
  omega

/-! ### Recognition -/

theorem swallow_outs {x : Dev σ α} {a : α} (h : Outs (swallowD x) (some a)) : Outs x a := by
  obtain ⟨s, h⟩ := h
  refine ⟨s, ?_⟩
  unfold swallowD at h
  rcases hx : x s with ⟨o, s'⟩
  rw [hx] at h
  cases o with
  | ok a' => cases h; rfl
  | error e => cases e <;> cases h

theorem pick_spends (M : Metered D c) (H : HonestD External D R b) (vs : List Variant) (pos : Nat) :
    Spends c (pickVariantD D vs pos) 2 := by
  refine Spends.step (readByte_spends M H pos) (Nat.le_refl _) (fun x _ => ?_)
  split <;> exact .of _ _

theorem pick_outs (H : HonestD External D R b) {vs : List Variant} {pos : Nat} {v : Variant}
    (h : Outs (pickVariantD D vs pos) v) : pos + 1 ≤ b.len ∧ v ∈ vs := by
  have h1 := (pickVariantD_follows H vs pos).outs h
  refine ⟨pickVariant_le h1, ?_⟩
  obtain ⟨i, _, h2⟩ := bind_ok.1 h1
  split at h2
  · rename_i w hw
    cases h2
    exact List.mem_of_find?_eq_some hw
  · cases h2

theorem signature_spends (T : Toll R sz K) (M : Metered D c) (H : HonestD External D R b) (f : Field) :
    Spends c (signatureIndicatorD D f) (sz f.ty + 1) := by
  refine Spends.bind (husk_spends T M H f.ty _).swallow (fun o _ => ?_)
  split
  · exact .of _ _
  · split
    · refine Spends.step (get_spends M _).swallow (Nat.le_refl _) (fun o _ => ?_)
      split
      · exact .of _ _
      · repeat' split
        all_goals exact .of _ _
    · exact .of _ _

theorem recog_plain {ty : Typ} (hd : ∀ vs, ty.typeDef ≠ .variant vs) (pos : Nat) :
    Spends c (fromTypeD D ty pos) 0 := by
  unfold fromTypeD
  split
  all_goals try exact .of _ _
  · unfold checkMultiSignatureD
    split
    · rename_i vs h; exact absurd h (hd vs)
    · exact .of _ _
  · unfold checkPalletSpecificD
    split
    · rename_i vs h; exact absurd h (hd vs)
    · exact .of _ _

theorem recog_enum (T : Toll R sz K) (M : Metered D c) (H : HonestD External D R b) {ty : Typ} {vs : List Variant}
    (hd : ty.typeDef = .variant vs) {pos m : Nat}
    (hm : ∀ v, Outs (pickVariantD D vs pos) v → fieldsCost sz v.fields ≤ m) :
    Spends c (fromTypeD D ty pos) (3 + m) := by
  unfold fromTypeD
  split
  all_goals try exact .of _ _
  · unfold checkMultiSignatureD
    rw [hd]
    refine (Spends.bind (m := 1 + m) (pick_spends M H vs pos).swallow (fun o ho => ?_)).mono (by omega)
    split
    · rename_i v
      have h1 := hm v (swallow_outs ho)
      split
      · rename_i f hf
        rw [hf] at h1
        simp only [fieldsCost, List.map_cons, List.map_nil, List.sum_cons, List.sum_nil] at h1
        refine Spends.step (signature_spends T M H f) (by omega) (fun o _ => ?_)
        split
        · exact Spends.free (fun _ => .of _ _)
        · exact .of _ _
      · exact .of _ _
    · exact .of _ _
  · unfold checkPalletSpecificD
    rw [hd]
    refine (Spends.bind (m := 1 + m) (pick_spends M H vs pos).swallow (fun o ho => ?_)).mono (by omega)
    split
    · split
      · refine Spends.step (get_spends M _).swallow (by omega) (fun o _ => ?_)
        split
        · split
          · split
            · exact .of _ _
            · split
              · exact Spends.free (fun _ => .of _ _)
              · exact .of _ _
          · exact .of _ _
        · exact .of _ _
      · exact .of _ _
    · exact .of _ _

/-! ### Decoding -/

/-- The recursive calls pay. -/
structure RecPays (R : Registry) (c : σ → Nat) (sz : Nat → Nat) (K L : Nat) (rec : DecD σ) : Prop where
  symbol : ∀ id pos p, Pays c (2 * K) L K 0 (rec (.symbol id) pos p) pos (·.2) (sz id)
  resolved : ∀ ty id pos p, R.resolve id = .ok ty → Pays c (2 * K) L K 0 (rec (.resolved ty id) pos p) pos (·.2) (sz id - 1)

variable {rec : DecD σ} {L : Nat}

theorem fieldsLoop_pays (hr : RecPays R c sz K L rec) (ch : Checker) : ∀ (fs : List Field) pos,
    Pays c (2 * K) L K 0 (decodeFieldsLoopD rec ch fs pos) pos (·.2) (fieldsCost sz fs)
  | [], _ => .ok rfl
  | f :: fs, pos => by
    refine Pays.free (fun p _ => ?_)
    refine Pays.bind (m := sz f.ty) (n := fieldsCost sz fs) (hr.symbol f.ty pos p) (fun d _ => ?_)
    exact (fieldsLoop_pays hr ch fs d.2).then (fun _ => rfl)

theorem fields_pays (hr : RecPays R c sz K L rec) (fs : List Field) (pos : Nat) (ch : Checker) :
    Pays c (2 * K) L K 0 (decodeFieldsD rec fs pos ch) pos (·.2) (fieldsCost sz fs) := by
  unfold decodeFieldsD
  split
  · exact Pays.free (fun _ _ => fieldsLoop_pays hr _ fs pos)
  · exact fieldsLoop_pays hr _ fs pos

theorem tupleLoop_pays (T : Toll R sz K) (M : Metered D c) (H : HonestD External D R b) (hr : RecPays R c sz K L rec)
    (ch : Checker) : ∀ (ids : List Nat) pos,
    Pays c (2 * K) L K 0 (decodeTupleLoopD D rec ch ids pos) pos (·.2) (ids.map sz).sum
  | [], _ => .ok rfl
  | id :: ids, pos => by
    have h1 := T.lookup id
    refine Pays.after (get_spends M id) (by simp only [List.map_cons, List.sum_cons]; omega) (fun t ht => Pays.free (fun p _ => ?_))
    refine (Pays.bind (n := (ids.map sz).sum) (hr.resolved t id pos p (get_ok.1 ((H.get id).outs ht))) (fun d _ => ?_)).mono
      (by simp only [List.map_cons, List.sum_cons]; omega)
    exact (tupleLoop_pays T M H hr ch ids d.2).then (fun _ => rfl)

/-- Elements of any size. -/
theorem elements_pays (hr : RecPays R c sz K L rec) {h : HuskedType} (hres : R.resolve h.id = .ok h.ty) {m : Nat}
    (hm : sz h.id ≤ m) : ∀ n pos,
    Pays c (2 * K) L K 0 (decodeElementsLoopD rec h n pos) pos (·.2) (n * m)
  | 0, _ => .ok rfl
  | n + 1, pos => by
    refine (Pays.bind (n := n * m) (hr.resolved _ _ pos _ hres) (fun d _ => ?_)).mono (by rw [Nat.add_mul]; omega)
    exact (elements_pays hr hres hm n d.2).then (fun _ => rfl)

/-- Elements that take bytes pay for themselves. -/
theorem solid_pays (hr : RecPays R c sz K L rec) {h : HuskedType} (hres : R.resolve h.id = .ok h.ty)
    (hm : sz h.id ≤ K) (hne : ∀ pos a, Outs (rec (.resolved h.ty h.id) pos (Propagated.withChecker h.checker)) a → a.2 ≠ pos) :
    ∀ n pos, Pays c (2 * K) L 0 K (decodeElementsLoopD rec h n pos) pos (·.2) 0
  | 0, _ => .ok rfl
  | n + 1, pos => by
    refine Pays.bind (m := 0) (n := 0) (fin := (·.2)) ?_ (fun d _ => Pays.bind (m := 0) (n := 0) (solid_pays hr hres hm hne n d.2) (fun _ _ => Pays.ok rfl))
    intro s
    obtain ⟨h1, h2⟩ := hr.resolved h.ty h.id pos (Propagated.withChecker h.checker) hres s
    constructor
    · intro a ha
      obtain ⟨h3, h4⟩ := h1 a ha
      refine ⟨h3, ?_⟩
      dsimp only at h4 ⊢
      have h5 : kept K pos a.2 = K := if_neg (hne pos a ⟨s, ha⟩)
      rw [kept_zero]
      omega
    · intro e he
      have := h2 e he
      omega

/-- Bytes up to `q` were consumed: they pay `K` twice. -/
theorem Pays.gain {x : Dev σ α} {pos q : Nat} {fin : α → Nat} {m : Nat} (h1 : pos < q) (h2 : q ≤ L)
    (h : Pays c (2 * K) L 0 K x q fin (m + K)) : Pays c (2 * K) L K 0 x pos fin m := by
  intro s
  obtain ⟨g1, g2⟩ := h s
  have hw := Nat.mul_le_mul_left (2 * K) (show 1 ≤ q - pos by omega)
  constructor
  · intro a ha
    obtain ⟨g3, g4⟩ := g1 a ha
    refine ⟨⟨by have := g3.1; omega, by have := g3.2; omega⟩, ?_⟩
    have := kept_le K pos (fin a)
    have := toll_add (W := 2 * K) (show pos ≤ q by omega) g3.1
    omega
  · intro e he
    have := g2 e he
    have := toll_add (W := 2 * K) (show pos ≤ q by omega) h2
    omega

theorem Pays.skip {x : Dev σ α} {pos q : Nat} {fin : α → Nat} {m : Nat} (h1 : pos < q) (h2 : q ≤ L) {φ W : Nat}
    (h : Pays c W L 0 φ x q fin m) : Pays c W L 0 φ x pos fin m := by
  intro s
  obtain ⟨g1, g2⟩ := h s
  constructor
  · intro a ha
    obtain ⟨g3, g4⟩ := g1 a ha
    refine ⟨⟨by have := g3.1; omega, by have := g3.2; omega⟩, ?_⟩
    rw [kept_zero] at g4 ⊢
    have := toll_add (W := W) (show pos ≤ q by omega) g3.1
    omega
  · intro e he
    have := g2 e he
    have := toll_add (W := W) (show pos ≤ q by omega) h2
    omega

theorem elementsSet_array (T : Toll R sz K) (M : Metered D c) (H : HonestD External D R b) (hr : RecPays R c sz K b.len rec)
    (elem n pos : Nat) (p : Propagated) :
    Pays c (2 * K) b.len K 0 (decodeElementsSetD D rec elem n pos p) pos (·.2) ((n + 1) * sz elem) := by
  refine Pays.free (fun _ _ => ?_)
  refine Pays.after (husk_spends T M H elem p.checker) (by rw [Nat.add_mul]; omega) (fun h hh => ?_)
  obtain ⟨h1, k, h2⟩ := huskType_core ((huskTypeD_follows H elem p.checker).outs hh)
  rw [show (n + 1) * sz elem - sz elem = n * sz elem by rw [Nat.add_mul]; omega]
  split
  · exact .ok rfl
  · refine Pays.bind (n := 0) (elements_pays hr h1 (core_toll T h2) n pos) (fun l _ => ?_)
    split <;> exact .ok rfl

theorem elementsSet_vector (T : Toll R sz K) (M : Metered D c) (H : HonestD External D R b) (hr : RecPays R c sz K b.len rec)
    (ho : RecOk R b rec) {elem : Nat} (hv : ∀ v, ¬ Enc R false elem v []) (n pos : Nat) (p : Propagated) :
    Pays c (2 * K) b.len 0 K (decodeElementsSetD D rec elem n pos p) pos (·.2) K := by
  refine Pays.free (fun _ _ => ?_)
  refine Pays.after (husk_spends T M H elem p.checker) (T.within elem) (fun h hh => ?_)
  obtain ⟨h1, k, h2⟩ := huskType_core ((huskTypeD_follows H elem p.checker).outs hh)
  split
  · exact .ok rfl
  · refine (Pays.bind (m := 0) (n := 0) (solid_pays hr h1 (T.within _) ?_ n pos) (fun l _ => ?_)).mono (Nat.zero_le _)
    · intro pos a ha e
      obtain ⟨bs, g1, g2, g3⟩ := ho _ _ _ _ _ h1 ha
      have : bs = [] := by
        have : bs.length = 0 := by omega
        exact List.eq_nil_of_length_eq_zero this
      exact hv _ (h2.enc (g3.empty this))
    · split <;> exact .ok rfl

theorem compact_span (H : HonestD External D R b) {pos : Nat} {r : Nat × Nat}
    (h : Outs (getCompactD D (compactUInt .u32) pos) r) : pos < r.2 ∧ r.2 ≤ b.len := by
  obtain ⟨bs, h1, h2, _, h3⟩ := (Parses.compact (w := .u32) (b := b)).sound ((getCompactD_follows H (compactUInt .u32) pos).outs h)
  have h4 := compactEncode_length_pos r.1
  rcases h1 with rfl | h1
  · rw [← h3] at h4; simp at h4
  · have := h1.le; subst h3; simp only [Buf.len]; omega

/-- The selector byte and the fields of a variant. -/
theorem variant_pays (M : Metered D c) (H : HonestD External D R b) (hr : RecPays R c sz K b.len rec)
    {vs : List Variant} {m : Nat} (hm : ∀ v ∈ vs, fieldsCost sz v.fields ≤ m) (pos : Nat) :
    Pays c (2 * K) b.len 0 0 (decodeVariantD D rec vs pos) (pos + 1) (fun r => r.2.2) (2 + m) ∧
    ((∀ v, ¬ Outs (pickVariantD D vs pos) v) → Spends c (decodeVariantD D rec vs pos) 2 ∧
      ∀ r, ¬ Outs (decodeVariantD D rec vs pos) r) := by
  refine ⟨Pays.after (pick_spends M H vs pos) (by omega) (fun v hv => ?_), fun hno => ⟨?_, fun r hr => ?_⟩⟩
  · obtain ⟨h1, h2⟩ := pick_outs H hv
    have h3 := hm v h2
    rw [H.add h1]
    refine Pays.free (fun q hq => ?_)
    cases hq
    exact Pays.last ((fields_pays hr v.fields (pos + 1) Checker.new).forget 0) (fun _ => rfl) (by omega)
  · exact Spends.step (pick_spends M H vs pos) (Nat.le_refl _) (fun v hv => absurd hv (hno v))
  · obtain ⟨v, hv, _⟩ := hr.bind
    exact hno v hv

theorem withInfo_pays {W κ φ : Nat} {x : Dev σ (PD × Nat)} {pos m : Nat} (i : List Info)
    (h : Pays c W L κ φ x pos (·.2) m) : Pays c W L κ φ (withInfoD i x) pos (·.2) m :=
  h.then (fun _ => rfl)

/-- A leaf with known contents. -/
theorem leaf_pays' {x : Dev σ (α × Nat)} {f : Nat → Res (α × Nat)} {Q : α → Bytes → Prop} {pos n : Nat}
    (hk : 1 ≤ K) (h : Leafs c b.len x pos (·.2) n) (hx : Follows External x (f pos)) (hf : Fine (f pos))
    (hp : Parses b f Q) : Pays c (2 * K) b.len K 0 x pos (·.2) n :=
  leaf_pays hk h (fun _ ha => ((leaf_sat hx hf hp).outs ha).span)

theorem typeDef_pays (T : Toll R sz K) (hv : SolidVectors R) (M : Metered D c) (H : HonestD External D R b)
    (hr : RecPays R c sz K b.len rec) (ho : RecOk R b rec) {ty : Typ} {id : Nat} (hres : R.resolve id = .ok ty)
    (hd : ∀ vs, ty.typeDef ≠ .variant vs) (pos : Nat) (p : Propagated) :
    Pays c (2 * K) b.len K 0 (decodeTypeDefD D rec ty id pos p) pos (·.2) (sz id - 1) := by
  have hown := T.own hres
  have hK := T.within id
  have hk : 1 ≤ K := by unfold ownCost at hown; omega
  unfold decodeTypeDefD
  cases hdef : ty.typeDef with
  | composite fields =>
    have := T.struct hres hdef
    exact Pays.last (fields_pays hr fields pos p.checker) (fun _ => rfl) (by unfold ownCost at this; omega)
  | variant vs => exact absurd hdef (hd vs)
  | sequence elem =>
    refine Pays.after (getCompact_spends M H _ pos) (by unfold ownCost at hown; omega) (fun r hro => ?_)
    obtain ⟨h1, h2⟩ := compact_span H hro
    exact Pays.gain h1 h2 ((elementsSet_vector T M H hr ho (hv _ _ _ hres hdef) _ _ _).mono (by omega))
  | array n elem =>
    have := T.array hres hdef
    exact (elementsSet_array T M H hr elem n pos p).mono (by unfold ownCost at this; omega)
  | tuple ids =>
    have := T.tuple hres hdef
    refine Pays.free (fun p' _ => ?_)
    exact Pays.last (tupleLoop_pays T M H hr p'.checker ids pos) (fun _ => rfl) (by unfold ownCost at this; omega)
  | primitive pr =>
    refine withInfo_pays _ ((leaf_pays' hk (prim_leafs M H pr pos _) (decodePrimitiveD_follows H pr pos _)
      (decodePrimitive_fine _ _ _ _) (decodePrimitive_parses pr p.checker.specialtySet)).mono (by unfold ownCost at hown; omega))
  | compact inner =>
    have := T.compact hres hdef
    exact Pays.free (fun _ _ => Pays.free (fun _ _ => (hr.symbol inner pos _).mono (by unfold ownCost at this; omega)))
  | bitSequence order store =>
    refine Pays.free (fun _ _ => withInfo_pays _ ((leaf_pays' hk (bits_leafs M H order store id pos)
      (decodeBitSequenceD_follows H order store id pos) (decodeBitSequence_fine _ _ _ _ _ _)
      (decodeBitSequence_parses R order store id)).mono (by unfold ownCost at hown; omega)))

/-- Leaves known by path. -/
theorem special_pays (M : Metered D c) (H : HonestD External D R b) (hk : 1 ≤ K) {sp : TypeChecked}
    (hsp : sp ≠ .none) (hsp' : ∀ n i vs it, sp ≠ .palletSpecific n i vs it) (ty : Typ) (id pos : Nat) (p : Propagated) :
    Pays c (2 * K) b.len K 0 (decodeCheckedD D rec sp ty id pos p) pos (·.2) 342 := by
  cases sp with
  | none => exact absurd rfl hsp
  | fixed k =>
    exact withInfo_pays _ ((leaf_pays' hk ((parseFixed_spends M H k pos _).leafs _ _) (parseFixedD_follows H k pos p.compactAt)
      (parseFixed_fine _ _ _ _) (parseFixed_parses k p.compactAt)).mono (by omega))
  | era =>
    refine Pays.free (fun _ _ => ((leaf_pays' hk ((era_spends M H pos).leafs _ _) (specialCaseEraD_follows H pos)
      (specialCaseEra_fine _ _) specialCaseEra_parses).mono (by omega)).then (fun _ => rfl))
  | h256 =>
    exact Pays.free (fun _ _ => withInfo_pays _ ((leaf_pays' hk ((h256_spends M H pos _).leafs _ _) (specialCaseH256D_follows H pos _)
      (specialCaseH256_fine _ _ _) (specialCaseH256_parses _)).mono (by omega)))
  | perThing k =>
    exact withInfo_pays _ (leaf_pays' hk ((parsePer_spends M H k pos _).leafs _ _) (parsePerD_follows H k pos p.compactAt)
      (parsePer_fine _ _ _ _) (parsePer_parses k p.compactAt))
  | palletSpecific n i vs it => exact absurd rfl (hsp' n i vs it)

theorem recog_closed {ty : Typ} (hc : (TypeHinted.fromType ty).open = false) (pos : Nat) :
    Spends c (fromTypeD D ty pos) 0 := by
  unfold fromTypeD
  cases hh : TypeHinted.fromType ty with
  | multiSignature => rw [hh] at hc; cases hc
  | palletSpecific item => rw [hh] at hc; cases hc
  | _ => exact .of _ _

theorem signature_open {ty : Typ} {i : UInt8} {k : FixedKind} (h : IsSignature R ty i k) :
    (TypeHinted.fromType ty).open = true := by
  rw [hinted_open]
  unfold Structural
  rw [h.1]
  trivial

theorem pallet_open {ty : Typ} {i : UInt8} {item : PalletItem} {n : String} {vs : List Variant} (h : IsPallet R ty i item n vs) :
    (TypeHinted.fromType ty).open = true := by
  rw [hinted_open]
  unfold Structural
  rw [h.1]
  trivial

theorem step_plain (T : Toll R sz K) (hv : SolidVectors R) (M : Metered D c) (H : HonestD External D R b)
    (hr : RecPays R c sz K b.len rec) (ho : RecOk R b rec) {ty : Typ} {id : Nat} (hres : R.resolve id = .ok ty)
    (hd : (TypeHinted.fromType ty).open = true → ∀ vs, ty.typeDef ≠ .variant vs) (pos : Nat) (p : Propagated) :
    Pays c (2 * K) b.len K 0 (fromTypeD D ty pos >>= fun r => decodeCheckedD D rec r.1 ty id r.2 p) pos (·.2) (sz id - 1) := by
  have hown := T.own hres
  have hK := T.within id
  have hk : 1 ≤ K := by unfold ownCost at hown; omega
  have h0 : Spends c (fromTypeD D ty pos) 0 := by
    by_cases h : (TypeHinted.fromType ty).open = true
    · exact recog_plain (hd h) pos
    · exact recog_closed (by simpa using h) pos
  refine Pays.after h0 (Nat.zero_le _) (fun r hro => ?_)
  have hrec := (fromTypeD_sat H ty pos).outs hro
  have hsp : ∀ {sp}, sp ≠ .none → (∀ n i vs it, sp ≠ .palletSpecific n i vs it) →
      Pays c (2 * K) b.len K 0 (decodeCheckedD D rec sp ty id pos p) pos (·.2) (sz id - 1 - 0) :=
    fun h1 h2 => (special_pays M H hk h1 h2 ty id pos p).mono (by unfold ownCost at hown; omega)
  cases hrec with
  | plain hs => exact typeDef_pays T hv M H hr ho hres (hd (hinted_open.2 hs)) pos p
  | fixed _ => exact hsp (by simp) (by simp)
  | era _ => exact hsp (by simp) (by simp)
  | h256 _ => exact hsp (by simp) (by simp)
  | per _ => exact hsp (by simp) (by simp)
  | signature _ h =>
    have h1 := hd (signature_open h)
    obtain ⟨_, vs, _, _, h, _⟩ := h
    exact absurd h (h1 _)
  | pallet _ h =>
    have h1 := hd (pallet_open h)
    obtain ⟨_, vs, _, _, _, h, _⟩ := h
    exact absurd h (h1 _)

theorem Pays.fail {W κ φ : Nat} {x : Dev σ α} {n : Nat} (h : Spends c x n) (hno : ∀ a, ¬ Outs x a) (pos : Nat) (fin : α → Nat) :
    Pays c W L κ φ x pos fin n := by
  intro s
  have := h s
  exact ⟨fun a ha => absurd ⟨s, ha⟩ (hno a), fun e _ => by omega⟩

theorem closed_ne {ty : Typ} {sp : TypeChecked} {pos q : Nat} (h : Recog R b ty pos (sp, q))
    (ho : (TypeHinted.fromType ty).open = true) : sp = .none ∧ q = pos ∨
      (∃ i k, sp = .fixed k ∧ q = pos + 1 ∧ b.readByte pos = .ok i ∧ IsSignature R ty i k) ∨
      (∃ i item n info inner, sp = .palletSpecific n info inner item ∧ q = pos + 1 ∧ b.readByte pos = .ok i ∧
        IsPallet R ty i item n inner) := by
  rw [hinted_open] at ho
  unfold Structural at ho
  cases h with
  | plain hs => exact .inl ⟨rfl, rfl⟩
  | fixed h => rw [h] at ho; exact ho.elim
  | era h => rw [h] at ho; exact ho.elim
  | h256 h => rw [h] at ho; exact ho.elim
  | per h => rw [h] at ho; exact ho.elim
  | signature h1 h2 => exact .inr (.inl ⟨_, _, rfl, rfl, h1, h2⟩)
  | pallet h1 h2 => exact .inr (.inr ⟨_, _, _, _, _, rfl, rfl, h1, h2⟩)

theorem step_enum (T : Toll R sz K) (M : Metered D c) (H : HonestD External D R b)
    (hr : RecPays R c sz K b.len rec) {ty : Typ} {id : Nat} (hres : R.resolve id = .ok ty) {vs : List Variant}
    (hopen : (TypeHinted.fromType ty).open = true) (hd : ty.typeDef = .variant vs) (pos : Nat) (p : Propagated) :
    Pays c (2 * K) b.len K 0 (fromTypeD D ty pos >>= fun r => decodeCheckedD D rec r.1 ty id r.2 p) pos (·.2) (sz id - 1) := by
  have hown := T.own hres
  have hK := T.within id
  unfold ownCost at hown
  have hk : 1 ≤ K := by omega
  have hm : ∀ v ∈ vs, fieldsCost sz v.fields ≤ (K - 400) / 2 := by
    intro v h
    have := T.enum hres hd h
    unfold ownCost at this
    omega
  by_cases hb : pos < b.len ∧ vs ≠ []
  · refine Pays.gain (show pos < pos + 1 by omega) (by omega) ?_
    refine Pays.after (recog_enum T M H hd (m := (K - 400) / 2) (fun v hv => hm v (pick_outs H hv).2)) (by omega) (fun r hro => ?_)
    obtain ⟨sp, q⟩ := r
    rcases closed_ne ((fromTypeD_sat H ty pos).outs hro) hopen with ⟨rfl, rfl⟩ | ⟨i, k, rfl, rfl, h1, h2⟩ |
        ⟨i, item, n, info, inner, rfl, rfl, h1, h2⟩
    · unfold decodeCheckedD decodeTypeDefD
      dsimp only
      rw [hd]
      refine Pays.free (fun _ _ => ?_)
      rw [if_neg (by simpa using hb.2)]
      exact Pays.last ((variant_pays M H hr hm q).1.forget K) (fun _ => rfl) (by omega)
    · exact ((special_pays M H hk (by simp) (by simp) ty id (pos + 1) p).forget K).mono (by omega)
    · obtain ⟨_, vs', v, f, t', g1, g2, g3, g4, g5, g6, g7⟩ := h2
      have hm' : ∀ v ∈ inner, fieldsCost sz v.fields ≤ (K - 400) / 2 := by
        intro v h
        have := T.enum g5 g7 h
        unfold ownCost at this
        omega
      refine Pays.free (fun _ _ => ?_)
      obtain ⟨e1, e2⟩ := variant_pays M H hr hm' (pos + 1)
      by_cases hlen : pos + 2 ≤ b.len
      · exact Pays.last (Pays.skip (show pos + 1 < pos + 2 by omega) hlen (e1.forget K)) (fun _ => rfl) (by omega)
      · obtain ⟨e3, e4⟩ := e2 (fun v hv => by have := (pick_outs H hv).1; omega)
        exact Pays.last (fin := fun r => r.2.2) (Pays.fail e3 e4 _ _) (fun _ => rfl) (by omega)
  · have hno : ∀ v, ¬ Outs (pickVariantD D vs pos) v := by
      intro v hv
      obtain ⟨h1, h2⟩ := pick_outs H hv
      exact hb ⟨by omega, by rintro rfl; cases h2⟩
    refine Pays.after (recog_enum T M H hd (m := 0) (fun v hv => absurd hv (hno v))) (by omega) (fun r hro => ?_)
    obtain ⟨sp, q⟩ := r
    have hbyte : ∀ {i}, b.readByte pos = .ok i → pos < b.len := by
      intro i h
      have := (readByte_ok h).le
      simp only [Buf.len, List.length_cons, List.length_nil] at *
      omega
    rcases closed_ne ((fromTypeD_sat H ty pos).outs hro) hopen with ⟨rfl, rfl⟩ | ⟨i, k, rfl, rfl, h1, h2⟩ |
        ⟨i, item, n, info, inner, rfl, rfl, h1, h2⟩
    · unfold decodeCheckedD decodeTypeDefD
      dsimp only
      rw [hd]
      refine Pays.free (fun _ _ => ?_)
      split
      · exact .ok rfl
      · obtain ⟨e3, e4⟩ := (variant_pays M H hr hm q).2 hno
        exact Pays.last (fin := fun r => r.2.2) (Pays.fail e3 e4 _ _) (fun _ => rfl) (by omega)
    · obtain ⟨_, vs', v, f, g1, g2, _⟩ := h2
      rw [hd] at g1; cases g1
      obtain ⟨x, y, rfl, _⟩ := g2
      exact absurd ⟨hbyte h1, by simp⟩ hb
    · obtain ⟨_, vs', v, f, t', g1, g2, _⟩ := h2
      rw [hd] at g1; cases g1
      obtain ⟨x, y, rfl, _⟩ := g2
      exact absurd ⟨hbyte h1, by simp⟩ hb

theorem step_pays (T : Toll R sz K) (hv : SolidVectors R) (M : Metered D c) (H : HonestD External D R b)
    (hr : RecPays R c sz K b.len rec) (ho : RecOk R b rec) : RecPays R c sz K b.len (decodeStepD D rec) := by
  have key : ∀ ty id pos (p : Propagated), R.resolve id = .ok ty →
      Pays c (2 * K) b.len K 0 (fromTypeD D ty pos >>= fun r => decodeCheckedD D rec r.1 ty id r.2 (p.addInfo (Info.fromTy ty)))
        pos (·.2) (sz id - 1) := by
    intro ty id pos p hres
    by_cases hopen : (TypeHinted.fromType ty).open = true
    · cases hd : ty.typeDef with
      | variant vs => exact step_enum T M H hr hres hopen hd pos _
      | _ => exact step_plain T hv M H hr ho hres (fun _ vs => by rw [hd]; simp) pos _
    · exact step_plain T hv M H hr ho hres (fun h => absurd h hopen) pos _
  constructor
  · intro id pos p
    have h1 := T.lookup id
    refine Pays.after (n := 1) (Spends.step (get_spends M id) (Nat.le_refl _) (fun _ _ => .of _ _)) h1 (fun t ht => ?_)
    obtain ⟨ty, hty, ht⟩ := Outs.bind ht
    cases ht.of
    exact key ty id pos p (get_ok.1 ((H.get id).outs hty))
  · intro ty id pos p hres
    refine Pays.free (fun t ht => ?_)
    cases ht
    exact key ty id pos p hres

theorem decodeFD_pays (T : Toll R sz K) (hv : SolidVectors R) (M : Metered D c) (H : HonestD External D R b) (n : Nat) :
    RecPays R c sz K b.len (decodeFD D n) := by
  induction n with
  | zero => exact ⟨fun _ _ _ => Pays.error, fun _ _ _ _ _ => Pays.error⟩
  | succ n ih => exact step_pays T hv M H ih (decodeFD_ok H n)

theorem decodeD_pays (T : Toll R sz K) (hv : SolidVectors R) (M : Metered D c) (H : HonestD External D R b) (id pos : Nat)
    (p : Propagated) : Pays c (2 * K) b.len K 0 (decodeD D (.symbol id) pos p) pos (·.2) (sz id) :=
  (decodeFD_pays T hv M H _).symbol id pos p

end Verif
