import Verif.Proof.Fix
import Verif.Proof.Bridge
import Verif.Spec.Shortened
/-!
# What is decoded with a shortened registry is decoded with the full one
-/
namespace Verif
open Spec

/-- A value in `r'` is a related value in `r`, unless `r` ran out of fuel. -/
def Sub {α β : Type} (Q : α → β → Prop) (r' : Res α) (r : Res β) : Prop :=
  ∀ a', r' = .ok a' → r = .error .fuel ∨ ∃ a, r = .ok a ∧ Q a' a

theorem Sub.rfl {α : Type} {r : Res α} : Sub Eq r r := fun a h => .inr ⟨a, h, Eq.refl _⟩

theorem Sub.ok {α β : Type} {Q : α → β → Prop} {a' : α} {a : β} (h : Q a' a) : Sub Q (.ok a') (.ok a) := by
  intro x hx; cases hx; exact .inr ⟨a, Eq.refl _, h⟩

theorem Sub.error {α β : Type} {Q : α → β → Prop} {e : Fail} {r : Res β} : Sub Q (.error e : Res α) r := by
  intro x hx; cases hx

theorem Sub.bind {α β γ δ : Type} {Q : α → β → Prop} {P : γ → δ → Prop} {x' : Res α} {x : Res β} {f' : α → Res γ}
    {f : β → Res δ} (hx : Sub Q x' x) (hf : ∀ a' a, x' = .ok a' → x = .ok a → Q a' a → Sub P (f' a') (f a)) :
    Sub P (x' >>= f') (x >>= f) := by
  intro c h
  obtain ⟨a', h1, h2⟩ := bind_ok.1 h
  rcases hx a' h1 with rfl | ⟨a, rfl, hq⟩
  · exact .inl (Eq.refl _)
  · exact hf a' a h1 (Eq.refl _) hq c h2

theorem Sub.bindL {α γ δ : Type} {P : γ → δ → Prop} {x : Res α} {f' : α → Res γ} {f : α → Res δ}
    (hf : ∀ a, x = .ok a → Sub P (f' a) (f a)) : Sub P (x >>= f') (x >>= f) :=
  Sub.bind Sub.rfl fun a' a h _ e => by subst e; exact hf a' h

variable {S R : Registry} {b : Buf}

/-- Inputs of the decoder that mean the same type. -/
inductive SameTy (S R : Registry) : TyIn → TyIn → Prop
  | symbol (id : Nat) : SameTy S R (.symbol id) (.symbol id)
  | resolved {s t : Typ} {id : Nat} : S.resolve id = .ok s → R.resolve id = .ok t → ShortTyp s t →
      SameTy S R (.resolved s id) (.resolved t id)

/-- Recursive calls. -/
def RecSub (S R : Registry) (rec' rec : Dec) : Prop :=
  ∀ a a' pos p, SameTy S R a' a → Sub Eq (rec' a' pos p) (rec a pos p)

theorem Spec.ShortTyp.path {s t : Typ} (h : ShortTyp s t) : s.path = t.path := by
  rcases h with rfl | ⟨vs, ws, -, -, rfl, -⟩ <;> rfl

theorem Spec.ShortTyp.info {s t : Typ} (h : ShortTyp s t) : Info.fromTy s = Info.fromTy t := by
  rcases h with rfl | ⟨vs, ws, -, -, rfl, -⟩ <;> rfl

theorem Spec.ShortTyp.hinted {s t : Typ} (h : ShortTyp s t) : TypeHinted.fromType s = TypeHinted.fromType t := by
  rcases h with rfl | ⟨vs, ws, -, -, rfl, -⟩ <;> rfl

theorem Spec.ShortTyp.ident {s t : Typ} (h : ShortTyp s t) : s.ident = t.ident := by
  rcases h with rfl | ⟨vs, ws, -, -, rfl, -⟩ <;> rfl

theorem Spec.ShortTyp.fromPath {s t : Typ} (h : ShortTyp s t) : Hint.fromPath s = Hint.fromPath t := by
  rcases h with rfl | ⟨vs, ws, -, -, rfl, -⟩ <;> rfl

/-- Types other than enums are not changed. -/
theorem Spec.ShortTyp.eq {s t : Typ} (h : ShortTyp s t) (hn : ∀ vs, t.typeDef ≠ .variant vs) : s = t := by
  rcases h with rfl | ⟨vs, ws, -, -, rfl, -⟩
  · rfl
  · exact absurd rfl (hn ws)

theorem Spec.ShortTyp.eq' {s t : Typ} (h : ShortTyp s t) (hn : ∀ vs, s.typeDef ≠ .variant vs) : s = t := by
  rcases h with rfl | ⟨vs, ws, e, -, rfl, -⟩
  · rfl
  · exact absurd e (hn vs)

theorem get_sub (hs : Shortened S R) (id : Nat) :
    Sub (fun s t => S.resolve id = .ok s ∧ R.resolve id = .ok t ∧ ShortTyp s t) (S.get id) (R.get id) := by
  intro s h
  have h1 := get_ok.1 h
  obtain ⟨t, h2, h3⟩ := hs _ _ h1
  exact .inr ⟨t, get_ok.2 h2, h1, h2, h3⟩

/-! ### Husking -/

/-- Related outcomes of husking. -/
def SameHusk (S R : Registry) (h' h : HuskedType) : Prop :=
  h'.info = h.info ∧ h'.checker = h.checker ∧ h'.id = h.id ∧ S.resolve h.id = .ok h'.ty ∧ R.resolve h.id = .ok h.ty ∧
    ShortTyp h'.ty h.ty

theorem huskLoop_sub (hs : Shortened S R) (n m : Nat) {s t : Typ} {id : Nat} (info : List Info) (c : Checker)
    (a : S.resolve id = .ok s) (a' : R.resolve id = .ok t) (h : ShortTyp s t) :
    Sub (SameHusk S R) (huskLoop S n s id info c) (huskLoop R m t id info c) := by
  induction n generalizing m s t id info c with
  | zero => exact Sub.error
  | succ n ih =>
    cases m with
    | zero => exact fun _ _ => .inl rfl
    | succ m =>
      unfold huskLoop
      dsimp only
      rw [h.info, h.hinted]
      split
      · by_cases hv : ∃ vs, t.typeDef = .variant vs
        · obtain ⟨ws, hv⟩ := hv
          have hv' : ∃ vs, s.typeDef = .variant vs := by
            rcases h with rfl | ⟨vs, ws, e, -, rfl, -⟩
            · exact ⟨_, hv⟩
            · exact ⟨_, e⟩
          obtain ⟨vs, hv'⟩ := hv'
          rw [hv, hv']
          exact Sub.ok ⟨rfl, rfl, rfl, a, a', h⟩
        · have e := h.eq fun vs hv' => hv ⟨vs, hv'⟩
          subst e
          split
          · refine Sub.bindL fun c' _ => Sub.bind (get_sub hs _) fun s t _ _ q => ?_
            exact ih m _ _ q.1 q.2.1 q.2.2
          · refine Sub.bindL fun _ _ => Sub.bindL fun c' _ => Sub.bind (get_sub hs _) fun s t _ _ q => ?_
            exact ih m _ _ q.1 q.2.1 q.2.2
          · exact Sub.ok ⟨rfl, rfl, rfl, a, a', h⟩
      · exact Sub.ok ⟨rfl, rfl, rfl, a, a', h⟩

theorem huskType_sub (hs : Shortened S R) (id : Nat) (c : Checker) :
    Sub (SameHusk S R) (huskType S id c) (huskType R id c) := by
  unfold huskType
  exact Sub.bindL fun c' _ => Sub.bind (get_sub hs _) fun s t _ _ q => huskLoop_sub hs _ _ _ _ q.1 q.2.1 q.2.2

/-! ### Parts of the decoder -/

section
variable {rec' rec : Dec}

theorem decodeFieldsLoop_sub (h : RecSub S R rec' rec) (c : Checker) (fs : List Field) (pos : Nat) :
    Sub Eq (decodeFieldsLoop rec' c fs pos) (decodeFieldsLoop rec c fs pos) := by
  induction fs generalizing pos with
  | nil => exact Sub.rfl
  | cons f fs ih =>
    refine Sub.bindL fun p _ => Sub.bind (h _ _ _ _ (.symbol _)) fun r _ _ _ e => ?_
    subst e
    refine Sub.bind (ih _) fun r _ _ _ e => ?_
    subst e
    exact Sub.rfl

theorem decodeFields_sub (h : RecSub S R rec' rec) (c : Checker) (fs : List Field) (pos : Nat) :
    Sub Eq (decodeFields rec' fs pos c) (decodeFields rec fs pos c) := by
  unfold decodeFields
  split
  · exact Sub.bindL fun _ _ => decodeFieldsLoop_sub h _ _ _
  · exact decodeFieldsLoop_sub h _ _ _

theorem decodeElementsLoop_sub (h : RecSub S R rec' rec) {u' u : HuskedType} (hu : SameHusk S R u' u) (n pos : Nat) :
    Sub Eq (decodeElementsLoop rec' u' n pos) (decodeElementsLoop rec u n pos) := by
  obtain ⟨-, e2, e3, a, a', s⟩ := hu
  induction n generalizing pos with
  | zero => exact Sub.rfl
  | succ n ih =>
    unfold decodeElementsLoop
    rw [e2, e3]
    refine Sub.bind (h _ _ _ _ (.resolved a a' s)) fun r _ _ _ e => ?_
    subst e
    refine Sub.bind (ih _) fun r _ _ _ e => ?_
    subst e
    exact Sub.rfl

theorem decodeElementsSet_sub (hs : Shortened S R) (h : RecSub S R rec' rec) (elem n pos : Nat) (p : Propagated) :
    Sub Eq (decodeElementsSet S rec' elem n pos p) (decodeElementsSet R rec elem n pos p) := by
  unfold decodeElementsSet
  refine Sub.bindL fun _ _ => Sub.bind (huskType_sub hs _ _) fun u' u _ _ hu => ?_
  rw [hu.1]
  split
  · exact Sub.rfl
  · refine Sub.bind (decodeElementsLoop_sub h hu _ _) fun r _ _ _ e => ?_
    subst e
    exact Sub.rfl

theorem decodeTupleLoop_sub (hs : Shortened S R) (h : RecSub S R rec' rec) (c : Checker) (ids : List Nat) (pos : Nat) :
    Sub Eq (decodeTupleLoop S rec' c ids pos) (decodeTupleLoop R rec c ids pos) := by
  induction ids generalizing pos with
  | nil => exact Sub.rfl
  | cons id ids ih =>
    refine Sub.bind (get_sub hs _) fun s t _ _ q => ?_
    have e : Propagated.forTy c s id = Propagated.forTy c t id := by
      unfold Propagated.forTy Checker.updateForTy SpecialtySet.updateFromPath
      rw [q.2.2.fromPath]
    rw [e]
    refine Sub.bindL fun p _ => Sub.bind (h _ _ _ _ (.resolved q.1 q.2.1 q.2.2)) fun r _ _ _ e => ?_
    subst e
    refine Sub.bind (ih _) fun r _ _ _ e => ?_
    subst e
    exact Sub.rfl

theorem pickVariant_sub {vs ws : List Variant} (hw : ∀ v ∈ ws, ∀ w ∈ ws, v.index = w.index → v = w)
    (h : ∀ v ∈ vs, v ∈ ws) (pos : Nat) : Sub Eq (pickVariant vs b pos) (pickVariant ws b pos) := by
  unfold pickVariant
  refine Sub.bindL fun i _ => ?_
  intro v hv
  cases hf : vs.find? (fun v => v.index == i) with
  | none => rw [hf] at hv; cases hv
  | some v' =>
    rw [hf] at hv
    cases hv
    have h1 := List.mem_of_find?_eq_some hf
    have h2 := List.find?_some hf
    cases hg : ws.find? (fun v => v.index == i) with
    | none => exact absurd h2 (List.find?_eq_none.1 hg v (h v h1))
    | some w =>
      have h3 := List.mem_of_find?_eq_some hg
      have h4 := List.find?_some hg
      have := hw v (h v h1) w h3 (by simpa using (beq_iff_eq.1 h2).trans (beq_iff_eq.1 h4).symm)
      exact .inr ⟨w, rfl, this⟩

theorem decodeVariant_sub (h : RecSub S R rec' rec) {vs ws : List Variant}
    (hw : ∀ v ∈ ws, ∀ w ∈ ws, v.index = w.index → v = w) (hv : ∀ v ∈ vs, v ∈ ws) (pos : Nat) :
    Sub Eq (decodeVariant rec' vs b pos) (decodeVariant rec ws b pos) := by
  unfold decodeVariant
  refine Sub.bind (pickVariant_sub hw hv pos) fun v _ _ _ e => ?_
  subst e
  refine Sub.bind (decodeFields_sub h _ _ _) fun r _ _ _ e => ?_
  subst e
  exact Sub.rfl

theorem Spec.ShortTyp.variants {s t : Typ} (h : ShortTyp s t) {vs : List Variant} (e : s.typeDef = .variant vs) :
    ∃ ws, t.typeDef = .variant ws ∧ (∀ v ∈ vs, v ∈ ws) ∧ (vs.isEmpty = ws.isEmpty) := by
  rcases h with rfl | ⟨vs', ws, e', hn, rfl, h⟩
  · exact ⟨vs, e, fun _ h => h, rfl⟩
  · rw [e] at e'; cases e'
    refine ⟨ws, rfl, h, ?_⟩
    cases vs with
    | nil => exact absurd rfl hn
    | cons v vs =>
      cases ws with
      | nil => exact absurd (h v (by simp)) (by simp)
      | cons => rfl

theorem decodeBitSequence_sub (hs : Shortened S R) (order store id pos : Nat) :
    Sub Eq (decodeBitSequence S order store id b pos) (decodeBitSequence R order store id b pos) := by
  unfold decodeBitSequence
  have ho : Sub Eq (findBitOrder S order id) (findBitOrder R order id) := by
    unfold findBitOrder
    refine Sub.bind (get_sub hs _) fun s t _ _ q => ?_
    split
    · rename_i fs e
      have := q.2.2.eq' (by rw [e]; intro _ h; cases h)
      subst this
      rw [e]
      exact Sub.rfl
    · exact Sub.error
  refine Sub.bind ho fun o _ _ _ e => ?_
  subst e
  refine Sub.bind (get_sub hs _) fun s t _ _ q => ?_
  split
  · rename_i p e
    have := q.2.2.eq' (by rw [e]; intro _ h; cases h)
    subst this
    rw [e]
    exact Sub.rfl
  · exact Sub.error

theorem decodeTypeDef_sub (hs : Shortened S R) (hi : IndicesDistinct R) (h : RecSub S R rec' rec) {s t : Typ} {id : Nat}
    (a' : R.resolve id = .ok t) (q : ShortTyp s t) (pos : Nat) (p : Propagated) :
    Sub Eq (decodeTypeDef S rec' b s id pos p) (decodeTypeDef R rec b t id pos p) := by
  by_cases hv : ∃ vs, s.typeDef = .variant vs
  · obtain ⟨vs, hv⟩ := hv
    obtain ⟨ws, hw, h1, h2⟩ := q.variants hv
    unfold decodeTypeDef
    rw [hv, hw]
    dsimp only
    rw [h2]
    refine Sub.bindL fun _ _ => ?_
    split
    · exact Sub.rfl
    · refine Sub.bind (decodeVariant_sub h (hi _ _ _ a' hw) h1 pos) fun r _ _ _ e => ?_
      subst e
      exact Sub.rfl
  · have e := q.eq' fun vs e => hv ⟨vs, e⟩
    subst e
    unfold decodeTypeDef
    split
    · refine Sub.bind (decodeFields_sub h _ _ _) fun r _ _ _ e => ?_
      subst e
      exact Sub.rfl
    · rename_i vs e
      exact absurd ⟨vs, e⟩ hv
    · exact Sub.bindL fun _ _ => decodeElementsSet_sub hs h _ _ _ _
    · exact decodeElementsSet_sub hs h _ _ _ _
    · unfold decodeTuple
      dsimp only
      split
      all_goals
        refine Sub.bindL fun _ _ => Sub.bind (decodeTupleLoop_sub hs h _ _ _) fun r _ _ _ e => ?_
        subst e
        exact Sub.rfl
    · exact Sub.rfl
    · exact Sub.bindL fun _ _ => Sub.bindL fun _ _ => h _ _ _ _ (.symbol _)
    · refine Sub.bindL fun _ _ => ?_
      unfold withInfo
      refine Sub.bind (decodeBitSequence_sub hs _ _ _ _) fun r _ _ _ e => ?_
      subst e
      exact Sub.rfl
end

/-! ### Signatures are recognised alike -/

theorem decode_symbol {id pos : Nat} {p : Propagated} {a : ED × Nat} (h : decode S b (.symbol id) pos p = .ok a) :
    ∃ s, S.resolve id = .ok s ∧ decode S b (.resolved s id) pos p = .ok a := by
  rw [decode_fix] at h
  unfold decodeStep at h
  obtain ⟨⟨s, id'⟩, h1, h2⟩ := bind_ok.1 h
  unfold TyIn.resolve at h1
  obtain ⟨s', h3, h4⟩ := bind_ok.1 h1
  cases h4
  refine ⟨s, get_ok.1 h3, ?_⟩
  rw [decode_fix]
  unfold decodeStep
  exact h2

theorem decode_plain {s : Typ} {id pos : Nat} {p : Propagated} {a : ED × Nat} (hn : TypeHinted.fromType s = .none)
    (h : decode S b (.resolved s id) pos p = .ok a) :
    decodeTypeDef S (decode S b) b s id pos (p.addInfo (Info.fromTy s)) = .ok a := by
  rw [decode_fix] at h
  unfold decodeStep at h
  obtain ⟨⟨s', id'⟩, h1, h2⟩ := bind_ok.1 h
  cases h1
  dsimp only at h2
  unfold TypeChecked.fromType at h2
  rw [hn, ok_bind] at h2
  exact h2

theorem decodeFields_first {f : Field} {pos : Nat} {c : Checker} {a : List FD × Nat}
    (h : decodeFields (decode S b) [f] pos c = .ok a) : ∃ p a', decode S b (.symbol f.ty) pos p = .ok a' := by
  unfold decodeFields at h
  simp only [List.length_cons, List.length_nil, Nat.zero_add, Nat.lt_irrefl, if_false] at h
  unfold decodeFieldsLoop at h
  obtain ⟨p, -, h⟩ := bind_ok.1 h
  obtain ⟨a', h1, -⟩ := bind_ok.1 h
  exact ⟨p, a', h1⟩

theorem huskLoop_known (hs : Shortened S R) (n m : Nat) {s t : Typ} {id : Nat} {info : List Info} {c : Checker}
    {h : HuskedType} (e : huskLoop R m t id info c = .ok h) (a : S.resolve id = .ok s) (a' : R.resolve id = .ok t)
    (q : ShortTyp s t) {pos : Nat} {p : Propagated} {d : ED × Nat} (hd : decode S b (.resolved s id) pos p = .ok d) :
    huskLoop S n s id info c = .error .fuel ∨ ∃ h', huskLoop S n s id info c = .ok h' ∧ SameHusk S R h' h ∧
      ∃ pos' p' d', decode S b (.resolved h'.ty h'.id) pos' p' = .ok d' := by
  induction m generalizing n s t id info c pos p d with
  | zero => cases e
  | succ m ih =>
    cases n with
    | zero => exact .inl rfl
    | succ n =>
      unfold huskLoop at e ⊢
      dsimp only at e ⊢
      rw [q.info, q.hinted]
      split at e
      · rename_i hh
        rw [if_pos hh]
        split at e
        · rename_i f ef
          have := q.eq (by rw [ef]; intro _ h; cases h)
          subst this
          rw [ef]
          dsimp only
          have hd' := decode_plain hh hd
          unfold decodeTypeDef at hd'
          rw [ef] at hd'
          obtain ⟨r, hr, -⟩ := bind_ok.1 hd'
          obtain ⟨p', d', hr⟩ := decodeFields_first hr
          obtain ⟨s', k1, k2⟩ := decode_symbol hr
          obtain ⟨c', e1, e⟩ := bind_ok.1 e
          obtain ⟨t', e2, e⟩ := bind_ok.1 e
          obtain ⟨t2, k3, k4⟩ := hs _ _ k1
          rw [get_ok, k3] at e2; cases e2
          rw [e1, ok_bind, get_ok.2 k1, ok_bind]
          exact ih n e k1 k3 k4 k2
        · rename_i inner ef
          have := q.eq (by rw [ef]; intro _ h; cases h)
          subst this
          rw [ef]
          dsimp only
          have hd' := decode_plain hh hd
          unfold decodeTypeDef at hd'
          rw [ef] at hd'
          obtain ⟨_, -, hd'⟩ := bind_ok.1 hd'
          obtain ⟨_, -, hr⟩ := bind_ok.1 hd'
          obtain ⟨s', k1, k2⟩ := decode_symbol hr
          obtain ⟨u, e0, e⟩ := bind_ok.1 e
          obtain ⟨c', e1, e⟩ := bind_ok.1 e
          obtain ⟨t', e2, e⟩ := bind_ok.1 e
          obtain ⟨t2, k3, k4⟩ := hs _ _ k1
          rw [get_ok, k3] at e2; cases e2
          rw [e0, ok_bind, e1, ok_bind, get_ok.2 k1, ok_bind]
          exact ih n e k1 k3 k4 k2
        · rename_i n1 n2
          cases e
          right
          refine ⟨⟨_, c, s, id⟩, ?_, ⟨rfl, rfl, rfl, a, a', q⟩, pos, p, d, hd⟩
          by_cases hv : ∃ vs, s.typeDef = .variant vs
          · obtain ⟨vs, hv⟩ := hv
            rw [hv]
          · have := q.eq' fun vs e => hv ⟨vs, e⟩
            subst this
            split
            · rename_i f ef; exact absurd ef (n1 f)
            · rename_i i ef; exact absurd ef (n2 i)
            · rfl
      · rename_i hh
        rw [if_neg hh]
        cases e
        exact .inr ⟨_, rfl, ⟨rfl, rfl, rfl, a, a', q⟩, pos, p, d, hd⟩

theorem huskType_known (hs : Shortened S R) {id : Nat} {c : Checker} {h : HuskedType} (e : huskType R id c = .ok h)
    {pos : Nat} {p : Propagated} {d : ED × Nat} (hd : decode S b (.symbol id) pos p = .ok d) :
    ∃ h', huskType S id c = .ok h' ∧ SameHusk S R h' h ∧
      ∃ pos' p' d', decode S b (.resolved h'.ty h'.id) pos' p' = .ok d' := by
  obtain ⟨s, k1, k2⟩ := decode_symbol hd
  obtain ⟨t, k3, k4⟩ := hs _ _ k1
  have hf := huskType_fine S id c
  unfold huskType at e hf ⊢
  obtain ⟨c', e1, e⟩ := bind_ok.1 e
  obtain ⟨t', e2, e⟩ := bind_ok.1 e
  rw [get_ok, k3] at e2; cases e2
  rw [e1, ok_bind, get_ok.2 k1, ok_bind] at hf ⊢
  rcases huskLoop_known hs (S.size + 1) _ e k1 k3 k4 k2 with h | h
  · rw [h] at hf
    obtain ⟨_, h⟩ := hf _ rfl
    cases h
  · exact h

theorem subSwallow_ok {α : Type} {r : Res α} {a : α} (h : r = .ok a) : swallow r = .ok (some a) := by rw [h]; rfl

theorem subSwallow_some {α : Type} {r : Res α} {a : α} (h : swallow r = .ok (some a)) : r = .ok a := by
  unfold swallow at h
  split at h <;> first | cases h; rfl | cases h

theorem subSwallow_none {α : Type} {r : Res α} (h : swallow r = .ok none) : ∃ e, r = .error (.err e) := by
  unfold swallow at h
  split at h
  · cases h
  · exact ⟨_, rfl⟩
  · cases h

/-- What follows the recognition of a husked type. -/
def signatureOf (f : Field) (len : Nat) (prim : Bool) : Option FixedKind :=
  if prim then
    match f.typeName with
    | some typeName =>
      if signatureEcdsaIdSet.contains typeName then
        (if len = FixedKind.signatureEcdsa.len then some .signatureEcdsa else none)
      else if signatureEd25519IdSet.contains typeName then
        (if len = FixedKind.signatureEd25519.len then some .signatureEd25519 else none)
      else if signatureSr25519IdSet.contains typeName then
        (if len = FixedKind.signatureSr25519.len then some .signatureSr25519 else none)
      else none
    | none => none
  else none

theorem signatureIndicator_some {f : Field} {k : FixedKind} : signatureIndicator R f = .ok (some k) ↔
    ∃ h len elem t, huskType R f.ty Checker.new = .ok h ∧ h.ty.typeDef = .array len elem ∧ R.get elem = .ok t ∧
      signatureOf f len (t.typeDef = .primitive .u8) = some k := by
  constructor
  · intro h
    unfold signatureIndicator at h
    obtain ⟨o, h1, h⟩ := bind_ok.1 h
    cases o with
    | none => cases h
    | some u =>
      dsimp only at h
      split at h
      · rename_i len elem he
        obtain ⟨o, h2, h⟩ := bind_ok.1 h
        cases o with
        | none => cases h
        | some t =>
          refine ⟨u, len, elem, t, subSwallow_some h1, he, subSwallow_some h2, ?_⟩
          unfold signatureOf
          dsimp only at h
          by_cases hp : t.typeDef = .primitive .u8
          · rw [if_pos hp] at h
            simp only [hp, decide_true, if_true]
            cases hn : f.typeName with
            | none => rw [hn] at h; cases h
            | some y =>
              rw [hn] at h
              dsimp only at h ⊢
              split at h
              · rename_i x; rw [if_pos x]; exact Except.ok.inj h
              · rename_i x
                rw [if_neg x]
                split at h
                · rename_i x; rw [if_pos x]; exact Except.ok.inj h
                · rename_i x
                  rw [if_neg x]
                  split at h
                  · rename_i x; rw [if_pos x]; exact Except.ok.inj h
                  · cases h
          · rw [if_neg hp] at h
            cases h
      · cases h
  · rintro ⟨u, len, elem, t, h1, h2, h3, h4⟩
    unfold signatureIndicator
    rw [subSwallow_ok h1, ok_bind]
    dsimp only
    rw [h2]
    dsimp only
    rw [subSwallow_ok h3, ok_bind]
    dsimp only
    unfold signatureOf at h4
    split at h4
    · rename_i hp
      rw [if_pos (by simpa using hp)]
      cases hn : f.typeName with
      | none => rw [hn] at h4; cases h4
      | some y =>
        rw [hn] at h4
        dsimp only at h4 ⊢
        split at h4
        · rename_i x; rw [if_pos x, h4]
        · rename_i x
          rw [if_neg x]
          split at h4
          · rename_i x; rw [if_pos x, h4]
          · rename_i x
            rw [if_neg x]
            split at h4
            · rename_i x; rw [if_pos x, h4]
            · cases h4
    · cases h4

theorem signature_up (hs : Shortened S R) {f : Field} {k : FixedKind} (h : signatureIndicator S f = .ok (some k)) :
    signatureIndicator R f = .ok (some k) := by
  obtain ⟨u, len, elem, s, h1, h2, h3, h4⟩ := signatureIndicator_some.1 h
  rcases huskType_sub hs f.ty Checker.new u h1 with h | ⟨u', g1, g2⟩
  · obtain ⟨_, h⟩ := huskType_fine R f.ty Checker.new _ h
    cases h
  · obtain ⟨-, -, -, -, -, q⟩ := g2
    have e := q.eq' (by rw [h2]; intro _ h; cases h)
    obtain ⟨t, k2, k3⟩ := hs _ _ (get_ok.1 h3)
    refine signatureIndicator_some.2 ⟨u', len, elem, t, g1, e ▸ h2, get_ok.2 k2, ?_⟩
    rw [← h4]
    congr 2
    rcases k3 with rfl | ⟨vs, ws, e, -, rfl, -⟩
    · rfl
    · simp [e]

theorem signature_down (hs : Shortened S R) (ha : ArraysNameless R) {f : Field} {k : FixedKind} (h : signatureIndicator R f = .ok (some k))
    {pos : Nat} {p : Propagated} {d : ED × Nat} (hd : decode S b (.symbol f.ty) pos p = .ok d) :
    signatureIndicator S f = .ok (some k) := by
  obtain ⟨u, len, elem, t, h1, h2, h3, h4⟩ := signatureIndicator_some.1 h
  obtain ⟨u', g1, ⟨-, -, -, -, a, q⟩, pos', p', d', g2⟩ := huskType_known hs h1 hd
  have e := q.eq (by rw [h2]; intro _ h; cases h)
  have hh : TypeHinted.fromType u'.ty = .none := by
    rw [e]
    unfold TypeHinted.fromType Typ.ident
    rw [ha _ _ _ _ a h2]
    rfl
  have g3 := decode_plain hh g2
  unfold decodeTypeDef at g3
  rw [e, h2] at g3
  dsimp only at g3
  unfold decodeElementsSet at g3
  obtain ⟨_, -, g3⟩ := bind_ok.1 g3
  obtain ⟨w, g3, -⟩ := bind_ok.1 g3
  unfold huskType at g3
  obtain ⟨_, -, g3⟩ := bind_ok.1 g3
  obtain ⟨s, g3, -⟩ := bind_ok.1 g3
  obtain ⟨t', k2, k3⟩ := hs _ _ (get_ok.1 g3)
  rw [get_ok, k2] at h3; cases h3
  refine signatureIndicator_some.2 ⟨u', len, elem, s, g1, e ▸ h2, g3, ?_⟩
  rw [← h4]
  congr 2
  rcases k3 with rfl | ⟨vs, ws, e, -, rfl, -⟩
  · rfl
  · simp [e]

/-! ### The decoder -/

theorem pickVariant_nil (pos : Nat) : ∃ e, pickVariant [] b pos = .error (.err e) := by
  rcases (pickVariant_fine [] b pos).cases with ⟨v, h⟩ | h
  · unfold pickVariant at h
    obtain ⟨_, -, h⟩ := bind_ok.1 h
    cases h
  · exact h

/-- Decoding of an enum that is not special. -/
theorem decodeTypeDef_variant {rec : Dec} {s : Typ} {id pos : Nat} {p : Propagated} {vs : List Variant} {a : ED × Nat}
    (e : s.typeDef = .variant vs) (h : decodeTypeDef S rec b s id pos p = .ok a) :
    vs = [] ∨ ∃ v fs, pickVariant vs b pos = .ok v ∧ decodeFields rec v.fields (pos + 1) Checker.new = .ok fs := by
  unfold decodeTypeDef at h
  rw [e] at h
  dsimp only at h
  obtain ⟨_, -, h⟩ := bind_ok.1 h
  split at h
  · rename_i hv
    exact .inl (List.isEmpty_iff.1 hv)
  · obtain ⟨r, h, -⟩ := bind_ok.1 h
    unfold decodeVariant at h
    obtain ⟨v, h1, h⟩ := bind_ok.1 h
    obtain ⟨fs, h2, -⟩ := bind_ok.1 h
    exact .inr ⟨v, fs, h1, h2⟩

theorem checked_sub (hs : Shortened S R) (hi : IndicesDistinct R) (ha : ArraysNameless R) {rec : Dec}
    (h : RecSub S R (decode S b) rec) {s t : Typ} {id : Nat}
    (a' : R.resolve id = .ok t) (q : ShortTyp s t) (pos : Nat) (p : Propagated) :
    Sub Eq (TypeChecked.fromType S s b pos >>= fun x => decodeChecked S (decode S b) b x.1 s id x.2 p)
      (TypeChecked.fromType R t b pos >>= fun x => decodeChecked R rec b x.1 t id x.2 p) := by
  have plain : ∀ pos, Sub Eq (decodeChecked S (decode S b) b .none s id pos p) (decodeChecked R rec b .none t id pos p) :=
    fun pos => decodeTypeDef_sub hs hi h a' q pos p
  unfold TypeChecked.fromType
  rw [q.hinted]
  split
  · exact plain _
  · exact Sub.rfl
  · exact Sub.rfl
  · exact Sub.rfl
  · -- multisignature
    by_cases hv : ∃ vs, s.typeDef = .variant vs
    · obtain ⟨vs, hv⟩ := hv
      obtain ⟨ws, hw, h1, h2⟩ := q.variants hv
      unfold checkMultiSignature
      rw [hv, hw]
      dsimp only
      rcases (pickVariant_fine vs b pos).cases with ⟨v, hp⟩ | ⟨e, hp⟩
      · have hp' : pickVariant ws b pos = .ok v := by
          rcases pickVariant_sub (hi _ _ _ a' hw) h1 pos v hp with h | ⟨v', h, rfl⟩
          · obtain ⟨_, h⟩ := pickVariant_fine ws b pos _ h; cases h
          · exact h
        rw [subSwallow_ok hp, subSwallow_ok hp', ok_bind, ok_bind]
        dsimp only
        split
        · rename_i f ef
          obtain ⟨o, ho⟩ := signatureIndicator_total S f
          obtain ⟨o', ho'⟩ := signatureIndicator_total R f
          rw [ho, ho', ok_bind, ok_bind]
          cases o with
          | some k =>
            rw [signature_up hs ho] at ho'
            cases ho'
            exact Sub.rfl
          | none =>
            cases o' with
            | none => exact plain _
            | some k =>
              intro r hr
              rcases decodeTypeDef_variant hv hr with rfl | ⟨v', fs, k1, k2⟩
              · obtain ⟨_, e⟩ := pickVariant_nil (b := b) pos
                rw [hp] at e; cases e
              · rw [hp] at k1; cases k1
                rw [ef] at k2
                obtain ⟨p', d', k2⟩ := decodeFields_first k2
                rw [signature_down hs ha ho' k2] at ho
                cases ho
        · exact plain _
      · have e1 : swallow (pickVariant vs b pos) = .ok none := by rw [hp]; rfl
        rw [e1, ok_bind]
        dsimp only
        intro r hr
        rcases decodeTypeDef_variant hv hr with rfl | ⟨v', fs, k1, k2⟩
        · have : ws = [] := List.isEmpty_iff.1 (by rw [← h2]; rfl)
          subst this
          rw [hp]
          exact plain _ r hr
        · rw [hp] at k1; cases k1
    · have e := q.eq' fun vs e => hv ⟨vs, e⟩
      subst e
      unfold checkMultiSignature
      split
      · rename_i vs e; exact absurd ⟨vs, e⟩ hv
      · exact plain _
  · -- pallet
    by_cases hv : ∃ vs, s.typeDef = .variant vs
    · obtain ⟨vs, hv⟩ := hv
      obtain ⟨ws, hw, h1, h2⟩ := q.variants hv
      unfold checkPalletSpecific
      rw [hv, hw]
      dsimp only
      rcases (pickVariant_fine vs b pos).cases with ⟨v, hp⟩ | ⟨e, hp⟩
      · have hp' : pickVariant ws b pos = .ok v := by
          rcases pickVariant_sub (hi _ _ _ a' hw) h1 pos v hp with h | ⟨v', h, rfl⟩
          · obtain ⟨_, h⟩ := pickVariant_fine ws b pos _ h; cases h
          · exact h
        rw [subSwallow_ok hp, subSwallow_ok hp', ok_bind, ok_bind]
        dsimp only
        split
        · rename_i f ef
          rcases (S.get_fine f.ty).cases with ⟨s1, hg⟩ | ⟨e, hg⟩
          · obtain ⟨t1, g1, g2⟩ := hs _ _ (get_ok.1 hg)
            rw [subSwallow_ok hg, subSwallow_ok (get_ok.2 g1), ok_bind, ok_bind]
            dsimp only
            rw [g2.hinted]
            split
            · split
              · exact plain _
              · by_cases hv1 : ∃ vs, s1.typeDef = .variant vs
                · obtain ⟨vs1, hv1⟩ := hv1
                  obtain ⟨ws1, hw1, h11, h21⟩ := g2.variants hv1
                  rw [hv1, hw1]
                  dsimp only
                  rw [ok_bind, ok_bind, g2.info]
                  dsimp only [decodeChecked]
                  refine Sub.bindL fun _ _ => ?_
                  refine Sub.bind (decodeVariant_sub h (hi _ _ _ g1 hw1) h11 _) fun r _ _ _ e => ?_
                  subst e
                  exact Sub.rfl
                · have e := g2.eq' fun vs e => hv1 ⟨vs, e⟩
                  subst e
                  split
                  · rename_i vs e; exact absurd ⟨vs, e⟩ hv1
                  · exact plain _
            · exact plain _
          · have e1 : swallow (S.get f.ty) = .ok none := by rw [hg]; rfl
            rw [e1, ok_bind]
            intro r hr
            rcases decodeTypeDef_variant hv hr with rfl | ⟨v', fs, k1, k2⟩
            · obtain ⟨_, e⟩ := pickVariant_nil (b := b) pos
              rw [hp] at e; cases e
            · rw [hp] at k1; cases k1
              rw [ef] at k2
              obtain ⟨p', d', k2⟩ := decodeFields_first k2
              obtain ⟨s', k3, -⟩ := decode_symbol k2
              rw [get_ok.2 k3] at hg; cases hg
        · exact plain _
      · have e1 : swallow (pickVariant vs b pos) = .ok none := by rw [hp]; rfl
        rw [e1, ok_bind]
        dsimp only
        intro r hr
        rcases decodeTypeDef_variant hv hr with rfl | ⟨v', fs, k1, k2⟩
        · have : ws = [] := List.isEmpty_iff.1 (by rw [← h2]; rfl)
          subst this
          rw [hp]
          exact plain _ r hr
        · rw [hp] at k1; cases k1
    · have e := q.eq' fun vs e => hv ⟨vs, e⟩
      subst e
      unfold checkPalletSpecific
      split
      · rename_i vs e; exact absurd ⟨vs, e⟩ hv
      · exact plain _
  · exact Sub.rfl
  · exact plain _

theorem decodeF_sub (hs : Shortened S R) (hi : IndicesDistinct R) (ha : ArraysNameless R) (m : Nat) :
    RecSub S R (decode S b) (decodeF R b m) := by
  induction m with
  | zero => exact fun _ _ _ _ _ _ _ => .inl rfl
  | succ m ih =>
    intro tyIn tyIn' pos p h
    rw [decode_fix]
    show Sub Eq _ (decodeStep R b (decodeF R b m) tyIn pos p)
    unfold decodeStep
    have h1 : Sub (fun x' x => x'.2 = x.2 ∧ R.resolve x.2 = .ok x.1 ∧ ShortTyp x'.1 x.1) (tyIn'.resolve S) (tyIn.resolve R) := by
      cases h with
      | symbol id =>
        exact Sub.bind (get_sub hs id) fun s t _ _ q => Sub.ok ⟨rfl, q.2.1, q.2.2⟩
      | resolved a a' q => exact Sub.ok ⟨rfl, a', q⟩
    refine Sub.bind h1 fun x' x _ _ q => ?_
    obtain ⟨s, id⟩ := x'
    obtain ⟨t, id'⟩ := x
    obtain ⟨rfl, q1, q2⟩ := q
    dsimp only at q1 q2 ⊢
    rw [q2.info]
    exact checked_sub hs hi ha ih q1 q2 pos _

/-- What is decoded with the shortened registry is decoded with the full one. -/
theorem decode_full (hs : Shortened S R) (hi : IndicesDistinct R) (ha : ArraysNameless R) {id pos : Nat} {p : Propagated}
    {r : ED × Nat} (h : decode S b (.symbol id) pos p = .ok r) : decode R b (.symbol id) pos p = .ok r := by
  rcases decodeF_sub hs hi ha (depthBound R b pos) _ _ pos p (.symbol id) r h with h | ⟨r', h, rfl⟩
  · obtain ⟨e, he⟩ := decode_fine (R := R) (b := b) (.symbol id) pos p _ h
    cases he
  · exact h

end Verif
