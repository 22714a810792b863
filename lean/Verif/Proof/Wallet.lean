import Verif.Spec.Wallet
import Verif.Proof.Proper
import Verif.Proof.Encoder
import Verif.Props.Typed
import Verif.Props.Canonical
/-!
# The wallet decides what is proper
-/
namespace Verif.Wallet'
open Spec

variable {R : Registry}

theorem structural_iff {path : List String} : Check.structural path = true ↔ Structural path := by
  unfold Check.structural Structural
  cases special path with
  | none => simp
  | some k => cases k <;> simp

theorem through_some {n id : Nat} {o : Option Typ} (h : Wallet.through R n id = some o) (t : Typ) :
    Through R id t ↔ o = some t := by
  induction n generalizing id with
  | zero => cases h
  | succ n ih =>
    unfold Wallet.through at h
    cases hr : R.resolve id with
    | error e =>
      rw [hr] at h
      cases h
      constructor
      · intro ht
        cases ht with
        | stop hr' _ => rw [hr] at hr'; cases hr'
        | compact hr' _ _ _ => rw [hr] at hr'; cases hr'
      · intro h; cases h
    | ok t0 =>
      rw [hr] at h
      dsimp only at h
      split at h
      · rename_i inner hd
        split at h
        · rename_i hs
          rw [← ih h]
          constructor
          · intro ht
            cases ht with
            | stop hr' h' => rw [hr] at hr'; cases hr'; exact absurd hd (h' (structural_iff.1 hs) inner)
            | compact hr' _ hd' ht => rw [hr] at hr'; cases hr'; rw [hd] at hd'; cases hd'; exact ht
          · exact .compact hr (structural_iff.1 hs) hd
        · rename_i hs
          cases h
          constructor
          · intro ht
            cases ht with
            | stop hr' h' => rw [hr] at hr'; cases hr'; rfl
            | compact hr' hs' _ _ => rw [hr] at hr'; cases hr'; exact absurd (structural_iff.2 hs') hs
          · intro e; cases e
            exact .stop hr fun hs' => absurd (structural_iff.2 hs') hs
      · rename_i hd
        cases h
        constructor
        · intro ht
          cases ht with
          | stop hr' h' => rw [hr] at hr'; cases hr'; rfl
          | compact hr' _ hd' _ => rw [hr] at hr'; cases hr'; exact absurd hd' (hd _)
        · intro e; cases e
          exact .stop hr fun _ i => hd i

theorem uintOf_iff {p : Prim} : (Encoder.uintOf p).isSome = true ↔ ∃ w, IsUInt p w := by
  cases p <;> simp [Encoder.uintOf] <;> first
    | exact ⟨_, .u8⟩ | exact ⟨_, .u16⟩ | exact ⟨_, .u32⟩ | exact ⟨_, .u64⟩ | exact ⟨_, .u128⟩
    | (intro x h; cases h)

theorem markOfType_iff {h : Hint} {t : Typ} {m : Mark} : Wallet.markOfType h t = some m ↔ MarkedAs h t m := by
  unfold Wallet.markOfType
  split
  · rename_i hs
    constructor
    · intro e; cases e; exact hs
    · intro hm
      cases m with
      | specVersion => exact absurd hm.2.1 (not_structural_era hs)
      | genesisHash | blockHash => have := hm.2; rw [hs] at this; cases this
      | era => rfl
  · rename_i hs
    have no : special t.path ≠ some .era := by rw [hs]; intro h; cases h
    cases m with
    | specVersion =>
      constructor
      · intro e
        split at e
        · cases e
        · split at e <;> cases e
      · intro hm; exact absurd hm.2.1 (not_structural_hash hs)
    | era =>
      constructor
      · intro e
        split at e
        · cases e
        · split at e <;> cases e
      · intro hm; exact absurd hm no
    | genesisHash =>
      constructor
      · intro e
        split at e
        · rename_i hh; exact ⟨hh, hs⟩
        · split at e <;> cases e
      · intro hm; rw [if_pos hm.1]
    | blockHash =>
      constructor
      · intro e
        split at e
        · cases e
        · split at e
          · rename_i hh; exact ⟨hh, hs⟩
          · cases e
      · intro hm; rw [hm.1]; rfl
  · rename_i k hs
    constructor
    · intro e; cases e
    · intro hm
      cases m with
      | specVersion => have := hm.2.1; unfold Structural at this; rw [hs] at this; cases this
      | genesisHash | blockHash => have := hm.2; rw [hs] at this; cases this
      | era => unfold MarkedAs at hm; rw [hs] at hm; cases hm
  · rename_i k hs
    constructor
    · intro e; cases e
    · intro hm
      cases m with
      | specVersion => have := hm.2.1; unfold Structural at this; rw [hs] at this; cases this
      | genesisHash | blockHash => have := hm.2; rw [hs] at this; cases this
      | era => unfold MarkedAs at hm; rw [hs] at hm; cases hm
  · rename_i n1 n2 n3 n4
    have hst : Structural t.path := by
      unfold Structural
      split
      · rename_i h'; exact absurd h' (n3 _)
      · rename_i h'; exact absurd h' n1
      · rename_i h'; exact absurd h' n2
      · rename_i h'; exact absurd h' (n4 _)
      · trivial
    cases m with
    | specVersion =>
      split
      · rename_i p hd
        constructor
        · intro e
          split at e
          · rename_i hc
            obtain ⟨w, hw⟩ := uintOf_iff.1 hc.1
            exact ⟨hc.2, hst, p, w, hd, hw⟩
          · cases e
        · rintro ⟨hh, _, p', w, hd', hw⟩
          rw [hd] at hd'; cases hd'
          rw [if_pos ⟨uintOf_iff.2 ⟨w, hw⟩, hh⟩]
      · rename_i hd
        constructor
        · intro e; cases e
        · rintro ⟨_, _, p', w, hd', hw⟩; exact absurd hd' (hd p')
    | genesisHash | blockHash =>
      constructor
      · intro e
        split at e
        · split at e <;> cases e
        · cases e
      · intro hm; exact absurd hm.2 n2
    | era =>
      constructor
      · intro e
        split at e
        · split at e <;> cases e
        · cases e
      · intro hm; exact absurd hm n1

theorem markOfItem_iff {n : Nat} {item : String × Nat} {o : Option Mark} (h : Wallet.markOfItem R n item = some o) (m : Mark) :
    CountsAs R item m ↔ o = some m := by
  unfold Wallet.markOfItem at h
  split at h
  · cases h
  · rename_i ht
    cases h
    constructor
    · rintro ⟨t, h1, _⟩; exact absurd ((through_some ht t).1 h1) (by simp)
    · intro h; cases h
  · rename_i t ht
    have hT := fun t' => through_some ht t'
    have plain : (¬ (Structural t.path ∧ ∃ f, t.typeDef = .composite [f])) → Wallet.markOfType (extLabel item.1) t = o →
        (CountsAs R item m ↔ o = some m) := by
      intro hn ho
      rw [← ho, markOfType_iff]
      constructor
      · rintro ⟨t', h1, h2⟩
        have := (hT t').1 h1
        cases this
        rcases h2 with h2 | ⟨f, _, h3, h4, _⟩
        · exact h2
        · exact absurd ⟨h3, f, h4⟩ hn
      · intro h2; exact ⟨t, (hT t).2 rfl, .inl h2⟩
    split at h
    · rename_i f hd
      split at h
      · rename_i hs
        have hs := structural_iff.1 hs
        have none' : ¬ MarkedAs (extLabel item.1) t m := by
          intro hm
          cases m with
          | specVersion => obtain ⟨_, _, p, w, hp, _⟩ := hm; rw [hd] at hp; cases hp
          | genesisHash | blockHash => exact not_structural_hash hm.2 hs
          | era => exact not_structural_era hm hs
        split at h
        · cases h
        · rename_i hf
          cases h
          constructor
          · rintro ⟨t', h1, h2⟩
            have := (hT t').1 h1
            cases this
            rcases h2 with h2 | ⟨f', t', _, h4, h5, _⟩
            · exact absurd h2 none'
            · rw [hd] at h4; cases h4
              exact absurd ((through_some hf t').1 h5) (by simp)
          · intro h; cases h
        · rename_i t' hf
          cases h
          rw [markOfType_iff]
          constructor
          · rintro ⟨t', h1, h2⟩
            have := (hT t').1 h1
            cases this
            rcases h2 with h2 | ⟨f', t', _, h4, h5, h6⟩
            · exact absurd h2 none'
            · rw [hd] at h4; cases h4
              have := (through_some hf t').1 h5
              cases this
              exact h6
          · intro h; exact ⟨t, (hT t).2 rfl, .inr ⟨f, t', hs, hd, (through_some hf t').2 rfl, h⟩⟩
      · rename_i hs
        cases h
        exact plain (fun h => hs (structural_iff.2 h.1)) rfl
    · rename_i hd
      cases h
      exact plain (fun ⟨_, f, h⟩ => hd f h) rfl

/-- Places of the values that count as `m`. -/
theorem marked_place {n : Nat} {items : List (String × Nat)} {vs : List Value} (hl : vs.length = items.length)
    (hd : ∀ i ∈ items, (Wallet.markOfItem R n i).isSome) (m : Mark) (i : Nat) (v : Value) :
    CountsAt R items vs m i v ↔ ∃ x, (items.zip vs)[i]? = some x ∧
      (if Wallet.markOfItem R n x.1 = some (some m) then some x.2 else none) = some v := by
  constructor
  · rintro ⟨item, h1, h2, h3⟩
    refine ⟨(item, v), by rw [List.getElem?_zip_eq_some]; exact ⟨h1, h2⟩, ?_⟩
    obtain ⟨o, ho⟩ := Option.isSome_iff_exists.1 (hd item (List.mem_of_getElem? h1))
    rw [(markOfItem_iff ho m).1 h3] at ho
    rw [if_pos ho]
  · rintro ⟨⟨item, w⟩, h1, h2⟩
    rw [List.getElem?_zip_eq_some] at h1
    dsimp only at h1 h2
    split at h2
    · rename_i ho
      cases h2
      exact ⟨item, h1.1, h1.2, (markOfItem_iff ho m).2 rfl⟩
    · cases h2


/-- The check decides what is proper. -/
theorem proper_iff {n : Nat} {items : List (String × Nat)} {vs : List Value} {version : String} {expected : Option Bytes}
    {o : Bool} (hl : vs.length = items.length) (h : Wallet.proper R n items vs version expected = some o) :
    o = true ↔ Proper R items vs version expected := by
  unfold Wallet.proper at h
  split at h
  case isFalse => cases h
  rename_i hd
  have hd : ∀ i ∈ items, (Wallet.markOfItem R n i).isSome := by simpa using hd
  have place := marked_place hl hd
  have one : ∀ (m : Mark) (v : Value), Wallet.marked R n items vs m = [v] ↔
      ∃ i, CountsAt R items vs m i v ∧ ∀ j w, CountsAt R items vs m j w → j = i := by
    intro m v
    unfold Wallet.marked
    rw [filterMap_one]
    constructor
    · rintro ⟨i, a, h1, h2, h3⟩
      refine ⟨i, (place m i v).2 ⟨a, h1, h2⟩, fun j w hj => ?_⟩
      obtain ⟨x, hx, hx'⟩ := (place m j w).1 hj
      exact h3 j x hx ⟨w, hx'⟩
    · rintro ⟨i, h1, h2⟩
      obtain ⟨a, ha, ha'⟩ := (place m i v).1 h1
      exact ⟨i, a, ha, ha', fun j c hj ⟨y, hy⟩ => h2 j y ((place m j y).2 ⟨c, hj, hy⟩)⟩
  have most : ∀ m : Mark, (Wallet.marked R n items vs m).length ≤ 1 ↔
      ∀ i j v w, CountsAt R items vs m i v → CountsAt R items vs m j w → i = j := by
    intro m
    unfold Wallet.marked
    rw [filterMap_le_one]
    constructor
    · intro h i j v w hi hj
      obtain ⟨x, hx, hx'⟩ := (place m i v).1 hi
      obtain ⟨y, hy, hy'⟩ := (place m j w).1 hj
      exact h i j x y hx hy ⟨v, hx'⟩ ⟨w, hy'⟩
    · intro h i j a c hi hj ⟨y, hy⟩ ⟨z, hz⟩
      exact h i j y z ((place m i y).2 ⟨a, hi, hy⟩) ((place m j z).2 ⟨c, hj, hz⟩)
  have only : ∀ (m : Mark) (i : Nat) (v : Value), (Wallet.marked R n items vs m).length ≤ 1 → CountsAt R items vs m i v →
      Wallet.marked R n items vs m = [v] := by
    intro m i v hm hi
    exact (one m v).2 ⟨i, hi, fun j w hj => (most m).1 hm j i w v hj hi⟩
  cases h
  simp only [Bool.and_eq_true, decide_eq_true_eq]
  constructor
  · rintro ⟨⟨⟨⟨h1, h2⟩, h3⟩, h4⟩, h5⟩
    refine ⟨?_, ?_, (most _).1 h3, (most _).1 h4, ?_⟩
    · split at h1
      · rename_i w k e
        obtain ⟨i, c1, c2⟩ := (one _ _).1 e
        exact ⟨i, w, k, c1, by simpa using h1, c2⟩
      · cases h1
    · split at h2
      · rename_i g e
        obtain ⟨i, c1, c2⟩ := (one _ _).1 e
        refine ⟨i, g, c1, ?_, c2⟩
        intro e' he
        subst he
        simpa using h2
      · cases h2
    · intro i j k h g hi hj hk
      have e1 := only _ i _ h3 hi
      have e2 := only _ j _ h4 hj
      split at h2
      · rename_i g' e
        have e3 := only _ k _ (by rw [e]; simp) hk
        rw [e1, e2, e3] at h5
        simpa using h5
      · cases h2
  · rintro ⟨⟨i, w, k, a1, a2, a3⟩, ⟨i', g, b1, b2, b3⟩, c1, c2, c3⟩
    have e1 := (one .specVersion _).2 ⟨i, a1, a3⟩
    have e2 := (one .genesisHash _).2 ⟨i', b1, b3⟩
    refine ⟨⟨⟨⟨?_, ?_⟩, (most _).2 c1⟩, (most _).2 c2⟩, ?_⟩
    · rw [e1]; simpa using a2
    · rw [e2]
      cases expected with
      | none => rfl
      | some e => simpa using b2 e rfl
    · rw [e2]
      split
      · rename_i h g' x1 x2 x3
        cases x3
        obtain ⟨p, p1, _⟩ := (one _ _).1 x1
        obtain ⟨q, q1, _⟩ := (one _ _).1 x2
        simpa using c3 p q i' h g p1 q1 b1
      · rfl


/-- Compacts are taken off in two steps, for types that have values. -/
theorem through_total {c : Bool} {id : Nat} {v : Value} {bs : Bytes} (h : Enc R c id v bs) (n : Nat) :
    ∃ t, Wallet.through R (n + 2) id = some (some t) ∧
      ∀ f, Structural t.path → t.typeDef = .composite [f] → ∃ c' v' bs', Enc R c' f.ty v' bs' := by
  have stop : ∀ {c : Bool} {id : Nat} {v : Value} {bs : Bytes} (n : Nat) (t : Typ), Enc R c id v bs → R.resolve id = .ok t →
      (Structural t.path → ∀ i, t.typeDef ≠ .compact i) → Wallet.through R (n + 1) id = some (some t) ∧
      ∀ f, Structural t.path → t.typeDef = .composite [f] → ∃ c' v' bs', Enc R c' f.ty v' bs' := by
    intro c id v bs n t h hr hn
    constructor
    · unfold Wallet.through
      rw [hr]
      dsimp only
      split
      · rename_i i hd
        rw [if_neg]
        intro hs
        exact hn (structural_iff.1 hs) i hd
      · rfl
    · intro f hs hd
      cases h with
      | newtype hr' _ hd' he => rw [hr] at hr'; cases hr'; rw [hd] at hd'; cases hd'; exact ⟨_, _, _, he⟩
      | record hr' _ hd' hl => rw [hr] at hr'; cases hr'; rw [hd] at hd'; cases hd'; simp at hl
      | unit hr' _ hd' | never hr' _ hd' | variant hr' _ hd' | sequence hr' _ hd' | array hr' _ hd' | tuple hr' _ hd'
        | primitive hr' _ hd' | compact hr' _ hd' | bits hr' _ hd' => rw [hr] at hr'; cases hr'; rw [hd] at hd'; cases hd'
      | fixed hr' hp | era hr' hp | hash hr' hp | per hr' hp | perCompact hr' hp =>
        rw [hr] at hr'; cases hr'; unfold Structural at hs; rw [hp] at hs; cases hs
      | signature hr' hp => obtain ⟨_, _, _, _, hd', _⟩ := hp; rw [hr] at hr'; cases hr'; rw [hd] at hd'; cases hd'
      | pallet hr' hp => obtain ⟨_, _, _, _, _, hd', _⟩ := hp; rw [hr] at hr'; cases hr'; rw [hd] at hd'; cases hd'
  have inside : ∀ {id : Nat} {v : Value} {bs : Bytes}, Enc R true id v bs → ∀ t, R.resolve id = .ok t →
      Structural t.path → ∀ i, t.typeDef ≠ .compact i := by
    intro id v bs h t hr hs i hd
    cases h with
    | newtype hr' _ hd' | unit hr' _ hd' | tuple hr' _ hd' | primitive hr' _ hd' =>
      rw [hr] at hr'; cases hr'; rw [hd] at hd'; cases hd'
    | perCompact hr' hp => rw [hr] at hr'; cases hr'; unfold Structural at hs; rw [hp] at hs; cases hs
  obtain ⟨t, hr⟩ : ∃ t, R.resolve id = .ok t := by cases h <;> exact ⟨_, by assumption⟩
  by_cases hc : Structural t.path ∧ ∃ i, t.typeDef = .compact i
  · obtain ⟨hs, i, hd⟩ := hc
    have hi : Enc R true i v bs := by
      cases h with
      | compact hr' _ hd' he => rw [hr] at hr'; cases hr'; rw [hd] at hd'; cases hd'; exact he
      | record hr' _ hd' hl => rw [hr] at hr'; cases hr'; rw [hd] at hd'; cases hd'
      | newtype hr' _ hd' | unit hr' _ hd' | never hr' _ hd' | variant hr' _ hd' | sequence hr' _ hd' | array hr' _ hd'
        | tuple hr' _ hd' | primitive hr' _ hd' | bits hr' _ hd' => rw [hr] at hr'; cases hr'; rw [hd] at hd'; cases hd'
      | fixed hr' hp | era hr' hp | hash hr' hp | per hr' hp | perCompact hr' hp =>
        rw [hr] at hr'; cases hr'; unfold Structural at hs; rw [hp] at hs; cases hs
      | signature hr' hp => obtain ⟨_, _, _, _, hd', _⟩ := hp; rw [hr] at hr'; cases hr'; rw [hd] at hd'; cases hd'
      | pallet hr' hp => obtain ⟨_, _, _, _, _, hd', _⟩ := hp; rw [hr] at hr'; cases hr'; rw [hd] at hd'; cases hd'
    obtain ⟨t', hr'⟩ : ∃ t, R.resolve i = .ok t := by cases hi <;> exact ⟨_, by assumption⟩
    obtain ⟨h1, h2⟩ := stop n t' hi hr' (inside hi t' hr')
    refine ⟨t', ?_, h2⟩
    rw [Wallet.through, hr]
    dsimp only
    rw [hd]
    dsimp only
    rw [if_pos (structural_iff.2 hs)]
    exact h1
  · obtain ⟨h1, h2⟩ := stop (n + 1) t h hr (fun hs i hd => hc ⟨hs, i, hd⟩)
    exact ⟨t, h1, h2⟩

theorem markOfItem_total {c : Bool} {item : String × Nat} {v : Value} {bs : Bytes} (h : Enc R c item.2 v bs) (n : Nat) :
    (Wallet.markOfItem R (n + 2) item).isSome := by
  obtain ⟨t, h1, h2⟩ := through_total h n
  unfold Wallet.markOfItem
  rw [h1]
  dsimp only
  split
  · rename_i f hd
    split
    · rename_i hs
      obtain ⟨_, _, _, he⟩ := h2 f (structural_iff.1 hs) hd
      obtain ⟨t', h3, _⟩ := through_total he n
      rw [h3]; rfl
    · rfl
  · rfl

/-- The check always tells, for extensions that have these values. -/
theorem proper_total {items : List (String × Nat)} {vs : List Value} {bs : Bytes} (h : ItemsEnc R items vs bs)
    (version : String) (expected : Option Bytes) (n : Nat) :
    ∃ o, Wallet.proper R (n + 2) items vs version expected = some o := by
  unfold Wallet.proper
  rw [if_pos]
  · exact ⟨_, rfl⟩
  · rw [List.all_eq_true]
    intro item hi
    obtain ⟨ps, _, _, hl, hps⟩ := h
    obtain ⟨i, hi⟩ := List.getElem?_of_mem hi
    have hlt : i < ps.length := by rw [hl]; exact (List.getElem?_eq_some_iff.1 hi).1
    have hm : (item, ps[i]) ∈ items.zip ps :=
      List.mem_of_getElem? (i := i) (by rw [List.getElem?_zip_eq_some]; exact ⟨hi, List.getElem?_eq_getElem hlt⟩)
    exact markOfItem_total (hps _ hm) n

/-- The encoder writes the values of the items. -/
theorem parts_itemsEnc {n : Nat} {items : List (String × Nat)} {vs : List Value} {bs : Bytes}
    (h : Encoder.parts (Encoder.encode R n false) (items.map (·.2)) vs = some bs) : ItemsEnc R items vs bs := by
  obtain ⟨ps, h1, h2, h3, h4⟩ := Encoder'.parts_sound h
  refine ⟨ps, h2, h3, by simpa using h1, fun x hx => ?_⟩
  refine Encoder'.encode_sound (n := n) (h4 (x.1.2, x.2) ?_)
  rw [List.zip_map_left]
  exact List.mem_map.2 ⟨x, hx, rfl⟩

theorem itemsEnc_length {items : List (String × Nat)} {vs : List Value} {bs : Bytes} (h : ItemsEnc R items vs bs) :
    vs.length = items.length := by
  obtain ⟨ps, rfl, _, h, _⟩ := h
  simpa [Parts.values] using h

/-- The values of the items are written. -/
theorem itemsEnc_written : ∀ {items : List (String × Nat)} {ps : Parts}, ps.length = items.length →
    (∀ x ∈ items.zip ps, Enc R false x.1.2 x.2.1 x.2.2) →
    ∃ n0, ∀ n, n0 ≤ n → ∃ bs, Encoder.parts (Encoder.encode R n false) (items.map (·.2)) ps.values = some bs
  | [], [], _, _ => ⟨0, fun _ _ => ⟨[], rfl⟩⟩
  | [], _ :: _, h, _ => by cases h
  | _ :: _, [], h, _ => by cases h
  | item :: items, (v, c) :: ps, hl, he => by
    obtain ⟨n1, h1⟩ := Encoder'.typed_written (encoded_typed (he (item, v, c) (by simp)))
    obtain ⟨n2, h2⟩ := itemsEnc_written (items := items) (ps := ps) (by simpa using hl) (fun x hx => he x (by simp [hx]))
    refine ⟨max n1 n2, fun n hn => ?_⟩
    obtain ⟨a, ha⟩ := h1 n (by omega)
    obtain ⟨b, hb⟩ := h2 n (by omega)
    refine ⟨a ++ b, ?_⟩
    simp only [List.map_cons, Parts.values, Encoder.parts] at hb ⊢
    rw [ha, hb]

/-- What the wallet writes is a proper transaction. -/
theorem transaction_proper {ME : Type} {M : Metadata ME} {n : Nat} {expected : Option Bytes} {c : CallOf} {vs : List Value}
    {callBytes extBytes : Bytes} (h : Wallet.transaction M n expected c vs = some (callBytes, extBytes)) :
    ProperTransaction M expected c vs callBytes extBytes := by
  unfold Wallet.transaction at h
  split at h
  · rename_i id signed spec h1 h2 h3
    split at h
    · rename_i hr
      split at h
      · rename_i cb eb e1 e2 e3
        cases h
        have hi := parts_itemsEnc e2
        exact ⟨id, signed, spec, h1, h2, h3, ⟨⟨_, _, hr, rfl⟩, Encoder'.encode_sound e1⟩, hi,
          (proper_iff (itemsEnc_length hi) e3).1 rfl⟩
      · cases h
    · cases h
  · cases h

/-- Every proper transaction is written. -/
theorem proper_transaction {ME : Type} {M : Metadata ME} {expected : Option Bytes} {c : CallOf} {vs : List Value}
    {callBytes extBytes : Bytes} (h : ProperTransaction M expected c vs callBytes extBytes) :
    ∃ n0, ∀ n, n0 ≤ n → ∃ callBytes' extBytes', Wallet.transaction M n expected c vs = some (callBytes', extBytes') := by
  obtain ⟨id, signed, spec, h1, h2, h3, ⟨⟨t, us, hr, hd⟩, he⟩, hi, hp⟩ := h
  obtain ⟨n1, w1⟩ := Encoder'.typed_written (encoded_typed he)
  have hi' := hi
  obtain ⟨ps, rfl, _, hl, hps⟩ := hi'
  obtain ⟨n2, w2⟩ := itemsEnc_written hl hps
  refine ⟨max (max n1 n2) 2, fun n hn => ?_⟩
  obtain ⟨cb, e1⟩ := w1 n (by omega)
  obtain ⟨eb, e2⟩ := w2 n (by omega)
  obtain ⟨o, e3⟩ := proper_total hi spec.printedSpecVersion expected (n - 2)
  rw [show n - 2 + 2 = n by omega] at e3
  have : o = true := (proper_iff (itemsEnc_length hi) e3).2 hp
  subst this
  refine ⟨cb, eb, ?_⟩
  unfold Wallet.transaction
  rw [h1, h2, h3]
  dsimp only
  rw [hr]
  obtain ⟨_, _, _, _⟩ := t
  dsimp only at hd
  subst hd
  dsimp only
  rw [e1, e2, e3]

/-- If the values leave no freedom, the bytes are the same. -/
theorem itemsEnc_unique (hn : NamesDistinct R) (hs : SignaturesDistinct R) : ∀ {items : List (String × Nat)} {ps qs : Parts},
    ps.length = items.length → qs.length = items.length → ps.values = qs.values → (∀ v ∈ ps.values, Firm v) →
    (∀ x ∈ items.zip ps, Enc R false x.1.2 x.2.1 x.2.2) → (∀ x ∈ items.zip qs, Enc R false x.1.2 x.2.1 x.2.2) →
    ps.bytes = qs.bytes
  | [], [], [], _, _, _, _, _, _ => rfl
  | [], _ :: _, _, h, _, _, _, _, _ => by cases h
  | [], _, _ :: _, _, h, _, _, _, _ => by cases h
  | _ :: _, [], _, h, _, _, _, _, _ => by cases h
  | _ :: _, _, [], _, h, _, _, _, _ => by cases h
  | item :: items, (v, a) :: ps, (w, b) :: qs, h1, h2, h3, h4, h5, h6 => by
    simp only [Parts.values, List.map_cons, List.cons.injEq] at h3
    obtain ⟨rfl, h3⟩ := h3
    have ih := itemsEnc_unique hn hs (items := items) (ps := ps) (qs := qs) (by simpa using h1) (by simpa using h2) h3
      (fun v hv => h4 v (List.mem_cons_of_mem _ hv)) (fun x hx => h5 x (by simp [hx])) (fun x hx => h6 x (by simp [hx]))
    have : a = b := firm_encoding_unique hn hs (h4 v (List.mem_cons_self ..)) (h5 (item, v, a) (by simp)) (h6 (item, v, b) (by simp))
    subst this
    unfold Parts.bytes at ih ⊢
    rw [List.flatMap_cons, List.flatMap_cons, ih]

theorem properTransaction_unique {ME : Type} {M : Metadata ME} (hn : NamesDistinct M.types) (hs : SignaturesDistinct M.types)
    {expected expected' : Option Bytes} {c : CallOf} {vs : List Value} {cb eb cb' eb' : Bytes}
    (hc : ∀ a ∈ c.args, Firm a.2) (hv : ∀ v ∈ vs, Firm v) (h : ProperTransaction M expected c vs cb eb)
    (h' : ProperTransaction M expected' c vs cb' eb') : cb = cb' ∧ eb = eb' := by
  obtain ⟨id, signed, spec, h1, h2, h3, h4, ⟨ps, rfl, rfl, hl, hps⟩, _⟩ := h
  obtain ⟨id', signed', spec', g1, g2, g3, g4, ⟨qs, e, rfl, hl', hqs⟩, _⟩ := h'
  rw [h1] at g1; cases g1
  rw [h2] at g2; cases g2
  exact ⟨firm_encoding_unique hn hs (.pallet hc) h4.2 g4.2, itemsEnc_unique hn hs hl hl' e.symm hv hps hqs⟩

end Verif.Wallet'
