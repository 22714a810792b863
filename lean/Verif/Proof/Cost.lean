import Verif.Spec.Cost
import Verif.Proof.Flaky
/-! Cost of the memory accesses against the bytes consumed. -/
namespace Verif
open Spec

variable {σ α β : Type} {D : Device σ} {R : Registry} {b : Buf} {c : σ → Nat}

/-! ### Outcomes -/

/-- In some state, the outcome is `a`. -/
def Outs (x : Dev σ α) (a : α) : Prop := ∃ s, (x s).1 = .ok a

theorem Sat.outs {x : Dev σ α} {P : α → Prop} (h : Sat x P) {a : α} (ha : Outs x a) : P a := by
  obtain ⟨s, ha⟩ := ha
  rcases h s with ⟨a', h1, h2⟩ | ⟨e, h1⟩
  · rw [ha] at h1; cases h1; exact h2
  · rw [ha] at h1; cases h1

theorem Follows.outs {x : Dev σ α} {r : Res α} (h : Follows External x r) {a : α} (ha : Outs x a) : r = .ok a := by
  obtain ⟨s, ha⟩ := ha
  rcases h s with ⟨e, _, h⟩ | h
  · rw [ha] at h; cases h
  · rw [← h, ha]

theorem Outs.of {r : Res α} {a : α} (h : Outs (σ := σ) (Dev.of r) a) : r = .ok a := by
  obtain ⟨_, h⟩ := h; exact h

theorem Outs.bind {x : Dev σ α} {k : α → Dev σ β} {d : β} (h : Outs (x >>= k) d) :
    ∃ a, Outs x a ∧ Outs (k a) d := by
  obtain ⟨s, h⟩ := h
  have h : (Dev.bind x k s).1 = .ok d := h
  unfold Dev.bind at h
  rcases hx : x s with ⟨o, s'⟩
  rw [hx] at h
  cases o with
  | error e => cases h
  | ok a => exact ⟨a, ⟨s, by rw [hx]⟩, ⟨s', h⟩⟩

/-! ### Fixed cost -/

/-- The accesses cost `n` at most. -/
def Spends (c : σ → Nat) (x : Dev σ α) (n : Nat) : Prop := ∀ s, c (x s).2 ≤ c s + n

theorem Spends.of (r : Res α) (n : Nat) : Spends c (Dev.of r) n := fun s => Nat.le_add_right (c s) n

theorem Spends.mono {x : Dev σ α} {n m : Nat} (h : Spends c x n) (hn : n ≤ m) : Spends c x m :=
  fun s => Nat.le_trans (h s) (Nat.add_le_add_left hn _)

theorem Spends.bind {x : Dev σ α} {k : α → Dev σ β} {n m : Nat} (hx : Spends c x n)
    (hk : ∀ a, Outs x a → Spends c (k a) m) : Spends c (x >>= k) (n + m) := by
  intro s
  show c (Dev.bind x k s).2 ≤ _
  have h := hx s
  unfold Dev.bind
  rcases hxs : x s with ⟨o, s'⟩
  rw [hxs] at h
  cases o with
  | error e => dsimp only at h ⊢; omega
  | ok a =>
    have h2 := hk a ⟨s, by rw [hxs]⟩ s'
    dsimp only at h ⊢
    omega

theorem Spends.step {x : Dev σ α} {k : α → Dev σ β} {n t : Nat} (hx : Spends c x n) (hn : n ≤ t)
    (hk : ∀ a, Outs x a → Spends c (k a) (t - n)) : Spends c (x >>= k) t := by
  have := Spends.bind hx hk
  rwa [Nat.add_sub_cancel' hn] at this

theorem Spends.free {r : Res α} {k : α → Dev σ β} {t : Nat} (hk : ∀ a, Spends c (k a) t) :
    Spends c (Dev.of r >>= k) t :=
  Spends.step (.of r 0) (Nat.zero_le _) (fun a _ => hk a)

theorem Spends.swallow {x : Dev σ α} {n : Nat} (h : Spends c x n) : Spends c (swallowD x) n := by
  intro s
  have := h s
  unfold swallowD
  rcases hx : x s with ⟨o, s'⟩
  rw [hx] at this
  cases o with
  | ok a => exact this
  | error e => cases e <;> exact this

theorem get_spends (M : Metered D c) (id : Nat) : Spends c (D.get id) 1 := by
  intro s
  have := M.resolve id s
  unfold Device.get
  rcases hr : D.resolve id s with ⟨o, s'⟩
  rw [hr] at this
  cases o <;> exact this

theorem read_spends (M : Metered D c) (H : HonestD External D R b) (pos n : Nat) : Spends c (D.read pos n) (1 + n) := by
  intro s
  have h := M.read pos n s
  have h2 : delivered (D.read pos n s).1 ≤ n := by
    unfold delivered
    split
    · rename_i x hx
      have := (readSlice_ok ((H.read pos n).outs ⟨s, hx⟩)).2
      omega
    · exact Nat.zero_le _
  omega

theorem add_spends (pos n t : Nat) : Spends c (D.add pos n) t := Spends.of _ _

theorem readByte_spends (M : Metered D c) (H : HonestD External D R b) (pos : Nat) : Spends c (D.readByte pos) 2 := by
  refine Spends.step (read_spends M H pos 1) (by omega) (fun x _ => ?_)
  split <;> exact .of _ _

theorem findCompactLoop_spends (M : Metered D c) (H : HonestD External D R b) (dec : Bytes → Option Nat) (pos left : Nat) :
    ∀ i, Spends c (findCompactLoopD D dec pos left i) (19 * (18 - i)) := by
  induction left with
  | zero => intro i; exact .of _ _
  | succ left ih =>
    intro i
    unfold findCompactLoopD
    split
    · exact .of _ _
    · rename_i hi
      have hi : i ≤ 17 := by unfold maxCompactLen at hi; omega
      refine ((read_spends M H pos (i + 1)).bind (m := 19 * (18 - (i + 1))) (fun x _ => ?_)).mono (by omega)
      split
      · split
        · exact .of _ _
        · exact Spends.free (fun q => Spends.free (fun q => .of _ _))
      · exact ih (i + 1)

theorem findCompact_spends (M : Metered D c) (H : HonestD External D R b) (dec : Bytes → Option Nat) (pos : Nat) :
    Spends c (findCompactD D dec pos) 342 := by
  unfold findCompactD
  split
  · exact .of _ _
  · refine Spends.step (findCompactLoop_spends M H dec pos _ 0) (by omega) (fun x _ => ?_)
    split <;> exact .of _ _

theorem getCompact_spends (M : Metered D c) (H : HonestD External D R b) (dec : Bytes → Option Nat) (pos : Nat) :
    Spends c (getCompactD D dec pos) 342 :=
  Spends.step (findCompact_spends M H dec pos) (Nat.le_refl _) (fun _ _ => .of _ _)

theorem cutArray_spends (M : Metered D c) (H : HonestD External D R b) {n : Nat} (hn : n ≤ 65) (pos : Nat) :
    Spends c (cutArrayD D n pos) 66 := by
  refine (Spends.bind (m := 0) (read_spends M H pos n) (fun x _ => ?_)).mono (by omega)
  split
  · exact .of _ _
  · exact Spends.free (fun _ => .of _ _)

theorem IW.bytes_small (w : IW) : w.bytes ≤ 32 := by cases w <;> decide
theorem FixedKind.len_le (k : FixedKind) : k.len ≤ 65 := by cases k <;> decide

theorem parseUInt_spends (M : Metered D c) (H : HonestD External D R b) (w : UW) (pos : Nat) (t : SpecialtySet) :
    Spends c (parseUIntD D w pos t) 342 := by
  have h0 := w.bytes_le
  unfold parseUIntD
  split
  · exact Spends.step (getCompact_spends M H _ pos) (Nat.le_refl _) (fun _ _ => .of _ _)
  · refine Spends.step (n := 17) ?_ (by omega) (fun _ _ => .of _ _)
    exact (Spends.bind (m := 0) (read_spends M H pos w.bytes) (fun x _ => Spends.free (fun _ => .of _ _))).mono (by omega)

theorem parsePer_spends (M : Metered D c) (H : HonestD External D R b) (k : PerKind) (pos : Nat) (t : Option Nat) :
    Spends c (parsePerD D k pos t) 342 := by
  have h0 := k.inner.bytes_le
  unfold parsePerD
  split
  · exact Spends.step (getCompact_spends M H _ pos) (Nat.le_refl _) (fun _ _ => .of _ _)
  · refine Spends.step (n := 17) ?_ (by omega) (fun _ _ => .of _ _)
    refine (Spends.bind (m := 0) (read_spends M H pos k.inner.bytes) (fun x _ => ?_)).mono (by omega)
    split
    · exact Spends.free (fun _ => .of _ _)
    · exact .of _ _

theorem parseFixed_spends (M : Metered D c) (H : HonestD External D R b) (k : FixedKind) (pos : Nat) (t : Option Nat) :
    Spends c (parseFixedD D k pos t) 66 :=
  Spends.free (fun _ => Spends.step (cutArray_spends M H k.len_le pos) (Nat.le_refl _) (fun _ _ => .of _ _))

theorem h256_spends (M : Metered D c) (H : HonestD External D R b) (pos : Nat) (t : SpecH256) :
    Spends c (specialCaseH256D D pos t) 66 := by
  refine Spends.step (cutArray_spends M H (by decide) pos) (Nat.le_refl _) (fun _ _ => ?_)
  split <;> exact .of _ _

theorem era_spends (M : Metered D c) (H : HonestD External D R b) (pos : Nat) : Spends c (specialCaseEraD D pos) 5 := by
  refine Spends.step (read_spends M H pos 1) (by omega) (fun x _ => ?_)
  split
  · exact Spends.free (fun _ => .of _ _)
  · refine Spends.step (read_spends M H pos 2) (by omega) (fun x _ => ?_)
    split
    · exact Spends.free (fun _ => .of _ _)
    · exact .of _ _

theorem parseInt_spends (M : Metered D c) (H : HonestD External D R b) (w : IW) (pos : Nat) (t : Option Nat) :
    Spends c (parseIntD D w pos t) 33 := by
  have h0 := w.bytes_small
  refine Spends.free (fun _ => Spends.step (n := 33) ?_ (Nat.le_refl _) (fun _ _ => .of _ _))
  exact (Spends.bind (m := 0) (read_spends M H pos w.bytes) (fun x _ => Spends.free (fun _ => .of _ _))).mono (by omega)

/-! ### Cost against the bytes consumed -/

/-- From `pos` to `q`: no step back, and nothing beyond the end `L` is consumed. -/
def Span (L pos q : Nat) : Prop := pos ≤ q ∧ (q = pos ∨ q ≤ L)

/-- What is kept back if something was consumed. -/
def kept (κ pos q : Nat) : Nat := if q = pos then 0 else κ

theorem kept_zero (pos q : Nat) : kept 0 pos q = 0 := by unfold kept; split <;> rfl

theorem kept_self (κ pos : Nat) : kept κ pos pos = 0 := if_pos rfl

theorem kept_le (κ pos q : Nat) : kept κ pos q ≤ κ := by unfold kept; split <;> omega

theorem kept_add (κ a b d : Nat) : kept κ a d ≤ kept κ a b + kept κ b d := by
  unfold kept
  split <;> split <;> split <;> omega

/-- Starting at `pos`, the accesses cost at most `m`, plus `W` for each byte consumed, where `κ` is left
over if bytes are consumed. In case of an error: at most `m + φ`, plus `W` for each byte up to the
end `L`. -/
def Pays (c : σ → Nat) (W L κ φ : Nat) (x : Dev σ α) (pos : Nat) (fin : α → Nat) (m : Nat) : Prop := ∀ s,
  (∀ a, (x s).1 = .ok a → Span L pos (fin a) ∧ c (x s).2 + kept κ pos (fin a) ≤ c s + m + W * (fin a - pos)) ∧
  (∀ e, (x s).1 = .error e → c (x s).2 ≤ c s + m + φ + W * (L - pos))

variable {W L κ φ : Nat}

theorem toll_add {a b d : Nat} (h1 : a ≤ b) (h2 : b ≤ d) : W * (b - a) + W * (d - b) = W * (d - a) := by
  rw [← Nat.mul_add]; congr 1; omega

theorem toll_end {a b : Nat} (h : Span L a b) : W * (b - a) + W * (L - b) ≤ W * (L - a) := by
  obtain ⟨h1, rfl | h2⟩ := h
  · simp
  · rw [toll_add h1 h2]; exact Nat.le_refl _

theorem Span.trans {a b d : Nat} (h1 : Span L a b) (h2 : Span L b d) : Span L a d := by
  unfold Span at *; omega

theorem Span.self (L a : Nat) : Span L a a := ⟨Nat.le_refl _, .inl rfl⟩

theorem Pays.of {r : Res α} {pos : Nat} {fin : α → Nat} (m : Nat) (h : ∀ a, r = .ok a → fin a = pos) :
    Pays c W L κ φ (Dev.of r) pos fin m := by
  intro s
  constructor
  · intro a ha
    rw [h a ha, kept_self]
    exact ⟨Span.self _ _, show c s + 0 ≤ _ by omega⟩
  · intro e _
    show c s ≤ _
    omega

theorem Pays.ok {a : α} {pos : Nat} {fin : α → Nat} {m : Nat} (h : fin a = pos) :
    Pays c W L κ φ (Dev.of (.ok a)) pos fin m := Pays.of m (fun a ha => by cases ha; exact h)

theorem Pays.error {e : Fail} {pos : Nat} {fin : α → Nat} {m : Nat} :
    Pays c W L κ φ (Dev.of (.error e)) pos fin m := Pays.of m (fun a ha => by cases ha)

theorem Pays.mono {x : Dev σ α} {pos : Nat} {fin : α → Nat} {m m' : Nat} (h : Pays c W L κ φ x pos fin m) (hm : m ≤ m') :
    Pays c W L κ φ x pos fin m' := by
  intro s
  obtain ⟨h1, h2⟩ := h s
  exact ⟨fun a ha => ⟨(h1 a ha).1, by have := (h1 a ha).2; omega⟩, fun e he => by have := h2 e he; omega⟩

theorem Pays.forget {x : Dev σ α} {pos : Nat} {fin : α → Nat} {m : Nat} (φ' : Nat) (h : Pays c W L κ 0 x pos fin m) :
    Pays c W L 0 φ' x pos fin m := by
  intro s
  obtain ⟨h1, h2⟩ := h s
  exact ⟨fun a ha => ⟨(h1 a ha).1, by have := (h1 a ha).2; rw [kept_zero]; omega⟩, fun e he => by have := h2 e he; omega⟩

theorem Pays.bind {x : Dev σ α} {k : α → Dev σ β} {pos : Nat} {fin : α → Nat} {fin' : β → Nat} {m n : Nat}
    (hx : Pays c W L κ φ x pos fin m) (hk : ∀ a, Outs x a → Pays c W L κ φ (k a) (fin a) fin' n) :
    Pays c W L κ φ (x >>= k) pos fin' (m + n) := by
  intro s
  show (∀ d, (Dev.bind x k s).1 = .ok d → _ ∧ c (Dev.bind x k s).2 + _ ≤ _) ∧
    ∀ e, (Dev.bind x k s).1 = .error e → c (Dev.bind x k s).2 ≤ _
  have h := hx s
  unfold Dev.bind
  rcases hxs : x s with ⟨o, s'⟩
  rw [hxs] at h
  cases o with
  | error e =>
    refine ⟨fun d hd => (by cases hd), fun e' _ => ?_⟩
    have := h.2 e rfl
    dsimp only at this ⊢
    omega
  | ok a =>
    obtain ⟨h1, h2⟩ := h.1 a rfl
    obtain ⟨g1, g2⟩ := hk a ⟨s, by rw [hxs]⟩ s'
    dsimp only at h2 ⊢
    constructor
    · intro d hd
      obtain ⟨g3, g4⟩ := g1 d hd
      refine ⟨h1.trans g3, ?_⟩
      have := kept_add κ pos (fin a) (fin' d)
      have := toll_add (W := W) h1.1 g3.1
      omega
    · intro e he
      have := g2 e he
      have := toll_end (W := W) h1
      omega

theorem Spends.pays {x : Dev σ α} {n : Nat} (h : Spends c x n) (pos : Nat) :
    Pays c W L κ φ x pos (fun _ => pos) n := by
  intro s
  have := h s
  refine ⟨fun a _ => ⟨Span.self _ _, ?_⟩, fun e _ => ?_⟩
  · rw [kept_self]; omega
  · omega

/-- First some accesses that consume nothing. -/
theorem Pays.after {x : Dev σ α} {k : α → Dev σ β} {pos : Nat} {fin : β → Nat} {n m : Nat} (hx : Spends c x n)
    (hn : n ≤ m) (hk : ∀ a, Outs x a → Pays c W L κ φ (k a) pos fin (m - n)) :
    Pays c W L κ φ (x >>= k) pos fin m := by
  have := Pays.bind (hx.pays (W := W) (L := L) (κ := κ) (φ := φ) pos) hk
  rwa [Nat.add_sub_cancel' hn] at this

theorem Pays.free {r : Res α} {k : α → Dev σ β} {pos : Nat} {fin : β → Nat} {m : Nat}
    (hk : ∀ a, r = .ok a → Pays c W L κ φ (k a) pos fin m) : Pays c W L κ φ (Dev.of r >>= k) pos fin m :=
  Pays.after (Spends.of r 0) (Nat.zero_le _) (fun a ha => hk a ha.of)

/-- A last step without accesses. -/
theorem Pays.then {x : Dev σ α} {f : α → β} {pos : Nat} {fin : α → Nat} {fin' : β → Nat} {m : Nat}
    (hx : Pays c W L κ φ x pos fin m) (hf : ∀ a, fin' (f a) = fin a) :
    Pays c W L κ φ (x >>= fun a => Dev.of (.ok (f a))) pos fin' m :=
  Pays.bind (n := 0) hx (fun a _ => Pays.ok (hf a))

theorem Pays.last {x : Dev σ α} {f : α → β} {pos : Nat} {fin : α → Nat} {fin' : β → Nat} {m m' : Nat}
    (hx : Pays c W L κ φ x pos fin m) (hf : ∀ a, fin' (f a) = fin a) (hm : m ≤ m') :
    Pays c W L κ φ (x >>= fun a => Dev.of (.ok (f a))) pos fin' m' :=
  (hx.then hf).mono hm

/-! ### Leaves -/

variable {K : Nat}

/-- A leaf: fixed cost, plus the bytes. -/
def Leafs (c : σ → Nat) (L : Nat) (x : Dev σ α) (pos : Nat) (fin : α → Nat) (n : Nat) : Prop := ∀ s,
  (∀ a, (x s).1 = .ok a → c (x s).2 ≤ c s + n + (fin a - pos)) ∧
  (∀ e, (x s).1 = .error e → c (x s).2 ≤ c s + n + (L - pos))

theorem Spends.leafs {x : Dev σ α} {n : Nat} (h : Spends c x n) (pos : Nat) (fin : α → Nat) : Leafs c L x pos fin n := by
  intro s
  have := h s
  exact ⟨fun a _ => by omega, fun e _ => by omega⟩

theorem Leafs.after {x : Dev σ α} {k : α → Dev σ β} {pos : Nat} {fin : β → Nat} {n m : Nat} (hx : Spends c x n)
    (hk : ∀ a, Outs x a → Leafs c L (k a) pos fin m) : Leafs c L (x >>= k) pos fin (n + m) := by
  intro s
  show (∀ d, (Dev.bind x k s).1 = .ok d → c (Dev.bind x k s).2 ≤ _) ∧
    ∀ e, (Dev.bind x k s).1 = .error e → c (Dev.bind x k s).2 ≤ _
  have h := hx s
  unfold Dev.bind
  rcases hxs : x s with ⟨o, s'⟩
  rw [hxs] at h
  cases o with
  | error e => exact ⟨fun d hd => (by cases hd), fun e' _ => by dsimp only at h ⊢; omega⟩
  | ok a =>
    obtain ⟨g1, g2⟩ := hk a ⟨s, by rw [hxs]⟩ s'
    dsimp only at h ⊢
    exact ⟨fun d hd => by have := g1 d hd; omega, fun e he => by have := g2 e he; omega⟩

/-- A read of any length, followed by no further access. -/
theorem read_leafs (M : Metered D c) (H : HonestD External D R b) (hL : b.len = L) {pos start n : Nat} (hs : pos ≤ start)
    {k : Bytes → Dev σ α} {fin : α → Nat} (hk : ∀ x, Spends c (k x) 0)
    (hf : ∀ x a, start + n ≤ b.len → Outs (k x) a → fin a = start + n) : Leafs c L (D.read start n >>= k) pos fin 1 := by
  intro s
  show (∀ d, (Dev.bind (D.read start n) k s).1 = .ok d → c (Dev.bind (D.read start n) k s).2 ≤ _) ∧
    ∀ e, (Dev.bind (D.read start n) k s).1 = .error e → c (Dev.bind (D.read start n) k s).2 ≤ _
  have h := M.read start n s
  have ho := fun a => (H.read start n).outs (a := a)
  unfold Dev.bind
  rcases hxs : D.read start n s with ⟨o, s'⟩
  rw [hxs] at h
  cases o with
  | error e =>
    refine ⟨fun d hd => (by cases hd), fun e' _ => ?_⟩
    simp only [delivered] at h ⊢
    omega
  | ok x =>
    have h1 := ho x ⟨s, by rw [hxs]⟩
    have h2 := (readSlice_ok h1).2
    have h3 := readSlice_le h1
    have h4 := hk x s'
    simp only [delivered] at h ⊢
    refine ⟨fun d hd => ?_, fun e he => by omega⟩
    have := hf x d h3 ⟨s', hd⟩
    omega

theorem Took.span {pos q : Nat} {Q : Bytes → Prop} (h : Took b pos q Q) : Span b.len pos q := by
  obtain ⟨bs, h1, rfl, _⟩ := h
  refine ⟨by omega, ?_⟩
  rcases h1 with rfl | h1
  · exact .inl rfl
  · right; have := h1.le; simp only [Buf.len]; omega

theorem leaf_pays {x : Dev σ α} {pos : Nat} {fin : α → Nat} {n : Nat} (hk : 1 ≤ K) (h : Leafs c L x pos fin n)
    (hs : ∀ a, Outs x a → Span L pos (fin a)) : Pays c (2 * K) L K φ x pos fin n := by
  intro s
  obtain ⟨h1, h2⟩ := h s
  have key : ∀ d, d ≤ K * d := fun d => by have := Nat.mul_le_mul_right d hk; omega
  constructor
  · intro a ha
    have hsp := hs a ⟨s, ha⟩
    have := h1 a ha
    refine ⟨hsp, ?_⟩
    unfold kept
    rw [Nat.mul_assoc]
    split
    · rename_i e; rw [e] at this ⊢; omega
    · rename_i e
      have h3 : 1 ≤ fin a - pos := by have := hsp.1; omega
      have := Nat.mul_le_mul_left K h3
      have := key (fin a - pos)
      omega
  · intro e he
    have := h2 e he
    have := key (L - pos)
    rw [Nat.mul_assoc]
    omega

theorem Leafs.mono {x : Dev σ α} {pos : Nat} {fin : α → Nat} {n m : Nat} (h : Leafs c L x pos fin n) (hn : n ≤ m) :
    Leafs c L x pos fin m := by
  intro s
  obtain ⟨h1, h2⟩ := h s
  exact ⟨fun a ha => by have := h1 a ha; omega, fun e he => by have := h2 e he; omega⟩

theorem str_leafs (M : Metered D c) (H : HonestD External D R b) (pos : Nat) (hint : Hint) :
    Leafs c b.len (decodeStrD D pos hint) pos (·.2) 343 := by
  refine (Leafs.after (m := 1) (findCompact_spends M H _ pos) (fun f hf => ?_)).mono (by omega)
  obtain ⟨hc, hat, hs⟩ := findCompact_sound ((findCompactD_follows H _ pos).outs hf)
  refine read_leafs M H rfl (by omega) (fun x => ?_) (fun x a hle ha => ?_)
  · split
    · exact Spends.free (fun _ => .of _ _)
    · exact .of _ _
  · split at ha
    · rw [H.add hle] at ha
      obtain ⟨q, hq, ha⟩ := ha.bind
      cases hq.of
      cases ha.of
      rfl
    · exact absurd ha.of (by simp)

theorem prim_leafs (M : Metered D c) (H : HonestD External D R b) (p : Prim) (pos : Nat) (t : SpecialtySet) :
    Leafs c b.len (decodePrimitiveD D p pos t) pos (·.2) 343 := by
  have huint : ∀ w, Leafs c b.len (parseUIntD D w pos t) pos (·.2) 343 :=
    fun w => ((parseUInt_spends M H w pos t).mono (by omega)).leafs _ _
  have hint : ∀ w, Leafs c b.len (parseIntD D w pos t.compactAt) pos (·.2) 343 :=
    fun w => ((parseInt_spends M H w pos _).mono (by omega)).leafs _ _
  cases p with
  | bool =>
    refine Spends.leafs (Spends.free (fun _ => Spends.step (n := 2) ?_ (by omega) (fun _ _ => .of _ _))) _ _
    refine Spends.step (read_spends M H pos 1) (by omega) (fun x _ => ?_)
    split
    · exact Spends.free (fun _ => .of _ _)
    · split
      · exact Spends.free (fun _ => .of _ _)
      · exact .of _ _
  | char =>
    refine Spends.leafs (Spends.free (fun _ => Spends.step (n := 5) ?_ (by omega) (fun _ _ => .of _ _))) _ _
    refine Spends.step (read_spends M H pos 4) (by omega) (fun x _ => ?_)
    split
    · exact .of _ _
    · split
      · exact Spends.free (fun _ => .of _ _)
      · exact .of _ _
  | str => exact (Leafs.after (Spends.of (t.rejectCompact) 0) (fun _ _ => str_leafs M H pos t.hint)).mono (by omega)
  | u256 =>
    refine Spends.leafs (Spends.free (fun _ => Spends.step (n := 33) ?_ (by omega) (fun _ _ => .of _ _))) _ _
    exact Spends.step (read_spends M H pos 32) (by omega) (fun x _ => Spends.free (fun _ => .of _ _))
  | u8 => exact huint _
  | u16 => exact huint _
  | u32 => exact huint _
  | u64 => exact huint _
  | u128 => exact huint _
  | i8 => exact hint _
  | i16 => exact hint _
  | i32 => exact hint _
  | i64 => exact hint _
  | i128 => exact hint _
  | i256 => exact hint _

theorem Dev.bind_assoc {γ : Type} (x : Dev σ α) (k : α → Dev σ β) (l : β → Dev σ γ) :
    (x >>= k) >>= l = x >>= fun a => k a >>= l := by
  funext s
  show Dev.bind (Dev.bind x k) l s = Dev.bind x (fun a => Dev.bind (k a) l) s
  unfold Dev.bind
  rcases x s with ⟨o, s'⟩
  cases o <;> rfl

theorem bits_leafs (M : Metered D c) (H : HonestD External D R b) (order store id pos : Nat) :
    Leafs c b.len (decodeBitSequenceD D order store id pos) pos (·.2) 345 := by
  have ho : Spends c (findBitOrderD D order id) 1 :=
    Spends.step (get_spends M order) (Nat.le_refl _) (fun _ _ => .of _ _)
  refine (Leafs.after (m := 344) ho (fun o _ => (Leafs.after (m := 343) (get_spends M store) (fun t _ => ?_)).mono (by omega))).mono (by omega)
  split
  · split
    · rename_i st _
      unfold intoBitvecDecodeD
      rw [Dev.bind_assoc]
      have hp : Spends c (bitVecPositionsD D st pos) 342 := by
        refine Spends.step (findCompact_spends M H _ pos) (Nat.le_refl _) (fun _ _ => ?_)
        exact Spends.free (fun _ => Spends.free fun _ => Spends.free fun _ => Spends.free fun _ => Spends.free fun _ => .of _ _)
      refine (Leafs.after (m := 1) hp (fun p hpo => ?_)).mono (by omega)
      have h1 := (bitVecPositionsD_follows H st pos).outs hpo
      obtain ⟨f, hf, h1⟩ := bind_ok.1 h1
      obtain ⟨hc, hat, hs⟩ := findCompact_sound hf
      have hfin : p.1 = pos + p.2 := by
        cases h1
        dsimp only
        omega
      rw [Dev.bind_assoc]
      refine read_leafs M H rfl (Nat.le_refl _) (fun x => ?_) (fun x a hle ha => ?_)
      · refine Spends.free (fun r => ?_)
        split <;> exact .of _ _
      · obtain ⟨r, hr, ha⟩ := ha.bind
        cases hr.of
        dsimp only at ha
        split at ha
        · cases ha.of; exact hfin
        · exact absurd ha.of (by simp)
    · exact Spends.leafs (.of _ _) _ _
  · exact Spends.leafs (.of _ _) _ _

end Verif
