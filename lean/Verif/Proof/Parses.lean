import Verif.Proof.Buffer
/-!
A reader of a buffer follows a relation between results and consumed bytes.
-/
namespace Verif
open Spec

theorem bind_ok {α β : Type} {x : Res α} {f : α → Res β} {c : β} :
    (x >>= f) = .ok c ↔ ∃ a, x = .ok a ∧ f a = .ok c := by
  cases x with
  | error e => simp [bind, Except.bind]
  | ok a => simp [bind, Except.bind]

theorem ok_bind {α β : Type} (a : α) (f : α → Res β) : ((.ok a : Res α) >>= f) = f a := rfl
theorem error_bind {α β : Type} (e : Fail) (f : α → Res β) :
    ((.error e : Res α) >>= f) = .error e := rfl

/-- The bytes are at the position; no bytes are anywhere. -/
def Has (data : Bytes) (pos : Nat) (bs : Bytes) : Prop := bs = [] ∨ At data pos bs

theorem Has.append {data : Bytes} {pos : Nat} {x y : Bytes} (hx : Has data pos x)
    (hy : Has data (pos + x.length) y) : Has data pos (x ++ y) := by
  rcases hx with rfl | hx
  · simpa using hy
  · rcases hy with rfl | hy
    · rw [List.append_nil]; exact .inr hx
    · exact .inr (at_append.2 ⟨hx, hy⟩)

theorem Has.at {data : Bytes} {pos : Nat} {bs : Bytes} (h : Has data pos bs)
    (hp : pos ≤ data.length) : At data pos bs := by
  rcases h with rfl | h
  · exact at_nil.2 hp
  · exact h

/-- Success exactly on the byte runs related to the result. -/
structure Parses {α : Type} (b : Buf) (f : Nat → Res (α × Nat)) (Q : α → Bytes → Prop) : Prop where
  sound : ∀ {pos a pos'}, f pos = .ok (a, pos') →
    ∃ bs, Has b.bytes pos bs ∧ pos' = pos + bs.length ∧ Q a bs
  complete : Reliable b → ∀ {pos a bs}, Q a bs → At b.bytes pos bs →
    f pos = .ok (a, pos + bs.length)

namespace Parses
variable {α β γ : Type} {b : Buf}

theorem congr {f : Nat → Res (α × Nat)} {Q Q' : α → Bytes → Prop} (h : Parses b f Q)
    (hq : ∀ a bs, Q a bs ↔ Q' a bs) : Parses b f Q' := by
  have : Q = Q' := by funext a bs; exact propext (hq a bs)
  exact this ▸ h

theorem funCongr {f f' : Nat → Res (α × Nat)} {Q : α → Bytes → Prop} (h : Parses b f Q)
    (hf : ∀ pos, f' pos = f pos) : Parses b f' Q := by
  have : f' = f := funext hf
  exact this ▸ h

theorem pure (a : α) : Parses b (fun pos => .ok (a, pos)) (fun a' bs => a' = a ∧ bs = []) where
  sound := by
    intro pos a' pos' h
    cases h
    exact ⟨[], .inl rfl, rfl, rfl, rfl⟩
  complete := by
    rintro _ pos a' bs ⟨rfl, rfl⟩ _
    rfl

theorem fail {f : Nat → Res (α × Nat)} (hf : ∀ pos, ∃ e, f pos = .error e) :
    Parses b f (fun _ _ => False) where
  sound := by
    intro pos a' pos' h
    obtain ⟨e, he⟩ := hf pos
    rw [he] at h; cases h
  complete := by intro _ _ _ _ h; exact h.elim

theorem bind {f : Nat → Res (α × Nat)} {g : α → Nat → Res (β × Nat)} {Q : α → Bytes → Prop}
    {Q' : α → β → Bytes → Prop} (hf : Parses b f Q) (hg : ∀ a, Parses b (g a) (Q' a)) :
    Parses b (fun pos => f pos >>= fun (a, pos) => g a pos)
      (fun c bs => ∃ a x y, bs = x ++ y ∧ Q a x ∧ Q' a c y) where
  sound := by
    intro pos c pos' h
    obtain ⟨⟨a, p1⟩, h1, h2⟩ := bind_ok.1 h
    obtain ⟨x, hx, rfl, hq⟩ := hf.sound h1
    obtain ⟨y, hy, rfl, hq'⟩ := (hg a).sound h2
    exact ⟨x ++ y, hx.append hy, by simp; omega, a, x, y, rfl, hq, hq'⟩
  complete := by
    rintro hr pos c bs ⟨a, x, y, rfl, hq, hq'⟩ hat
    obtain ⟨hx, hy⟩ := at_append.1 hat
    have h1 := hf.complete hr hq hx
    have h2 := (hg a).complete hr hq' hy
    show (f pos >>= _) = _
    rw [h1, ok_bind]
    show g a _ = _
    rw [h2, List.length_append, Nat.add_assoc]

theorem map {f : Nat → Res (α × Nat)} {Q : α → Bytes → Prop} (hf : Parses b f Q) (g : α → β) :
    Parses b (fun pos => f pos >>= fun (a, pos) => .ok (g a, pos))
      (fun c bs => ∃ a, c = g a ∧ Q a bs) :=
  (hf.bind (fun a => pure (g a))).congr (by
    intro c bs
    constructor
    · rintro ⟨a, x, y, rfl, hq, rfl, rfl⟩; exact ⟨a, rfl, by simpa using hq⟩
    · rintro ⟨a, rfl, hq⟩; exact ⟨a, bs, [], by simp, hq, rfl, rfl⟩)

theorem lift {r : Res γ} {g : γ → Nat → Res (α × Nat)} {Q : γ → α → Bytes → Prop}
    (hg : ∀ c, r = .ok c → Parses b (g c) (Q c)) :
    Parses b (fun pos => r >>= fun c => g c pos) (fun a bs => ∃ c, r = .ok c ∧ Q c a bs) where
  sound := by
    intro pos a pos' h
    obtain ⟨c, h1, h2⟩ := bind_ok.1 h
    obtain ⟨bs, h3, h4, h5⟩ := (hg c h1).sound h2
    exact ⟨bs, h3, h4, c, h1, h5⟩
  complete := by
    rintro hr pos a bs ⟨c, h1, hq⟩ hat
    show (r >>= _) = _
    rw [h1, ok_bind]
    exact (hg c h1).complete hr hq hat

theorem guard {r : Res Unit} {g : Nat → Res (α × Nat)} {Q : α → Bytes → Prop}
    (hg : r = .ok () → Parses b g Q) :
    Parses b (fun pos => r >>= fun _ => g pos) (fun a bs => r = .ok () ∧ Q a bs) :=
  (lift (r := r) (g := fun _ => g) (Q := fun _ => Q) (fun _ h => hg h)).congr (by
    intro a bs; exact ⟨fun ⟨_, h, hq⟩ => ⟨h, hq⟩, fun ⟨h, hq⟩ => ⟨(), h, hq⟩⟩)

/-- A fixed-size slice and a check of its content. -/
theorem slice {n : Nat} {k : Bytes → Nat → Res (α × Nat)} {P : Bytes → α → Prop}
    (hk : ∀ s pos a pos', s.length = n → (k s pos = .ok (a, pos') ↔ P s a ∧ pos' = pos + n)) :
    Parses b (fun pos => b.readSlice pos n >>= fun s => k s pos)
      (fun a bs => bs.length = n ∧ P bs a) where
  sound := by
    intro pos a pos' h
    obtain ⟨s, h1, h2⟩ := bind_ok.1 h
    obtain ⟨h3, h4⟩ := readSlice_ok h1
    obtain ⟨h5, h6⟩ := (hk s pos a pos' h4).1 h2
    exact ⟨s, .inr h3, by omega, h4, h5⟩
  complete := by
    rintro hr pos a bs ⟨h1, h2⟩ hat
    show (b.readSlice pos n >>= _) = _
    rw [readSlice_of_at' hr hat h1, ok_bind]
    exact (hk _ _ _ _ h1).2 ⟨h2, by omega⟩

/-- Peek one byte, then go on after it. -/
theorem byte {k : UInt8 → Nat → Res (α × Nat)} {Q : UInt8 → α → Bytes → Prop}
    (hk : ∀ x, Parses b (k x) (Q x)) :
    Parses b (fun pos => b.readByte pos >>= fun x => k x (pos + 1))
      (fun a bs => ∃ x rest, bs = x :: rest ∧ Q x a rest) where
  sound := by
    intro pos a pos' h
    obtain ⟨x, h1, h2⟩ := bind_ok.1 h
    have h3 := readByte_ok h1
    obtain ⟨bs, h4, h5, h6⟩ := (hk x).sound h2
    exact ⟨x :: bs, Has.append (x := [x]) (Or.inr h3) h4, by simp; omega, x, bs, rfl, h6⟩
  complete := by
    rintro hr pos a bs ⟨x, rest, rfl, hq⟩ hat
    obtain ⟨h1, h2⟩ := at_cons.1 hat
    show (b.readByte pos >>= _) = _
    rw [readByte_of_at hr h1, ok_bind]
    rw [(hk x).complete hr hq h2, List.length_cons]
    congr 2; omega

theorem compact {w : UW} :
    Parses b (getCompact (compactUInt w) b)
      (fun v bs => v < 2 ^ (8 * w.bytes) ∧ bs = compactEncode v) where
  sound := by
    intro pos v pos' h
    obtain ⟨h1, h2, h3⟩ := getCompact_sound h
    exact ⟨_, .inr h2, h3, h1, rfl⟩
  complete := by
    rintro hr pos v bs ⟨h1, rfl⟩ hat
    exact getCompact_complete hr h1 hat

theorem compactMap {w : UW} {g : Nat → Nat} :
    Parses b (getCompact (fun bs => (compactUInt w bs).map g) b)
      (fun v bs => ∃ v', v' < 2 ^ (8 * w.bytes) ∧ v = g v' ∧ bs = compactEncode v') where
  sound := by
    intro pos v pos' h
    unfold getCompact at h
    obtain ⟨f, h1, h2⟩ := bind_ok.1 h
    cases h2
    obtain ⟨v', h3, h4, h5, h6⟩ := findCompact_sound_map h1
    exact ⟨_, .inr h5, h6, v', h3, h4, rfl⟩
  complete := by
    rintro hr pos v bs ⟨v', h1, rfl, rfl⟩ hat
    unfold getCompact
    rw [findCompact_complete_map hr h1 hat]; rfl

end Parses
end Verif
