import Verif.Proof.PosDevice
import Verif.Spec.PosDevice
import Verif.Props.Hostile
import Verif.Props.Position
/-!
# C87 the position a failing call leaves behind, with memory that fails at times
-/
namespace Verif
open Spec

variable {σ ME : Type} {D : Device σ} {R : Registry} {data : Bytes}

/-- With the position kept as a state, outcome and memory are the same, and after a success the
position is the same. This is so with memory of any kind. -/
theorem posAsTypeD_outcome (D : Device σ) (id pos : Nat) (s : σ) :
    (∀ d q s', posAsTypeD D id pos s = ((.ok d, q), s') ↔ decodeAsTypeAtPositionD D id pos s = (.ok (d, q), s')) ∧
    (∀ e s', (∃ q, posAsTypeD D id pos s = ((.error e, q), s')) ↔
      decodeAsTypeAtPositionD D id pos s = (.error e, s')) := by
  have hk := posDecodeD_keeps (facts_any D) (.symbol id) Propagated.new
  rcases h : decodeAsTypeAtPositionD D id pos s with ⟨e | ⟨d, q⟩, s1⟩
  · obtain ⟨q, h1, -⟩ := hk.bad h
    have h1 : posAsTypeD D id pos s = ((.error e, q), s1) := h1
    rw [h1]
    refine ⟨fun d' q' s' => ?_, fun e' s' => ?_⟩
    · constructor <;> (intro h; cases h)
    · constructor
      · rintro ⟨_, h⟩; cases h; rfl
      · intro h; cases h; exact ⟨q, rfl⟩
  · obtain ⟨h1, -⟩ := hk.good h
    have h1 : posAsTypeD D id pos s = ((.ok d, q), s1) := h1
    rw [h1]
    refine ⟨fun d' q' s' => ?_, fun e s' => ?_⟩
    · constructor <;> (intro h; cases h; rfl)
    · constructor
      · rintro ⟨_, h⟩; cases h
      · intro h; cases h

theorem Fwd.ahead {b : Buf} {len p q : Nat} (hb : b.len = len) (h : Fwd b p q) : Ahead len p q := by
  subst hb
  rcases h with rfl | ⟨h1, h2⟩
  · exact ⟨Nat.le_refl _, _root_.id⟩
  · exact ⟨by omega, fun _ => h2⟩

theorem lengthOnly_len (n : Nat) : (lengthOnly n).len = n := by simp [lengthOnly, Buf.len, Buf.ofBytes]

/-- The position is where `Fw` says. -/
theorem KeepsD.fw {Fw : Nat → Nat → Prop} {L : Nat → Nat → PErr → Prop} {α : Type} {x : PosDR σ α}
    {f : Nat → Dev σ (α × Nat)} (h : KeepsD Fw L x f) (pos : Nat) (s : σ) : Fw pos (x pos s).1.2 := by
  rcases hf : f pos s with ⟨e | ⟨a, q⟩, s1⟩
  · obtain ⟨q, h1, h2, -⟩ := h.bad hf
    rw [h1]; exact h2
  · obtain ⟨h1, h2⟩ := h.good hf
    rw [h1]; exact h2

/-- Whatever the memory answers and whatever the outcome, the position has not moved back, and not
past the end of the data. -/
theorem posAsTypeD_ahead (h : Untrusted D) (id pos : Nat) (s : σ) :
    Ahead D.len pos (posAsTypeD D id pos s).1.2 :=
  ((posDecodeD_keeps (facts_hostile h.sizes) (.symbol id) Propagated.new).fw pos s).ahead (lengthOnly_len _)

/-- There is no other outcome than a value or an error. -/
theorem posAsTypeD_total (h : Untrusted D) (id pos : Nat) (s : σ) :
    (∃ d q s', posAsTypeD D id pos s = ((.ok d, q), s')) ∨
    ∃ e q s', posAsTypeD D id pos s = ((.error (.err e), q), s') := by
  obtain ⟨o1, o2⟩ := posAsTypeD_outcome D id pos s
  rcases hr : decodeAsTypeAtPositionD D id pos s with ⟨r, s'⟩
  have hs := decodeD_safe h.sizes id pos Propagated.new s
  have hs : (∃ a, (decodeAsTypeAtPositionD D id pos s).1 = .ok a ∧ _) ∨
    ∃ e, (decodeAsTypeAtPositionD D id pos s).1 = .error (.err e) := hs
  rw [hr] at hs
  rcases hs with ⟨⟨d, q⟩, h1, -⟩ | ⟨e, h1⟩
  · dsimp only at h1; subst h1
    exact .inl ⟨d, q, s', (o1 _ _ _).2 hr⟩
  · dsimp only at h1; subst h1
    obtain ⟨q, hq⟩ := (o2 _ _).2 hr
    exact .inr ⟨e, q, s', hq⟩

/-- Memory that tells the truth or fails: after an error the position stands at the item that could
not be read, and the error names that position. -/
theorem posAsTypeD_located (h : Flaky D R data) {id pos q : Nat} {s s' : σ} {e : PErr}
    (he : posAsTypeD D id pos s = ((.error (.err e), q), s')) : Located data pos q e := by
  have hk := posDecodeD_keeps (facts_flaky h.honest) (.symbol id) Propagated.new
  have h0 := ((posAsTypeD_outcome D id pos s).2 _ _).1 ⟨q, he⟩
  obtain ⟨q', h1, -, h3⟩ := hk.bad h0
  have h1 : posAsTypeD D id pos s = ((.error (.err e), q'), s') := h1
  rw [h1] at he
  cases he
  exact h3 e rfl

theorem Spec.Flaky.untrusted (h : Flaky D R data) : Untrusted D where
  word := h.word
  read := fun pos n s => by
    rcases h.honest.hostile.read pos n s with ⟨bs, h1, h2, h3⟩ | h'
    · exact .inl ⟨bs, h1, h2, by rw [h.len]; exact h3⟩
    · exact .inr h'
  resolve := fun id s t ht => by
    rw [h.size]
    rcases h.resolve id s with h1 | h1
    · rw [ht] at h1
      refine Nat.lt_of_not_le fun hle => ?_
      obtain ⟨e, he⟩ := R.bounded id hle
      rw [he] at h1; cases h1
    · rw [ht] at h1; cases h1

/-! ### Calls and extensions -/

/-- As `KeepsD`, for the errors of transactions. -/
structure KeepsTxD {α : Type} (Fw : Nat → Nat → Prop) (L : Nat → σ → Nat → σ → SErr ME → Prop)
    (x : PosDev σ (Out (SErr ME)) α) (f : Nat → DevO σ (SErr ME) (α × Nat)) : Prop where
  good : ∀ {pos s a q s'}, f pos s = (.ok (a, q), s') → x pos s = ((.ok a, q), s') ∧ Fw pos q
  bad : ∀ {pos s e s'}, f pos s = (.error e, s') → ∃ q, x pos s = ((.error e, q), s') ∧ Fw pos q ∧
    ∀ pe, e = .err pe → L pos s q s' pe

section
variable {Fw : Nat → Nat → Prop} {L : Nat → Nat → PErr → Prop} {α β : Type}

/-- Errors of the parser only. -/
def ParseAt (L : Nat → Nat → PErr → Prop) (start : Nat) (_ : σ) (stop : Nat) (_ : σ) (e : SErr ME) : Prop :=
  ∃ pe, e = .parsing pe ∧ L start stop pe

theorem KeepsTxD.bind (F : Facts D Fw L) {x : PosDev σ (Out (SErr ME)) α}
    {f : Nat → DevO σ (SErr ME) (α × Nat)} {k : α → PosDev σ (Out (SErr ME)) β} {g : α → Nat → DevO σ (SErr ME) (β × Nat)}
    (hx : KeepsTxD Fw (ParseAt L) x f) (hk : ∀ a, KeepsTxD Fw (ParseAt L) (k a) (g a)) :
    KeepsTxD Fw (ParseAt L) (x >>= k) (fun pos => f pos >>= fun r => g r.1 r.2) where
  good := by
    intro pos s c q s' h
    have h : DevO.bind (f pos) (fun r => g r.1 r.2) s = _ := h
    unfold DevO.bind at h
    show PosDev.bind x k pos s = _ ∧ _
    unfold PosDev.bind
    rcases hf : f pos s with ⟨e | ⟨a, p1⟩, s1⟩
    · rw [hf] at h; cases h
    · rw [hf] at h
      obtain ⟨e1, f1⟩ := hx.good hf
      obtain ⟨e2, f2⟩ := (hk a).good h
      rw [e1]
      exact ⟨e2, F.trans f1 f2⟩
  bad := by
    intro pos s e s' h
    have h : DevO.bind (f pos) (fun r => g r.1 r.2) s = _ := h
    unfold DevO.bind at h
    show ∃ q, PosDev.bind x k pos s = _ ∧ _
    unfold PosDev.bind
    rcases hf : f pos s with ⟨e' | ⟨a, p1⟩, s1⟩
    · rw [hf] at h
      cases h
      obtain ⟨q, e1, f1, l1⟩ := hx.bad hf
      rw [e1]
      exact ⟨q, rfl, f1, l1⟩
    · rw [hf] at h
      obtain ⟨e1, f1⟩ := hx.good hf
      obtain ⟨q, e2, f2, l2⟩ := (hk a).bad h
      rw [e1]
      refine ⟨q, e2, F.trans f1 f2, fun pe hpe => ?_⟩
      obtain ⟨pe', h1, h2⟩ := l2 pe hpe
      exact ⟨pe', h1, F.earlier f1 h2⟩

theorem KeepsTxD.pure (F : Facts D Fw L) {L' : Nat → σ → Nat → σ → SErr ME → Prop} (a : α) :
    KeepsTxD Fw L' (PosDev.ok a) (fun pos => DevO.of (.ok (a, pos))) where
  good := by intro pos s a' q s' h; cases h; exact ⟨rfl, F.refl _⟩
  bad := by intro pos s e s' h; cases h

theorem parsing_keepsD {x : PosDR σ α} {f : Nat → Dev σ (α × Nat)} (h : KeepsD Fw L x f) :
    KeepsTxD (ME := ME) Fw (ParseAt L) (PosDev.mapE (Res.mapErr .parsing) x)
      (fun pos => Dev.mapErr .parsing (f pos)) where
  good := by
    intro pos s a q s' hf
    unfold Dev.mapErr at hf
    unfold PosDev.mapE
    rcases hx : f pos s with ⟨e | r, s1⟩
    · rw [hx] at hf; cases e <;> cases hf
    · rw [hx] at hf
      cases hf
      obtain ⟨h1, h2⟩ := h.good hx
      rw [h1]
      exact ⟨rfl, h2⟩
  bad := by
    intro pos s e s' hf
    unfold Dev.mapErr at hf
    unfold PosDev.mapE
    rcases hx : f pos s with ⟨e' | r, s1⟩
    · obtain ⟨q, h1, h2, h3⟩ := h.bad hx
      rw [hx] at hf
      rw [h1]
      refine ⟨q, ?_, h2, ?_⟩
      · cases e' <;> (cases hf; rfl)
      · intro pe hpe
        subst hpe
        cases e' with
        | err e'' => cases hf; exact ⟨_, rfl, h3 _ rfl⟩
        | panic => cases hf
        | fuel => cases hf
    · rw [hx] at hf; cases hf

/-- What errors of `decode_as_call_unmarked` may be. -/
inductive CallAt (D : Device σ) (L : Nat → Nat → PErr → Prop) (start : Nat) (s : σ) (stop : Nat) (s' : σ) :
    SErr ME → Prop
  | parsing {e : PErr} : L start stop e → CallAt D L start s stop s' (.parsing e)
  | metadata {e : ME} : stop = start → CallAt D L start s stop s' (.metaStructure e)
  | notACall {id : Nat} {d : ED} : decodeAsTypeAtPositionD D id start s = (.ok (d, stop), s') →
      CallAt D L start s stop s' (.notACall id)

theorem devO_ok {x : DevO σ (SErr ME) α} {k : α → DevO σ (SErr ME) β} {s s' : σ} {a : α} (h : x s = (.ok a, s')) :
    (x >>= k) s = k a s' := by
  show DevO.bind x k s = _
  unfold DevO.bind
  rw [h]

theorem devO_err {x : DevO σ (SErr ME) α} {k : α → DevO σ (SErr ME) β} {s s' : σ} {e : Out (SErr ME)}
    (h : x s = (.error e, s')) : (x >>= k) s = (.error e, s') := by
  show DevO.bind x k s = _
  unfold DevO.bind
  rw [h]

theorem posDev_ok {x : PosDev σ (Out (SErr ME)) α} {k : α → PosDev σ (Out (SErr ME)) β} {s s' : σ} {a : α} {pos q : Nat}
    (h : x pos s = ((.ok a, q), s')) : (x >>= k) pos s = k a q s' := by
  show PosDev.bind x k pos s = _
  unfold PosDev.bind
  rw [h]

theorem posDev_err {x : PosDev σ (Out (SErr ME)) α} {k : α → PosDev σ (Out (SErr ME)) β} {s s' : σ} {e : Out (SErr ME)}
    {pos q : Nat} (h : x pos s = ((.error e, q), s')) : (x >>= k) pos s = ((.error e, q), s') := by
  show PosDev.bind x k pos s = _
  unfold PosDev.bind
  rw [h]

theorem call_keepsD (F : Facts D Fw L) (M : Metadata ME) :
    KeepsTxD Fw (CallAt D L) (posAsCallUnmarkedD D M) (decodeAsCallUnmarkedD D M) := by
  rcases hc : M.callTy with (e | _ | _) | callTy
  · refine ⟨fun {pos s a q s'} h => ?_, fun {pos s e s'} h => ?_⟩
    · unfold decodeAsCallUnmarkedD at h
      rw [hc] at h
      cases h
    · unfold decodeAsCallUnmarkedD at h
      rw [hc] at h
      cases h
      unfold posAsCallUnmarkedD
      rw [hc]
      exact ⟨pos, rfl, F.refl _, fun pe hpe => by cases hpe; exact .metadata rfl⟩
  · refine ⟨fun {pos s a q s'} h => ?_, fun {pos s e s'} h => ?_⟩
    · unfold decodeAsCallUnmarkedD at h
      rw [hc] at h
      cases h
    · unfold decodeAsCallUnmarkedD at h
      rw [hc] at h
      cases h
      unfold posAsCallUnmarkedD
      rw [hc]
      exact ⟨pos, rfl, F.refl _, fun pe hpe => by cases hpe⟩
  · refine ⟨fun {pos s a q s'} h => ?_, fun {pos s e s'} h => ?_⟩
    · unfold decodeAsCallUnmarkedD at h
      rw [hc] at h
      cases h
    · unfold decodeAsCallUnmarkedD at h
      rw [hc] at h
      cases h
      unfold posAsCallUnmarkedD
      rw [hc]
      exact ⟨pos, rfl, F.refl _, fun pe hpe => by cases hpe⟩
  · have hk := parsing_keepsD (ME := ME) (posDecodeD_keeps F (.symbol callTy) Propagated.new)
    have hg : ∀ (pos : Nat) (s : σ), decodeAsCallUnmarkedD D M pos s =
        ((Dev.mapErr SErr.parsing (decodeD D (.symbol callTy) pos Propagated.new) >>= fun r =>
          match r.1.data.asCall with
          | some call => DevO.of (.ok (call, r.2))
          | none => DevO.of (.error (.err (.notACall callTy)))) : DevO σ (SErr ME) (Call × Nat)) s := by
      intro pos s
      unfold decodeAsCallUnmarkedD
      rw [hc]
      rfl
    have hp : posAsCallUnmarkedD D M =
        (PosDev.mapE (Res.mapErr .parsing) (posDecodeD D (.symbol callTy) Propagated.new) >>= fun d =>
          match d.data.asCall with
          | some call => PosDev.ok call
          | none => PosDev.still (.error (.err (.notACall callTy)))) := by
      unfold posAsCallUnmarkedD
      rw [hc]
      rfl
    constructor
    · intro pos s a q s' h
      rw [hg] at h
      rw [hp]
      rcases hd : Dev.mapErr (ε := SErr ME) SErr.parsing (decodeD D (.symbol callTy) pos Propagated.new) s with ⟨e | ⟨d, q1⟩, s1⟩
      · rw [devO_err hd] at h; cases h
      · rw [devO_ok hd] at h
        obtain ⟨g1, g2⟩ := hk.good hd
        rw [posDev_ok g1]
        dsimp only at h
        cases hcall : d.data.asCall with
        | some call => rw [hcall] at h; cases h; exact ⟨rfl, g2⟩
        | none => rw [hcall] at h; cases h
    · intro pos s e s' h
      rw [hg] at h
      rw [hp]
      rcases hd : Dev.mapErr (ε := SErr ME) SErr.parsing (decodeD D (.symbol callTy) pos Propagated.new) s with ⟨e1 | ⟨d, q1⟩, s1⟩
      · rw [devO_err hd] at h
        cases h
        obtain ⟨q, g1, g2, g3⟩ := hk.bad hd
        rw [posDev_err g1]
        refine ⟨q, rfl, g2, fun pe hpe => ?_⟩
        obtain ⟨pe', rfl, h⟩ := g3 pe hpe
        exact .parsing h
      · rw [devO_ok hd] at h
        obtain ⟨g1, g2⟩ := hk.good hd
        rw [posDev_ok g1]
        dsimp only at h
        cases hcall : d.data.asCall with
        | some call => rw [hcall] at h; cases h
        | none =>
          rw [hcall] at h
          cases h
          refine ⟨q1, rfl, g2, fun pe hpe => ?_⟩
          cases hpe
          refine .notACall (d := d) ?_
          unfold decodeAsTypeAtPositionD
          unfold Dev.mapErr at hd
          rcases hx : decodeD D (.symbol callTy) pos Propagated.new s with ⟨e | r, s2⟩
          · rw [hx] at hd; cases e <;> cases hd
          · rw [hx] at hd; cases hd; rfl

theorem extensionsLoop_keepsD (F : Facts D Fw L) (sel : SignedExt → Nat) (es : List SignedExt) :
    KeepsTxD (ME := ME) Fw (ParseAt L) (posExtensionsLoopD D sel es) (fun pos => extensionsLoopD D sel es pos) := by
  induction es with
  | nil => exact .pure F _
  | cons e es ih =>
    unfold posExtensionsLoopD extensionsLoopD
    exact KeepsTxD.bind F (parsing_keepsD (posDecodeD_keeps F _ _)) fun d => KeepsTxD.bind F ih fun ds => .pure F _

/-- What errors of `decode_extensions_unmarked` may be. -/
inductive ExtsAt (L : Nat → Nat → PErr → Prop) (len start stop : Nat) : SErr ME → Prop
  | parsing {e : PErr} : L start stop e → ExtsAt L len start stop (.parsing e)
  | metadata {e : ME} : stop = start ∨ stop = len → ExtsAt L len start stop (.metaStructure e)
  | unused : stop ≠ len → ExtsAt L len start stop (.someDataNotUsedExtensions stop)
  | list {e : ExtErr} : stop = len → ExtsAt L len start stop (.extensionsList e)
  | immortal : stop = len → ExtsAt L len start stop .immortalHashMismatch
  | genesis {x y : Bytes} : stop = len → ExtsAt L len start stop (.wrongGenesisHash x y)
  | version {x y : String} : stop = len → ExtsAt L len start stop (.wrongSpecVersion x y)

theorem checkExtensions_at (exts : List ED) (version : String) (expected : Option Bytes) {len start stop : Nat}
    (hs : stop = len) : Honor (ExtsAt L len start stop) (checkExtensions (ME := ME) exts version expected) := by
  intro e he
  have h := checkExtensions_located (ME := ME) (b := lengthOnly len) exts version expected (start := start)
    (stop := stop) (by rw [hs]; simp [lengthOnly, Buf.ofBytes]) e he
  cases h with
  | parsing _ =>
    exfalso
    unfold checkExtensions at he
    split at he
    · unfold checkCollected at he
      have him : ∀ c x, checkImmortal (ME := ME) c ≠ .error (.err (.parsing x)) := by
        intro c x
        unfold checkImmortal
        repeat' split
        all_goals (intro h; cases h)
      repeat' split at he
      all_goals first | (cases he; done) | exact him _ _ he
    · cases he
  | metadata _ => exact .metadata (.inr hs)
  | unused h => exact absurd (by rw [hs]; simp [lengthOnly, Buf.ofBytes]) h
  | list _ => exact .list hs
  | immortal _ => exact .immortal hs
  | genesis _ => exact .genesis hs
  | version _ => exact .version hs

theorem exts_keepsD (F : Facts D Fw L) (M : Metadata ME) (expected : Option Bytes) (pos : Nat) (s : σ) :
    ∃ q, posExtensionsUnmarkedD D M expected pos s =
        (((decodeExtensionsUnmarkedD D M pos expected s).1, q), (decodeExtensionsUnmarkedD D M pos expected s).2) ∧
      Fw pos q ∧
      (∀ ds, (decodeExtensionsUnmarkedD D M pos expected s).1 = .ok ds → q = D.len) ∧
      (∀ e, (decodeExtensionsUnmarkedD D M pos expected s).1 = .error (.err e) → ExtsAt L D.len pos q e) := by
  unfold decodeExtensionsUnmarkedD posExtensionsUnmarkedD
  rcases hc : M.signedExtensions with (e | _ | _) | signed
  · exact ⟨pos, rfl, F.refl _, fun ds h => (by cases h), fun e h => (by cases h; exact .metadata (.inl rfl))⟩
  · exact ⟨pos, rfl, F.refl _, fun ds h => (by cases h), fun e h => (by cases h)⟩
  · exact ⟨pos, rfl, F.refl _, fun ds h => (by cases h), fun e h => (by cases h)⟩
  · have hk1 := extensionsLoop_keepsD (ME := ME) F (·.ty) signed
    have hk2 := extensionsLoop_keepsD (ME := ME) F (·.additionalSigned) signed
    rw [devO_ok (s := s) (x := DevO.of (mapOut SErr.metaStructure (.ok signed))) rfl,
      posDev_ok (s := s) (pos := pos) (x := PosDev.still (mapOut SErr.metaStructure (.ok signed))) rfl]
    rcases h1 : extensionsLoopD (ME := ME) D (·.ty) signed pos s with ⟨e | ⟨first, p1⟩, s1⟩
    · obtain ⟨q, g1, g2, g3⟩ := hk1.bad h1
      rw [devO_err h1, posDev_err g1]
      refine ⟨q, rfl, g2, fun ds h => (by cases h), fun e' h => ?_⟩
      cases h
      obtain ⟨pe, rfl, h⟩ := g3 _ rfl
      exact .parsing h
    · obtain ⟨g1, g2⟩ := hk1.good h1
      rw [devO_ok h1, posDev_ok g1]
      dsimp only
      rcases h2 : extensionsLoopD (ME := ME) D (·.additionalSigned) signed p1 s1 with ⟨e | ⟨second, p2⟩, s2⟩
      · obtain ⟨q, g3, g4, g5⟩ := hk2.bad h2
        rw [devO_err h2, posDev_err g3]
        refine ⟨q, rfl, F.trans g2 g4, fun ds h => (by cases h), fun e' h => ?_⟩
        cases h
        obtain ⟨pe, rfl, h⟩ := g5 _ rfl
        exact .parsing (F.earlier g2 h)
      · obtain ⟨g3, g4⟩ := hk2.good h2
        rw [devO_ok h2, posDev_ok g3]
        have hf := F.trans g2 g4
        rw [posDev_ok (s := s2) (pos := p2) (x := PosDev.get) rfl]
        dsimp only
        by_cases hne : p2 ≠ D.len
        · rw [if_pos hne, if_pos hne]
          refine ⟨p2, rfl, hf, fun ds h => (by cases h), fun e' h => ?_⟩
          cases h
          exact .unused hne
        · rw [if_neg hne, if_neg hne]
          have heq : p2 = D.len := Classical.not_not.1 hne
          rcases hv : M.specNameVersion with (e | _ | _) | spec
          · exact ⟨p2, rfl, hf, fun ds h => (by cases h), fun e h => (by cases h; exact .metadata (.inr heq))⟩
          · exact ⟨p2, rfl, hf, fun ds h => (by cases h), fun e h => (by cases h)⟩
          · exact ⟨p2, rfl, hf, fun ds h => (by cases h), fun e h => (by cases h)⟩
          · rw [devO_ok (s := s2) (x := DevO.of (mapOut SErr.metaStructure (.ok spec))) rfl,
              posDev_ok (s := s2) (pos := p2) (x := PosDev.still (mapOut SErr.metaStructure (.ok spec))) rfl]
            have hl := checkExtensions_at (ME := ME) (L := L) (first ++ second) spec.printedSpecVersion
              expected (start := pos) heq
            cases hce : checkExtensions (ME := ME) (first ++ second) spec.printedSpecVersion expected with
            | error e =>
              rw [hce] at hl
              exact ⟨p2, rfl, hf, fun ds h => (by cases h), fun e' h => (by cases h; exact hl _ rfl)⟩
            | ok u => exact ⟨p2, rfl, hf, fun ds h => heq, fun e h => (by cases h)⟩

end

/-- `decode_as_call_unmarked`, memory of any kind: same outcome, same memory, same position after a
success. -/
theorem posAsCallUnmarkedD_outcome (D : Device σ) (M : Metadata ME) (pos : Nat) (s : σ) :
    (∀ c q s', posAsCallUnmarkedD D M pos s = ((.ok c, q), s') ↔ decodeAsCallUnmarkedD D M pos s = (.ok (c, q), s')) ∧
    (∀ e s', (∃ q, posAsCallUnmarkedD D M pos s = ((.error e, q), s')) ↔
      decodeAsCallUnmarkedD D M pos s = (.error e, s')) := by
  have hk := call_keepsD (facts_any D) M
  rcases h : decodeAsCallUnmarkedD D M pos s with ⟨e | ⟨d, q⟩, s1⟩
  · obtain ⟨q, h1, -⟩ := hk.bad h
    rw [h1]
    refine ⟨fun d' q' s' => ?_, fun e' s' => ?_⟩
    · constructor <;> (intro h; cases h)
    · constructor
      · rintro ⟨_, h⟩; cases h; rfl
      · intro h; cases h; exact ⟨q, rfl⟩
  · obtain ⟨h1, -⟩ := hk.good h
    rw [h1]
    refine ⟨fun d' q' s' => ?_, fun e s' => ?_⟩
    · constructor <;> (intro h; cases h; rfl)
    · constructor
      · rintro ⟨_, h⟩; cases h
      · intro h; cases h

/-- `decode_as_call_unmarked`, whatever the memory answers: the position moves forward within the data. -/
theorem posAsCallUnmarkedD_ahead (h : Untrusted D) (M : Metadata ME) (pos : Nat) (s : σ) :
    Ahead D.len pos (posAsCallUnmarkedD D M pos s).1.2 := by
  have hk := call_keepsD (facts_hostile h.sizes) M
  rcases hf : decodeAsCallUnmarkedD D M pos s with ⟨e | ⟨a, q⟩, s1⟩
  · obtain ⟨q, h1, h2, -⟩ := hk.bad hf
    rw [h1]; exact h2.ahead (lengthOnly_len _)
  · obtain ⟨h1, h2⟩ := hk.good hf
    rw [h1]; exact h2.ahead (lengthOnly_len _)

/-- `decode_as_call_unmarked`, memory that tells the truth or fails: after an error the position
stands at what the error is about. -/
theorem posAsCallUnmarkedD_located (h : Flaky D R data) (M : Metadata ME) {pos q : Nat} {s s' : σ} {e : SErr ME}
    (he : posAsCallUnmarkedD D M pos s = ((.error (.err e), q), s')) : LocatedCallD D data pos s q s' e := by
  have hk := call_keepsD (facts_flaky h.honest) M
  have h0 := ((posAsCallUnmarkedD_outcome D M pos s).2 _ _).1 ⟨q, he⟩
  obtain ⟨q', h1, -, h3⟩ := hk.bad h0
  rw [h1] at he
  cases he
  cases h3 e rfl with
  | parsing h => exact .parsing h
  | metadata h => exact .metadata h
  | notACall h => exact .notACall h

/-- `decode_extensions_unmarked`, memory of any kind: same outcome, same memory; after a success
everything is passed. -/
theorem posExtensionsUnmarkedD_outcome (D : Device σ) (M : Metadata ME) (expected : Option Bytes) (pos : Nat) (s : σ) :
    (posExtensionsUnmarkedD D M expected pos s).1.1 = (decodeExtensionsUnmarkedD D M pos expected s).1 ∧
    (posExtensionsUnmarkedD D M expected pos s).2 = (decodeExtensionsUnmarkedD D M pos expected s).2 ∧
    (∀ ds, (posExtensionsUnmarkedD D M expected pos s).1.1 = .ok ds →
      (posExtensionsUnmarkedD D M expected pos s).1.2 = D.len) := by
  obtain ⟨q, h1, -, h3, -⟩ := exts_keepsD (facts_any D) M expected pos s
  rw [h1]
  exact ⟨rfl, rfl, h3⟩

/-- `decode_extensions_unmarked`, whatever the memory answers: the position moves forward within the
data. -/
theorem posExtensionsUnmarkedD_ahead (h : Untrusted D) (M : Metadata ME) (expected : Option Bytes) (pos : Nat) (s : σ) :
    Ahead D.len pos (posExtensionsUnmarkedD D M expected pos s).1.2 := by
  obtain ⟨q, h1, h2, -⟩ := exts_keepsD (facts_hostile h.sizes) M expected pos s
  rw [h1]
  exact h2.ahead (lengthOnly_len _)

/-- `decode_extensions_unmarked`, memory that tells the truth or fails: after an error the position
stands at what the error is about. -/
theorem posExtensionsUnmarkedD_located (h : Flaky D R data) (M : Metadata ME) (expected : Option Bytes) {pos q : Nat}
    {s s' : σ} {e : SErr ME} (he : posExtensionsUnmarkedD D M expected pos s = ((.error (.err e), q), s')) :
    LocatedExts (Buf.ofBytes data) pos q e := by
  obtain ⟨q', h1, -, -, h4⟩ := exts_keepsD (facts_flaky h.honest) M expected pos s
  rw [h1] at he
  generalize hr : (decodeExtensionsUnmarkedD D M pos expected s).1 = r at he h4
  cases he
  have hlen : D.len = (Buf.ofBytes data).bytes.length := h.len
  cases h4 e rfl with
  | parsing h => exact .parsing h
  | metadata h => exact .metadata (by rw [← hlen]; exact h)
  | unused h => exact .unused (by rw [← hlen]; exact h)
  | list h => exact .list (h.trans hlen)
  | immortal h => exact .immortal (h.trans hlen)
  | genesis h => exact .genesis (h.trans hlen)
  | version h => exact .version (h.trans hlen)

/-! ### Examples -/
namespace PosDeviceExample
open PositionExample

/-- Memory that fails at the `f`-th access, and only then. -/
def memory (data : Bytes) (f : Nat) : Device Nat := scripted (usize64 false) types data (fun k => k == f)

/-- `S { a: 5, t: "hi", e: B(9) }`, from position 1 on. -/
def whole : Bytes := [0xff, 5, 8, 104, 105, 7, 9]

theorem flaky (data : Bytes) (f : Nat) (h : data.length < 2 ^ 60) : Flaky (memory data f) types data :=
  scripted_flaky _ ⟨by decide, by have : (usize64 false).cap = 2 ^ 64 := rfl; omega⟩ _

/-- What is left behind: position and number of accesses so far. -/
def left {α : Type} (r : (Res α × Nat) × Nat) : Nat × Nat := (r.1.2, r.2)

/-- The access fails that reads the text (its length was read), the index of the variant, the field of
the variant. Without a failure everything is passed. -/
example : posAsTypeD (memory whole 5) 2 1 0 = ((.error (.err (.buffer .external)), 2), 6) := rfl
example : posAsTypeD (memory whole 7) 2 1 0 = ((.error (.err (.buffer .external)), 5), 8) := rfl
example : posAsTypeD (memory whole 8) 2 1 0 = ((.error (.err (.registry .external)), 6), 9) := rfl
example : left (posAsTypeD (memory whole 10) 2 1 0) = (7, 10) := rfl

example (f : Nat) := (posAsTypeD_outcome (memory whole f) 2 1 0).1
example (f k : Nat) : Ahead 7 1 (posAsTypeD (memory whole f) 2 1 k).1.2 :=
  posAsTypeD_ahead (flaky whole f (by decide)).untrusted 2 1 k
example (f k : Nat) := posAsTypeD_total (flaky whole f (by decide)).untrusted 2 1 k

/-- The text is cut; the failing access comes later, and is not reached. -/
example : Located [0xff, 5, 8, 104] 1 2 (.buffer (.dataTooShort 3 2)) :=
  posAsTypeD_located (s := 0) (s' := 6) (flaky [0xff, 5, 8, 104] 9 (by decide)) (id := 2) rfl

/-- Memory that changes between two reads of the same compact: the position is inside the data. -/
example : Ahead 2 0 (posAsTypeD (HostileExample.changing HostileExample.compacts 2 HostileExample.flips) 1 0 0).1.2 :=
  posAsTypeD_ahead (HostileExample.changing_untrusted _ (fun k => by unfold HostileExample.flips; split <;> rfl)
    (by decide)) 1 0 0

/-- A call with a cut argument, one whose reading fails, a value that is no call. -/
def chainMemory (data : Bytes) (f : Nat) : Device Nat :=
  scripted (usize64 false) Example.chain.types data (fun k => k == f)

theorem chainFlaky (data : Bytes) (f : Nat) (h : data.length < 2 ^ 60) :
    Flaky (chainMemory data f) Example.chain.types data :=
  scripted_flaky _ ⟨by decide, by have : (usize64 false).cap = 2 ^ 64 := rfl; omega⟩ _

example : posAsCallUnmarkedD (chainMemory [5, 1, 7, 1, 0] 99) Example.chain 0 0 =
    ((.error (.err (.parsing (.buffer (.dataTooShort 3 4)))), 3), 8) := rfl
example : posAsCallUnmarkedD (chainMemory [5, 1, 7, 1, 0] 3) Example.chain 0 0 =
    ((.error (.err (.parsing (.buffer .external))), 1), 4) := rfl
example : LocatedCallD (chainMemory [5, 1, 7, 1, 0] 99) [5, 1, 7, 1, 0] 0 0 3 8
    (SErr.parsing (ME := Unit) (.buffer (.dataTooShort 3 4))) :=
  posAsCallUnmarkedD_located (chainFlaky [5, 1, 7, 1, 0] 99 (by decide)) Example.chain rfl
example : LocatedCallD (chainMemory [0] 99) [0] 0 0 1 3 (SErr.notACall (ME := Unit) 7) :=
  posAsCallUnmarkedD_located (chainFlaky [0] 99 (by decide)) { Example.chain with callTy := .ok 7 } rfl
example (f k : Nat) := (posAsCallUnmarkedD_outcome (chainMemory [5, 1, 7, 1, 0] f) Example.chain 0 k).2
example (f k : Nat) : Ahead 5 0 (posAsCallUnmarkedD (chainMemory [5, 1, 7, 1, 0] f) Example.chain 0 k).1.2 :=
  posAsCallUnmarkedD_ahead (chainFlaky [5, 1, 7, 1, 0] f (by decide)).untrusted Example.chain 0 k

/-- A chain with one extension, and a byte too much. -/
def short : Metadata Unit := { Example.chain with signedExtensions := Example.chain.signedExtensions.map (List.take 1) }

example : LocatedExts (ME := Unit) (Buf.ofBytes [0, 7, 7, 7, 7, 7]) 0 4 (.someDataNotUsedExtensions 4) :=
  posExtensionsUnmarkedD_located (s := 0) (chainFlaky [0, 7, 7, 7, 7, 7] 99 (by decide)) short none rfl
example : LocatedExts (ME := Unit) (Buf.ofBytes [0, 7, 7, 7, 7, 7]) 0 0 (.parsing (.buffer .external)) :=
  posExtensionsUnmarkedD_located (s := 0) (chainFlaky [0, 7, 7, 7, 7, 7] 2 (by decide)) short none rfl
example (f k : Nat) := posExtensionsUnmarkedD_outcome (chainMemory Example.extBytes f) Example.chain none 0 k
example (f k : Nat) :
    Ahead 69 0 (posExtensionsUnmarkedD (chainMemory Example.extBytes f) Example.chain none 0 k).1.2 :=
  posExtensionsUnmarkedD_ahead (chainFlaky Example.extBytes f (by decide)).untrusted Example.chain none 0 k

end PosDeviceExample

end Verif
