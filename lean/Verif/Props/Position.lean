import Verif.Proof.Position
import Verif.Props.Decode
import Verif.Props.TxErrors
import Verif.Props.Example
/-!
# C63 the position a failing call leaves behind
-/
namespace Verif
open Spec

variable {ME : Type} {M : Metadata ME} {R : Registry} {b : Buf}

/-- With the position kept as a state, the outcome is the same, and after a success the
position is the same. -/
theorem position_outcome (R : Registry) (b : Buf) (id pos : Nat) :
    (∀ d q, posAsType R b id pos = (.ok d, q) ↔ decodeAsTypeAtPosition R b id pos = .ok (d, q)) ∧
    (∀ e, (∃ q, posAsType R b id pos = (.error e, q)) ↔ decodeAsTypeAtPosition R b id pos = .error e) := by
  have hk := posDecode_keeps (R := R) (b := b) (.symbol id) Propagated.new
  cases h : decodeAsTypeAtPosition R b id pos with
  | ok r =>
    obtain ⟨d, q⟩ := r
    obtain ⟨h1, -⟩ := hk.good h
    have h1 : posAsType R b id pos = (.ok d, q) := h1
    rw [h1]
    refine ⟨fun d' q' => ?_, fun e => ?_⟩
    · constructor <;> (intro h; cases h; rfl)
    · constructor
      · rintro ⟨_, h⟩; cases h
      · intro h; cases h
  | error e =>
    obtain ⟨q, h1, -⟩ := hk.bad h
    have h1 : posAsType R b id pos = (.error e, q) := h1
    rw [h1]
    refine ⟨fun d' q' => ?_, fun e' => ?_⟩
    · constructor <;> (intro h; cases h)
    · constructor
      · rintro ⟨_, h⟩; cases h; rfl
      · intro h; cases h; exact ⟨q, rfl⟩

/-- Whatever the outcome, the position has not moved back, and not past the end of the
data. -/
theorem position_forward (R : Registry) (b : Buf) (id pos : Nat) :
    Forward b.bytes pos (posAsType R b id pos).2 := by
  have hk := posDecode_keeps (R := R) (b := b) (.symbol id) Propagated.new
  cases h : decodeAsTypeAtPosition R b id pos with
  | ok r =>
    obtain ⟨h1, h2⟩ := hk.good h
    have h1 : posAsType R b id pos = (.ok r.1, r.2) := h1
    rw [h1]; exact h2
  | error e =>
    obtain ⟨q, h1, h2, -⟩ := hk.bad h
    have h1 : posAsType R b id pos = (.error e, q) := h1
    rw [h1]; exact h2

/-- After an error the position stands at the item that could not be read, and the error
names that position. -/
theorem position_after_error {id pos q : Nat} {e : PErr} (h : posAsType R b id pos = (.error (.err e), q)) :
    Located b.bytes pos q e := by
  have hk := posDecode_keeps (R := R) (b := b) (.symbol id) Propagated.new
  have h0 := ((position_outcome R b id pos).2 _).1 ⟨q, h⟩
  obtain ⟨q', h1, -, h3⟩ := hk.bad h0
  have h1 : posAsType R b id pos = (.error (.err e), q') := h1
  rw [h1] at h
  cases h
  exact h3 e rfl

/-- There is no other outcome than a value or an error of the parser. -/
theorem position_total (R : Registry) (b : Buf) (id pos : Nat) :
    (∃ d q, posAsType R b id pos = (.ok d, q)) ∨ ∃ e q, posAsType R b id pos = (.error (.err e), q) := by
  rcases decode_total (R := R) b (.symbol id) pos Propagated.new with ⟨d, q, h⟩ | ⟨e, h⟩
  · exact .inl ⟨d, q, ((position_outcome R b id pos).1 _ _).2 h⟩
  · obtain ⟨q, hq⟩ := ((position_outcome R b id pos).2 _).2 h
    exact .inr ⟨e, q, hq⟩

/-! ### Calls and extensions -/

/-- As `Keeps`, for the errors of transactions. -/
structure KeepsTx {α : Type} (b : Buf) (L : Nat → Nat → SErr ME → Prop) (x : PosM (Out (SErr ME)) α)
    (f : Nat → SRes ME (α × Nat)) : Prop where
  good : ∀ {pos a q}, f pos = .ok (a, q) → x pos = (.ok a, q) ∧ Forward b.bytes pos q
  bad : ∀ {pos e}, f pos = .error e → ∃ q, x pos = (.error e, q) ∧ Forward b.bytes pos q ∧
    ∀ pe, e = .err pe → L pos q pe

theorem KeepsTx.bind {α β : Type} {L : Nat → Nat → SErr ME → Prop} {x : PosM (Out (SErr ME)) α}
    {f : Nat → SRes ME (α × Nat)} {k : α → PosM (Out (SErr ME)) β} {g : α → Nat → SRes ME (β × Nat)}
    (hl : ∀ {p p' q e}, p' ≤ p → L p q e → L p' q e) (hx : KeepsTx b L x f)
    (hk : ∀ a, KeepsTx b L (k a) (g a)) :
    KeepsTx b L (x >>= k) (fun pos => f pos >>= fun r => g r.1 r.2) where
  good := by
    intro pos c q h
    cases h1 : f pos with
    | error e => rw [h1, eerror_bind] at h; cases h
    | ok r =>
      obtain ⟨a, p1⟩ := r
      rw [h1, eok_bind] at h
      obtain ⟨e1, f1⟩ := hx.good h1
      obtain ⟨e2, f2⟩ := (hk a).good h
      refine ⟨?_, f1.trans f2⟩
      show PosM.bind x k pos = _
      unfold PosM.bind
      rw [e1]; exact e2
  bad := by
    intro pos e h
    show ∃ q, PosM.bind x k pos = _ ∧ _
    unfold PosM.bind
    cases hf : f pos with
    | error e' =>
      rw [hf, eerror_bind] at h
      cases h
      obtain ⟨q, e1, f1, l1⟩ := hx.bad hf
      rw [e1]
      exact ⟨q, rfl, f1, l1⟩
    | ok r =>
      obtain ⟨a, p1⟩ := r
      rw [hf, eok_bind] at h
      obtain ⟨e1, f1⟩ := hx.good hf
      obtain ⟨q, e2, f2, l2⟩ := (hk a).bad h
      rw [e1]
      exact ⟨q, e2, f1.trans f2, fun pe hpe => hl f1.1 (l2 pe hpe)⟩

theorem KeepsTx.pure {α : Type} {L : Nat → Nat → SErr ME → Prop} (a : α) :
    KeepsTx b L (PosM.ok a) (fun pos => .ok (a, pos)) where
  good := by intro pos a' q h; cases h; exact ⟨rfl, .refl⟩
  bad := by intro pos e h; cases h

/-- Errors of the parser only. -/
inductive LocatedParse (data : Bytes) (start stop : Nat) : SErr ME → Prop
  | parsing {e : PErr} : Located data start stop e → LocatedParse data start stop (.parsing e)

theorem LocatedParse.earlier {d : Bytes} {p p' q : Nat} {e : SErr ME} (hp : p' ≤ p)
    (h : LocatedParse d p q e) : LocatedParse d p' q e := by
  cases h with
  | parsing h => exact .parsing (h.earlier hp)

theorem parsing_keeps {α : Type} {x : PosR α} {f : Nat → Res (α × Nat)} (h : Keeps b x f) :
    KeepsTx (ME := ME) b (LocatedParse b.bytes) (PosM.mapE (Res.mapErr .parsing) x)
      (fun pos => (f pos).mapErr .parsing) where
  good := by
    intro pos a q hf
    cases hx : f pos with
    | error e => rw [hx] at hf; cases e <;> cases hf
    | ok r =>
      rw [hx] at hf
      cases hf
      obtain ⟨h1, h2⟩ := h.good hx
      refine ⟨?_, h2⟩
      unfold PosM.mapE
      rw [h1]; rfl
  bad := by
    intro pos e hf
    cases hx : f pos with
    | ok r => rw [hx] at hf; cases hf
    | error e' =>
      obtain ⟨q, h1, h2, h3⟩ := h.bad hx
      rw [hx] at hf
      refine ⟨q, ?_, h2, ?_⟩
      · unfold PosM.mapE
        rw [h1]
        cases e' <;> (cases hf; rfl)
      · intro pe hpe
        subst hpe
        cases e' with
        | err e'' => cases hf; exact .parsing (h3 _ rfl)
        | panic => cases hf
        | fuel => cases hf

/-- `decode_as_call_unmarked`: same outcome, same position after a success; the position
moves forward within the data, and after an error it stands at what the error is about. -/
theorem position_call (M : Metadata ME) (b : Buf) (pos : Nat) :
    (∀ c q, posAsCallUnmarked M b pos = (.ok c, q) ↔ decodeAsCallUnmarked M b pos = .ok (c, q)) ∧
    (∀ e, (∃ q, posAsCallUnmarked M b pos = (.error e, q)) ↔ decodeAsCallUnmarked M b pos = .error e) ∧
    Forward b.bytes pos (posAsCallUnmarked M b pos).2 ∧
    (∀ e q, posAsCallUnmarked M b pos = (.error (.err e), q) → LocatedCall M b pos q e) := by
  have main : (∀ c q, decodeAsCallUnmarked M b pos = .ok (c, q) →
        posAsCallUnmarked M b pos = (.ok c, q) ∧ Forward b.bytes pos q) ∧
      (∀ e, decodeAsCallUnmarked M b pos = .error e → ∃ q, posAsCallUnmarked M b pos = (.error e, q) ∧
        Forward b.bytes pos q ∧ ∀ pe, e = .err pe → LocatedCall M b pos q pe) := by
    unfold decodeAsCallUnmarked posAsCallUnmarked
    show (∀ c q, _ → PosM.bind (PosM.still _) _ pos = _ ∧ _) ∧
      ∀ e, _ → ∃ q, PosM.bind (PosM.still _) _ pos = _ ∧ _
    unfold PosM.bind PosM.still
    dsimp only
    rcases hc : M.callTy with (e | _ | _) | callTy
    · exact ⟨fun c q h => (by cases h), fun e h => (by cases h; exact ⟨pos, rfl, .refl, fun pe hpe => (by cases hpe; exact .metadata rfl)⟩)⟩
    · exact ⟨fun c q h => (by cases h), fun e h => (by cases h; exact ⟨pos, rfl, .refl, fun pe hpe => (by cases hpe)⟩)⟩
    · exact ⟨fun c q h => (by cases h), fun e h => (by cases h; exact ⟨pos, rfl, .refl, fun pe hpe => (by cases hpe)⟩)⟩
    · dsimp only [mapOut]
      rw [eok_bind]
      have hk := parsing_keeps (ME := ME) (posDecode_keeps (R := M.types) (b := b) (.symbol callTy) Propagated.new)
      show (∀ c q, _ → PosM.bind _ _ pos = _ ∧ _) ∧ ∀ e, _ → ∃ q, PosM.bind _ _ pos = _ ∧ _
      unfold PosM.bind
      cases hd : Res.mapErr SErr.parsing (decode M.types b (.symbol callTy) pos Propagated.new) with
      | error e' =>
        obtain ⟨q, g1, g2, g3⟩ := hk.bad hd
        rw [g1]
        refine ⟨fun c q h => (by rw [eerror_bind] at h; cases h), fun e h => ?_⟩
        rw [eerror_bind] at h
        cases h
        refine ⟨q, rfl, g2, fun pe hpe => ?_⟩
        obtain ⟨h⟩ := g3 pe hpe
        exact .parsing h
      | ok r =>
        obtain ⟨d, q⟩ := r
        obtain ⟨g1, g2⟩ := hk.good hd
        rw [g1, eok_bind]
        dsimp only
        cases d.data.asCall with
        | some call =>
          refine ⟨fun c q' h => ?_, fun e h => ?_⟩
          · cases h; exact ⟨rfl, g2⟩
          · cases h
        | none =>
          refine ⟨fun c q' h => ?_, fun e h => ?_⟩
          · cases h
          · cases h
            refine ⟨q, rfl, g2, fun pe hpe => ?_⟩
            cases hpe
            refine .notACall (d := d) ?_
            unfold decodeAsTypeAtPosition
            cases hx : decode M.types b (.symbol callTy) pos Propagated.new with
            | error e => rw [hx] at hd; cases e <;> cases hd
            | ok r => rw [hx] at hd; cases hd; rfl
  cases hx : decodeAsCallUnmarked M b pos with
  | ok r =>
    obtain ⟨c, q⟩ := r
    obtain ⟨h1, h2⟩ := main.1 _ _ hx
    rw [h1]
    refine ⟨fun c' q' => ?_, fun e => ?_, h2, fun e q' h => by cases h⟩
    · constructor <;> (intro h; cases h; rfl)
    · constructor
      · rintro ⟨_, h⟩; cases h
      · intro h; cases h
  | error e =>
    obtain ⟨q, h1, h2, h3⟩ := main.2 _ hx
    rw [h1]
    refine ⟨fun c' q' => ?_, fun e' => ?_, h2, fun e' q' h => ?_⟩
    · constructor <;> (intro h; cases h)
    · constructor
      · rintro ⟨_, h⟩; cases h; rfl
      · intro h; cases h; exact ⟨q, rfl⟩
    · cases h; exact h3 _ rfl

theorem extensionsLoop_keeps (R : Registry) (sel : SignedExt → Nat) (es : List SignedExt) :
    KeepsTx (ME := ME) b (LocatedParse b.bytes) (posExtensionsLoop R b sel es)
      (fun pos => extensionsLoop R b sel es pos) := by
  induction es with
  | nil => exact .pure _
  | cons e es ih =>
    unfold posExtensionsLoop extensionsLoop
    exact KeepsTx.bind (L := LocatedParse b.bytes) LocatedParse.earlier (parsing_keeps (posDecode_keeps _ _))
      fun d => KeepsTx.bind (L := LocatedParse b.bytes) LocatedParse.earlier ih fun ds => .pure _

theorem checkCollected_located (c : CollectedExt) (version : String) (expected : Option Bytes) {start stop : Nat}
    (hs : stop = b.bytes.length) :
    Honor (LocatedExts b start stop) (checkCollected (ME := ME) c version expected) := by
  have him : Honor (LocatedExts b start stop) (checkImmortal (ME := ME) c) := by
    unfold checkImmortal
    repeat' split
    all_goals first | exact .ok _ | exact .err (.immortal hs)
  unfold checkCollected
  split
  · split
    · exact .err (.version hs)
    · split
      · split
        · split
          · exact .err (.genesis hs)
          · exact him
        · exact him
      · exact .err (.list hs)
  · exact .err (.list hs)

theorem checkExtensions_located (exts : List ED) (version : String) (expected : Option Bytes) {start stop : Nat}
    (hs : stop = b.bytes.length) :
    Honor (LocatedExts b start stop) (checkExtensions (ME := ME) exts version expected) := by
  unfold checkExtensions
  split
  · exact checkCollected_located _ _ _ hs
  · exact .err (.list hs)

/-- `decode_extensions_unmarked`: same outcome; after a success everything is passed; the
position moves forward within the data, and after an error it stands at what the error is
about. -/
theorem position_extensions (M : Metadata ME) (b : Buf) (expected : Option Bytes) (pos : Nat) :
    (posExtensionsUnmarked M b expected pos).1 = decodeExtensionsUnmarked M b pos expected ∧
    Forward b.bytes pos (posExtensionsUnmarked M b expected pos).2 ∧
    (∀ ds q, posExtensionsUnmarked M b expected pos = (.ok ds, q) → q = b.bytes.length) ∧
    (∀ e q, posExtensionsUnmarked M b expected pos = (.error (.err e), q) → LocatedExts b pos q e) := by
  have main : ∃ q, posExtensionsUnmarked M b expected pos = (decodeExtensionsUnmarked M b pos expected, q) ∧
      Forward b.bytes pos q ∧
      (∀ ds, decodeExtensionsUnmarked M b pos expected = .ok ds → q = b.bytes.length) ∧
      (∀ e, decodeExtensionsUnmarked M b pos expected = .error (.err e) → LocatedExts b pos q e) := by
    unfold decodeExtensionsUnmarked posExtensionsUnmarked
    show ∃ q, PosM.bind (PosM.still _) _ pos = _ ∧ _
    unfold PosM.bind PosM.still
    dsimp only
    rcases hc : M.signedExtensions with (e | _ | _) | signed
    · exact ⟨pos, rfl, .refl, fun ds h => (by cases h), fun e h => (by cases h; exact .metadata (.inl rfl))⟩
    · exact ⟨pos, rfl, .refl, fun ds h => (by cases h), fun e h => (by cases h)⟩
    · exact ⟨pos, rfl, .refl, fun ds h => (by cases h), fun e h => (by cases h)⟩
    · dsimp only [mapOut]
      rw [eok_bind]
      show ∃ q, PosM.bind _ _ pos = _ ∧ _
      unfold PosM.bind
      have hk1 := extensionsLoop_keeps (ME := ME) (b := b) M.types (·.ty) signed
      have hk2 := extensionsLoop_keeps (ME := ME) (b := b) M.types (·.additionalSigned) signed
      cases h1 : extensionsLoop (ME := ME) M.types b (·.ty) signed pos with
      | error e =>
        obtain ⟨q, g1, g2, g3⟩ := hk1.bad h1
        rw [g1, eerror_bind]
        refine ⟨q, rfl, g2, fun ds h => (by cases h), fun e' h => ?_⟩
        cases h
        obtain ⟨h⟩ := g3 _ rfl
        exact .parsing h
      | ok r =>
        obtain ⟨first, p1⟩ := r
        obtain ⟨g1, g2⟩ := hk1.good h1
        rw [g1, eok_bind]
        dsimp only
        show ∃ q, PosM.bind _ _ p1 = _ ∧ _
        unfold PosM.bind
        cases h2 : extensionsLoop (ME := ME) M.types b (·.additionalSigned) signed p1 with
        | error e =>
          obtain ⟨q, g3, g4, g5⟩ := hk2.bad h2
          rw [g3, eerror_bind]
          refine ⟨q, rfl, g2.trans g4, fun ds h => (by cases h), fun e' h => ?_⟩
          cases h
          obtain ⟨h⟩ := g5 _ rfl
          exact .parsing (h.earlier g2.1)
        | ok r =>
          obtain ⟨second, p2⟩ := r
          obtain ⟨g3, g4⟩ := hk2.good h2
          rw [g3, eok_bind]
          dsimp only
          have hf := g2.trans g4
          show ∃ q, PosM.bind PosM.get _ p2 = _ ∧ _
          unfold PosM.bind PosM.get
          dsimp only
          split
          · rename_i hne
            refine ⟨p2, rfl, hf, fun ds h => (by cases h), fun e' h => ?_⟩
            cases h
            exact .unused hne
          · rename_i heq
            have heq : p2 = b.bytes.length := Classical.not_not.1 heq
            show ∃ q, PosM.bind (PosM.still _) _ p2 = _ ∧ _
            unfold PosM.bind PosM.still
            dsimp only
            rcases hv : M.specNameVersion with (e | _ | _) | spec
            · exact ⟨p2, rfl, hf, fun ds h => (by cases h), fun e h => (by cases h; exact .metadata (.inr heq))⟩
            · exact ⟨p2, rfl, hf, fun ds h => (by cases h), fun e h => (by cases h)⟩
            · exact ⟨p2, rfl, hf, fun ds h => (by cases h), fun e h => (by cases h)⟩
            · dsimp only [mapOut]
              rw [eok_bind]
              show ∃ q, PosM.bind (PosM.still _) _ p2 = _ ∧ _
              unfold PosM.bind PosM.still
              dsimp only
              have hl := checkExtensions_located (ME := ME) (b := b) (first ++ second) spec.printedSpecVersion
                expected (start := pos) heq
              cases hce : checkExtensions (ME := ME) (first ++ second) spec.printedSpecVersion expected with
              | error e =>
                rw [hce] at hl
                exact ⟨p2, rfl, hf, fun ds h => (by cases h), fun e' h => (by cases h; exact hl _ rfl)⟩
              | ok u =>
                exact ⟨p2, rfl, hf, fun ds h => heq, fun e h => (by cases h)⟩
  obtain ⟨q, h1, h2, h3, h4⟩ := main
  rw [h1]
  generalize decodeExtensionsUnmarked M b pos expected = r at h3 h4 ⊢
  exact ⟨rfl, h2, fun ds q' h => (by cases h; exact h3 _ rfl), fun e q' h => (by cases h; exact h4 _ rfl)⟩

/-- `parse_transaction_unmarked` hands the position from the call to the extensions: with
the position as a state it has the same outcome. -/
theorem position_transaction (M : Metadata ME) (b : Buf) (expected : Option Bytes) (pos : Nat) :
    (posTransactionUnmarked M b expected pos).1 = parseTransactionUnmarked M b expected := by
  obtain ⟨h1, h2, -, -⟩ := position_call M b 0
  unfold posTransactionUnmarked parseTransactionUnmarked
  show (PosM.bind (posAsCallUnmarked M b) _ 0).1 = _
  unfold PosM.bind
  cases hc : decodeAsCallUnmarked M b 0 with
  | error e =>
    obtain ⟨q, hq⟩ := (h2 e).2 hc
    rw [hq, eerror_bind]
  | ok r =>
    obtain ⟨c, q⟩ := r
    rw [(h1 c q).2 hc, eok_bind]
    dsimp only
    show (PosM.bind (posExtensionsUnmarked M b expected) _ q).1 = _
    unfold PosM.bind
    obtain ⟨h3, -⟩ := position_extensions M b expected q
    rcases hp : posExtensionsUnmarked M b expected q with ⟨e | ds, q'⟩
    · rw [hp] at h3
      rw [← h3]; rfl
    · rw [hp] at h3
      rw [← h3]; rfl

/-! ### Examples -/
namespace PositionExample

/-- `0: u8`, `1: str`, `2: struct S { a: u8, t: str, e: E }`, `3: enum E { A = 0, B = 7 (u8) }`. -/
def types : Registry := Registry.portable
  [ { typeDef := .primitive .u8 },
    { typeDef := .primitive .str },
    { path := ["S"], typeDef := .composite
        [{ name := some "a", ty := 0 }, { name := some "t", ty := 1 }, { name := some "e", ty := 3 }] },
    { path := ["E"], typeDef := .variant
        [{ name := "A", index := 0 }, { name := "B", index := 7, fields := [{ ty := 0 }] }] } ]

/-- Everything is there: `S { a: 5, t: "hi", e: B(9) }`, from position 1 on. -/
example : (posAsType types (Buf.ofBytes [0xff, 5, 8, 104, 105, 7, 9]) 2 1).2 = 7 := rfl

/-- The enum has no variant 3: the position stands at it, the error names it. -/
example : posAsType types (Buf.ofBytes [0xff, 5, 8, 104, 105, 3, 9]) 2 1 =
    (.error (.err (.unexpectedEnumVariant 5)), 5) := rfl

/-- The field of variant `B` is missing: the index is passed. -/
example : posAsType types (Buf.ofBytes [0xff, 5, 8, 104, 105, 7]) 2 1 =
    (.error (.err (.buffer (.dataTooShort 6 1))), 6) := rfl

/-- The text is cut: the position stays at its length, the error names its first byte. -/
example : posAsType types (Buf.ofBytes [0xff, 5, 8, 104]) 2 1 =
    (.error (.err (.buffer (.dataTooShort 3 2))), 2) := rfl

example : Located [0xff, 5, 8, 104] 1 2 (.buffer (.dataTooShort 3 2)) :=
  position_after_error (R := types) (b := Buf.ofBytes [0xff, 5, 8, 104]) (id := 2) rfl

/-- A type that is not there: nothing was passed. -/
example : posAsType types (Buf.ofBytes [1, 2, 3]) 9 1 =
    (.error (.err (.registry (.internal (.typeNotResolved 9)))), 1) := rfl

/-- A call with a cut argument; a whole call; one that is no call. -/
example : posAsCallUnmarked Example.chain (Buf.ofBytes [5, 1, 7, 1, 0]) 0 =
    (.error (.err (.parsing (.buffer (.dataTooShort 3 4)))), 3) := rfl
example : posAsCallUnmarked Example.chain Example.payload 1 = (.ok Example.call, 8) := rfl
example : posAsCallUnmarked { Example.chain with callTy := .ok 7 } (Buf.ofBytes [0]) 0 =
    (.error (.err (.notACall 7)), 1) := rfl

/-- Extensions with a byte too much; with another version. -/
example : posExtensionsUnmarked Example.chain (Buf.ofBytes (Example.extBytes ++ [7])) none 0 =
    (.error (.err (.someDataNotUsedExtensions 69)), 69) := rfl
example : posExtensionsUnmarked { Example.chain with specNameVersion := .ok ⟨"8", ""⟩ } Example.payload none 8 =
    (.error (.err (.wrongSpecVersion "9" "8")), 77) := rfl

end PositionExample

end Verif
