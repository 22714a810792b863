import Verif.Proof.Target32
import Verif.Proof.DeviceTx
import Verif.Props.Example
import Verif.Props.Checkers
/-!
# C67: targets with 32-bit pointers

The code of the crate for 32-bit targets differs in the bit sequences with `u64` store only. On a registry
without such bit sequences, every function of the crate has the outcome that it has on 64-bit targets. With
such bit sequences, all of order `Lsb0`, it has that outcome or panics; it never returns anything else. With
order `Msb0` it may return another value.
-/
namespace Verif
open Spec

/-! ### With the decoder of 64-bit targets, these are the functions of the main model -/

section Main
variable {ME : Type}

theorem extensionsLoop_with (R : Registry) (data : Buf) (sel : SignedExt → Nat) (es : List SignedExt) (pos : Nat) :
    With.extensionsLoop (ME := ME) decode R data sel es pos = extensionsLoop R data sel es pos := by
  induction es generalizing pos with
  | nil => rfl
  | cons e es ih =>
    simp only [With.extensionsLoop, extensionsLoop]
    congr 1
    funext r
    obtain ⟨d, q⟩ := r
    dsimp only
    rw [ih]

theorem hashersLoop_with (H : HashFns) (R : Registry) (key : Buf) (hs : List Hasher) (tys : List Nat) (pos : Nat) :
    With.hashersLoop decode H R key hs tys pos = hashersLoop H R key hs tys pos := by
  induction hs generalizing tys pos with
  | nil => rfl
  | cons h hs ih =>
    cases tys with
    | nil => rfl
    | cons ty tys =>
      simp only [With.hashersLoop, hashersLoop]
      congr 1
      funext r
      obtain ⟨d, q⟩ := r
      dsimp only
      rw [ih]

/-- C67. The functions of `Model/Target32` with the decoder of 64-bit targets. -/
theorem with_decode :
    (∀ R b id pos, With.decodeAsTypeAtPosition decode R b id pos = decodeAsTypeAtPosition R b id pos) ∧
    (∀ R b id, With.decodeAllAsType decode R b id = decodeAllAsType R b id) ∧
    (∀ (M : Metadata ME) data g, With.parseTransaction decode M data g = parseTransaction M data g) ∧
    (∀ (M : Metadata ME) data g, With.parseTransactionUnmarked decode M data g = parseTransactionUnmarked M data g) ∧
    (∀ (M : CompleteMetadata ME) data, With.decodeUncheckedExtrinsic decode M data = decodeUncheckedExtrinsic M data) ∧
    (∀ H R key value entry, With.decodeStorageEntry decode H R key value entry = decodeStorageEntry H R key value entry) := by
  have hx : ∀ (M : Metadata ME) data pos g,
      With.decodeExtensionsUnmarked decode M data pos g = decodeExtensionsUnmarked M data pos g := by
    intro M data pos g
    unfold With.decodeExtensionsUnmarked decodeExtensionsUnmarked
    simp only [extensionsLoop_with]
  refine ⟨fun _ _ _ _ => rfl, fun _ _ _ => rfl, ?_, ?_, fun _ _ => rfl, ?_⟩
  · intro M data g
    unfold With.parseTransaction parseTransaction With.decodeExtensions decodeExtensions
    simp only [hx]
    rfl
  · intro M data g
    unfold With.parseTransactionUnmarked parseTransactionUnmarked
    simp only [hx]
    rfl
  · intro H R key value entry
    have hk : ∀ hashers keyTy, With.processKeyMapped decode H R hashers keyTy key 32 =
        processKeyMapped H R hashers keyTy key 32 := by
      intro hashers keyTy
      unfold With.processKeyMapped processKeyMapped
      simp only [hashersLoop_with]
      rfl
    unfold With.decodeStorageEntry decodeStorageEntry
    simp only [hk]
    rfl

end Main

/-! ### Values -/

variable {R : Registry} {b : Buf}

theorem Spec.Reliable.clean (h : Reliable b) : b.clean = b := by
  obtain ⟨bytes, fault⟩ := b
  have : fault = fun _ _ => false := by funext p n; exact h p n
  subst this
  rfl

theorem Spec.Usual.not_strained (h : Usual b) : ¬ Strained b := by
  rintro (⟨p, n, _, hf⟩ | hl)
  · rw [h.reliable p n] at hf; cases hf
  · have := h.short; omega

theorem noMsb0_of_noU64 (h : ¬ HasU64Bits R) : NoMsb0U64Bits R :=
  fun id t order store hr hd hs => absurd ⟨id, t, order, store, hr, hd, hs⟩ h

/-- C67. Decoding of a value on a 32-bit target, in any memory: the outcome of the 64-bit program on the same
bytes in reliable memory; or a panic, if the registry has bit sequences with `u64` store; or an error, if the
memory fails or the data has 64 MiB or more. -/
theorem decode32_outcome (hm : NoMsb0U64Bits R) (id pos : Nat) :
    NarrowRes (HasU64Bits R) (Strained b) (With.decodeAsTypeAtPosition decode32 R b id pos)
      (decodeAsTypeAtPosition R (.ofBytes b.bytes) id pos) :=
  decode32_narrow hm _ _ _ trivial

/-- C67. What a 32-bit program returns, the 64-bit program returns. -/
theorem decode32_success (hm : NoMsb0U64Bits R) {id pos q : Nat} {d : ED}
    (h : With.decodeAsTypeAtPosition decode32 R b id pos = .ok (d, q)) :
    decodeAsTypeAtPosition R (.ofBytes b.bytes) id pos = .ok (d, q) := by
  rcases decode32_outcome (b := b) hm id pos with h' | ⟨_, h'⟩ | ⟨_, e, h'⟩ <;> rw [h] at h'
  · exact h'.symm
  · cases h'
  · cases h'

/-- Same outcome, or a panic where that is allowed. -/
def SameOrPanic (P : Prop) {α : Type} (x y : Res α) : Prop := NarrowRes P False x y

theorem decode32_usual (hm : NoMsb0U64Bits R) (hu : Usual b) {tyIn : TyIn} (ht : tyIn.Right R) (pos : Nat) (p : Propagated) :
    NarrowRes (HasU64Bits R) False (decode32 R b tyIn pos p) (decode R b tyIn pos p) := by
  have h := decode32_narrow (b := b) hm tyIn pos p ht
  rw [hu.reliable.clean] at h
  rcases h with h | h | ⟨h, _⟩
  · exact .inl h
  · exact .inr (.inl h)
  · exact absurd h hu.not_strained

theorem decodeAll32_narrow (hm : NoMsb0U64Bits R) (hu : Usual b) (id : Nat) :
    NarrowRes (HasU64Bits R) False (With.decodeAllAsType decode32 R b id) (decodeAllAsType R b id) :=
  .bindR _ (decode32_usual hm hu (tyIn := .symbol _) trivial _ _)

/-- C67. `decode_all_as_type` on usual data: the outcome of 64-bit targets or, if the registry has bit
sequences with `u64` store, a panic. -/
theorem decodeAllAsType32 (hm : NoMsb0U64Bits R) (hu : Usual b) (id : Nat) :
    With.decodeAllAsType decode32 R b id = decodeAllAsType R b id ∨
      (HasU64Bits R ∧ With.decodeAllAsType decode32 R b id = .error .panic) := by
  rcases decodeAll32_narrow hm hu id with h | h | ⟨h, _⟩
  · exact .inl h
  · exact .inr h
  · exact h.elim

/-! ### Transactions, extrinsics, storage entries -/

theorem Spec.OrPanic.refl {P : Prop} {ε α : Type} (x : Except (Out ε) α) : OrPanic P x x := .inl rfl

theorem Spec.OrPanic.bind {P : Prop} {ε α β : Type} {x x' : Except (Out ε) α} {f f' : α → Except (Out ε) β}
    (hx : OrPanic P x x') (hf : ∀ a, x = .ok a → OrPanic P (f a) (f' a)) : OrPanic P (x >>= f) (x' >>= f') := by
  rcases hx with rfl | ⟨h, rfl⟩
  · cases x with
    | error e => exact .inl rfl
    | ok a => exact hf a rfl
  · exact .inr ⟨h, rfl⟩

theorem Spec.OrPanic.bindR {P : Prop} {ε α β : Type} {x x' : Except (Out ε) α} (f : α → Except (Out ε) β)
    (hx : OrPanic P x x') : OrPanic P (x >>= f) (x' >>= f) := hx.bind fun _ _ => .refl _

theorem Spec.OrPanic.bindL {P : Prop} {ε α β : Type} (x : Except (Out ε) α) {f f' : α → Except (Out ε) β}
    (hf : ∀ a, x = .ok a → OrPanic P (f a) (f' a)) : OrPanic P (x >>= f) (x >>= f') := (OrPanic.refl x).bind hf

theorem Spec.NarrowRes.mapErr {P : Prop} {ε α : Type} {x y : Res α} (h : NarrowRes P False x y) (f : PErr → ε) :
    OrPanic P (x.mapErr f) (y.mapErr f) := by
  rcases h with rfl | ⟨h, rfl⟩ | ⟨h, _⟩
  · exact .refl _
  · exact .inr ⟨h, rfl⟩
  · exact h.elim

section Tx
variable {ME : Type} {M : Metadata ME}

theorem decodeAsCallUnmarked32 (hm : NoMsb0U64Bits M.types) (hu : Usual b) (pos : Nat) :
    OrPanic (HasU64Bits M.types) (With.decodeAsCallUnmarked decode32 M b pos) (decodeAsCallUnmarked M b pos) :=
  .bindL _ fun _ _ => .bindR _ ((decode32_usual hm hu (tyIn := .symbol _) trivial _ _).mapErr _)

theorem extensionsLoop32 (hm : NoMsb0U64Bits R) (hu : Usual b) (sel : SignedExt → Nat) (es : List SignedExt) (pos : Nat) :
    OrPanic (HasU64Bits R) (With.extensionsLoop (ME := ME) decode32 R b sel es pos) (extensionsLoop R b sel es pos) := by
  induction es generalizing pos with
  | nil => exact .refl _
  | cons e es ih =>
    exact .bind ((decode32_usual hm hu (tyIn := .symbol _) trivial _ _).mapErr _) fun _ _ => .bindR _ (ih _)

theorem decodeExtensionsUnmarked32 (hm : NoMsb0U64Bits M.types) (hu : Usual b) (pos : Nat) (g : Option Bytes) :
    OrPanic (HasU64Bits M.types) (With.decodeExtensionsUnmarked decode32 M b pos g)
      (decodeExtensionsUnmarked M b pos g) :=
  .bindL _ fun _ _ => .bind (extensionsLoop32 hm hu _ _ _) fun _ _ => .bindR _ (extensionsLoop32 hm hu _ _ _)

/-- C67. `parse_transaction`. -/
theorem parseTransaction32 (hm : NoMsb0U64Bits M.types) (hu : Usual b) (g : Option Bytes) :
    OrPanic (HasU64Bits M.types) (With.parseTransaction decode32 M b g) (parseTransaction M b g) := by
  unfold With.parseTransaction parseTransaction
  refine .bindL _ fun m hmk => ?_
  have hd : m.data = b := (mark_le hmk).1
  refine .bind (decodeExtensionsUnmarked32 hm (hd ▸ hu) _ _) fun exts _ => ?_
  have hc : OrPanic (HasU64Bits M.types) (With.decodeAsCall decode32 M m) (decodeAsCall M m) := by
    unfold With.decodeAsCall decodeAsCall
    refine .bindL _ fun data hdata => .bindR _ (decodeAsCallUnmarked32 hm ?_ _)
    unfold Marked.dataNoExtensions Buf.limitLength at hdata
    rw [hd] at hdata
    split at hdata
    · rename_i x hx
      cases hdata
      split at hx
      · cases hx
      · cases hx
        refine ⟨hu.reliable, ?_⟩
        have := hu.short
        simp only [List.length_take]
        omega
    · cases hdata
  rcases hc with hc | ⟨hP, hc⟩
  · rw [hc]; exact .refl _
  · rw [hc]; exact .inr ⟨hP, rfl⟩

/-- C67. `parse_transaction_unmarked`. -/
theorem parseTransactionUnmarked32 (hm : NoMsb0U64Bits M.types) (hu : Usual b) (g : Option Bytes) :
    OrPanic (HasU64Bits M.types) (With.parseTransactionUnmarked decode32 M b g) (parseTransactionUnmarked M b g) :=
  .bind (decodeAsCallUnmarked32 hm hu _) fun _ _ => .bindR _ (decodeExtensionsUnmarked32 hm hu _ _)

theorem extrinsicPart32 (hm : NoMsb0U64Bits R) (hu : Usual b) (id pos : Nat) :
    OrPanic (HasU64Bits R) (With.extrinsicPart (ME := ME) decode32 R b id pos) (extrinsicPart R b id pos) :=
  (decode32_usual hm hu (tyIn := .symbol _) trivial _ _).mapErr _

theorem extrinsicCall32 (hm : NoMsb0U64Bits R) (hu : Usual b) (id pos : Nat) :
    OrPanic (HasU64Bits R) (With.extrinsicCall (ME := ME) decode32 R b id pos) (extrinsicCall R b id pos) :=
  .bindR _ (extrinsicPart32 hm hu _ _)

/-- C67. `decode_as_unchecked_extrinsic`. -/
theorem decodeUncheckedExtrinsic32 {M : CompleteMetadata ME} (hm : NoMsb0U64Bits M.types) (hu : Usual b) :
    OrPanic (HasU64Bits M.types) (With.decodeUncheckedExtrinsic decode32 M b) (decodeUncheckedExtrinsic M b) := by
  unfold With.decodeUncheckedExtrinsic decodeUncheckedExtrinsic
  refine .bindL _ fun params _ => .bindL _ fun r _ => ?_
  obtain ⟨length, start⟩ := r
  dsimp only
  split
  · exact .refl _
  · split
    · exact .refl _
    · refine .bindL _ fun v _ => .bindL _ fun w _ => ?_
      unfold With.extrinsicContent extrinsicContent
      split
      · exact .refl _
      · split
        · exact .bindR _ (extrinsicCall32 hm hu _ _)
        · exact .bind (extrinsicPart32 hm hu _ _) fun _ _ => .bind (extrinsicPart32 hm hu _ _) fun _ _ =>
            .bind (extrinsicPart32 hm hu _ _) fun _ _ => .bindR _ (extrinsicCall32 hm hu _ _)

end Tx

theorem checkHash32 (hm : NoMsb0U64Bits R) (hu : Usual b) (n : Nat) (f : Bytes → Bytes) (ty pos : Nat) :
    OrPanic (HasU64Bits R) (With.checkHash decode32 R n f ty b pos) (checkHash R n f ty b pos) := by
  unfold With.checkHash checkHash
  refine .bindL _ fun s _ => ?_
  split
  · exact .refl _
  · exact .bindR _ ((decode32_usual hm hu (tyIn := .symbol _) trivial _ _).mapErr _)

theorem processHasher32 (hm : NoMsb0U64Bits R) (hu : Usual b) (H : HashFns) (h : Hasher) (ty pos : Nat) :
    OrPanic (HasU64Bits R) (With.processHasher decode32 H R h ty b pos) (processHasher H R h ty b pos) := by
  cases h with
  | blake2_128Concat => exact checkHash32 hm hu _ _ _ _
  | twox64Concat => exact checkHash32 hm hu _ _ _ _
  | identity => exact .bindR _ ((decode32_usual hm hu (tyIn := .symbol _) trivial _ _).mapErr _)
  | _ => exact .refl _

theorem hashersLoop32 (hm : NoMsb0U64Bits R) (hu : Usual b) (H : HashFns) (hs : List Hasher) (tys : List Nat) (pos : Nat) :
    OrPanic (HasU64Bits R) (With.hashersLoop decode32 H R b hs tys pos) (hashersLoop H R b hs tys pos) := by
  induction hs generalizing tys pos with
  | nil => exact .refl _
  | cons h hs ih =>
    cases tys with
    | nil => exact .refl _
    | cons ty tys => exact .bind (processHasher32 hm hu _ _ _ _) fun _ _ => .bindR _ (ih _ _)

theorem processKeyMapped32 (hm : NoMsb0U64Bits R) (hu : Usual b) (H : HashFns) (hashers : List Hasher) (keyTy pos : Nat) :
    OrPanic (HasU64Bits R) (With.processKeyMapped decode32 H R hashers keyTy b pos)
      (processKeyMapped H R hashers keyTy b pos) := by
  match hashers with
  | [h] =>
    unfold With.processKeyMapped processKeyMapped
    exact .bind (processHasher32 hm hu _ _ _ _) fun _ _ => .refl _
  | [] =>
    unfold With.processKeyMapped processKeyMapped
    refine .bindL _ fun ty _ => ?_
    cases ty.typeDef with
    | tuple elems =>
      dsimp only
      split
      · exact .refl _
      · exact .bind (hashersLoop32 hm hu _ _ _ _) fun _ _ => .refl _
    | _ => exact .refl _
  | h :: h' :: hs =>
    unfold With.processKeyMapped processKeyMapped
    refine .bindL _ fun ty _ => ?_
    cases ty.typeDef with
    | tuple elems =>
      dsimp only
      split
      · exact .refl _
      · exact .bind (hashersLoop32 hm hu _ _ _ _) fun _ _ => .refl _
    | _ => exact .refl _

/-- C67. `decode_as_storage_entry`. -/
theorem decodeStorageEntry32 {key value : Buf} (hm : NoMsb0U64Bits R) (hk : Usual key) (hv : Usual value) (H : HashFns)
    (entry : Entry) :
    OrPanic (HasU64Bits R) (With.decodeStorageEntry decode32 H R key value entry)
      (decodeStorageEntry H R key value entry) := by
  obtain ⟨ty, docs⟩ := entry
  unfold With.decodeStorageEntry decodeStorageEntry
  dsimp only
  split
  · exact .refl _
  · cases ty with
    | plain valueTy =>
      dsimp only
      split
      · exact .refl _
      · exact .bindR _ ((decodeAll32_narrow hm hv _).mapErr _)
    | map hashers keyTy valueTy =>
      exact .bind (processKeyMapped32 hm hk _ _ _ _) fun _ _ => .bindR _ ((decodeAll32_narrow hm hv _).mapErr _)

/-! ### No bit sequences with `u64` store -/

theorem Spec.OrPanic.eq {P : Prop} {ε α : Type} {x y : Except (Out ε) α} (h : OrPanic P x y) (hP : ¬ P) : x = y :=
  h.resolve_right fun h => hP h.1

/-- C67. Without bit sequences with `u64` store in the registry, 32-bit and 64-bit targets have the same
outcome: values. -/
theorem decode32_same (hn : ¬ HasU64Bits R) (hu : Usual b) (id pos : Nat) :
    With.decodeAsTypeAtPosition decode32 R b id pos = decodeAsTypeAtPosition R b id pos ∧
    With.decodeAllAsType decode32 R b id = decodeAllAsType R b id := by
  have hm := noMsb0_of_noU64 hn
  constructor
  · rcases decode32_usual hm hu (tyIn := .symbol id) trivial pos Propagated.new with h | h | h
    · exact h
    · exact absurd h.1 hn
    · exact h.1.elim
  · exact (decodeAllAsType32 hm hu id).resolve_right fun h => hn h.1

/-- C67. The same for transactions, extrinsics, storage entries. -/
theorem functions32_same {ME : Type} {M : CompleteMetadata ME} (hn : ¬ HasU64Bits M.types) (hu : Usual b)
    (g : Option Bytes) (H : HashFns) {key : Buf} (hk : Usual key) (entry : Entry) :
    With.parseTransaction decode32 M.toMetadata b g = parseTransaction M.toMetadata b g ∧
    With.parseTransactionUnmarked decode32 M.toMetadata b g = parseTransactionUnmarked M.toMetadata b g ∧
    With.decodeUncheckedExtrinsic decode32 M b = decodeUncheckedExtrinsic M b ∧
    With.decodeStorageEntry decode32 H M.types key b entry = decodeStorageEntry H M.types key b entry := by
  have hm := noMsb0_of_noU64 hn
  exact ⟨(parseTransaction32 hm hu g).eq hn, (parseTransactionUnmarked32 hm hu g).eq hn,
    (decodeUncheckedExtrinsic32 hm hu).eq hn, (decodeStorageEntry32 hm hk hu H entry).eq hn⟩

/-- The check of `Spec/Checkers.lean` is right. -/
theorem noU64Bits_check {ts : List Typ} (h : Check.noU64Bits ts = true) : ¬ HasU64Bits (Registry.portable ts) := by
  rintro ⟨id, t, order, store, hr, hd, hs⟩
  have h := List.all_eq_true.1 h t (portable_typ hr)
  obtain ⟨t', p, h1, h2, h3⟩ := hs
  have hp : p = .u64 := by simpa using h3
  rw [hd] at h
  dsimp only at h
  rw [portable_get h1] at h
  dsimp only at h
  simp only [bne_iff_ne, ne_eq] at h
  exact h (hp ▸ h2)

/-! ### Concrete cases -/

/-- Types of the examples: `0: u64`, `1: struct Lsb0`, `2: bits`, `3: struct Msb0`, `4: bits`, `5: (bits, u64)`,
`6: u8`, `7: bits of bytes`. -/
def bits32Types : List Typ :=
  [ { typeDef := .primitive .u64 },
    { path := ["bitvec", "order", "Lsb0"], typeDef := .composite [] },
    { typeDef := .bitSequence 1 0 },
    { path := ["bitvec", "order", "Msb0"], typeDef := .composite [] },
    { typeDef := .bitSequence 3 0 },
    { typeDef := .tuple [2, 0] },
    { typeDef := .primitive .u8 },
    { typeDef := .bitSequence 3 6 } ]

/-- Registry of the types. -/
def bits32Reg : Registry := Registry.portable bits32Types

/-- Registry of the types without the order `Msb0`. -/
def lsb0Reg : Registry := Registry.portable (bits32Types.take 3)

/-- Registry without bit sequences with `u64` store. -/
def bytesReg : Registry := Registry.portable
  [ { typeDef := .primitive .u8 }, { path := ["bitvec", "order", "Msb0"], typeDef := .composite [] },
    { typeDef := .bitSequence 1 0 } ]

/-- C67, refutation: without the condition on the order, a 32-bit program may return another value: the
single bit of this sequence is 0. -/
theorem decode32_misreads :
    decodeAllAsType bits32Reg (.ofBytes shiftedBits) 4 = .ok { data := .bitVec .u64 .msb0 [false], info := [] } ∧
    With.decodeAllAsType decode32 bits32Reg (.ofBytes shiftedBits) 4 =
      .ok { data := .bitVec .u64 .msb0 [true], info := [] } := ⟨rfl, rfl⟩

/-- C67, refutation: with `u64` store a 32-bit program may panic on a valid value. -/
theorem decode32_panics :
    decodeAllAsType lsb0Reg (.ofBytes lostBits) 2 =
      .ok { data := .bitVec .u64 .lsb0 (List.replicate 32 false ++ true :: List.replicate 7 false), info := [] } ∧
    With.decodeAllAsType decode32 lsb0Reg (.ofBytes lostBits) 2 = .error .panic := ⟨rfl, rfl⟩

theorem usual_of_bytes {bs : Bytes} (h : bs.length < 2 ^ 26) : Usual (.ofBytes bs) := ⟨fun _ _ => rfl, h⟩

example : Usual (.ofBytes lostBits) := usual_of_bytes (by decide)

/-- The condition on the order holds of a registry with `u64` store. -/
theorem lsb0Reg_order : NoMsb0U64Bits lsb0Reg := by
  rintro id t order store hr hd hs ⟨t', fields, h1, h2, h3⟩
  have hid : id < 3 := by
    apply Classical.byContradiction
    intro h
    have := portable_get hr
    rw [List.getElem?_eq_none (by simp [bits32Types]; omega)] at this
    cases this
  have ho : order = 1 := by
    rcases id with _ | _ | _ | id
    · cases hr; cases hd
    · cases hr; cases hd
    · cases hr; cases hd; rfl
    · omega
  subst ho
  cases h1
  rcases h3 with ⟨h, _⟩ | ⟨_, h⟩
  · cases h
  · revert h; decide

example : HasU64Bits lsb0Reg := ⟨2, _, 1, 0, rfl, rfl, _, .u64, rfl, rfl, by simp⟩
example : ¬ HasU64Bits bytesReg := noU64Bits_check (by decide)

/-- `Lsb0`: the same value where there is no panic. -/
example : With.decodeAllAsType decode32 lsb0Reg (.ofBytes [12, 5, 0, 0, 0, 0, 0, 0, 0]) 2 =
    .ok { data := .bitVec .u64 .lsb0 [true, false, true], info := [] } := rfl
example : decodeAllAsType lsb0Reg (.ofBytes [12, 5, 0, 0, 0, 0, 0, 0, 0]) 2 =
    .ok { data := .bitVec .u64 .lsb0 [true, false, true], info := [] } := rfl

/-- Other stores are not concerned. -/
example : With.decodeAllAsType decode32 bytesReg (.ofBytes [12, 5]) 2 =
    .ok { data := .bitVec .u8 .msb0 [false, false, false], info := [] } := rfl

end Verif
