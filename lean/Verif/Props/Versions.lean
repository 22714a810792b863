import Verif.Props.Metadata
import Verif.Props.Extrinsic
/-!
# C51. Only the content of the metadata matters

Two metadata, of whatever version, which give the same answers to the questions of
`AsMetadata`/`AsCompleteMetadata` decode everything alike; in particular V14 and V15
metadata of the same runtime do.
-/
namespace Verif
open Spec

/-- The same values on success (errors may differ in their type). -/
def Alike {ε ε' α : Type} (r : Except ε α) (r' : Except ε' α) : Prop := ∀ a, r = .ok a ↔ r' = .ok a

/-- Same types, and the same answers (or no answer) to the questions of `AsMetadata`. -/
structure AlikeMetadata {ME ME' : Type} (M : Metadata ME) (M' : Metadata ME') : Prop where
  types : M.types = M'.types
  version : Alike M.specNameVersion M'.specNameVersion
  call : Alike M.callTy M'.callTy
  extensions : Alike M.signedExtensions M'.signedExtensions

/-- Also to those of `AsCompleteMetadata`. -/
structure AlikeComplete {ME ME' : Type} (M : CompleteMetadata ME) (M' : CompleteMetadata ME') : Prop
    extends AlikeMetadata M.toMetadata M'.toMetadata where
  params : Alike M.extrinsicTypeParams M'.extrinsicTypeParams
  byte : Alike M.extrinsicVersion M'.extrinsicVersion

variable {ME ME' : Type}

theorem Alike.refl {ε ε' α : Type} (a : α) : Alike (.ok a : Except ε α) (.ok a : Except ε' α) := fun b =>
  ⟨fun h => by cases h; rfl, fun h => by cases h; rfl⟩

theorem Alike.errors {ε ε' α : Type} (e : ε) (e' : ε') : Alike (.error e : Except ε α) (.error e' : Except ε' α) :=
  fun _ => ⟨fun h => (nomatch h), fun h => (nomatch h)⟩

theorem Alike.bind {ε ε' α β : Type} {r : Except ε α} {r' : Except ε' α} {f : α → Except ε β} {f' : α → Except ε' β}
    (h : Alike r r') (hf : ∀ a, Alike (f a) (f' a)) : Alike (r >>= f) (r' >>= f') := by
  intro b
  rw [ebind_ok, ebind_ok]
  constructor
  · rintro ⟨a, h1, h2⟩; exact ⟨a, (h a).1 h1, (hf a b).1 h2⟩
  · rintro ⟨a, h1, h2⟩; exact ⟨a, (h a).2 h1, (hf a b).2 h2⟩

theorem Alike.mapOut {ε ε' ε₂ ε₂' α : Type} {r : Except (Out ε) α} {r' : Except (Out ε') α} (h : Alike r r')
    (f : ε → ε₂) (f' : ε' → ε₂') : Alike (mapOut f r) (mapOut f' r') := by
  intro a
  rw [mapOut_ok, mapOut_ok]; exact h a

theorem Alike.mapErr {ε ε' α : Type} (r : Res α) (f : PErr → ε) (f' : PErr → ε') :
    Alike (r.mapErr f) (r.mapErr f') := by
  intro a
  rw [mapErr_ok, mapErr_ok]

theorem mark_alike (b : Buf) : Alike (mark (ME := ME) b) (mark (ME := ME') b) := by
  unfold mark
  refine .bind (.mapErr _ _ _) fun x => ?_
  exact .bind (.mapErr _ _ _) fun _ => .refl _

theorem decodeAsCallUnmarked_alike {M : Metadata ME} {M' : Metadata ME'} (h : AlikeMetadata M M') (b : Buf) (pos : Nat) :
    Alike (decodeAsCallUnmarked M b pos) (decodeAsCallUnmarked M' b pos) := by
  unfold decodeAsCallUnmarked
  rw [h.types]
  refine .bind (h.call.mapOut _ _) fun ty => .bind (.mapErr _ _ _) fun x => ?_
  obtain ⟨d, q⟩ := x
  dsimp only
  cases d.data.asCall with
  | none => exact .errors _ _
  | some c => exact .refl _

theorem decodeAsCall_alike {M : Metadata ME} {M' : Metadata ME'} (h : AlikeMetadata M M') (m : Marked) :
    Alike (decodeAsCall M m) (decodeAsCall M' m) := by
  unfold decodeAsCall
  refine .bind ?_ fun b => .bind (decodeAsCallUnmarked_alike h b _) fun x => ?_
  · unfold Marked.dataNoExtensions
    cases m.data.limitLength m.extensionsStart with
    | ok b => exact .refl _
    | error e => exact .errors _ _
  · obtain ⟨c, q⟩ := x
    dsimp only
    split
    · exact .errors _ _
    · exact .refl _

theorem extensionsLoop_alike {R : Registry} {b : Buf} {sel : SignedExt → Nat} : ∀ (es : List SignedExt) (pos : Nat),
    Alike (extensionsLoop (ME := ME) R b sel es pos) (extensionsLoop (ME := ME') R b sel es pos)
  | [], pos => .refl _
  | e :: es, pos => by
    unfold extensionsLoop
    exact .bind (.mapErr _ _ _) fun x => .bind (extensionsLoop_alike es _) fun y => .refl _

theorem checkExtensions_alike (exts : List ED) (v : String) (g : Option Bytes) :
    Alike (checkExtensions (ME := ME) exts v g) (checkExtensions (ME := ME') exts v g) := by
  unfold checkExtensions
  cases collectLoop exts {} with
  | error e => exact .errors _ _
  | ok c =>
    dsimp only
    have hi : Alike (checkImmortal (ME := ME) c) (checkImmortal (ME := ME') c) := by
      unfold checkImmortal
      repeat' split
      all_goals first | exact .refl _ | exact .errors _ _
    unfold checkCollected
    repeat' split
    all_goals first | exact hi | exact .errors _ _

theorem decodeExtensionsUnmarked_alike {M : Metadata ME} {M' : Metadata ME'} (h : AlikeMetadata M M') (b : Buf) (pos : Nat)
    (g : Option Bytes) : Alike (decodeExtensionsUnmarked M b pos g) (decodeExtensionsUnmarked M' b pos g) := by
  unfold decodeExtensionsUnmarked
  rw [h.types]
  refine .bind (h.extensions.mapOut _ _) fun es => .bind (extensionsLoop_alike _ _) fun x =>
    .bind (extensionsLoop_alike _ _) fun y => ?_
  dsimp only
  split
  · exact .errors _ _
  · exact .bind (h.version.mapOut _ _) fun s => .bind (checkExtensions_alike _ _ _) fun _ => .refl _

/-- C51. `parse_transaction_unmarked`. -/
theorem parseTransactionUnmarked_alike {M : Metadata ME} {M' : Metadata ME'} (h : AlikeMetadata M M') (b : Buf)
    (g : Option Bytes) : Alike (parseTransactionUnmarked M b g) (parseTransactionUnmarked M' b g) := by
  unfold parseTransactionUnmarked
  exact .bind (decodeAsCallUnmarked_alike h _ _) fun x => .bind (decodeExtensionsUnmarked_alike h _ _ _) fun _ => .refl _

/-- C51. `parse_transaction`, with the same extensions and, where there is one, the
same call. -/
theorem parseTransaction_alike {M : Metadata ME} {M' : Metadata ME'} (h : AlikeMetadata M M') {b : Buf}
    {g : Option Bytes} {x : TransactionParsed ME} (hx : parseTransaction M b g = .ok x)
    (hc : CalmMetadata M') :
    ∃ x', parseTransaction M' b g = .ok x' ∧ x'.extensions = x.extensions ∧ Alike x.callResult x'.callResult := by
  unfold parseTransaction at hx ⊢
  obtain ⟨m, h1, hx⟩ := ebind_ok.1 hx
  obtain ⟨es, h2, hx⟩ := ebind_ok.1 hx
  have h2' := (decodeExtensionsUnmarked_alike h _ _ _ es).1 h2
  have h1' := (mark_alike (ME' := ME') b m).1 h1
  rw [h1', eok_bind]
  have h2'' : decodeExtensions M' m g = .ok es := h2'
  rw [h2'', eok_bind]
  have ha := decodeAsCall_alike h m
  have hcalm := decodeAsCall_calm hc h1'
  cases h3 : decodeAsCall M m with
  | ok c =>
    rw [h3] at hx
    cases hx
    rw [(ha c).1 h3]
    exact ⟨_, rfl, rfl, .refl _⟩
  | error e =>
    rw [h3] at hx
    cases h4 : decodeAsCall M' m with
    | ok c => rw [(ha c).2 h4] at h3; cases h3
    | error e' =>
      cases e with
      | panic => cases hx
      | fuel => cases hx
      | err e =>
        cases hx
        rcases hcalm with ⟨a, h5⟩ | ⟨e'', h5⟩
        · rw [h5] at h4; cases h4
        · rw [h5] at h4
          cases h4
          exact ⟨_, rfl, rfl, .errors _ _⟩

/-- C51. `decode_as_unchecked_extrinsic`. -/
theorem decodeUncheckedExtrinsic_alike {M : CompleteMetadata ME} {M' : CompleteMetadata ME'} (h : AlikeComplete M M')
    (b : Buf) : Alike (decodeUncheckedExtrinsic M b) (decodeUncheckedExtrinsic M' b) := by
  have hp : ∀ (id pos : Nat), Alike (extrinsicPart (ME := ME) M'.types b id pos) (extrinsicPart (ME := ME') M'.types b id pos) :=
    fun id pos => .mapErr _ _ _
  have hcall : ∀ (id pos : Nat), Alike (extrinsicCall (ME := ME) M'.types b id pos) (extrinsicCall (ME := ME') M'.types b id pos) := by
    intro id pos
    unfold extrinsicCall
    refine .bind (hp _ _) fun x => ?_
    obtain ⟨d, q⟩ := x
    dsimp only
    cases d.data.asCall with
    | none => exact .errors _ _
    | some c => exact .refl _
  unfold decodeUncheckedExtrinsic
  rw [h.types]
  refine .bind (h.params.mapOut _ _) fun ps => .bind (.mapErr _ _ _) fun x => ?_
  dsimp only
  split
  · exact .errors _ _
  split
  · exact .errors _ _
  refine .bind (.mapErr _ _ _) fun vb => .bind (h.byte.mapOut _ _) fun v => ?_
  unfold extrinsicContent
  split
  · exact .errors _ _
  split
  · exact .bind (hcall _ _) fun _ => .refl _
  · exact .bind (hp _ _) fun _ => .bind (hp _ _) fun _ => .bind (hp _ _) fun _ => .bind (hcall _ _) fun _ => .refl _

/-- The V14 and the V15 metadata are of the same runtime: same types, pallets, signed
extensions and extrinsic version, and the parameters that V14 has in its extrinsic type are
those stated in V15. -/
structure SameRuntime (m : V14) (n : V15) : Prop where
  types : m.types = n.types
  pallets : m.pallets = n.pallets
  extensions : m.signedExtensions = n.signedExtensions
  byte : m.extrinsicVersion = n.extrinsicVersion
  params : m.extrinsicTypeParams = .ok n.params

/-- C51. V14 and V15 metadata of the same runtime give the same answers; so all the
functions above do the same with them. -/
theorem sameRuntime_alike {m : V14} {n : V15} (h : SameRuntime m n) : AlikeComplete m.metadata n.metadata where
  types := congrArg Registry.portable h.types
  version := by
    intro s
    rw [V14_specNameVersion_iff, V15_specNameVersion_iff, h.types, h.pallets]
  call := by
    intro c
    rw [V14_callTy_iff, h.params]
    show (∃ p, Except.ok n.params = Except.ok p ∧ p.callTy = c) ↔ Except.ok n.params.callTy = Except.ok c
    constructor
    · rintro ⟨p, hp, hc⟩; cases hp; rw [hc]
    · intro hc; cases hc; exact ⟨_, rfl, rfl⟩
  extensions := by
    intro s
    show Except.ok m.signedExtensions = Except.ok s ↔ Except.ok n.signedExtensions = Except.ok s
    rw [h.extensions]
    exact Alike.refl _ s
  params := by
    intro p
    show m.extrinsicTypeParams = .ok p ↔ Except.ok n.params = .ok p
    rw [h.params]
    exact Alike.refl _ p
  byte := by
    intro s
    show Except.ok m.extrinsicVersion = Except.ok s ↔ Except.ok n.extrinsicVersion = Except.ok s
    rw [h.byte]
    exact Alike.refl _ s

/-- V15 metadata of the same runtime as the V14 example. -/
def Example.v15 : V15 where
  types := Example.metaTypes
  pallets := Example.v14.pallets
  params := { addressTy := 0, callTy := 1, signatureTy := 2, extraTy := 3 }
  extrinsicVersion := 4
  signedExtensions := []

example : SameRuntime Example.v14 Example.v15 := ⟨rfl, rfl, rfl, rfl, rfl⟩

/-- C51. With V14 and V15 metadata of the same runtime, transactions and extrinsics are
decoded alike. -/
theorem v14_v15_alike {m : V14} {n : V15} (h : SameRuntime m n) (b : Buf) (g : Option Bytes) :
    Alike (parseTransactionUnmarked m.metadata.toMetadata b g) (parseTransactionUnmarked n.metadata.toMetadata b g) ∧
    Alike (decodeUncheckedExtrinsic m.metadata b) (decodeUncheckedExtrinsic n.metadata b) ∧
    (∀ x, parseTransaction m.metadata.toMetadata b g = .ok x →
      ∃ y, parseTransaction n.metadata.toMetadata b g = .ok y ∧ y.extensions = x.extensions ∧
        Alike x.callResult y.callResult) :=
  ⟨parseTransactionUnmarked_alike (sameRuntime_alike h).toAlikeMetadata b g,
   decodeUncheckedExtrinsic_alike (sameRuntime_alike h) b,
   fun _ hx => parseTransaction_alike (sameRuntime_alike h).toAlikeMetadata hx (V15_metadata_calm n).1⟩

end Verif
