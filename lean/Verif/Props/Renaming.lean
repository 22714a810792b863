import Verif.Proof.Renaming
import Verif.Props.Versions
import Verif.Props.Storage
import Verif.Props.Extensions
import Verif.Props.Extrinsic
import Verif.Props.Shortened
import Verif.Proof.DeviceTx
import Verif.Props.Checkers
/-!
# C62 What decoding depends on: the types it can reach, not their numbers, and no other types
-/
namespace Verif
open Spec

variable {ME ME' : Type} {f : Nat → Nat} {g : ME → ME'} {R R' : Registry} {b : Buf}

/-! ### Types -/

/-- C62. `decode_with_type` from outside, in the context of an extension or of none. -/
theorem decode_renumbered {id : Nat} (h : Renumbered f R R' id) (b : Buf) (pos : Nat) {p : Propagated}
    (hp : p.checker.cycleCheck = [] ∧ p.checker.specialtySet.compactAt = none) :
    decode R' b (.symbol (f id)) pos p = renRes f (decode R b (.symbol id) pos p) := by
  have e : p.ren f = p := by
    obtain ⟨⟨⟨c, h⟩, l⟩, i⟩ := p
    obtain ⟨rfl, rfl⟩ := hp
    rfl
  have := decode_ren h.ren (.self : Seen R id id) b pos (p := p) (by unfold CheckIn; rw [hp.1]; exact fun _ hx => nomatch hx)
  rwa [e] at this

/-- C62. `decode_as_type_at_position`. -/
theorem decodeAsTypeAtPosition_renumbered {id : Nat} (h : Renumbered f R R' id) (b : Buf) (pos : Nat) :
    decodeAsTypeAtPosition R' b (f id) pos = renRes f (decodeAsTypeAtPosition R b id pos) :=
  decode_renumbered h b pos ⟨rfl, rfl⟩

theorem renRes_bind {α β : Type} {x : Res α} {k k' : α → Res β} (h : ∀ a, x = .ok a → k' a = renRes f (k a)) :
    (renRes f x >>= k') = renRes f (x >>= k) := by
  cases x with
  | error e => rfl
  | ok a => exact h a rfl

/-- C62. `decode_all_as_type`. -/
theorem decodeAllAsType_renumbered {id : Nat} (h : Renumbered f R R' id) (b : Buf) :
    decodeAllAsType R' b (f id) = renRes f (decodeAllAsType R b id) := by
  unfold decodeAllAsType
  rw [decodeAsTypeAtPosition_renumbered h]
  refine renRes_bind fun x _ => ?_
  obtain ⟨d, q⟩ := x
  dsimp only
  split <;> rfl

theorem renVariant_id : (renVariant id) = id := by
  funext v; unfold renVariant
  rw [show renField id = id from rfl, List.map_id]; rfl

theorem renDef_id (d : TypeDef) : renDef id d = d := by
  cases d <;> simp only [renDef, renVariant_id, show renField id = id from rfl, List.map_id] <;> rfl

theorem renReg_id (e : RegErr) : renReg id e = e := by
  cases e with
  | external => rfl
  | internal e => cases e <;> rfl

theorem renErr_id (e : PErr) : renErr id e = e := by
  cases e <;> first | rfl | exact congrArg PErr.registry (renReg_id _)

theorem renRes_id {α : Type} (r : Res α) : renRes id r = r := by
  cases r with
  | ok a => rfl
  | error e => cases e <;> first | rfl | exact congrArg (fun x => Except.error (Fail.err x)) (renErr_id _)

/-- Registries with the same answers on the types that can be seen. -/
theorem renumbered_id {id : Nat} (h : ∀ x, Seen R id x → R'.resolve x = R.resolve x) : Renumbered _root_.id R R' id where
  inj _ _ _ _ e := e
  same x hx := by
    rw [show _root_.id x = x from rfl, h x hx]
    cases R.resolve x with
    | ok t => exact ⟨rfl, rfl, (renDef_id _).symm⟩
    | error e => exact (renReg_id e).symm

/-- C62. The outcome depends only on what the registry says of the types that decoding can look at. -/
theorem decodeAsTypeAtPosition_local {id : Nat} (h : ∀ x, Seen R id x → R'.resolve x = R.resolve x) (b : Buf) (pos : Nat) :
    decodeAsTypeAtPosition R' b id pos = decodeAsTypeAtPosition R b id pos := by
  have := decodeAsTypeAtPosition_renumbered (renumbered_id h) b pos
  rwa [renRes_id] at this

/-- C62. -/
theorem decodeAllAsType_local {id : Nat} (h : ∀ x, Seen R id x → R'.resolve x = R.resolve x) (b : Buf) :
    decodeAllAsType R' b id = decodeAllAsType R b id := by
  have := decodeAllAsType_renumbered (renumbered_id h) b
  rwa [renRes_id] at this

/-! ### Transactions -/

theorem moved_bind {ε ε' α α' β β' : Type} {g : ε → ε'} {h : α → α'} {h' : β → β'} {x : Except (Out ε) α}
    {k : α → Except (Out ε) β} {k' : α' → Except (Out ε') β'} (hk : ∀ a, x = .ok a → k' (h a) = moved g h' (k a)) :
    (moved g h x >>= k') = moved g h' (x >>= k) := by
  cases x with
  | error e => cases e <;> rfl
  | ok a => exact hk a rfl

theorem moved_mapErr {ε ε' α : Type} {e : PErr → ε} {e' : PErr → ε'} {g : ε → ε'} (hg : ∀ x, g (e x) = e' (renErr f x))
    (r : Res α) : (renRes f r).mapErr e' = moved g id (r.mapErr e) := by
  cases r with
  | ok a => rfl
  | error x => cases x <;> first | rfl | exact (congrArg (fun x => Except.error (Out.err x)) (hg _)).symm

theorem moved_mapOut {ε ε' δ δ' α β : Type} {e : ε → δ} {e' : ε' → δ'} {g : ε → ε'} {g' : δ → δ'} {h : α → β}
    (hg : ∀ x, g' (e x) = e' (g x)) (r : Except (Out ε) α) : mapOut e' (moved g h r) = moved g' h (mapOut e r) := by
  cases r with
  | ok a => rfl
  | error x => cases x <;> first | rfl | exact (congrArg (fun x => Except.error (Out.err x)) (hg _)).symm

theorem metaS {α β : Type} {h : α → β} (r : Except (Out ME) α) :
    mapOut SErr.metaStructure (moved g h r) = moved (renSErr f g) h (mapOut SErr.metaStructure r) := moved_mapOut (e' := SErr.metaStructure) (g := g) (e := SErr.metaStructure) (g' := renSErr f g) (fun _ => rfl) r

theorem metaU {α β : Type} {h : α → β} (r : Except (Out ME) α) :
    mapOut UErr.metaStructure (moved g h r) = moved (renUErr f g) h (mapOut UErr.metaStructure r) := moved_mapOut (e' := UErr.metaStructure) (g := g) (e := UErr.metaStructure) (g' := renUErr f g) (fun _ => rfl) r

theorem parsS {α : Type} (r : Res α) :
    (renRes f r).mapErr SErr.parsing = moved (renSErr f g) id (r.mapErr SErr.parsing) := moved_mapErr (e := SErr.parsing) (g := renSErr f g) (fun _ => rfl) r

theorem parsU {α : Type} (r : Res α) :
    (renRes f r).mapErr UErr.parsing = moved (renUErr f g) id (r.mapErr UErr.parsing) := moved_mapErr (e := UErr.parsing) (g := renUErr f g) (fun _ => rfl) r

theorem moved_bind' {ε ε' α α' β β' : Type} {g : ε → ε'} {h : α → α'} {h' : β → β'} {x : Except (Out ε) α} {y : Except (Out ε') α'}
    {k : α → Except (Out ε) β} {k' : α' → Except (Out ε') β'} (hx : y = moved g h x)
    (hk : ∀ a, x = .ok a → k' (h a) = moved g h' (k a)) : (y >>= k') = moved g h' (x >>= k) := by
  subst hx; exact moved_bind hk

theorem moved_ok {ε ε' α β : Type} {g : ε → ε'} {h : α → β} {x : Except (Out ε) α} {a : α} (hx : x = .ok a) :
    moved g h x = .ok (h a) := by rw [hx]; rfl

variable {M : Metadata ME} {M' : Metadata ME'}

theorem mark_moved (b : Buf) : mark (ME := ME') b = moved (renSErr f g) id (mark (ME := ME) b) := by
  unfold mark
  have e : ∀ {α : Type} (r : Res α), cut (ME := ME') r = moved (renSErr f g) id (cut (ME := ME) r) := by
    intro α r
    cases r with
    | ok a => rfl
    | error x => cases x <;> rfl
  rw [e]
  refine moved_bind fun x _ => ?_
  obtain ⟨l, s⟩ := x
  dsimp only [id]
  rw [e]
  exact moved_bind fun x _ => rfl

/-- C62. `decode_as_call_unmarked`. -/
theorem decodeAsCallUnmarked_renumbered (h : RenumberedMeta f g M M') (b : Buf) (pos : Nat) :
    decodeAsCallUnmarked M' b pos = moved (renSErr f g) id (decodeAsCallUnmarked M b pos) := by
  unfold decodeAsCallUnmarked
  rw [h.call, metaS (f := f)]
  refine moved_bind fun ty hty => ?_
  rw [decode_renumbered (h.callTypes ty (mapOut_ok.1 hty)) b pos ⟨rfl, rfl⟩,
    parsS (g := g)]
  refine moved_bind fun x _ => ?_
  obtain ⟨d, q⟩ := x
  dsimp only [id]
  cases d.data.asCall <;> rfl

/-- C62. `decode_as_call`. -/
theorem decodeAsCall_renumbered (h : RenumberedMeta f g M M') (m : Marked) :
    decodeAsCall M' m = moved (renSErr f g) id (decodeAsCall M m) := by
  unfold decodeAsCall
  have e : m.dataNoExtensions (ME := ME') = moved (renSErr f g) id (m.dataNoExtensions (ME := ME)) := by
    unfold Marked.dataNoExtensions
    cases m.data.limitLength m.extensionsStart <;> rfl
  rw [e]
  refine moved_bind fun b _ => ?_
  dsimp only [id]
  rw [decodeAsCallUnmarked_renumbered h]
  refine moved_bind fun x _ => ?_
  obtain ⟨c, q⟩ := x
  dsimp only [id]
  split <;> rfl

theorem extensionsLoop_renumbered (sel : SignedExt → Nat) (hsel : ∀ e, sel (renExt f e) = f (sel e)) (b : Buf) :
    ∀ (es : List SignedExt) (pos : Nat), (∀ e ∈ es, Renumbered f R R' (sel e)) →
    extensionsLoop (ME := ME') R' b sel (es.map (renExt f)) pos =
      moved (renSErr f g) id (extensionsLoop (ME := ME) R b sel es pos)
  | [], pos, _ => rfl
  | e :: es, pos, h => by
    rw [List.map_cons]
    unfold extensionsLoop
    rw [hsel, decode_renumbered (h e (by simp)) b pos ⟨rfl, rfl⟩,
      parsS (g := g)]
    refine moved_bind fun x _ => ?_
    obtain ⟨d, q⟩ := x
    dsimp only [id]
    rw [extensionsLoop_renumbered sel hsel b es q fun e he => h e (by simp [he])]
    exact moved_bind fun x _ => rfl

theorem checkExtensions_moved (l : List ED) (v : String) (gh : Option Bytes) :
    checkExtensions (ME := ME') l v gh = moved (renSErr f g) id (checkExtensions (ME := ME) l v gh) := by
  unfold checkExtensions
  cases collectLoop l {} with
  | error e => rfl
  | ok c =>
    have hi : checkImmortal (ME := ME') c = moved (renSErr f g) id (checkImmortal (ME := ME) c) := by
      unfold checkImmortal
      cases c.era with
      | none => rfl
      | some e => cases e with
        | mortal _ _ => rfl
        | immortal => cases c.blockHash with
          | none => rfl
          | some _ => cases c.genesisHash with
            | none => rfl
            | some _ => dsimp only; split <;> rfl
    dsimp only
    unfold checkCollected
    cases c.specVersionPrinted with
    | none => rfl
    | some v =>
      dsimp only
      split
      · rfl
      · cases c.genesisHash with
        | none => rfl
        | some _ => cases gh with
          | none => exact hi
          | some _ =>
            dsimp only
            split
            · rfl
            · exact hi

/-- C62. `decode_extensions_unmarked`. -/
theorem decodeExtensionsUnmarked_renumbered (h : RenumberedMeta f g M M') (b : Buf) (pos : Nat) (gh : Option Bytes) :
    decodeExtensionsUnmarked M' b pos gh = moved (renSErr f g) id (decodeExtensionsUnmarked M b pos gh) := by
  unfold decodeExtensionsUnmarked
  rw [h.extensions, metaS (f := f)]
  refine moved_bind fun es hes => ?_
  have ht := h.extTypes es (mapOut_ok.1 hes)
  rw [extensionsLoop_renumbered (g := g) (·.ty) (fun _ => rfl) b es pos fun e he => (ht e he).1]
  refine moved_bind fun x _ => ?_
  obtain ⟨l, q⟩ := x
  dsimp only [id]
  rw [extensionsLoop_renumbered (g := g) (·.additionalSigned) (fun _ => rfl) b es q fun e he => (ht e he).2]
  refine moved_bind fun x _ => ?_
  obtain ⟨l', q⟩ := x
  dsimp only [id]
  split
  · rfl
  · rw [h.version, metaS (f := f)]
    refine moved_bind fun s _ => ?_
    dsimp only [id]
    rw [checkExtensions_moved (f := f) (g := g)]
    exact moved_bind fun x _ => rfl

/-- C62. `parse_transaction_unmarked`: the same transaction, or the same error with the types it names renumbered. -/
theorem parseTransactionUnmarked_renumbered (h : RenumberedMeta f g M M') (b : Buf) (gh : Option Bytes) :
    parseTransactionUnmarked M' b gh = moved (renSErr f g) id (parseTransactionUnmarked M b gh) := by
  unfold parseTransactionUnmarked
  rw [decodeAsCallUnmarked_renumbered h]
  refine moved_bind fun x _ => ?_
  obtain ⟨c, q⟩ := x
  dsimp only [id]
  rw [decodeExtensionsUnmarked_renumbered h]
  exact moved_bind fun x _ => rfl

/-- C62. `parse_transaction`. -/
theorem parseTransaction_renumbered (h : RenumberedMeta f g M M') (b : Buf) (gh : Option Bytes) :
    parseTransaction M' b gh = moved (renSErr f g) (renTx f g) (parseTransaction M b gh) := by
  unfold parseTransaction
  rw [mark_moved (f := f) (g := g)]
  refine moved_bind fun m _ => ?_
  dsimp only [id]
  unfold decodeExtensions
  rw [decodeExtensionsUnmarked_renumbered h]
  refine moved_bind fun l _ => ?_
  dsimp only [id]
  rw [decodeAsCall_renumbered h]
  cases decodeAsCall M m with
  | ok c => rfl
  | error e => cases e <;> rfl

/-! ### Unchecked extrinsics -/

theorem extrinsicPart_renumbered {id : Nat} (h : Renumbered f R R' id) (b : Buf) (pos : Nat) :
    extrinsicPart (ME := ME') R' b (f id) pos = moved (renUErr f g) _root_.id (extrinsicPart (ME := ME) R b id pos) := by
  unfold extrinsicPart
  rw [decodeAsTypeAtPosition_renumbered h, parsU (g := g)]

theorem extrinsicCall_renumbered {id : Nat} (h : Renumbered f R R' id) (b : Buf) (pos : Nat) :
    extrinsicCall (ME := ME') R' b (f id) pos = moved (renUErr f g) _root_.id (extrinsicCall (ME := ME) R b id pos) := by
  unfold extrinsicCall
  rw [extrinsicPart_renumbered (g := g) h]
  refine moved_bind fun x _ => ?_
  obtain ⟨d, q⟩ := x
  dsimp only [_root_.id]
  cases d.data.asCall <;> rfl

/-- C62. `decode_as_unchecked_extrinsic`. -/
theorem decodeUncheckedExtrinsic_renumbered {M : CompleteMetadata ME} {M' : CompleteMetadata ME'}
    (h : RenumberedParams f g M M') (b : Buf) :
    decodeUncheckedExtrinsic M' b = moved (renUErr f g) id (decodeUncheckedExtrinsic M b) := by
  unfold decodeUncheckedExtrinsic
  rw [h.params, metaU (f := f)]
  refine moved_bind fun p hp => ?_
  have ht := h.types p (mapOut_ok.1 hp)
  have e : (getCompact (compactUInt .u32) b 0).mapErr (fun _ => (UErr.formatNoCompact : UErr ME')) =
      moved (renUErr f g) id ((getCompact (compactUInt .u32) b 0).mapErr fun _ => (UErr.formatNoCompact : UErr ME)) := by
    cases getCompact (compactUInt .u32) b 0 with
    | ok a => rfl
    | error x => cases x <;> rfl
  rw [e]
  refine moved_bind fun x _ => ?_
  obtain ⟨l, s⟩ := x
  dsimp only [id]
  split
  · rfl
  · split
    · rfl
    · have e : (b.readByte s).mapErr (UErr.parsing (ME := ME')) = moved (renUErr f g) id ((b.readByte s).mapErr UErr.parsing) := by
        have := readByte_numberless b s f
        revert this
        cases b.readByte s with
        | ok a => exact fun _ => rfl
        | error x =>
          cases x with
          | panic => exact fun _ => rfl
          | fuel => exact fun _ => rfl
          | err x =>
            rintro (h | h | ⟨a, a', h, _⟩ | ⟨e, h1, h2⟩)
            · cases h
            · cases h
            · cases h
            · cases h1
              have : renErr f x = x := by injection h2 with h2; injection h2 with h2; exact h2.symm
              show Except.error (Out.err (UErr.parsing x)) = Except.error (Out.err (UErr.parsing (renErr f x)))
              rw [this]
      rw [e]
      refine moved_bind fun v _ => ?_
      dsimp only [id]
      rw [h.version, metaU (f := f)]
      refine moved_bind fun w _ => ?_
      dsimp only [id]
      unfold extrinsicContent renParams
      dsimp only
      split
      · rfl
      · split
        · rw [extrinsicCall_renumbered (g := g) (ht _ (by simp))]
          exact moved_bind fun x _ => rfl
        · rw [extrinsicPart_renumbered (g := g) (ht _ (by simp))]
          refine moved_bind fun x _ => ?_
          obtain ⟨d1, q⟩ := x
          dsimp only [id]
          rw [extrinsicPart_renumbered (g := g) (ht _ (by simp))]
          refine moved_bind fun x _ => ?_
          obtain ⟨d2, q⟩ := x
          dsimp only [id]
          rw [extrinsicPart_renumbered (g := g) (ht _ (by simp))]
          refine moved_bind fun x _ => ?_
          obtain ⟨d3, q⟩ := x
          dsimp only [id]
          rw [extrinsicCall_renumbered (g := g) (ht _ (by simp))]
          exact moved_bind fun x _ => rfl

/-! ### Storage -/

theorem readSlice_moved (b : Buf) (pos n : Nat) :
    (b.readSlice pos n).mapErr StErr.parsingKey = moved (renStErr f) id ((b.readSlice pos n).mapErr StErr.parsingKey) := by
  unfold Buf.readSlice
  split
  · rfl
  · split
    · rfl
    · split <;> rfl

theorem processHasher_renumbered {H : HashFns} {ty : Nat} (h : Renumbered f R R' ty) (hs : Hasher) (key : Buf) (pos : Nat) :
    processHasher H R' hs (f ty) key pos =
      moved (renStErr f) (fun x => (renKeyPart f x.1, x.2)) (processHasher H R hs ty key pos) := by
  have cutH : ∀ k, cutHash k (f ty) key pos = moved (renStErr f) (fun x => (renKeyPart f x.1, x.2)) (cutHash k ty key pos) := by
    intro k
    refine moved_bind' (readSlice_moved _ _ _) fun s _ => ?_
    dsimp only [id]
    split <;> rfl
  have dec : ∀ pos, (decode R' key (.symbol (f ty)) pos Propagated.new).mapErr StErr.parsingKey =
      moved (renStErr f) id ((decode R key (.symbol ty) pos Propagated.new).mapErr StErr.parsingKey) := by
    intro pos
    rw [decode_renumbered h _ _ ⟨rfl, rfl⟩, moved_mapErr (e := StErr.parsingKey) (g := renStErr f) fun _ => rfl]
  have chk : ∀ n F, checkHash R' n F (f ty) key pos =
      moved (renStErr f) (fun x => (renKeyPart f x.1, x.2)) (checkHash R n F ty key pos) := by
    intro n F
    refine moved_bind' (readSlice_moved _ _ _) fun s _ => ?_
    dsimp only [id]
    split
    · rfl
    · refine moved_bind' (dec _) fun x _ => ?_
      obtain ⟨d, q⟩ := x
      dsimp only [id]
      cases key.readSlice (pos + n) (q - (pos + n)) with
      | error e => rfl
      | ok bs => dsimp only; split <;> rfl
  unfold processHasher
  cases hs with
  | blake2_128 => exact cutH _
  | blake2_256 => exact cutH _
  | twox128 => exact cutH _
  | twox256 => exact cutH _
  | blake2_128Concat => exact chk _ _
  | twox64Concat => exact chk _ _
  | identity => exact moved_bind' (dec _) fun x _ => rfl

theorem hashersLoop_renumbered {H : HashFns} (key : Buf) (l : List Hasher) : ∀ (tys : List Nat) (pos : Nat),
    (∀ ty ∈ tys, Renumbered f R R' ty) →
    hashersLoop H R' key l (tys.map f) pos =
      moved (renStErr f) (fun x => (x.1.map (renKeyPart f), x.2)) (hashersLoop H R key l tys pos) := by
  induction l with
  | nil => intro tys pos _; unfold hashersLoop; rfl
  | cons h l ih =>
    intro tys pos ht
    cases tys with
    | nil => rfl
    | cons ty tys =>
      rw [List.map_cons]
      unfold hashersLoop
      refine moved_bind' (processHasher_renumbered (ht _ (by simp)) _ _ _) fun x _ => ?_
      obtain ⟨d, q⟩ := x
      dsimp only
      exact moved_bind' (ih _ _ fun ty h => ht ty (by simp [h])) fun x _ => rfl

theorem get_moved {id : Nat} (h : Renumbered f R R' id) : (∃ t t', R.resolve id = .ok t ∧ R'.resolve (f id) = .ok t' ∧ RenTyp f t t') ∨
    ∃ e, R.resolve id = .error e ∧ R'.resolve (f id) = .error (renReg f e) := by
  have hsame := h.same id .self
  cases h1 : R.resolve id with
  | ok t =>
    cases h2 : R'.resolve (f id) with
    | error e => rw [h1, h2] at hsame; exact hsame.elim
    | ok t' => rw [h1, h2] at hsame; exact .inl ⟨t, t', rfl, rfl, hsame.1, hsame.2.1, hsame.2.2⟩
  | error e =>
    cases h2 : R'.resolve (f id) with
    | ok t' => rw [h1, h2] at hsame; exact hsame.elim
    | error e' => rw [h1, h2] at hsame; cases hsame; exact .inr ⟨e, rfl, rfl⟩

theorem processKeyMapped_renumbered {H : HashFns} {hs : List Hasher} {keyTy : Nat} (h : Renumbered f R R' keyTy)
    (ht : ∀ t ids, R.resolve keyTy = .ok t → t.typeDef = .tuple ids → ∀ x ∈ ids, Renumbered f R R' x) (key : Buf) (pos : Nat) :
    processKeyMapped H R' hs (f keyTy) key pos = moved (renStErr f) (renKey f) (processKeyMapped H R hs keyTy key pos) := by
  rw [processKeyMapped_keyData, processKeyMapped_keyData]
  refine moved_bind' (h := fun x => (renKey f x.1, x.2)) ?_ fun x _ => ?_
  · unfold keyData
    split
    · exact moved_bind' (processHasher_renumbered h _ _ _) fun x _ => rfl
    · rcases get_moved h with ⟨t, t', h1, h2, hr⟩ | ⟨e, h1, h2⟩
      · rw [get_ok.2 h1, get_ok.2 h2]
        show (match t'.typeDef with
          | .tuple elems =>
            if elems.length ≠ hs.length then Except.error (Out.err StErr.multipleHashesNumberMismatch)
            else hashersLoop H R' key hs elems pos >>= fun c => Except.ok (KeyData.tupleHash c.1 (Info.fromTy t'), c.2)
          | _ => Except.error (Out.err StErr.multipleHashesNotATuple)) = moved _ _ (match t.typeDef with
          | .tuple elems =>
            if elems.length ≠ hs.length then Except.error (Out.err StErr.multipleHashesNumberMismatch)
            else hashersLoop H R key hs elems pos >>= fun c => Except.ok (KeyData.tupleHash c.1 (Info.fromTy t), c.2)
          | _ => Except.error (Out.err StErr.multipleHashesNotATuple))
        have hd := hr.typeDef
        rw [hr.info]
        cases hd2 : t.typeDef with
        | tuple ids =>
          rw [hd2] at hd
          rw [hd]
          dsimp only [renDef]
          rw [List.length_map]
          split
          · rfl
          · exact moved_bind' (hashersLoop_renumbered key hs ids pos (ht t ids h1 hd2)) fun x _ => rfl
        | composite fs => rw [hd2] at hd; rw [hd]; rfl
        | variant vs => rw [hd2] at hd; rw [hd]; rfl
        | compact i => rw [hd2] at hd; rw [hd]; rfl
        | array n e => rw [hd2] at hd; rw [hd]; rfl
        | sequence e => rw [hd2] at hd; rw [hd]; rfl
        | primitive pr => rw [hd2] at hd; rw [hd]; rfl
        | bitSequence o s => rw [hd2] at hd; rw [hd]; rfl
      · unfold Registry.get
        rw [h1, h2]
        rfl
  · obtain ⟨d, q⟩ := x
    dsimp only
    split <;> rfl

/-- C62. `decode_as_storage_entry`. -/
theorem decodeStorageEntry_renumbered {H : HashFns} {entry : Entry} (h : ∀ id, Spec.EntryType R entry.ty id → Renumbered f R R' id)
    (key value : Buf) :
    decodeStorageEntry H R' key value (renEntry f entry) =
      moved (renStErr f) (renStorage f) (decodeStorageEntry H R key value entry) := by
  have dec : ∀ {ty : Nat}, Renumbered f R R' ty → (decodeAllAsType R' value (f ty)).mapErr StErr.parsingValue =
      moved (renStErr f) id ((decodeAllAsType R value ty).mapErr StErr.parsingValue) := by
    intro ty ht
    rw [decodeAllAsType_renumbered ht, moved_mapErr (e := StErr.parsingValue) (g := renStErr f) fun _ => rfl]
  unfold decodeStorageEntry renEntry
  dsimp only
  split
  · rfl
  · cases he : entry.ty with
    | plain v =>
      rw [he] at h
      dsimp only
      split
      · rfl
      · exact moved_bind' (dec (h _ .plain)) fun x _ => rfl
    | map hs k v =>
      rw [he] at h
      dsimp only
      refine moved_bind' (processKeyMapped_renumbered (h _ .key) (fun t ids h1 h2 x hx => h _ (.part h1 h2 hx)) _ _) fun x _ => ?_
      exact moved_bind' (dec (h _ .value)) fun x _ => rfl

/-! ### Runtime metadata -/

section
variable {ts ts' : List Typ}

theorem Spec.RenumberedTypes.at (h : RenumberedTypes f ts ts') (id : Nat) :
    Renumbered f (Registry.portable ts) (Registry.portable ts') id := ⟨fun x y _ _ => h.inj x y, fun x _ => h.same x⟩

theorem Spec.RenumberedTypes.ren (h : RenumberedTypes f ts ts') :
    Ren f (fun _ => True) (Registry.portable ts) (Registry.portable ts') where
  inj x y _ _ := h.inj x y
  same x _ := h.same x
  parts _ _ _ _ _ _ _ := trivial
  elems _ _ _ _ _ _ _ := trivial

theorem versionIn_ren (cs : List Constant) (o : Option (Bytes × Nat)) :
    versionIn (cs.map (renConstant f)) (o.map fun x => (x.1, f x.2)) = (versionIn cs o).map fun x => (x.1, f x.2) := by
  induction cs generalizing o with
  | nil => rfl
  | cons c cs ih =>
    rw [List.map_cons]
    unfold versionIn
    rw [← ih]
    show versionIn _ (if c.name = _ then _ else _) = _
    split <;> rfl

theorem systemPallet_ren (ps : List Pallet) :
    systemPallet (ps.map (renPallet f)) = (systemPallet ps).map (Option.map fun x => (x.1, f x.2)) := by
  induction ps with
  | nil => rfl
  | cons p ps ih =>
    rw [List.map_cons]
    unfold systemPallet
    rw [ih]
    show (if p.name = _ then _ else _) = _
    split
    · exact congrArg some (versionIn_ren (f := f) p.constants none)
    · rfl

/-- The version of the metadata does not depend on the numbering. -/
theorem specNameVersionOf_renumbered (h : RenumberedTypes f ts ts') (ps : List Pallet) :
    specNameVersionOf ts' (ps.map (renPallet f)) = specNameVersionOf ts ps := by
  unfold specNameVersionOf versionConstant
  rw [systemPallet_ren]
  cases systemPallet ps with
  | none => rfl
  | some o =>
    cases o with
    | none => rfl
    | some x =>
      obtain ⟨v, ty⟩ := x
      dsimp only [Option.map]
      rw [decodeAllAsType_renumbered (h.at ty)]
      cases decodeAllAsType (Registry.portable ts) (Buf.ofBytes v) ty with
      | ok d => rfl
      | error e => cases e <;> rfl

theorem paramsLoop_ren (ps : List (String × Option Nat)) : ∀ a s e c : Option Nat,
    paramsLoop (ps.map (renParam f)) (a.map f, s.map f, e.map f, c.map f) =
      ((paramsLoop ps (a, s, e, c)).1.map f, (paramsLoop ps (a, s, e, c)).2.1.map f,
        (paramsLoop ps (a, s, e, c)).2.2.1.map f, (paramsLoop ps (a, s, e, c)).2.2.2.map f) := by
  induction ps with
  | nil => intro a s e c; rfl
  | cons p ps ih =>
    intro a s e c
    obtain ⟨n, t⟩ := p
    rw [List.map_cons]
    unfold paramsLoop renParam
    dsimp only
    split
    · exact ih _ _ _ _
    · split
      · exact ih _ _ _ _
      · split
        · exact ih _ _ _ _
        · split <;> exact ih _ _ _ _

theorem processParams_ren (ps : List (String × Option Nat)) :
    (match processParams (ps.map (renParam f)) with
      | .ok p => (.ok p : Except (Out V14Err) ExtrinsicParams)
      | .error e => .error (.err e)) =
    moved (renV14Err f) (renParams f) (match processParams ps with
      | .ok p => .ok p
      | .error e => .error (.err e)) := by
  unfold processParams
  have := paramsLoop_ren (f := f) ps none none none none
  rw [show (none : Option Nat).map f = none from rfl] at this
  rw [this]
  obtain ⟨a, s, e, c⟩ := paramsLoop ps (none, none, none, none)
  cases a <;> cases c <;> cases e <;> cases s <;> rfl

theorem liftRegistry_sim {α β : Type} {Q : α → β → Prop} {x : Res α} {x' : Res β} (h : Sim f Q x x') (hx : Fine x) (hx' : Fine x') :
    (∃ a a', liftRegistry x = .ok a ∧ liftRegistry x' = .ok a' ∧ x = .ok a ∧ x' = .ok a' ∧ Q a a') ∨
      ∃ e, liftRegistry x = .error e ∧ (liftRegistry x' = .error (match e with
        | .err e => .err (renV14Err f e)
        | .panic => .panic
        | .fuel => .fuel)) := by
  rcases h with rfl | rfl | ⟨a, a', rfl, rfl, q⟩ | ⟨e, rfl, rfl⟩
  · obtain ⟨e, he⟩ := hx _ rfl; cases he
  · obtain ⟨e, he⟩ := hx' _ rfl; cases he
  · exact .inl ⟨a, a', rfl, rfl, rfl, rfl, q⟩
  · right
    cases e with
    | panic => exact ⟨_, rfl, rfl⟩
    | fuel => exact ⟨_, rfl, rfl⟩
    | err e =>
      cases e with
      | registry e => cases e <;> exact ⟨_, rfl, rfl⟩
      | _ => exact ⟨_, rfl, rfl⟩

/-- The parts of an extrinsic, found in V14 metadata. -/
theorem extrinsicTypeParams_renumbered {m m' : V14} (h : RenumberedV14 f m m') :
    m'.extrinsicTypeParams = moved (renV14Err f) (renParams f) m.extrinsicTypeParams := by
  have hr := h.types.ren
  unfold V14.extrinsicTypeParams
  rw [h.extrinsicTy]
  rcases liftRegistry_sim (huskType_sim hr (id := m.extrinsicTy) trivial (c := Checker.new) (fun _ hx => nomatch hx))
    (huskType_fine _ _ _) (huskType_fine _ _ _) with ⟨u, u', e1, e2, e3, e4, q⟩ | ⟨e, e1, e2⟩
  · rw [e1]
    rw [show (Checker.new).ren f = Checker.new from rfl] at e2 e4
    rw [e2, eok_bind, eok_bind]
    obtain ⟨k1, -⟩ := huskType_core e4
    have hp : u'.ty.params = u.ty.params.map (renParam f) := by
      refine h.types.params u.id _ _ (portable_get q.resolved) ?_
      rw [← q.id]; exact portable_get k1
    have hu8 : ∀ elem, paramsIfU8 m'.types (f elem) u' = moved (renV14Err f) (renParams f) (paramsIfU8 m.types elem u) := by
      intro elem
      unfold paramsIfU8
      rcases liftRegistry_sim (get_sim hr (id := elem) trivial) (Registry.get_fine _ _) (Registry.get_fine _ _) with
        ⟨t, t', e1, e2, -, -, q'⟩ | ⟨e, e1, e2⟩
      · rw [e1, e2, eok_bind, eok_bind]
        have e : (t'.typeDef = .primitive .u8) ↔ (t.typeDef = .primitive .u8) := by
          rw [q'.2.typeDef]
          cases t.typeDef <;> simp [renDef]
        simp only [e]
        split
        · rw [hp]; exact processParams_ren _
        · rw [q.id]; rfl
      · rw [e1, e2]
        cases e <;> rfl
    have hbad : (.error (.err (.unexpectedExtrinsicType u'.id)) : Except (Out V14Err) ExtrinsicParams) =
        moved (renV14Err f) (renParams f) (.error (.err (.unexpectedExtrinsicType u.id))) := by rw [q.id]; rfl
    have hd := q.ty.typeDef
    cases hd2 : u.ty.typeDef with
    | sequence elem => rw [hd2] at hd; rw [hd]; exact hu8 _
    | composite fs =>
      rw [hd2] at hd; rw [hd]
      match fs with
      | [] => exact hbad
      | _ :: _ :: _ => exact hbad
      | [x] =>
        dsimp only [renDef, List.map]
        rw [show (renField f x).ty = f x.ty from rfl]
        rcases liftRegistry_sim (get_sim hr (id := x.ty) trivial) (Registry.get_fine _ _) (Registry.get_fine _ _) with
          ⟨t, t', e1, e2, -, -, q'⟩ | ⟨e, e1, e2⟩
        · rw [e1, e2, eok_bind, eok_bind]
          have hd' := q'.2.typeDef
          cases hd3 : t.typeDef with
          | sequence elem => rw [hd3] at hd'; rw [hd']; exact hu8 _
          | composite fs => rw [hd3] at hd'; rw [hd']; exact hbad
          | variant vs => rw [hd3] at hd'; rw [hd']; exact hbad
          | compact i => rw [hd3] at hd'; rw [hd']; exact hbad
          | array n e => rw [hd3] at hd'; rw [hd']; exact hbad
          | tuple e => rw [hd3] at hd'; rw [hd']; exact hbad
          | primitive pr => rw [hd3] at hd'; rw [hd']; exact hbad
          | bitSequence o s => rw [hd3] at hd'; rw [hd']; exact hbad
        · rw [e1, e2]
          cases e <;> rfl
    | variant vs => rw [hd2] at hd; rw [hd]; exact hbad
    | compact i => rw [hd2] at hd; rw [hd]; exact hbad
    | array n e => rw [hd2] at hd; rw [hd]; exact hbad
    | tuple e => rw [hd2] at hd; rw [hd]; exact hbad
    | primitive pr => rw [hd2] at hd; rw [hd]; exact hbad
    | bitSequence o s => rw [hd2] at hd; rw [hd]; exact hbad
  · rw [e1]
    rw [show (Checker.new).ren f = Checker.new from rfl] at e2
    rw [e2]
    cases e <;> rfl

theorem mapOut_moved_id {ε ε' α : Type} {k : ε → ε'} {g : ε' → ε'} (hk : ∀ x, g (k x) = k x) (r : Except (Out ε) α) :
    mapOut k r = moved g id (mapOut k r) := by
  cases r with
  | ok a => rfl
  | error e => cases e <;> first | rfl | exact (congrArg (fun x => Except.error (Out.err x)) (hk _)).symm

/-- C62. Renumbered V14 metadata answer the questions of the crate alike. -/
theorem v14_renumbered {m m' : V14} (h : RenumberedV14 f m m') :
    RenumberedMeta f (renV14Err f) m.metadata.toMetadata m'.metadata.toMetadata ∧
      RenumberedParams f (renV14Err f) m.metadata m'.metadata := by
  refine ⟨⟨?_, ?_, fun id _ => h.types.at id, ?_, fun es _ e _ => ⟨h.types.at _, h.types.at _⟩⟩,
    ⟨extrinsicTypeParams_renumbered h, ?_, fun _ _ id _ => h.types.at id⟩⟩
  · show mapOut _ (specNameVersionOf m'.types m'.pallets) = _
    rw [h.pallets, specNameVersionOf_renumbered h.types]
    exact mapOut_moved_id (k := V14Err.version) (g := renV14Err f) (fun _ => rfl) _
  · exact moved_bind' (extrinsicTypeParams_renumbered h) fun x _ => rfl
  · show Except.ok m'.signedExtensions = _
    rw [h.extensions]; rfl
  · show Except.ok m'.extrinsicVersion = _
    rw [h.extrinsicVersion]; rfl

/-- C62. Renumbered V15 metadata answer the questions of the crate alike. -/
theorem v15_renumbered {m m' : V15} (h : RenumberedV15 f m m') :
    RenumberedMeta f id m.metadata.toMetadata m'.metadata.toMetadata ∧
      RenumberedParams f id m.metadata m'.metadata := by
  refine ⟨⟨?_, ?_, fun id _ => h.types.at id, ?_, fun es _ e _ => ⟨h.types.at _, h.types.at _⟩⟩,
    ⟨?_, ?_, fun _ _ id _ => h.types.at id⟩⟩
  · show specNameVersionOf m'.types m'.pallets = moved id id (specNameVersionOf m.types m.pallets)
    rw [h.pallets, specNameVersionOf_renumbered h.types]
    cases specNameVersionOf m.types m.pallets with
    | ok a => rfl
    | error e => cases e <;> rfl
  · show Except.ok m'.params.callTy = _
    rw [h.params]; rfl
  · show Except.ok m'.signedExtensions = _
    rw [h.extensions]; rfl
  · show Except.ok m'.params = _
    rw [h.params]; rfl
  · show Except.ok m'.extrinsicVersion = _
    rw [h.extrinsicVersion]; rfl

end

/-! ### Examples -/

namespace RenamingExample

/-- Types `0: u8`, `1: Vec<u8>`, `2: struct { a: Compact<u32>, b: Vec<u8> }`, `3: Compact<u32>`, `4: u32`, `5: Vec<7>`
(missing). -/
def old : List Typ :=
  [ { typeDef := .primitive .u8 },
    { typeDef := .sequence 0 },
    { path := ["S"], typeDef := .composite [{ name := some "a", ty := 3 }, { name := some "b", ty := 1 }] },
    { typeDef := .compact 4 },
    { typeDef := .primitive .u32 },
    { typeDef := .sequence 7 } ]

/-- The same in another order, without the last, with one that is not used. -/
def new : List Typ :=
  [ { path := ["S"], typeDef := .composite [{ name := some "a", ty := 1 }, { name := some "b", ty := 3 }] },
    { typeDef := .compact 2 },
    { typeDef := .primitive .u32 },
    { typeDef := .sequence 5 },
    { path := ["Other"], typeDef := .variant [] },
    { typeDef := .primitive .u8 } ]

/-- The new numbers. -/
def number : Nat → Nat
  | 0 => 5 | 1 => 3 | 2 => 0 | 3 => 1 | 4 => 2 | _ => 17

theorem seen {x : Nat} (h : Seen (Registry.portable old) 2 x) : x ∈ [0, 1, 2, 3, 4] := by
  have step : ∀ (mid x : Nat) (t : Typ), mid ∈ [0, 1, 2, 3, 4] → (Registry.portable old).resolve mid = .ok t →
      x ∈ partIds t → x ∈ [0, 1, 2, 3, 4] := by
    intro mid x t hm ht hx
    simp only [List.mem_cons, List.not_mem_nil, or_false] at hm
    rcases hm with rfl | rfl | rfl | rfl | rfl <;> cases ht <;> simp [partIds] at hx <;> simp [hx]
    rcases hx with rfl | rfl <;> simp
  induction h with
  | self => simp
  | part _ h1 _ h2 ih => exact step _ _ _ ih h1 h2
  | elem _ h1 h2 ih => exact step _ _ _ ih h1 (by unfold partIds; rw [h2]; simp)

/-- The hypothesis is met. -/
theorem renumbered : Renumbered number (Registry.portable old) (Registry.portable new) 2 where
  inj x y hx hy e := by
    have h1 := seen hx
    have h2 := seen hy
    simp only [List.mem_cons, List.not_mem_nil, or_false] at h1 h2
    rcases h1 with rfl | rfl | rfl | rfl | rfl <;> rcases h2 with rfl | rfl | rfl | rfl | rfl <;> first | rfl | cases e
  same x hx := by
    have h1 := seen hx
    simp only [List.mem_cons, List.not_mem_nil, or_false] at h1
    rcases h1 with rfl | rfl | rfl | rfl | rfl <;> exact ⟨rfl, rfl, rfl⟩

/-- Decoding with the one and the other. -/
example : decodeAllAsType (Registry.portable new) (Buf.ofBytes [8, 4, 7]) 0 =
    renRes number (decodeAllAsType (Registry.portable old) (Buf.ofBytes [8, 4, 7]) 2) := decodeAllAsType_renumbered renumbered _

example : (decodeAllAsType (Registry.portable old) (Buf.ofBytes [8, 4, 7]) 2).toBool = true := by decide +kernel

/-- The missing type is named by its own number in each: the error is the same up to the numbers. -/
theorem missing : Renumbered (fun x => x + 10) (Registry.portable [{ typeDef := .sequence 7 }])
    (Registry.portable (List.replicate 10 { typeDef := .tuple [] } ++ [{ typeDef := .sequence 17 }])) 0 := by
  have hs : ∀ x, Seen (Registry.portable [{ typeDef := .sequence 7 }]) 0 x → x = 0 ∨ x = 7 := by
    intro x h
    induction h with
    | self => exact .inl rfl
    | part _ h1 _ h2 ih =>
      rcases ih with rfl | rfl
      · cases h1; simp [partIds] at h2; exact .inr h2
      · cases h1
    | elem _ h1 h2 ih =>
      rcases ih with rfl | rfl
      · cases h1; cases h2
      · cases h1
  refine ⟨fun x y _ _ e => by omega, fun x hx => ?_⟩
  rcases hs x hx with rfl | rfl
  · exact ⟨rfl, rfl, rfl⟩
  · rfl

example : decodeAllAsType (Registry.portable [{ typeDef := .sequence 7 }]) (Buf.ofBytes [4]) 0 =
    .error (.err (.registry (.internal (.typeNotResolved 7)))) := rfl

example : decodeAllAsType (Registry.portable (List.replicate 10 { typeDef := .tuple [] } ++ [{ typeDef := .sequence 17 }]))
    (Buf.ofBytes [4]) 10 = .error (.err (.registry (.internal (.typeNotResolved 17)))) := rfl

/-- Two numbers for one type are not a renumbering: which types are met twice would change. -/
example : ¬ Renumbered (fun _ => 0) (Registry.portable old) (Registry.portable new) 2 := by
  intro h
  have := h.inj 2 3 .self (.part .self (t := old[2]) rfl trivial (by simp [partIds, old])) rfl
  cases this

/-- New numbers for the types of the V14 example: the order is reversed. -/
def back (x : Nat) : Nat := if x ≤ 6 then 6 - x else x

/-- The V14 example, with the types in the reversed order. -/
def v14r : V14 where
  types := (Example.v14.types.map fun t =>
    { path := t.path, docs := t.docs, params := t.params.map (renParam back), typeDef := renDef back t.typeDef }).reverse
  pallets := Example.v14.pallets.map (renPallet back)
  extrinsicTy := 2
  extrinsicVersion := 4
  signedExtensions := []

/-- The hypothesis is met. -/
theorem back_v14 : RenumberedV14 back Example.v14 v14r where
  types := by
    have small : ∀ x, x ≤ 6 → x = 0 ∨ x = 1 ∨ x = 2 ∨ x = 3 ∨ x = 4 ∨ x = 5 ∨ x = 6 := by omega
    refine ⟨fun x y e => by unfold back at e; split at e <;> split at e <;> omega, fun x => ?_, fun x t t' h1 h2 => ?_⟩
    · by_cases hx : x ≤ 6
      · rcases small x hx with rfl | rfl | rfl | rfl | rfl | rfl | rfl <;> exact ⟨rfl, rfl, rfl⟩
      · have e1 : (Registry.portable Example.v14.types).resolve x = .error (.internal (.typeNotResolved x)) := by
          show (match Example.v14.types[x]? with | some t => _ | none => _) = _
          rw [List.getElem?_eq_none (by show 7 ≤ x; omega)]
        have e2 : (Registry.portable v14r.types).resolve x = .error (.internal (.typeNotResolved x)) := by
          show (match v14r.types[x]? with | some t => _ | none => _) = _
          rw [List.getElem?_eq_none (by show 7 ≤ x; omega)]
        have e3 : back x = x := by unfold back; rw [if_neg hx]
        rw [e3, e1, e2]
        show _ = RegErr.internal (.typeNotResolved (back x))
        rw [e3]
    · by_cases hx : x ≤ 6
      · rcases small x hx with rfl | rfl | rfl | rfl | rfl | rfl | rfl <;> cases h1 <;> cases h2 <;> rfl
      · rw [List.getElem?_eq_none (by show 7 ≤ x; omega)] at h1; cases h1
  pallets := rfl
  extrinsicTy := rfl
  extrinsicVersion := rfl
  extensions := rfl

example (b : Buf) : decodeUncheckedExtrinsic v14r.metadata b =
    moved (renUErr back (renV14Err back)) id (decodeUncheckedExtrinsic Example.v14.metadata b) :=
  decodeUncheckedExtrinsic_renumbered (v14_renumbered back_v14).2 b

example : v14r.metadata.specNameVersion = .ok ⟨"300", "ab"⟩ ∧ v14r.metadata.callTy = .ok 5 ∧ Example.v14.metadata.callTy = .ok 1 :=
  ⟨rfl, rfl, rfl⟩

end RenamingExample

end Verif
