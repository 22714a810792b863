import Verif.Proof.Shortened
import Verif.Props.Versions
import Verif.Props.Storage
import Verif.Props.Extensions
import Verif.Props.Extrinsic
import Verif.Props.Canonical
/-!
# C53 Shortened metadata tell the same

A device with little memory has only a part of the metadata: types may be missing, and variants
of enums may be missing. Whatever is decoded with the part is decoded with the whole, with the same
outcome.
-/
namespace Verif
open Spec

/-- A value in `r` is the value in `r'`. -/
def Upto {ε ε' α : Type} (r : Except ε α) (r' : Except ε' α) : Prop := ∀ a, r = .ok a → r' = .ok a

/-- Shortened metadata: shortened types, and the same answers to the questions of `AsMetadata`, or
none. -/
structure ShortMetadata {ME ME' : Type} (M : Metadata ME) (M' : Metadata ME') : Prop where
  types : Shortened M.types M'.types
  version : Upto M.specNameVersion M'.specNameVersion
  call : Upto M.callTy M'.callTy
  extensions : Upto M.signedExtensions M'.signedExtensions

/-- Also to those of `AsCompleteMetadata`. -/
structure ShortComplete {ME ME' : Type} (M : CompleteMetadata ME) (M' : CompleteMetadata ME') : Prop
    extends ShortMetadata M.toMetadata M'.toMetadata where
  params : Upto M.extrinsicTypeParams M'.extrinsicTypeParams
  byte : Upto M.extrinsicVersion M'.extrinsicVersion

variable {ME ME' : Type} {S R : Registry} {b : Buf}

theorem Upto.ok {ε ε' α : Type} (a : α) : Upto (.ok a : Except ε α) (.ok a : Except ε' α) := fun b h => by cases h; rfl

theorem Upto.error {ε ε' α : Type} (e : ε) (r : Except ε' α) : Upto (.error e : Except ε α) r := fun _ h => nomatch h

theorem Alike.upto {ε ε' α : Type} {r : Except ε α} {r' : Except ε' α} (h : Alike r r') : Upto r r' := fun a => (h a).1

theorem Upto.bind {ε ε' α β : Type} {r : Except ε α} {r' : Except ε' α} {f : α → Except ε β} {f' : α → Except ε' β}
    (h : Upto r r') (hf : ∀ a, r = .ok a → Upto (f a) (f' a)) : Upto (r >>= f) (r' >>= f') := by
  intro b
  rw [ebind_ok, ebind_ok]
  rintro ⟨a, h1, h2⟩
  exact ⟨a, h a h1, hf a h1 b h2⟩

theorem Upto.mapOut {ε ε' ε₂ ε₂' α : Type} {r : Except (Out ε) α} {r' : Except (Out ε') α} (h : Upto r r')
    (f : ε → ε₂) (f' : ε' → ε₂') : Upto (mapOut f r) (mapOut f' r') := by
  intro a
  rw [mapOut_ok, mapOut_ok]; exact h a

theorem Upto.mapErr {ε ε' α : Type} {r r' : Res α} (h : Upto r r') (f : PErr → ε) (f' : PErr → ε') :
    Upto (r.mapErr f) (r'.mapErr f') := by
  intro a
  rw [mapErr_ok, mapErr_ok]; exact h a

/-! ### Types -/

/-- C53. `decode_with_type`, any context: a shortened registry gives the outcome of the full
registry, or an error. -/
theorem decode_shortened (hs : Shortened S R) (hi : IndicesDistinct R) (ha : ArraysNameless R) (id pos : Nat)
    (p : Propagated) : Upto (decode S b (.symbol id) pos p) (decode R b (.symbol id) pos p) :=
  fun _ h => decode_full hs hi ha h

/-- C53. `decode_all_as_type`. -/
theorem decodeAllAsType_shortened (hs : Shortened S R) (hi : IndicesDistinct R) (ha : ArraysNameless R) (b : Buf) (id : Nat) :
    Upto (decodeAllAsType S b id) (decodeAllAsType R b id) := by
  unfold decodeAllAsType decodeAsTypeAtPosition
  refine .bind (decode_shortened hs hi ha _ _ _) fun x _ => ?_
  dsimp only
  split
  · exact .error _ _
  · exact .ok _

/-! ### Transactions -/

section
variable {M : Metadata ME} {M' : Metadata ME'}

theorem decodeAsCallUnmarked_shortened (h : ShortMetadata M M') (hi : IndicesDistinct M'.types) (ha : ArraysNameless M'.types)
    (b : Buf) (pos : Nat) : Upto (decodeAsCallUnmarked M b pos) (decodeAsCallUnmarked M' b pos) := by
  unfold decodeAsCallUnmarked
  refine .bind (h.call.mapOut _ _) fun ty _ => .bind ((decode_shortened h.types hi ha _ _ _).mapErr _ _) fun x _ => ?_
  obtain ⟨d, q⟩ := x
  dsimp only
  cases d.data.asCall with
  | none => exact .error _ _
  | some c => exact .ok _

theorem decodeAsCall_shortened (h : ShortMetadata M M') (hi : IndicesDistinct M'.types) (ha : ArraysNameless M'.types)
    (m : Marked) : Upto (decodeAsCall M m) (decodeAsCall M' m) := by
  unfold decodeAsCall
  refine .bind ?_ fun b _ => .bind (decodeAsCallUnmarked_shortened h hi ha b _) fun x _ => ?_
  · unfold Marked.dataNoExtensions
    cases m.data.limitLength m.extensionsStart with
    | ok b => exact .ok _
    | error e => exact .error _ _
  · obtain ⟨c, q⟩ := x
    dsimp only
    split
    · exact .error _ _
    · exact .ok _

theorem extensionsLoop_shortened (hs : Shortened S R) (hi : IndicesDistinct R) (ha : ArraysNameless R) {sel : SignedExt → Nat} :
    ∀ (es : List SignedExt) (pos : Nat),
    Upto (extensionsLoop (ME := ME) S b sel es pos) (extensionsLoop (ME := ME') R b sel es pos)
  | [], pos => .ok _
  | e :: es, pos => by
    unfold extensionsLoop
    exact .bind ((decode_shortened hs hi ha _ _ _).mapErr _ _) fun x _ =>
      .bind (extensionsLoop_shortened hs hi ha es _) fun y _ => .ok _

theorem decodeExtensionsUnmarked_shortened (h : ShortMetadata M M') (hi : IndicesDistinct M'.types)
    (ha : ArraysNameless M'.types) (b : Buf) (pos : Nat) (g : Option Bytes) :
    Upto (decodeExtensionsUnmarked M b pos g) (decodeExtensionsUnmarked M' b pos g) := by
  unfold decodeExtensionsUnmarked
  refine .bind (h.extensions.mapOut _ _) fun es _ => .bind (extensionsLoop_shortened h.types hi ha _ _) fun x _ =>
    .bind (extensionsLoop_shortened h.types hi ha _ _) fun y _ => ?_
  dsimp only
  split
  · exact .error _ _
  · exact .bind (h.version.mapOut _ _) fun s _ => .bind (checkExtensions_alike _ _ _).upto fun _ _ => .ok _

/-- C53. `parse_transaction_unmarked`. -/
theorem parseTransactionUnmarked_shortened (h : ShortMetadata M M') (hi : IndicesDistinct M'.types)
    (ha : ArraysNameless M'.types) (b : Buf) (g : Option Bytes) :
    Upto (parseTransactionUnmarked M b g) (parseTransactionUnmarked M' b g) := by
  unfold parseTransactionUnmarked
  exact .bind (decodeAsCallUnmarked_shortened h hi ha _ _) fun x _ =>
    .bind (decodeExtensionsUnmarked_shortened h hi ha _ _ _) fun _ _ => .ok _

/-- C53. `parse_transaction`: the extensions are the same, and the call, if there is one. -/
theorem parseTransaction_shortened (h : ShortMetadata M M') (hi : IndicesDistinct M'.types)
    (ha : ArraysNameless M'.types) (hc : CalmMetadata M') {b : Buf} {g : Option Bytes} {x : TransactionParsed ME}
    (hx : parseTransaction M b g = .ok x) :
    ∃ x', parseTransaction M' b g = .ok x' ∧ x'.extensions = x.extensions ∧ Upto x.callResult x'.callResult := by
  obtain ⟨m, h1, h2, h3⟩ := parseTransaction_iff.1 hx
  have h1' := (mark_alike (ME' := ME') b m).1 h1
  have h2' : decodeExtensions M' m g = .ok x.extensions := decodeExtensionsUnmarked_shortened h hi ha _ _ _ _ h2
  rcases h3 with ⟨c, h3, h4⟩ | ⟨e, h3, h4⟩
  · have h3' := decodeAsCall_shortened h hi ha m c h3
    exact ⟨⟨.ok c, x.extensions⟩, parseTransaction_iff.2 ⟨m, h1', h2', .inl ⟨c, h3', rfl⟩⟩, rfl, by rw [h4]; exact .ok _⟩
  · rcases decodeAsCall_calm hc h1' with ⟨c, h5⟩ | ⟨e', h5⟩
    · exact ⟨⟨.ok c, x.extensions⟩, parseTransaction_iff.2 ⟨m, h1', h2', .inl ⟨c, h5, rfl⟩⟩, rfl, by rw [h4]; exact .error _ _⟩
    · exact ⟨⟨.error e', x.extensions⟩, parseTransaction_iff.2 ⟨m, h1', h2', .inr ⟨e', h5, rfl⟩⟩, rfl, by rw [h4]; exact .error _ _⟩
end

/-! ### Unchecked extrinsics -/

/-- C53. `decode_as_unchecked_extrinsic`. -/
theorem decodeUncheckedExtrinsic_shortened {M : CompleteMetadata ME} {M' : CompleteMetadata ME'} (h : ShortComplete M M')
    (hi : IndicesDistinct M'.types) (ha : ArraysNameless M'.types) (b : Buf) :
    Upto (decodeUncheckedExtrinsic M b) (decodeUncheckedExtrinsic M' b) := by
  have hp : ∀ (id pos : Nat), Upto (extrinsicPart (ME := ME) M.types b id pos) (extrinsicPart (ME := ME') M'.types b id pos) :=
    fun id pos => (decode_shortened h.types hi ha _ _ _).mapErr _ _
  have hcall : ∀ (id pos : Nat), Upto (extrinsicCall (ME := ME) M.types b id pos) (extrinsicCall (ME := ME') M'.types b id pos) := by
    intro id pos
    unfold extrinsicCall
    refine .bind (hp _ _) fun x _ => ?_
    obtain ⟨d, q⟩ := x
    dsimp only
    cases d.data.asCall with
    | none => exact .error _ _
    | some c => exact .ok _
  unfold decodeUncheckedExtrinsic
  refine .bind (h.params.mapOut _ _) fun params _ => .bind (Alike.mapErr _ _ _).upto fun x _ => ?_
  dsimp only
  split
  · exact .error _ _
  · split
    · exact .error _ _
    · refine .bind (Alike.mapErr _ _ _).upto fun vb _ => .bind (h.byte.mapOut _ _) fun v _ => ?_
      unfold extrinsicContent
      split
      · exact .error _ _
      · split
        · exact .bind (hcall _ _) fun c _ => .ok _
        · exact .bind (hp _ _) fun x _ => .bind (hp _ _) fun y _ => .bind (hp _ _) fun z _ =>
            .bind (hcall _ _) fun c _ => .ok _

/-! ### Storage -/

/-- C53. `decode_as_storage_entry`. -/
theorem decodeStorageEntry_shortened {H : HashFns} (hs : Shortened S R) (hi : IndicesDistinct R) (ha : ArraysNameless R)
    (key value : Buf) (entry : Entry) :
    Upto (decodeStorageEntry H S key value entry) (decodeStorageEntry H R key value entry) := by
  have part : ∀ (h : Hasher) (ty pos : Nat), Upto (processHasher H S h ty key pos) (processHasher H R h ty key pos) := by
    intro h ty pos
    have check : ∀ (n : Nat) (f : Bytes → Bytes), Upto (checkHash S n f ty key pos) (checkHash R n f ty key pos) := by
      intro n f
      unfold checkHash
      refine .bind (Alike.mapErr _ _ _).upto fun s _ => ?_
      split
      · exact .error _ _
      · refine .bind ((decode_shortened hs hi ha _ _ _).mapErr _ _) fun x _ => ?_
        intro a e
        exact e
    unfold processHasher
    cases h with
    | blake2_128Concat => exact check _ _
    | twox64Concat => exact check _ _
    | identity => exact .bind ((decode_shortened hs hi ha _ _ _).mapErr _ _) fun x _ => .ok _
    | _ => exact fun _ e => e
  have loop : ∀ (l : List Hasher) (tys : List Nat) (pos : Nat),
      Upto (hashersLoop H S key l tys pos) (hashersLoop H R key l tys pos) := by
    intro l
    induction l with
    | nil => intro tys pos; unfold hashersLoop; exact .ok _
    | cons h l ih =>
      intro tys pos
      cases tys with
      | nil => unfold hashersLoop; exact .ok _
      | cons ty tys =>
        unfold hashersLoop
        exact .bind (part _ _ _) fun x _ => .bind (ih _ _) fun y _ => .ok _
  have value : ∀ ty, Upto ((decodeAllAsType S value ty).mapErr StErr.parsingValue)
      ((decodeAllAsType R value ty).mapErr StErr.parsingValue) :=
    fun ty => (decodeAllAsType_shortened hs hi ha _ _).mapErr _ _
  have mapped : ∀ (l : List Hasher) (ty pos : Nat), Upto (processKeyMapped H S l ty key pos) (processKeyMapped H R l ty key pos) := by
    intro l ty pos
    have many : ∀ k : KeyData × Nat → StRes KeyData, Upto
        (do let t ← (S.get ty).mapErr .parsingKey
            match t.typeDef with
            | .tuple elems =>
              if elems.length ≠ l.length then do
                let x ← Except.error (Out.err StErr.multipleHashesNumberMismatch)
                k x
              else do
                let (content, pos) ← hashersLoop H S key l elems pos
                k (KeyData.tupleHash content (Info.fromTy t), pos)
            | _ => do
              let x ← Except.error (Out.err StErr.multipleHashesNotATuple)
              k x)
        (do let t ← (R.get ty).mapErr .parsingKey
            match t.typeDef with
            | .tuple elems =>
              if elems.length ≠ l.length then do
                let x ← Except.error (Out.err StErr.multipleHashesNumberMismatch)
                k x
              else do
                let (content, pos) ← hashersLoop H R key l elems pos
                k (KeyData.tupleHash content (Info.fromTy t), pos)
            | _ => do
              let x ← Except.error (Out.err StErr.multipleHashesNotATuple)
              k x) := by
      intro k a e
      obtain ⟨s, e1, e⟩ := ebind_ok.1 e
      rw [mapErr_ok] at e1
      obtain ⟨t, g1, g2⟩ := hs _ _ (get_ok.1 e1)
      refine ebind_ok.2 ⟨t, mapErr_ok.2 (get_ok.2 g1), ?_⟩
      split at e
      · rename_i elems he
        have := g2.eq' (by rw [he]; intro _ h; cases h)
        subst this
        rw [he]
        dsimp only
        split at e
        · cases e
        · rename_i hl
          rw [if_neg hl]
          obtain ⟨y, e2, e⟩ := ebind_ok.1 e
          rw [loop _ _ _ _ e2, eok_bind]
          exact e
      · cases e
    unfold processKeyMapped
    dsimp only
    split
    · exact .bind (part _ _ _) fun x _ => fun _ e => e
    · exact many _
  unfold decodeStorageEntry
  dsimp only
  split
  · exact .error _ _
  · split
    · split
      · exact .error _ _
      · exact .bind (value _) fun _ _ => .ok _
    · exact .bind (mapped _ _ _) fun _ _ => .bind (value _) fun _ _ => .ok _

/-! ### Checking the conditions -/

theorem indicesDistinct_of_check {ts : List Typ}
    (h : ∀ t ∈ ts, ∀ v ∈ variantsOf t, ∀ w ∈ variantsOf t, v.index = w.index → v = w) :
    IndicesDistinct (Registry.portable ts) := by
  intro id t vs hr hd v hv w hw
  have : variantsOf t = vs := by unfold variantsOf; rw [hd]
  exact h t (portable_mem hr) v (this ▸ hv) w (this ▸ hw)

/-- Array types without a name, type by type. -/
def namelessArray (t : Typ) : Bool :=
  match t.typeDef with
  | .array _ _ => t.path.isEmpty
  | _ => true

theorem arraysNameless_of_check {ts : List Typ} (h : ∀ t ∈ ts, namelessArray t = true) :
    ArraysNameless (Registry.portable ts) := by
  intro id t len elem hr hd
  have := h t (portable_mem hr)
  unfold namelessArray at this
  rw [hd] at this
  exact List.isEmpty_iff.1 this

/-- Registry with the types for which there is a type in the list. -/
def Registry.sparse (types : List (Option Typ)) : Registry where
  resolve id :=
    match types[id]? with
    | some (some t) => .ok t
    | _ => .error (.internal (.typeNotResolved id))
  size := types.length
  bounded := by
    intro id h
    exact ⟨.internal (.typeNotResolved id), by rw [List.getElem?_eq_none h]⟩

/-- The check of `ShortTyp`. -/
def shortTyp (s t : Typ) : Bool :=
  decide (s = t) || (!(variantsOf s).isEmpty && decide (s.typeDef = .variant (variantsOf s)) &&
    decide (t = { s with typeDef := .variant (variantsOf t) }) && (variantsOf s).all fun v => (variantsOf t).contains v)

theorem shortTyp_spec {s t : Typ} (h : shortTyp s t = true) : ShortTyp s t := by
  unfold shortTyp at h
  simp only [Bool.or_eq_true, Bool.and_eq_true, decide_eq_true_eq, Bool.not_eq_true', List.all_eq_true,
    List.contains_iff_mem, List.isEmpty_eq_false_iff] at h
  rcases h with h | ⟨⟨⟨h1, h2⟩, h3⟩, h4⟩
  · exact .inl h
  · exact .inr ⟨_, _, h2, h1, h3, h4⟩

theorem shortened_of_check {ss : List (Option Typ)} {ts : List Typ} (hl : ss.length ≤ ts.length)
    (h : ((ss.zip ts).all fun x => match x.1 with | some s => shortTyp s x.2 | none => true) = true) :
    Shortened (Registry.sparse ss) (Registry.portable ts) := by
  intro id s hr
  have e1 : ss[id]? = some (some s) := by
    simp only [Registry.sparse] at hr
    split at hr
    · rename_i e; cases hr; exact e
    · cases hr
  obtain ⟨l1, -⟩ := List.getElem?_eq_some_iff.1 e1
  have e2 : ts[id]? = some ts[id] := List.getElem?_eq_getElem (by omega)
  have e3 : (ss.zip ts)[id]? = some (some s, ts[id]) := by
    rw [List.getElem?_zip_eq_some]; exact ⟨e1, e2⟩
  have := List.all_eq_true.1 h _ (List.mem_of_getElem? e3)
  exact ⟨ts[id], by simp only [Registry.portable, e2], shortTyp_spec this⟩

/-! ### Examples -/

namespace Example

/-- The types of the chain, where there is also a pallet `System`, a call `burn`, and a type of the
former. -/
def wholeTypes : List Typ :=
  [ { typeDef := .primitive .u8 },
    { typeDef := .primitive .u32 },
    { path := ["runtime", "RuntimeCall"], typeDef := .variant
        [{ name := "System", index := 0, fields := [{ ty := 8 }] }, { name := "Balances", index := 5, fields := [{ ty := 3 }] }] },
    { path := ["pallet_balances", "pallet", "Call"], typeDef := .variant
        [{ name := "burn", index := 0, fields := [{ name := some "value", ty := 1, typeName := some "T::Balance" }] },
         { name := "transfer", index := 1,
           fields := [{ name := some "dest", ty := 0 }, { name := some "value", ty := 1, typeName := some "T::Balance" }] }] },
    { path := ["sp_runtime", "generic", "era", "Era"], typeDef := .variant [] },
    { path := ["primitive_types", "H256"], typeDef := .composite [] },
    { typeDef := .tuple [] },
    { path := ["frame_system", "CheckMortality"], typeDef := .composite [{ ty := 4 }] },
    { path := ["frame_system", "pallet", "Call"], typeDef := .variant
        [{ name := "remark", index := 0, fields := [{ name := some "remark", ty := 9 }] }] },
    { typeDef := .sequence 0 } ]

/-- Metadata with all of them. -/
def whole : Metadata Unit := { chain with types := .portable wholeTypes }

/-- Metadata with those needed for `payload`. -/
def short : Metadata Unit := { chain with types := .sparse (chainTypes.map some) }

theorem short_whole : ShortMetadata short whole :=
  ⟨shortened_of_check (by decide) (by decide), fun _ h => h, fun _ h => h, fun _ h => h⟩

theorem whole_indices : IndicesDistinct whole.types := indicesDistinct_of_check (by decide)
theorem whole_arrays : ArraysNameless whole.types := arraysNameless_of_check (by decide)

/-- The payload is parsed with the shortened metadata; with the whole, the same call is shown. -/
example : ∃ x x', parseTransaction short payload (some genesis) = .ok x ∧ x.callResult = .ok call ∧
    parseTransaction whole payload (some genesis) = .ok x' ∧ x'.extensions = x.extensions ∧ x'.callResult = .ok call := by
  have h : ∃ x, parseTransaction short payload (some genesis) = .ok x ∧ x.callResult = .ok call := ⟨_, rfl, rfl⟩
  obtain ⟨x, h1, h2⟩ := h
  obtain ⟨x', h3, h4, h5⟩ := parseTransaction_shortened short_whole whole_indices whole_arrays
    ⟨.ok _, .ok _, .ok _⟩ h1
  exact ⟨x, x', h1, h2, h3, h4, h5 _ h2⟩

/-- Calls that are left out are errors. -/
example : decodeAllAsType short.types (.ofBytes [0, 0, 4, 7]) 2 = .error (.err (.unexpectedEnumVariant 0)) ∧
    (∃ d, decodeAllAsType whole.types (.ofBytes [0, 0, 4, 7]) 2 = .ok d) := ⟨rfl, _, rfl⟩

/-- The metadata of extrinsics with all types. -/
def wholeExtrinsic : CompleteMetadata Unit where
  toMetadata := whole
  extrinsicTypeParams := .ok ⟨0, 2, 5, 7⟩
  extrinsicVersion := .ok 4

/-- The same, shortened. -/
def shortExtrinsic : CompleteMetadata Unit where
  toMetadata := short
  extrinsicTypeParams := .ok ⟨0, 2, 5, 7⟩
  extrinsicVersion := .ok 4

/-- An extrinsic read with the shortened metadata is read with the whole. -/
example : decodeUncheckedExtrinsic wholeExtrinsic (Buf.ofBytes unsignedBytes) = .ok (.unsigned call) :=
  decodeUncheckedExtrinsic_shortened (M := shortExtrinsic) (M' := wholeExtrinsic) ⟨short_whole, fun _ h => h, fun _ h => h⟩
    whole_indices whole_arrays _ _ rfl

/-- An entry read with three types is read when there are four. -/
example : decodeStorageEntry hashes
    (.portable [{ typeDef := .primitive .u8 }, { typeDef := .primitive .u32 }, { typeDef := .tuple [0, 1, 0] },
      { typeDef := .variant [{ name := "A", index := 0 }] }])
    (Buf.ofBytes keyBytes) (Buf.ofBytes [2, 1, 0, 0]) entry = .ok stored :=
  decodeStorageEntry_shortened
    (S := .sparse [some { typeDef := .primitive .u8 }, some { typeDef := .primitive .u32 }, some { typeDef := .tuple [0, 1, 0] }])
    (shortened_of_check (by decide) (by decide)) (indicesDistinct_of_check (by decide)) (arraysNameless_of_check (by decide))
    _ _ _ _ rfl

/-! Why the conditions are there. -/

/-- An enum left with no variants is an enum that has no variants: it is read as one, from no data. -/
example : ∃ d d', decode (.sparse [some { typeDef := .variant [] }]) (.ofBytes [3]) (.symbol 0) 0 .new = .ok (d, 0) ∧
    decode (.portable [{ typeDef := .variant [{ name := "A", index := 3 }] }]) (.ofBytes [3]) (.symbol 0) 0 .new = .ok (d', 1) :=
  ⟨_, _, rfl, rfl⟩

/-- With two variants of one index the former is read, and dropping it changes what is read. -/
example : ∃ d d', decodeAllAsType (.sparse [some { typeDef := .variant [{ name := "B", index := 3 }] }]) (.ofBytes [3]) 0 = .ok d ∧
    decodeAllAsType (.portable [{ typeDef := .variant [{ name := "A", index := 3 }, { name := "B", index := 3 }] }])
      (.ofBytes [3]) 0 = .ok d' ∧ edValue d ≠ edValue d' :=
  ⟨_, _, rfl, rfl, by simp [edValue, pdValue]⟩

end Example

end Verif
