import Verif.Proof.Upgrade
import Verif.Proof.Out
import Verif.Props.Renaming
/-!
# Property theorems about metadata that knows more variants (C90)
-/
namespace Verif
open Spec

variable {ME : Type} {R R' : Registry}

/-! ### Values -/

/-- C90. `decode_as_type_at_position`: with metadata that only knows more variants the outcome is exactly
the same, value, labels, docs, position and error, unless the older metadata does not know an index. -/
theorem decodeAsTypeAtPosition_upgraded {id : Nat} (h : Upgraded R R' id) (b : Buf) (pos : Nat) :
    SameUnlessNewVariant (decodeAsTypeAtPosition R b id pos) (decodeAsTypeAtPosition R' b id pos) :=
  decode_upgraded h b pos _

/-- C90. `decode_all_as_type`. -/
theorem decodeAllAsType_upgraded {id : Nat} (h : Upgraded R R' id) (b : Buf) :
    SameUnlessNewVariant (decodeAllAsType R b id) (decodeAllAsType R' b id) := by
  unfold decodeAllAsType
  rcases decodeAsTypeAtPosition_upgraded h b 0 with e | ⟨pos, e⟩
  · rw [e]; exact .inl rfl
  · rw [e]; exact .inr ⟨pos, rfl⟩

/-- C90. What could be read still is read, and is the same. -/
theorem decodeAsTypeAtPosition_still {id pos q : Nat} {b : Buf} {d : ED} (h : Upgraded R R' id)
    (ho : decodeAsTypeAtPosition R b id pos = .ok (d, q)) : decodeAsTypeAtPosition R' b id pos = .ok (d, q) := by
  rcases decodeAsTypeAtPosition_upgraded h b pos with e | ⟨p, e⟩
  · rw [e, ho]
  · rw [ho] at e; cases e

/-! ### Transactions -/

namespace Upgrade

theorem SU.refl {ε α : Type} {P : ε → Prop} (x : Except (Out ε) α) : SameUnless P x x := .inl rfl

theorem SU.bind {ε α β : Type} {P : ε → Prop} {x x' : Except (Out ε) α} {k k' : α → Except (Out ε) β}
    (hx : SameUnless P x x') (hk : ∀ a, x = .ok a → SameUnless P (k a) (k' a)) :
    SameUnless P (x >>= k) (x' >>= k') := by
  rcases hx with rfl | ⟨e, he, rfl⟩
  · cases x' with
    | ok a => exact hk a rfl
    | error e => exact .inl rfl
  · exact .inr ⟨e, he, rfl⟩

theorem SU.mapErr {ε α : Type} {P : ε → Prop} {f : PErr → ε} (hf : ∀ pos, P (f (.unexpectedEnumVariant pos))) {x x' : Res α}
    (h : SameUnlessNewVariant x x') : SameUnless P (x.mapErr f) (x'.mapErr f) := by
  rcases h with rfl | ⟨pos, rfl⟩
  · exact .inl rfl
  · exact .inr ⟨_, hf pos, rfl⟩

end Upgrade
open Upgrade

variable {M M' : Metadata ME}

/-- C90. `decode_as_call_unmarked`. -/
theorem decodeAsCallUnmarked_upgraded (h : UpgradedMeta M M') (b : Buf) (pos : Nat) :
    SameUnless NewInTransaction (decodeAsCallUnmarked M b pos) (decodeAsCallUnmarked M' b pos) := by
  unfold decodeAsCallUnmarked
  rw [h.call]
  refine SU.bind (SU.refl _) fun ty hty => ?_
  refine SU.bind (SU.mapErr (fun _ => trivial) (decode_upgraded (h.callTypes ty (mapOut_ok.1 hty)) b pos _)) fun x _ => ?_
  exact SU.refl _

theorem decodeAsCall_upgraded (h : UpgradedMeta M M') (m : Marked) :
    SameUnless NewInTransaction (decodeAsCall M m) (decodeAsCall M' m) := by
  unfold decodeAsCall
  exact SU.bind (SU.refl _) fun b _ => SU.bind (decodeAsCallUnmarked_upgraded h _ _) fun _ _ => SU.refl _

theorem decodeAsCall_live (h : UpgradedMeta M M') {m : Marked} {e : SErr ME} (ho : decodeAsCall M m = .error (.err e))
    {x : Out (SErr ME)} (hn : decodeAsCall M' m = .error x) : ∃ e', x = .err e' := by
  unfold decodeAsCall at ho hn
  cases hb : m.dataNoExtensions (ME := ME) with
  | error y => rw [hb] at ho hn; cases ho; cases hn; exact ⟨_, rfl⟩
  | ok b =>
    rw [hb, eok_bind] at ho hn
    unfold decodeAsCallUnmarked at ho hn
    rw [h.call] at hn
    cases hc : M.callTy with
    | error y =>
      rw [hc] at ho hn
      cases y with
      | err y => cases hn; exact ⟨_, rfl⟩
      | panic => cases ho
      | fuel => cases ho
    | ok ty =>
      rw [hc] at hn
      rcases (decode_fine (R := M'.types) (b := b) (.symbol ty) m.callStart Propagated.new).cases with ⟨⟨d, q⟩, hd⟩ | ⟨y, hd⟩
      · have hn' : (match d.data.asCall with
            | some call => (Except.ok (call, q) : SRes ME (Call × Nat))
            | none => .error (.err (.notACall ty))) >>= (fun x => if x.2 ≠ m.extensionsStart then
              .error (.err (.someDataNotUsedCall x.2 m.extensionsStart)) else .ok x.1) = .error x := by
          rw [← hn]
          show _ = (((decode M'.types b (.symbol ty) m.callStart Propagated.new).mapErr SErr.parsing >>= _) >>= _)
          rw [hd]; rfl
        cases hcall : d.data.asCall with
        | none => rw [hcall] at hn'; cases hn'; exact ⟨_, rfl⟩
        | some c =>
          rw [hcall] at hn'
          have hn' : (if q ≠ m.extensionsStart then (Except.error (.err (.someDataNotUsedCall q m.extensionsStart)) : SRes ME Call)
            else .ok c) = .error x := hn'
          split at hn'
          · cases hn'; exact ⟨_, rfl⟩
          · cases hn'
      · have hn' : (Except.error (.err (.parsing y)) : SRes ME Call) = .error x := by
          rw [← hn]
          show _ = (((decode M'.types b (.symbol ty) m.callStart Propagated.new).mapErr SErr.parsing >>= _) >>= _)
          rw [hd]; rfl
        cases hn'; exact ⟨_, rfl⟩

theorem extensionsLoop_upgraded (sel : SignedExt → Nat) (b : Buf) :
    ∀ (es : List SignedExt) (pos : Nat), (∀ e ∈ es, Upgraded R R' (sel e)) →
    SameUnless NewInTransaction (extensionsLoop (ME := ME) R b sel es pos) (extensionsLoop (ME := ME) R' b sel es pos)
  | [], pos, _ => SU.refl _
  | e :: es, pos, h => by
    unfold extensionsLoop
    refine SU.bind (SU.mapErr (fun _ => trivial) (decode_upgraded (h e (by simp)) b pos _)) fun x _ => ?_
    exact SU.bind (extensionsLoop_upgraded sel b es _ fun e he => h e (by simp [he])) fun _ _ => SU.refl _

/-- C90. `decode_extensions_unmarked`. -/
theorem decodeExtensionsUnmarked_upgraded (h : UpgradedMeta M M') (b : Buf) (pos : Nat) (gh : Option Bytes) :
    SameUnless NewInTransaction (decodeExtensionsUnmarked M b pos gh) (decodeExtensionsUnmarked M' b pos gh) := by
  unfold decodeExtensionsUnmarked
  rw [h.extensions, h.version]
  refine SU.bind (SU.refl _) fun es hes => ?_
  have ht := h.extTypes es (mapOut_ok.1 hes)
  refine SU.bind (extensionsLoop_upgraded (·.ty) b es pos fun e he => (ht e he).1) fun x _ => ?_
  refine SU.bind (extensionsLoop_upgraded (·.additionalSigned) b es _ fun e he => (ht e he).2) fun x _ => ?_
  exact SU.refl _

/-- C90. `parse_transaction_unmarked`. -/
theorem parseTransactionUnmarked_upgraded (h : UpgradedMeta M M') (b : Buf) (gh : Option Bytes) :
    SameUnless NewInTransaction (parseTransactionUnmarked M b gh) (parseTransactionUnmarked M' b gh) := by
  unfold parseTransactionUnmarked
  exact SU.bind (decodeAsCallUnmarked_upgraded h b 0) fun x _ =>
    SU.bind (decodeExtensionsUnmarked_upgraded h b _ gh) fun _ _ => SU.refl _

/-- The end of `parse_transaction`. -/
def Upgrade.finish (l : List ED) (c : SRes ME Call) : SRes ME (TransactionParsed ME) :=
  match c with
  | .ok call => .ok { callResult := .ok call, extensions := l }
  | .error (.err e) => .ok { callResult := .error e, extensions := l }
  | .error .panic => .error .panic
  | .error .fuel => .error .fuel

theorem parseTransaction_finish (M : Metadata ME) (b : Buf) (gh : Option Bytes) :
    parseTransaction M b gh = mark b >>= fun m => decodeExtensions M m gh >>= fun l => finish l (decodeAsCall M m) := rfl

theorem finish_upgraded (l : List ED) {c c' : SRes ME Call} (h : SameUnless NewInTransaction c c')
    (hl : ∀ e, c = .error (.err e) → ∀ x, c' = .error x → ∃ e', x = .err e') :
    SameParsedUnless (finish l c) (finish l c') := by
  rcases h with rfl | ⟨e, he, rfl⟩
  · exact .inr (.inl rfl)
  · cases c' with
    | ok c => exact .inl ⟨_, _, rfl, rfl, rfl, .inr ⟨e, he, rfl⟩⟩
    | error x =>
      obtain ⟨e', rfl⟩ := hl e rfl x rfl
      exact .inl ⟨_, _, rfl, rfl, rfl, .inr ⟨e, he, rfl⟩⟩

/-- C90. `parse_transaction`: the same, or the older metadata does not know an index, in the extensions
(an error) or in the call (no call, the same extensions). -/
theorem parseTransaction_upgraded (h : UpgradedMeta M M') (b : Buf) (gh : Option Bytes) :
    SameParsedUnless (parseTransaction M b gh) (parseTransaction M' b gh) := by
  rw [parseTransaction_finish, parseTransaction_finish]
  cases hm : mark (ME := ME) b with
  | error e => rw [eerror_bind, eerror_bind]; exact .inr (.inl rfl)
  | ok m =>
    rw [eok_bind, eok_bind]
    rcases decodeExtensionsUnmarked_upgraded h m.data m.extensionsStart gh with e | ⟨e, he, e1⟩
    · have e' : decodeExtensions M' m gh = decodeExtensions M m gh := e
      rw [e']
      cases hx : decodeExtensions M m gh with
      | error e => rw [eerror_bind, eerror_bind]; exact .inr (.inl rfl)
      | ok l =>
        rw [eok_bind, eok_bind]
        exact finish_upgraded l (decodeAsCall_upgraded h m) fun e h3 x hn => decodeAsCall_live h h3 hn
    · have e1' : decodeExtensions M m gh = .error (.err e) := e1
      rw [e1', eerror_bind]
      exact .inr (.inr ⟨e, he, rfl⟩)

/-! ### Extrinsics and storage -/

theorem extrinsicPart_upgraded {id : Nat} (h : Upgraded R R' id) (b : Buf) (pos : Nat) :
    SameUnless NewInExtrinsic (extrinsicPart (ME := ME) R b id pos) (extrinsicPart (ME := ME) R' b id pos) :=
  SU.mapErr (fun _ => trivial) (decodeAsTypeAtPosition_upgraded h b pos)

theorem extrinsicCall_upgraded {id : Nat} (h : Upgraded R R' id) (b : Buf) (pos : Nat) :
    SameUnless NewInExtrinsic (extrinsicCall (ME := ME) R b id pos) (extrinsicCall (ME := ME) R' b id pos) :=
  SU.bind (extrinsicPart_upgraded h b pos) fun _ _ => SU.refl _

/-- C90. `decode_as_unchecked_extrinsic`. -/
theorem decodeUncheckedExtrinsic_upgraded {M M' : CompleteMetadata ME} (h : UpgradedParams M M') (b : Buf) :
    SameUnless NewInExtrinsic (decodeUncheckedExtrinsic M b) (decodeUncheckedExtrinsic M' b) := by
  unfold decodeUncheckedExtrinsic
  rw [h.params, h.version]
  refine SU.bind (SU.refl _) fun p hp => ?_
  have ht := h.types p (mapOut_ok.1 hp)
  refine SU.bind (SU.refl _) fun x _ => ?_
  dsimp only
  split
  · exact SU.refl _
  · split
    · exact SU.refl _
    · refine SU.bind (SU.refl _) fun vb _ => SU.bind (SU.refl _) fun v _ => ?_
      unfold extrinsicContent
      split
      · exact SU.refl _
      · split
        · exact SU.bind (extrinsicCall_upgraded (ht _ (by simp)) _ _) fun _ _ => SU.refl _
        · refine SU.bind (extrinsicPart_upgraded (ht _ (by simp)) _ _) fun _ _ => ?_
          refine SU.bind (extrinsicPart_upgraded (ht _ (by simp)) _ _) fun _ _ => ?_
          refine SU.bind (extrinsicPart_upgraded (ht _ (by simp)) _ _) fun _ _ => ?_
          exact SU.bind (extrinsicCall_upgraded (ht _ (by simp)) _ _) fun _ _ => SU.refl _

theorem checkHash_upgraded {id : Nat} (h : Upgraded R R' id) (n : Nat) (f : Bytes → Bytes) (key : Buf) (pos : Nat) :
    SameUnless NewInStorage (checkHash R n f id key pos) (checkHash R' n f id key pos) := by
  unfold checkHash
  refine SU.bind (SU.refl _) fun s _ => ?_
  split
  · exact SU.refl _
  · exact SU.bind (SU.mapErr (fun _ => trivial) (decode_upgraded h key _ _)) fun _ _ => SU.refl _

theorem processHasher_upgraded {H : HashFns} {id : Nat} (h : Upgraded R R' id) (x : Hasher) (key : Buf) (pos : Nat) :
    SameUnless NewInStorage (processHasher H R x id key pos) (processHasher H R' x id key pos) := by
  unfold processHasher
  cases x with
  | blake2_128Concat => exact checkHash_upgraded h _ _ _ _
  | twox64Concat => exact checkHash_upgraded h _ _ _ _
  | identity => exact SU.bind (SU.mapErr (fun _ => trivial) (decode_upgraded h key _ _)) fun _ _ => SU.refl _
  | blake2_128 => exact SU.refl _
  | blake2_256 => exact SU.refl _
  | twox128 => exact SU.refl _
  | twox256 => exact SU.refl _

theorem hashersLoop_upgraded {H : HashFns} (key : Buf) : ∀ (hs : List Hasher) (tys : List Nat) (pos : Nat),
    (∀ x ∈ tys, Upgraded R R' x) → SameUnless NewInStorage (hashersLoop H R key hs tys pos) (hashersLoop H R' key hs tys pos)
  | [], tys, pos, _ => SU.refl _
  | _ :: _, [], pos, _ => SU.refl _
  | h :: hs, ty :: tys, pos, ht => by
    unfold hashersLoop
    refine SU.bind (processHasher_upgraded (ht ty (by simp)) h key pos) fun x _ => ?_
    exact SU.bind (hashersLoop_upgraded key hs tys _ fun x hx => ht x (by simp [hx])) fun _ _ => SU.refl _

theorem processKeyMapped_upgraded {H : HashFns} {hashers : List Hasher} {k v : Nat} (key : Buf) (pos : Nat)
    (h : ∀ x, Spec.EntryType R (.map hashers k v) x → Upgraded R R' x) :
    SameUnless NewInStorage (processKeyMapped H R hashers k key pos) (processKeyMapped H R' hashers k key pos) := by
  rw [processKeyMapped_keyData, processKeyMapped_keyData]
  refine SU.bind ?_ fun _ _ => SU.refl _
  unfold keyData
  split
  · exact SU.bind (processHasher_upgraded (h k .key) _ key pos) fun _ _ => SU.refl _
  · have hg := h k .key k .self
    unfold Registry.get
    revert hg
    cases h1 : R.resolve k with
    | error e => cases h2 : R'.resolve k with
      | error e' =>
        rintro rfl
        show SameUnless NewInStorage (Except.error (Out.err (StErr.parsingKey (.registry e'))) >>= _)
          (Except.error (Out.err (StErr.parsingKey (.registry e'))) >>= _)
        rw [eerror_bind, eerror_bind]
        exact SU.refl _
      | ok t' => exact False.elim
    | ok t => cases h2 : R'.resolve k with
      | error e' => exact False.elim
      | ok t' =>
        intro hg
        show SameUnless NewInStorage (match t.typeDef with
          | .tuple elems =>
            if elems.length ≠ hashers.length then Except.error (Out.err StErr.multipleHashesNumberMismatch)
            else hashersLoop H R key hashers elems pos >>= fun c => Except.ok (KeyData.tupleHash c.1 (Info.fromTy t), c.2)
          | _ => Except.error (Out.err StErr.multipleHashesNotATuple)) (match t'.typeDef with
          | .tuple elems =>
            if elems.length ≠ hashers.length then Except.error (Out.err StErr.multipleHashesNumberMismatch)
            else hashersLoop H R' key hashers elems pos >>= fun c => Except.ok (KeyData.tupleHash c.1 (Info.fromTy t'), c.2)
          | _ => Except.error (Out.err StErr.multipleHashesNotATuple))
        cases hd : t.typeDef with
        | tuple ids =>
          rw [hg.def (by rw [hd]; intro vs e; cases e), hd, hg.info]
          dsimp only
          split
          · exact SU.refl _
          · exact SU.bind (hashersLoop_upgraded key _ _ _ fun x hx => h x (.part h1 hd hx)) fun _ _ => SU.refl _
        | variant vs => obtain ⟨vs', h3, -⟩ := hg.variants hd; rw [h3]; exact SU.refl _
        | composite fs => rw [hg.def (by rw [hd]; intro vs e; cases e), hd]; exact SU.refl _
        | compact i => rw [hg.def (by rw [hd]; intro vs e; cases e), hd]; exact SU.refl _
        | array n e => rw [hg.def (by rw [hd]; intro vs e; cases e), hd]; exact SU.refl _
        | sequence e => rw [hg.def (by rw [hd]; intro vs e; cases e), hd]; exact SU.refl _
        | primitive pr => rw [hg.def (by rw [hd]; intro vs e; cases e), hd]; exact SU.refl _
        | bitSequence o s => rw [hg.def (by rw [hd]; intro vs e; cases e), hd]; exact SU.refl _

/-- C90. `decode_as_storage_entry`. -/
theorem decodeStorageEntry_upgraded {H : HashFns} {entry : Entry} (h : ∀ x, Spec.EntryType R entry.ty x → Upgraded R R' x)
    (key value : Buf) :
    SameUnless NewInStorage (decodeStorageEntry H R key value entry) (decodeStorageEntry H R' key value entry) := by
  unfold decodeStorageEntry
  dsimp only
  split
  · exact SU.refl _
  · cases he : entry.ty with
    | plain v =>
      rw [he] at h
      dsimp only
      split
      · exact SU.refl _
      · exact SU.bind (SU.mapErr (fun _ => trivial) (decodeAllAsType_upgraded (h v .plain) value)) fun _ _ => SU.refl _
    | map hs k v =>
      rw [he] at h
      refine SU.bind (processKeyMapped_upgraded (v := v) key 32 h) fun _ _ => ?_
      exact SU.bind (SU.mapErr (fun _ => trivial) (decodeAllAsType_upgraded (h v .value) value)) fun _ _ => SU.refl _

/-! ### Which metadata are newer -/

/-- C90. New variants after the old ones, whatever their indices. -/
theorem keepsVariants_append (vs more : List Variant) : KeepsVariants vs (vs ++ more) := by
  rintro i v ⟨before, after, rfl, hi, hb⟩
  exact ⟨before, after ++ more, by simp, hi, hb⟩

/-- C90. New variants anywhere, as long as no index stands for two variants. -/
theorem keepsVariants_of_indices {vs vs' : List Variant} (hs : ∀ v ∈ vs, v ∈ vs') (hn : (vs'.map (·.index)).Nodup) :
    KeepsVariants vs vs' := by
  rintro i v ⟨before, after, rfl, hi, hb⟩
  obtain ⟨l, r, rfl⟩ := List.append_of_mem (hs v (by simp))
  refine ⟨l, r, rfl, hi, fun u hu he => ?_⟩
  rw [List.map_append, List.map_cons, List.nodup_append] at hn
  exact hn.2.2 _ (List.mem_map_of_mem hu) v.index (by simp) (he.trans hi.symm)

theorem Spec.GrownTyp.same (t : Typ) : GrownTyp t t := ⟨rfl, rfl, .inl rfl⟩

/-- C90. Registries as lists: every type of the older list is, in the newer, at the same place the same type
or a grown enum, and the types of the older list refer to types of that list only. The newer may have
more types. -/
theorem upgraded_of_lists {ts ts' : List Typ} {id : Nat}
    (hg : ∀ (x : Nat) (t : Typ), ts[x]? = some t → ∃ t', ts'[x]? = some t' ∧ GrownTyp t t')
    (hc : ∀ t ∈ ts, ∀ x ∈ partIds t, x < ts.length) (hid : id < ts.length) :
    Upgraded (.portable ts) (.portable ts') id := by
  intro x hx
  have hres : ∀ y t, (Registry.portable ts).resolve y = .ok t → ts[y]? = some t := by
    intro y t h
    simp only [Registry.portable] at h
    split at h
    · rename_i h2; cases h; exact h2
    · cases h
  have hl : x < ts.length := by
    induction hx with
    | self => exact hid
    | part _ h _ hp _ => exact hc _ (List.mem_of_getElem? (hres _ _ h)) _ hp
    | elem _ h hd _ => exact hc _ (List.mem_of_getElem? (hres _ _ h)) _ (by simp [partIds, hd])
  obtain ⟨t', h2, h3⟩ := hg x _ (List.getElem?_eq_getElem hl)
  simp only [Registry.portable, List.getElem?_eq_getElem hl, h2]
  exact h3

end Verif
