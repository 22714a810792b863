import Verif.Spec.Hostile
import Verif.Proof.HostileTx
import Verif.Props.FlakyTx
/-! C81: whatever the memory answers, even differently each time. -/
namespace Verif
open Spec

variable {σ ME : Type} {D : Device σ} {R : Registry}

/-- Sizes, and nothing else. -/
def sizeOnly (n : Nat) : Registry := ⟨fun _ => .error (.external), n, fun _ _ => ⟨_, rfl⟩⟩
def lengthOnly (n : Nat) : Buf := Buf.ofBytes (List.replicate n 0)

theorem Spec.Untrusted.sizes (h : Untrusted D) : HostileD D (sizeOnly D.size) (lengthOnly D.len) :=
  h.hostile rfl (by simp [lengthOnly, Buf.len, Buf.ofBytes])

theorem Spec.Untrusted.typed (h : Untrusted D) (t : TellsTypes D R) : HostileD D R (lengthOnly D.len) :=
  h.hostile t.size (by simp [lengthOnly, Buf.len, Buf.ofBytes])

/-! ### Single values -/

/-- Decoding ends with a result or an error; there is no panic, and the position never moves backwards
or past the end of the data. -/
theorem decodeAsTypeAtPositionD_untrusted (h : Untrusted D) (id pos : Nat) (s : σ) :
    (∃ d q, (decodeAsTypeAtPositionD D id pos s).1 = .ok (d, q) ∧ (q = pos ∨ (pos < q ∧ q ≤ D.len))) ∨
      ∃ e, (decodeAsTypeAtPositionD D id pos s).1 = .error (.err e) := by
  rcases decodeD_safe h.sizes id pos Propagated.new s with ⟨⟨d, q⟩, h1, h2⟩ | h1
  · refine .inl ⟨d, q, h1, ?_⟩
    simpa [Fwd, lengthOnly, Buf.len, Buf.ofBytes] using h2
  · exact .inr h1

theorem decodeAllAsTypeD_untrusted (h : Untrusted D) (id : Nat) (s : σ) :
    (∃ d, (decodeAllAsTypeD D id s).1 = .ok d) ∨ ∃ e, (decodeAllAsTypeD D id s).1 = .error (.err e) := by
  rcases decodeAll_any h.sizes id s with ⟨d, h1, _⟩ | h1
  · exact .inl ⟨d, h1⟩
  · exact .inr h1

/-- If the types are told truly, what is shown is a value of the type, whatever bytes were read. -/
theorem decodeAsTypeAtPositionD_valueOf (h : Untrusted D) (t : TellsTypes D R) {id pos q : Nat} {s : σ} {d : ED}
    (ho : (decodeAsTypeAtPositionD D id pos s).1 = .ok (d, q)) : ValueAs R id (edValue d) :=
  decodeD_post (h.typed t) t.true id pos Propagated.new s (d, q) ho

theorem decodeAllAsTypeD_valueOf (h : Untrusted D) (t : TellsTypes D R) {id : Nat} {s : σ} {d : ED}
    (ho : (decodeAllAsTypeD D id s).1 = .ok d) : ValueAs R id (edValue d) :=
  (decodeAll_any (h.typed t) id).post s d ho t.true

/-! ### Transactions -/

variable {M : Metadata ME} {MC : CompleteMetadata ME}

theorem satO_calm {α ε : Type} {x : DevO σ ε α} {P : α → Prop} (h : SatO False x P) (s : σ) :
    (∃ a, (x s).1 = .ok a) ∨ ∃ e, (x s).1 = .error (.err e) := by
  rcases h s with ⟨a, h1, _⟩ | h1 | ⟨h1, _⟩
  · exact .inl ⟨a, h1⟩
  · exact .inr h1
  · exact h1.elim

theorem parseTransactionD_untrusted (h : Untrusted D) (hM : CalmMetadata M) (hp : PrefixFits D) (expected : Option Bytes) (s : σ) :
    (∃ r, (parseTransactionD D M expected s).1 = .ok r) ∨ ∃ e, (parseTransactionD D M expected s).1 = .error (.err e) :=
  satO_calm (parseTransactionD_any h.sizes hM hp expected) s

/-- A transaction that is shown has passed the checks of the spec version, of the genesis hash and of
the era, as shown: it is of the chain and version of the metadata, whatever the memory answers. -/
theorem parseTransactionD_accepted (h : Untrusted D) (hM : CalmMetadata M) (hp : PrefixFits D) {expected : Option Bytes} {s : σ}
    {r : TransactionParsed ME} (ho : (parseTransactionD D M expected s).1 = .ok r) :
    ∃ spec, M.specNameVersion = .ok spec ∧ Accepted r.extensions spec.printedSpecVersion expected := by
  obtain ⟨signed, spec, _, h2, h3, _⟩ := satO_ok (parseTransactionD_any (pan := False) h.sizes hM hp expected) ho
  exact ⟨spec, h2, h3⟩

/-- The call shown is a call of the chain, and the extensions are those of the chain, in order. -/
theorem parseTransactionD_valuesOf (h : Untrusted D) (t : TellsTypes D M.types) (hM : CalmMetadata M) (hp : PrefixFits D)
    {expected : Option Bytes} {s : σ} {r : TransactionParsed ME} (ho : (parseTransactionD D M expected s).1 = .ok r) :
    ∃ signed, M.signedExtensions = .ok signed ∧ ItemsAs M.types (extItems signed) r.extensions ∧
      ∀ c, r.callResult = .ok c → ∃ id, M.callTy = .ok id ∧ CallAs M.types id c := by
  obtain ⟨signed, spec, h1, _, _, h4⟩ := satO_ok (parseTransactionD_any (pan := False) (h.typed t) hM hp expected) ho
  exact ⟨signed, h1, (h4 t.true).1, (h4 t.true).2⟩

theorem parseTransactionUnmarkedD_untrusted (h : Untrusted D) (hM : CalmMetadata M) (expected : Option Bytes) (s : σ) :
    (∃ r, (parseTransactionUnmarkedD D M expected s).1 = .ok r) ∨
      ∃ e, (parseTransactionUnmarkedD D M expected s).1 = .error (.err e) :=
  satO_calm (parseTransactionUnmarkedD_any h.sizes hM expected) s

theorem parseTransactionUnmarkedD_accepted (h : Untrusted D) (hM : CalmMetadata M) {expected : Option Bytes} {s : σ}
    {r : TransactionUnmarkedParsed} (ho : (parseTransactionUnmarkedD D M expected s).1 = .ok r) :
    ∃ spec, M.specNameVersion = .ok spec ∧ Accepted r.extensions spec.printedSpecVersion expected := by
  obtain ⟨signed, spec, _, h2, h3, _⟩ := satO_ok (parseTransactionUnmarkedD_any (pan := False) h.sizes hM expected) ho
  exact ⟨spec, h2, h3⟩

theorem parseTransactionUnmarkedD_valuesOf (h : Untrusted D) (t : TellsTypes D M.types) (hM : CalmMetadata M)
    {expected : Option Bytes} {s : σ} {r : TransactionUnmarkedParsed}
    (ho : (parseTransactionUnmarkedD D M expected s).1 = .ok r) :
    ∃ id signed, M.callTy = .ok id ∧ CallAs M.types id r.call ∧ M.signedExtensions = .ok signed ∧
      ItemsAs M.types (extItems signed) r.extensions := by
  obtain ⟨signed, spec, h1, _, _, h4⟩ := satO_ok (parseTransactionUnmarkedD_any (pan := False) (h.typed t) hM expected) ho
  obtain ⟨h5, id, h6, h7⟩ := h4 t.true
  exact ⟨id, signed, h6, h7, h1, h5⟩

/-! ### Extrinsics -/

theorem decodeUncheckedExtrinsicD_untrusted (h : Untrusted D) (h1 : Calm MC.extrinsicTypeParams) (h2 : Calm MC.extrinsicVersion)
    (hp : PrefixFits D) (s : σ) :
    (∃ u, (decodeUncheckedExtrinsicD D MC s).1 = .ok u) ∨ ∃ e, (decodeUncheckedExtrinsicD D MC s).1 = .error (.err e) :=
  satO_calm (decodeUncheckedExtrinsicD_any h.sizes h1 h2 hp) s

theorem decodeUncheckedExtrinsicD_valuesOf (h : Untrusted D) (t : TellsTypes D MC.types) (h1 : Calm MC.extrinsicTypeParams)
    (h2 : Calm MC.extrinsicVersion) (hp : PrefixFits D) {s : σ} {u : UncheckedExtrinsic}
    (ho : (decodeUncheckedExtrinsicD D MC s).1 = .ok u) :
    ∃ params, MC.extrinsicTypeParams = .ok params ∧ ExtrinsicAs MC.types params u := by
  obtain ⟨params, h3, h4⟩ := satO_ok (decodeUncheckedExtrinsicD_any (pan := False) (h.typed t) h1 h2 hp) ho
  exact ⟨params, h3, h4 t.true⟩

/-! ### Storage -/

/-- No panic, unless a hasher keeps the key beside the hash: that key part is read twice. -/
theorem decodeStorageEntryD_untrusted {H : HashFns} {DK DV : Device σ} (hk : Untrusted DK) (hv : Untrusted DV)
    {entry : Entry} (hc : ¬ UsesConcat entry) (s : σ) :
    (∃ r, (decodeStorageEntryD H DK DV entry s).1 = .ok r) ∨ ∃ e, (decodeStorageEntryD H DK DV entry s).1 = .error (.err e) := by
  rcases decodeStorageEntryD_any (HF := H) hk.sizes hv.sizes entry s with ⟨a, h1, _⟩ | h1 | ⟨h1, _⟩
  · exact .inl ⟨a, h1⟩
  · exact .inr h1
  · exact absurd h1 hc

theorem decodeStorageEntryD_valuesOf {H : HashFns} {DK DV : Device σ} (hk : Untrusted DK) (hv : Untrusted DV)
    (tk : TellsTypes DK R) (tv : TellsTypes DV R) {entry : Entry} {s : σ} {r : Storage}
    (ho : (decodeStorageEntryD H DK DV entry s).1 = .ok r) : StorageAs R entry r :=
  satO_ok (decodeStorageEntryD_any (HF := H) (hk.typed tk) (hv.typed tv) entry) ho rfl tk.true tv.true

/-! ### Examples: data that changes -/

namespace HostileExample

/-- Memory whose content at the `k`-th access is `content k`. -/
def changing (R : Registry) (len : Nat) (content : Nat → Bytes) : Device Nat where
  word := usize64 false
  len := len
  size := R.size
  read pos n k := ((Buf.ofBytes (content k)).readSlice pos n, k + 1)
  resolve id k := (R.resolve id, k + 1)

theorem changing_untrusted (R : Registry) {len : Nat} {content : Nat → Bytes} (hl : ∀ k, (content k).length = len)
    (hs : len < 2 ^ 60) : Untrusted (changing R len content) where
  word := ⟨by show 2 ^ 32 ≤ 2 ^ 64; decide, by show len + 2 ^ 30 ≤ 2 ^ 64; omega⟩
  read := fun pos n k => by
    show (∃ bs, (Buf.ofBytes (content k)).readSlice pos n = .ok bs ∧ bs.length = n ∧ pos + n ≤ len) ∨
      ∃ e, (Buf.ofBytes (content k)).readSlice pos n = .error (.err e)
    cases hx : (Buf.ofBytes (content k)).readSlice pos n with
    | ok x =>
      refine .inl ⟨x, rfl, (readSlice_ok hx).2, ?_⟩
      have := readSlice_le hx
      rw [← hl k]
      exact this
    | error e =>
      obtain ⟨e', rfl⟩ := readSlice_fine _ _ _ e hx
      exact .inr ⟨e', rfl⟩
  resolve := fun id k t h => by
    have h : R.resolve id = .ok t := h
    show id < R.size
    refine Nat.lt_of_not_le (fun hge => ?_)
    obtain ⟨e, he⟩ := R.bounded id hge
    rw [h] at he; cases he

theorem changing_types (R : Registry) (len : Nat) (content : Nat → Bytes) : TellsTypes (changing R len content) R :=
  ⟨rfl, fun _ _ _ h => h⟩

/-- A compact `u32`, and a list of bytes. -/
def compacts : Registry := Registry.portable [{ typeDef := .primitive .u32 }, { typeDef := .compact 0 }]

/-- The first byte of a compact says how long it is. It is read first alone and then with what follows; here
it changes in between. -/
def flips (k : Nat) : Bytes := if k ≤ 2 then [1, 5] else [0, 5]

/-- What is shown is the number 0, and two bytes are consumed; none of the contents, nor any other data, is
two bytes that encode 0. (Steady memory: an error in both cases, C12.) -/
example : (decodeAllAsTypeD (changing compacts 2 flips) 1 0).1.map edValue = .ok (.uint .u32 0) := rfl
example : (decodeAllAsType compacts (Buf.ofBytes [1, 5]) 1).map edValue = .ok (.uint .u32 320) := rfl
example : (decodeAllAsType compacts (Buf.ofBytes [0, 5]) 1).map edValue = .error (.err (.someDataNotUsedBlob 1)) := rfl

end HostileExample
end Verif
