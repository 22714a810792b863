import Verif.Proof.FlakyTxAgree
import Verif.Props.Words
import Verif.Props.Storage
/-!
# C60, C61: transactions, extrinsics and storage entries in memory that fails now and then
-/
namespace Verif
open Spec

variable {σ ME : Type} {D : Device σ} {R : Registry} {data : Bytes} {M : Metadata ME} {MC : CompleteMetadata ME}

theorem satO_ends {α ε : Type} {pan : Prop} {x : DevO σ ε α} {P : α → Prop} (h : SatO pan x P) (s : σ) :
    (∃ a, (x s).1 = .ok a) ∨ (∃ e, (x s).1 = .error (.err e)) ∨ (pan ∧ (x s).1 = .error .panic) := by
  rcases h s with ⟨a, h, _⟩ | h | h
  · exact .inl ⟨a, h⟩
  · exact .inr (.inl h)
  · exact .inr (.inr h)

theorem satO_ok {α ε : Type} {pan : Prop} {x : DevO σ ε α} {P : α → Prop} (h : SatO pan x P) {s : σ} {a : α}
    (ho : (x s).1 = .ok a) : P a := by
  rcases h s with ⟨a', h, hp⟩ | ⟨e, h⟩ | ⟨_, h⟩
  · rw [ho] at h; cases h; exact hp
  · rw [ho] at h; cases h
  · rw [ho] at h; cases h

/-! ### C60: an outcome, and no wrong one -/

/-- C60. Whatever the memory does, parsing a transaction ends with a result or with an error of the crate;
a panic is possible only if the length prefix overflows a machine word and overflow is checked. -/
theorem parseTransactionD_ends (h : Flaky D M.types data) (hM : CalmMetadata M) (expected : Option Bytes) (s : σ) :
    (∃ r, (parseTransactionD D M expected s).1 = .ok r) ∨ (∃ e, (parseTransactionD D M expected s).1 = .error (.err e)) ∨
      ((D.word.wraps = false ∧ PrefixOverflows D.word data) ∧ (parseTransactionD D M expected s).1 = .error .panic) := by
  refine satO_ends (parseTransactionD_satO h.honest hM (fun hn => ?_) expected) s
  by_cases hw : D.word.wraps = true
  · exact .inl hw
  · exact .inr (fun ho => hn ⟨by simpa using hw, ho⟩)

/-- C60. What is shown is there: the data is a length prefix, call bytes and extension bytes; the call, if
there is one, is the call of the call bytes; the extensions are those of the extension bytes, and they
passed the checks. -/
theorem parseTransactionD_sound (h : Flaky D M.types data) (hM : CalmMetadata M) {expected : Option Bytes} {s : σ}
    {r : TransactionParsed ME} (ho : (parseTransactionD D M expected s).1 = .ok r) :
    ∃ signed spec, ∃ callBytes extBytes : Bytes, M.signedExtensions = .ok signed ∧ M.specNameVersion = .ok spec ∧
      data = compactEncode callBytes.length ++ callBytes ++ extBytes ∧
      ItemsLoose M.types (extItems signed) r.extensions extBytes ∧
      Accepted r.extensions spec.printedSpecVersion expected ∧
      ∀ c, r.callResult = .ok c → ∃ id, M.callTy = .ok id ∧ IsCallLoose M.types id c callBytes :=
  satO_ok (parseTransactionD_satO (pan := True) h.honest hM (fun hn => absurd trivial hn) expected) ho

/-- C60. Unmarked transaction: no panic at all. -/
theorem parseTransactionUnmarkedD_ends (h : Flaky D M.types data) (hM : CalmMetadata M) (expected : Option Bytes) (s : σ) :
    (∃ r, (parseTransactionUnmarkedD D M expected s).1 = .ok r) ∨
      ∃ e, (parseTransactionUnmarkedD D M expected s).1 = .error (.err e) := by
  rcases satO_ends (parseTransactionUnmarkedD_satO (pan := False) h.honest hM expected) s with h | h | h
  · exact .inl h
  · exact .inr h
  · exact h.1.elim

theorem parseTransactionUnmarkedD_sound (h : Flaky D M.types data) (hM : CalmMetadata M) {expected : Option Bytes} {s : σ}
    {r : TransactionUnmarkedParsed} (ho : (parseTransactionUnmarkedD D M expected s).1 = .ok r) :
    ∃ id signed spec, ∃ callBytes extBytes : Bytes, M.callTy = .ok id ∧ M.signedExtensions = .ok signed ∧
      M.specNameVersion = .ok spec ∧ data = callBytes ++ extBytes ∧ IsCallLoose M.types id r.call callBytes ∧
      ItemsLoose M.types (extItems signed) r.extensions extBytes ∧
      Accepted r.extensions spec.printedSpecVersion expected :=
  satO_ok (parseTransactionUnmarkedD_satO (pan := True) h.honest hM expected) ho

/-- C60. Extrinsics. -/
theorem decodeUncheckedExtrinsicD_ends (h : Flaky D MC.types data) (h1 : Calm MC.extrinsicTypeParams)
    (h2 : Calm MC.extrinsicVersion) (s : σ) :
    (∃ u, (decodeUncheckedExtrinsicD D MC s).1 = .ok u) ∨ (∃ e, (decodeUncheckedExtrinsicD D MC s).1 = .error (.err e)) ∨
      ((D.word.wraps = false ∧ PrefixOverflows D.word data) ∧ (decodeUncheckedExtrinsicD D MC s).1 = .error .panic) := by
  refine satO_ends (decodeUncheckedExtrinsicD_satO h.honest h1 h2 (fun hn => ?_)) s
  by_cases hw : D.word.wraps = true
  · exact .inl hw
  · exact .inr (fun ho => hn ⟨by simpa using hw, ho⟩)

theorem decodeUncheckedExtrinsicD_sound (h : Flaky D MC.types data) (h1 : Calm MC.extrinsicTypeParams)
    (h2 : Calm MC.extrinsicVersion) {s : σ} {u : UncheckedExtrinsic} (ho : (decodeUncheckedExtrinsicD D MC s).1 = .ok u) :
    ∃ params version, ∃ (vb : UInt8) (body tail : Bytes), MC.extrinsicTypeParams = .ok params ∧
      MC.extrinsicVersion = .ok version ∧ body.length + 1 < 2 ^ 32 ∧
      data = compactEncode (body.length + 1) ++ vb :: body ∧ vb.toNat % 128 = version.toNat ∧
      ExtrinsicPartsLoose MC.types params (decide (128 ≤ vb.toNat)) u body tail :=
  satO_ok (decodeUncheckedExtrinsicD_satO (pan := True) h.honest h1 h2 (fun hn => absurd trivial hn)) ho

/-- C60. Storage entries: a panic is possible only for hashers that keep the key beside the hash. -/
theorem decodeStorageEntryD_ends {H : HashFns} {DK DV : Device σ} {k v : Bytes} (hk : Flaky DK R k) (hv : Flaky DV R v)
    (entry : Entry) (s : σ) : (∃ r, (decodeStorageEntryD H DK DV entry s).1 = .ok r) ∨
      (∃ e, (decodeStorageEntryD H DK DV entry s).1 = .error (.err e)) ∨
      (UsesConcat entry ∧ (decodeStorageEntryD H DK DV entry s).1 = .error .panic) :=
  satO_ends (decodeStorageEntryD_satO hk.honest hv.honest entry) s

theorem decodeStorageEntryD_sound {H : HashFns} {DK DV : Device σ} {k v : Bytes} (hk : Flaky DK R k) (hv : Flaky DV R v)
    {entry : Entry} {s : σ} {r : Storage} (ho : (decodeStorageEntryD H DK DV entry s).1 = .ok r) :
    StorageLoose H R entry k v r :=
  satO_ok (decodeStorageEntryD_satO hk.honest hv.honest entry) ho

/-! ### C60: the checks hold for the bytes -/

theorem labelFree_leaf {id : Nat} {t : Typ} (hr : R.resolve id = .ok t)
    (hp : Structural t.path → partIds t = []) (hn : ∀ vs, t.typeDef = .variant vs → special t.path ≠ some .multiSignature ∧
      ∀ item, special t.path ≠ some (.pallet item)) : LabelFree R id := by
  have key : ∀ id', Reaches R id id' → id' = id := by
    intro id' h
    induction h with
    | self => rfl
    | part _ hr' hs hx ih =>
      subst ih
      rw [hr] at hr'; cases hr'
      rw [hp hs] at hx; cases hx
  intro id' t' vs h hr' hd
  rw [key id' h, hr] at hr'
  cases hr'
  exact hn vs hd

theorem labelFree_struct {id : Nat} {t : Typ} {f : Field} (hr : R.resolve id = .ok t) (hd : t.typeDef = .composite [f])
    (h : LabelFree R f.ty) : LabelFree R id := by
  have key : ∀ id', Reaches R id id' → id' = id ∨ Reaches R f.ty id' := by
    intro id' h
    induction h with
    | self => exact .inl rfl
    | part _ hr' hs hx ih =>
      rcases ih with rfl | ih
      · rw [hr] at hr'; cases hr'
        unfold partIds at hx
        rw [hd] at hx
        simp only [List.map_cons, List.map_nil, List.mem_singleton] at hx
        subst hx; exact .inr .self
      · exact .inr (.part ih hr' hs hx)
  intro id' t' vs hre hr' hd'
  rcases key id' hre with rfl | hre
  · rw [hr] at hr'; cases hr'; rw [hd] at hd'; cases hd'
  · exact h id' t' vs hre hr' hd'

/-- What the checks look at has no label in it. -/
theorem watched_labelFree {id : Nat} (h : Watched R id) : LabelFree R id := by
  have leaf : ∀ {P : Typ → Prop}, (∀ t, P t → (Structural t.path → partIds t = []) ∧ ∀ vs, t.typeDef = .variant vs →
      special t.path ≠ some .multiSignature ∧ ∀ item, special t.path ≠ some (.pallet item)) → Holds R id P → LabelFree R id := by
    rintro P hP ⟨t, hr, h | ⟨_, f, t', hd, hr', h⟩⟩
    · exact labelFree_leaf hr (hP t h).1 (hP t h).2
    · exact labelFree_struct hr hd (labelFree_leaf hr' (hP t' h).1 (hP t' h).2)
  rcases h with ⟨w, h⟩ | h | h
  · refine leaf (fun t ht => ?_) h
    obtain ⟨_, p, hd, _⟩ := ht
    exact ⟨fun _ => by unfold partIds; rw [hd], fun vs hv => by rw [hd] at hv; cases hv⟩
  · refine leaf (fun t ht => ?_) h
    unfold IsHashTy at ht
    exact ⟨fun hs => by unfold Structural at hs; rw [ht] at hs; exact hs.elim, fun vs _ => by rw [ht]; simp⟩
  · refine leaf (fun t ht => ?_) h
    unfold IsEraTy at ht
    exact ⟨fun hs => by unfold Structural at hs; rw [ht] at hs; exact hs.elim, fun vs _ => by rw [ht]; simp⟩

/-- C60. An accepted transaction, in memory that fails now and then: the bytes of `CheckSpecVersion` are the
metadata's spec version, those of `CheckGenesis` the expected genesis hash, and with an immortal era those
of `CheckMortality` are the genesis hash as well. -/
theorem parseTransactionD_checks (h : Flaky D M.types data) (hM : CalmMetadata M) {expected : Option Bytes} {s : σ}
    {r : TransactionParsed ME} (ho : (parseTransactionD D M expected s).1 = .ok r) :
    ∃ signed spec, ∃ callBytes : Bytes, ∃ chunks : List Bytes, M.signedExtensions = .ok signed ∧ M.specNameVersion = .ok spec ∧
      data = compactEncode callBytes.length ++ callBytes ++ chunks.flatten ∧ chunks.length = 2 * signed.length ∧
      (∀ (k : Nat) (e : SignedExt) w, signed[k]? = some e → e.identifier = "CheckSpecVersion" →
        Holds M.types e.additionalSigned (IsUIntTy w) →
        ∃ v, chunks[signed.length + k]? = some (leBytes w.bytes v) ∧ v < 2 ^ (8 * w.bytes) ∧
          toString v = spec.printedSpecVersion) ∧
      (∀ (k : Nat) (e : SignedExt) g, signed[k]? = some e → e.identifier = "CheckGenesis" →
        Holds M.types e.additionalSigned IsHashTy → expected = some g →
        chunks[signed.length + k]? = some g) ∧
      (∀ (i j k : Nat) (e₁ e₂ e₃ : SignedExt), signed[i]? = some e₁ → Holds M.types e₁.ty IsEraTy →
        chunks[i]? = some [0] →
        signed[j]? = some e₂ → e₂.identifier = "CheckMortality" → Holds M.types e₂.additionalSigned IsHashTy →
        signed[k]? = some e₃ → e₃.identifier = "CheckGenesis" → Holds M.types e₃.additionalSigned IsHashTy →
        chunks[signed.length + j]? = chunks[signed.length + k]?) := by
  obtain ⟨signed, spec, cb, eb, h1, h2, h3, ⟨chunks, rfl, k2, k3, k4⟩, h5, _⟩ := parseTransactionD_sound h hM ho
  refine ⟨signed, spec, cb, chunks, h1, h2, h3, ?_, accepted_bytes h5 ?_⟩
  · rw [k2]; unfold extItems; simp; omega
  · intro i name id hi hw
    obtain ⟨d, c, g1, g2, g3⟩ := mem_zip3 hi k3 k2
    obtain ⟨g4, g5⟩ := (k4 _ g3).2 (watched_labelFree hw)
    exact ⟨d, c, g1, g2, g4, g5⟩

/-! ### C61: as in reliable memory -/

/-- C61. Extensions in which no call, event or signature takes part: exactly the outcome in reliable memory,
be it the extensions or an error, or else the memory's own error. -/
theorem decodeExtensionsUnmarkedD_exact (h : Flaky D M.types data) (hl : ExtensionsLabelFree M) (pos : Nat)
    (expected : Option Bytes) (s : σ) :
    (∃ e, MemoryErrorS e ∧ (decodeExtensionsUnmarkedD D M pos expected s).1 = .error (.err e)) ∨
      (decodeExtensionsUnmarkedD D M pos expected s).1 = decodeExtensionsUnmarked M (Buf.ofBytes data) pos expected := by
  rcases decodeExtensionsUnmarkedD_follows h.honest hl pos expected s with ⟨e, h1, se, h2, rfl⟩ | h
  · exact .inl ⟨se, h2, h1⟩
  · exact .inr h

/-- C61. A transaction: as in reliable memory, but for labels and for errors that the failures cause. -/
theorem parseTransactionD_agrees (h : Flaky D M.types data) (hM : CalmMetadata M)
    (hR : Regular M.types) (hl : ExtensionsLabelFree M) (expected : Option Bytes) (s : σ) :
    AgreesBut (fun e => e = .err .cutSignable ∨ ∃ se, MemoryErrorS se ∧ e = .err se) (SameTransaction M) (fun _ => False)
      (parseTransaction M (Buf.ofBytes data) expected) (parseTransactionD D M expected s).1 :=
  parseTransactionD_agree h.honest hM hR hl expected s

/-- C61. In particular a call shown from failing memory is the call shown from reliable memory, together
with the same extensions: failures never make a bad transaction look good. (Except for arguments with the
value of an enum without variants in it, which no valid data has.) -/
theorem parseTransactionD_converse (h : Flaky D M.types data) (hM : CalmMetadata M)
    (hR : Regular M.types) (hl : ExtensionsLabelFree M) {expected : Option Bytes} {s : σ} {r' : TransactionParsed ME}
    (ho : (parseTransactionD D M expected s).1 = .ok r') :
    ∃ r, parseTransaction M (Buf.ofBytes data) expected = .ok r ∧ r.extensions = r'.extensions ∧
      ∀ c', r'.callResult = .ok c' → ¬ EmptyCall M.types c' → ∃ c, r.callResult = .ok c ∧ SameCall c c' := by
  rcases parseTransactionD_agrees h hM hR hl expected s with ⟨e, h1, _⟩ | ⟨r, r'', h1, h2, h3⟩ | ⟨_, ⟨_, h1⟩ | ⟨_, _, h1⟩⟩
  · rw [ho] at h1; cases h1
  · rw [ho] at h2
    cases h2
    refine ⟨r, h1, h3.1, fun c' hc hne => ?_⟩
    rcases h3.2 with ⟨e, h4, _⟩ | ⟨c, c'', h4, h5, h6⟩ | ⟨_, ⟨_, h4⟩ | ⟨_, h4, h5⟩⟩
    · rw [hc] at h4; cases h4
    · rw [hc] at h5; cases h5; exact ⟨c, h4, h6⟩
    · rw [hc] at h4; cases h4
    · rw [hc] at h4; cases h4; exact absurd h5 hne
  · rw [ho] at h1; cases h1
  · exact h1.elim

/-- An accepted result from failing memory is accepted from reliable memory, and is the same. -/
theorem agreesBut_converse {ε α : Type} {caused : Out ε → Prop} {same : α → α → Prop} {empty : α → Prop}
    {reliable flaky : Except (Out ε) α} (h : AgreesBut caused same empty reliable flaky) {a' : α} (ho : flaky = .ok a')
    (hne : ¬ empty a') : ∃ a, reliable = .ok a ∧ same a a' := by
  rcases h with ⟨e, h1, _⟩ | ⟨a, a'', h1, h2, h3⟩ | ⟨_, ⟨_, h1⟩ | ⟨_, h1, h2⟩⟩
  · rw [ho] at h1; cases h1
  · rw [ho] at h2; cases h2; exact ⟨a, h1, h3⟩
  · rw [ho] at h1; cases h1
  · rw [ho] at h1; cases h1; exact absurd h2 hne

/-- C61. Unmarked transactions. -/
theorem parseTransactionUnmarkedD_agrees (h : Flaky D M.types data)
    (hR : Regular M.types) (hl : ExtensionsLabelFree M) (expected : Option Bytes) (s : σ) :
    AgreesBut (fun e => ∃ se, CallCaused M se ∧ e = .err se) SameUnmarked (fun r => EmptyCall M.types r.call)
      (parseTransactionUnmarked M (Buf.ofBytes data) expected) (parseTransactionUnmarkedD D M expected s).1 :=
  parseTransactionUnmarkedD_agree h.honest hR hl expected s

/-- C61. Extrinsics. -/
theorem decodeUncheckedExtrinsicD_agrees (h : Flaky D MC.types data) (hR : Regular MC.types) (s : σ) :
    AgreesBut (fun e => ∃ ue, ExtrinsicCaused ue ∧ e = .err ue) SameExtrinsic (EmptyExtrinsic MC.types)
      (decodeUncheckedExtrinsic MC (Buf.ofBytes data)) (decodeUncheckedExtrinsicD D MC s).1 :=
  decodeUncheckedExtrinsicD_agree h.honest hR s

/-- C61. Storage entries. -/
theorem decodeStorageEntryD_agrees {H : HashFns} {DK DV : Device σ} {k v : Bytes} (hk : Flaky DK R k)
    (hv : Flaky DV R v) (hR : Regular R) (entry : Entry) (s : σ) :
    AgreesBut (StorageCaused entry) StorageButLabels (EmptyStorage R)
      (decodeStorageEntry H R (Buf.ofBytes k) (Buf.ofBytes v) entry) (decodeStorageEntryD H DK DV entry s).1 :=
  decodeStorageEntryD_agree hk.honest hv.honest hR entry s

/-- C61. What is accepted from failing memory is accepted from reliable memory. -/
theorem parseTransactionUnmarkedD_converse (h : Flaky D M.types data)
    (hR : Regular M.types) (hl : ExtensionsLabelFree M) {expected : Option Bytes} {s : σ} {r' : TransactionUnmarkedParsed}
    (ho : (parseTransactionUnmarkedD D M expected s).1 = .ok r') (hne : ¬ EmptyCall M.types r'.call) :
    ∃ r, parseTransactionUnmarked M (Buf.ofBytes data) expected = .ok r ∧ SameUnmarked r r' :=
  agreesBut_converse (parseTransactionUnmarkedD_agrees h hR hl expected s) ho hne

theorem decodeUncheckedExtrinsicD_converse (h : Flaky D MC.types data) (hR : Regular MC.types)
    {s : σ} {u' : UncheckedExtrinsic} (ho : (decodeUncheckedExtrinsicD D MC s).1 = .ok u') (hne : ¬ EmptyExtrinsic MC.types u') :
    ∃ u, decodeUncheckedExtrinsic MC (Buf.ofBytes data) = .ok u ∧ SameExtrinsic u u' :=
  agreesBut_converse (decodeUncheckedExtrinsicD_agrees h hR s) ho hne

theorem decodeStorageEntryD_converse {H : HashFns} {DK DV : Device σ} {k v : Bytes} (hk : Flaky DK R k)
    (hv : Flaky DV R v) (hR : Regular R) {entry : Entry} {s : σ} {r' : Storage}
    (ho : (decodeStorageEntryD H DK DV entry s).1 = .ok r') (hne : ¬ EmptyStorage R r') :
    ∃ r, decodeStorageEntry H R (Buf.ofBytes k) (Buf.ofBytes v) entry = .ok r ∧ StorageButLabels r r' :=
  agreesBut_converse (decodeStorageEntryD_agrees hk hv hR entry s) ho hne

/-- If every pallet that is listed has calls and events, then nothing is empty: the exceptions above do not
exist. -/
theorem not_tellsEmpty_of_nonempty (h : PalletsNonempty R) (v : Value) : ¬ TellsEmpty R v := fun hv => hv.1 h

/-! ### Examples -/

namespace FlakyExample

/-- A check of one type of a portable registry: enough for it to be regular. -/
def plainTyp (ts : List Typ) (t : Typ) : Bool :=
  match t.typeDef with
  | .array _ _ => t.path.isEmpty
  | .primitive _ => t.path.isEmpty
  | .compact _ => false
  | _ => true

theorem regular_of_check {ts : List Typ} {rk : Nat → Nat} (hk : Ranked (Registry.portable ts) rk)
    (h : ts.all (plainTyp ts) = true) : Regular (Registry.portable ts) := by
  have res : ∀ {id t}, (Registry.portable ts).resolve id = .ok t → ts[id]? = some t := by
    intro id t ht
    simp only [Registry.portable] at ht
    cases hx : ts[id]? with
    | none => rw [hx] at ht; cases ht
    | some t' => rw [hx] at ht; cases ht; rfl
  have hall : ∀ {id t}, (Registry.portable ts).resolve id = .ok t → plainTyp ts t = true :=
    fun ht => List.all_eq_true.1 h _ (List.mem_of_getElem? (res ht))
  refine ⟨hk.emptyArrays, ⟨?_, ?_⟩, ?_, ?_⟩
  · intro id t len elem ht hd
    have := hall ht
    unfold plainTyp at this
    rw [hd] at this
    simpa using this
  · intro id t p ht hd
    have := hall ht
    unfold plainTyp at this
    rw [hd] at this
    simpa using this
  · intro id core coreId k len elem hc hd
    have : ∀ {c c' id core coreId k}, Core (Registry.portable ts) c id c' core coreId k → c' = c := by
      intro c c' id core coreId k hc
      induction hc with
      | stop _ _ => rfl
      | struct _ _ _ _ ih => exact ih
      | compact h1 _ h3 _ =>
        have := hall h1
        unfold plainTyp at this
        rw [h3] at this
        cases this
    exact absurd (this hc) (by simp)
  · intro id hr
    simp only [Registry.portable] at hr
    cases hx : ts[id]? with
    | none => rw [hx] at hr; cases hr
    | some t' => rw [hx] at hr; cases hr

theorem chain_regular : Regular Example.chain.types :=
  regular_of_check (ts := Example.chainTypes) Example.chain_ranked (by decide)

theorem storage_regular : Regular Example.storageReg :=
  regular_of_check Example.storageReg_ranked (by decide)

theorem chain_calm : CalmMetadata Example.chain := ⟨.ok _, .ok _, .ok _⟩

theorem chain_labelFree : ExtensionsLabelFree Example.chain := by
  intro signed h x hx
  cases h
  have hx : x.2 = 6 ∨ x.2 = 7 ∨ x.2 = 1 ∨ x.2 = 5 := by
    have : ∀ y ∈ extItems Example.chainExtensions, y.2 = 6 ∨ y.2 = 7 ∨ y.2 = 1 ∨ y.2 = 5 := by decide
    exact this x hx
  rcases hx with h | h | h | h <;> rw [h]
  · exact labelFree_leaf (t := { typeDef := .tuple [] }) rfl (fun _ => rfl) (fun vs h => by cases h)
  · refine labelFree_struct (f := { ty := 4 }) rfl rfl ?_
    exact labelFree_leaf (t := { path := ["sp_runtime", "generic", "era", "Era"], typeDef := .variant [] }) rfl (fun _ => rfl)
      (fun vs h => ⟨by decide, fun item => by cases item <;> decide⟩)
  · exact labelFree_leaf (t := { typeDef := .primitive .u32 }) rfl (fun _ => rfl) (fun vs h => by cases h)
  · exact labelFree_leaf (t := { path := ["primitive_types", "H256"], typeDef := .composite [] }) rfl (fun _ => rfl)
      (fun vs h => by cases h)

/-- The example chain's memory, which fails at the given accesses. -/
def memory (data : Bytes) (fails : Nat → Bool) : Device Nat := scripted (usize64 false) Example.chain.types data fails

theorem memory_flaky {data : Bytes} (hd : data.length < 2 ^ 60) (fails : Nat → Bool) :
    Flaky (memory data fails) Example.chain.types data :=
  scripted_flaky _ ⟨by decide, by have : (usize64 false).cap = 2 ^ 64 := rfl; omega⟩ fails

end FlakyExample

open FlakyExample

/-- All hypotheses hold for the example chain, whichever accesses fail. -/
example (fails : Nat → Bool) (k : Nat) :
    AgreesBut (fun e => e = .err .cutSignable ∨ ∃ se, MemoryErrorS se ∧ e = .err se) (SameTransaction Example.chain) (fun _ => False)
      (parseTransaction Example.chain Example.payload (some Example.genesis))
      (parseTransactionD (memory Example.payload.bytes fails) Example.chain (some Example.genesis) k).1 :=
  parseTransactionD_agrees (memory_flaky (by decide) fails) chain_calm chain_regular chain_labelFree _ k

example (fails : Nat → Bool) (k : Nat) :
    AgreesBut (StorageCaused Example.entry) StorageButLabels (EmptyStorage Example.storageReg) (.ok Example.stored)
      (decodeStorageEntryD Example.hashes (scripted (usize64 false) Example.storageReg Example.keyBytes fails)
        (scripted (usize64 false) Example.storageReg [2, 1, 0, 0] fails) Example.entry k).1 := by
  rw [← Example.stored_decoded]
  exact decodeStorageEntryD_agrees (scripted_flaky _ ⟨by decide, by decide⟩ _) (scripted_flaky _ ⟨by decide, by decide⟩ _)
    storage_regular _ _

/-- The first access fails: the error is `CutSignable`, though the data is good. -/
example : (parseTransactionD (memory Example.payload.bytes (fun k => k == 0)) Example.chain none 0).1 =
    .error (.err .cutSignable) := rfl

/-- Decoding of the call: nothing fails; the third access fails (recognition: `NotACall`); a later one. -/
example : (decodeAsCallUnmarkedD (memory Example.callBytes (fun _ => false)) Example.chain 0 0).1.map
    (fun r => (r.1.palletName, r.1.variantName, r.2)) = .ok ("Balances", "transfer", 7) := rfl
example : (decodeAsCallUnmarkedD (memory Example.callBytes (fun k => k == 2)) Example.chain 0 0).1.map
    (fun r => (r.1.palletName, r.1.variantName, r.2)) = .error (.err (.notACall 2)) := rfl
example : (decodeAsCallUnmarkedD (memory Example.callBytes (fun k => k == 7)) Example.chain 0 0).1.map
    (fun r => (r.1.palletName, r.1.variantName, r.2)) = .error (.err (.parsing (.buffer .external))) := rfl

/-- A pallet without calls: on reliable memory there is no such call; if recognition fails, an enum is told
with the value of an enum without variants in it. This is the exception in C58 and C61. -/
def FlakyExample.emptyPallet : List Typ :=
  [{ path := ["runtime", "RuntimeCall"], typeDef := .variant [{ name := "Session", index := 0, fields := [{ ty := 1 }] }] },
   { path := ["pallet_session", "pallet", "Call"], typeDef := .variant [] }]

example : (decodeAllAsType (Registry.portable emptyPallet) (Buf.ofBytes [0]) 0).map edValue =
    .error (.err (.buffer (.dataTooShort 1 1))) := rfl
example : (decodeAllAsTypeD (scripted (usize64 false) (Registry.portable emptyPallet) [0] (fun k => k == 1)) 0 0).1.map edValue =
    .ok (.variant "Session" [(none, .never)]) := rfl
example : ¬ PalletsNonempty (Registry.portable emptyPallet) := fun h =>
  h 0 _ 0 .call "Session" [] rfl ⟨rfl, _, _, _, _, rfl, ⟨[], [], rfl, rfl, nofun⟩, rfl, rfl, rfl, rfl, rfl⟩ rfl

/-- A storage entry whose hasher keeps the key: the second reading of the key fails, and the crate panics. -/
example : (decodeStorageEntryD Example.hashes (scripted (usize64 false) Example.storageReg Example.keyBytes (fun k => k == 4))
    (scripted (usize64 false) Example.storageReg [2, 1, 0, 0] (fun _ => false)) Example.entry 0).1.map (·.docs) = .error .panic := rfl

end Verif
