import Verif.Proof.Transaction
/-!
# Signable transactions

`mark` is `MarkedData::mark`; `decodeAsCall`, `decodeExtensions`, `parseTransaction`,
`parseTransactionUnmarked` are the functions of these names. Metadata `M` is
arbitrary.
-/
namespace Verif
open Spec

variable {ME : Type} {M : Metadata ME} {b : Buf}

/-! ### An example chain -/

namespace Example

/-- Types: `0: u8`, `1: u32`, `2: RuntimeCall`, `3: Call` of pallet `Balances`,
`4: Era`, `5: H256`, `6: ()`, `7: struct CheckMortality(Era)`. -/
def chainTypes : List Typ :=
  [ { typeDef := .primitive .u8 },
    { typeDef := .primitive .u32 },
    { path := ["runtime", "RuntimeCall"], typeDef := .variant [{ name := "Balances", index := 5, fields := [{ ty := 3 }] }] },
    { path := ["pallet_balances", "pallet", "Call"], typeDef := .variant
        [{ name := "transfer", index := 1,
           fields := [{ name := some "dest", ty := 0 }, { name := some "value", ty := 1, typeName := some "T::Balance" }] }] },
    { path := ["sp_runtime", "generic", "era", "Era"], typeDef := .variant [] },
    { path := ["primitive_types", "H256"], typeDef := .composite [] },
    { typeDef := .tuple [] },
    { path := ["frame_system", "CheckMortality"], typeDef := .composite [{ ty := 4 }] } ]

/-- Signed extensions of the example. -/
def chainExtensions : List SignedExt :=
  [⟨"CheckSpecVersion", 6, 1⟩, ⟨"CheckGenesis", 6, 5⟩, ⟨"CheckMortality", 7, 5⟩]

/-- Metadata of the example. -/
def chain : Metadata Unit where
  types := .portable chainTypes
  specNameVersion := .ok ⟨"9", "example"⟩
  callTy := .ok 2
  signedExtensions := .ok chainExtensions

/-- The call `transfer(7, 1)` of pallet `Balances`. -/
def callBytes : Bytes := [5, 1, 7, 1, 0, 0, 0]

/-- Genesis hash. -/
def genesis : Bytes := List.replicate 32 0xaa

/-- Immortal era, spec version, genesis hash, block hash. -/
def extBytes : Bytes := [0] ++ [9, 0, 0, 0] ++ genesis ++ genesis

/-- The whole payload. -/
def payload : Buf := Buf.ofBytes ([28] ++ callBytes ++ extBytes)

/-- The decoded call. -/
def call : Call where
  palletInfo := ⟨"", ["pallet_balances", "pallet", "Call"]⟩
  variantDocs := ""
  palletName := "Balances"
  variantName := "transfer"
  fields :=
    [⟨some "dest", none, "", ⟨.uint .u8 7 .none, []⟩⟩,
     ⟨some "value", some "T::Balance", "", ⟨.uint .u32 1 .balance, []⟩⟩]

theorem chain_ranked : Ranked chain.types (fun i => if i = 7 then 1 else 0) :=
  ranked_of_check (ts := chainTypes) (by decide)

end Example

/-! ### C22 marking -/

/-- C22. Marked data are a compact length, that many call bytes, and the extensions;
the marks say where these parts start. -/
theorem mark_partition {m : Marked} (h : mark (ME := ME) b = .ok m) :
    m.data = b ∧ ∃ call ext, call.length < 2 ^ 32 ∧ b.bytes = compactEncode call.length ++ call ++ ext ∧
      m.callStart = (compactEncode call.length).length ∧
      m.extensionsStart = m.callStart + call.length := by
  unfold mark at h
  obtain ⟨⟨n, start⟩, h1, h⟩ := ebind_ok.1 h
  obtain ⟨s, h2, h⟩ := ebind_ok.1 h
  cases h
  rw [cut, mapErr_ok] at h1 h2
  obtain ⟨g1, g2, g3⟩ := getCompact_sound h1
  obtain ⟨k1, k2⟩ := readSlice_ok h2
  rw [Nat.zero_add] at g3
  refine ⟨rfl, s, b.bytes.drop (start + n), ?_, ?_, ?_, ?_⟩
  · rw [k2]; simpa [UW.bytes] using g1
  · obtain ⟨pre, post, p1, p2⟩ := k1
    obtain ⟨pre', post', q1, q2⟩ := g2
    have : pre' = [] := List.length_eq_zero_iff.1 q2
    subst this
    have hpre : pre = compactEncode n := by
      have e := congrArg (List.take start) (p1.symm.trans q1)
      rw [List.append_assoc, List.take_left' p2, List.nil_append, List.take_left' g3.symm] at e
      exact e
    rw [k2]
    have hd : b.bytes.drop (start + n) = post := by
      rw [p1, List.drop_left' (by simp [p2, k2])]
    rw [hd, ← hpre]; exact p1
  · rw [k2]; exact g3
  · rw [k2]

/-- C22. Conversely, all such data are marked. -/
theorem mark_complete (hr : Reliable b) {call ext : Bytes} (hl : call.length < 2 ^ 32)
    (hb : b.bytes = compactEncode call.length ++ call ++ ext) :
    mark (ME := ME) b = .ok ⟨b, (compactEncode call.length).length,
      (compactEncode call.length).length + call.length⟩ := by
  have h1 := getCompact_complete (w := .u32) hr (pos := 0) (v := call.length) (by simpa [UW.bytes] using hl)
    ⟨[], call ++ ext, by simp [hb], rfl⟩
  rw [Nat.zero_add] at h1
  have h2 : b.readSlice (compactEncode call.length).length call.length = .ok call :=
    readSlice_of_at hr ⟨compactEncode call.length, ext, hb, rfl⟩
  unfold mark
  rw [show cut (getCompact (compactUInt .u32) b 0) = (.ok _ : SRes ME _) from mapErr_ok.2 h1, eok_bind]
  dsimp only
  rw [show cut (b.readSlice _ _) = (.ok _ : SRes ME _) from mapErr_ok.2 h2, eok_bind]

/-- C22. The only other outcome is the error `CutSignable`. -/
theorem mark_cases (b : Buf) : (∃ m, mark (ME := ME) b = .ok m) ∨ mark (ME := ME) b = .error (.err .cutSignable) := by
  have hc : ∀ {α : Type} {r : Res α}, Fine r →
      (∃ a, cut (ME := ME) r = .ok a) ∨ cut (ME := ME) r = .error (.err .cutSignable) := by
    intro α r hr
    rcases hr.cases with ⟨a, rfl⟩ | ⟨e, rfl⟩
    · exact .inl ⟨a, rfl⟩
    · exact .inr rfl
  unfold mark
  rcases hc (getCompact_fine (compactUInt .u32) b 0) with ⟨⟨n, start⟩, h⟩ | h
  · rw [h, eok_bind]
    dsimp only
    rcases hc (readSlice_fine b start n) with ⟨s, h'⟩ | h'
    · rw [h', eok_bind]; exact .inl ⟨_, rfl⟩
    · rw [h']; exact .inr rfl
  · rw [h]; exact .inr rfl

example : mark (ME := Unit) Example.payload = .ok ⟨Example.payload, 1, 8⟩ := rfl
example : mark (ME := Unit) (Buf.ofBytes [28, 1, 2]) = .error (.err .cutSignable) := rfl

/-- Data before the extensions, for marked data: the `expect` never panics. -/
theorem dataNoExtensions_eq {m : Marked} (h : mark (ME := ME) b = .ok m) :
    m.dataNoExtensions (ME := ME) = .ok { b with bytes := b.bytes.take m.extensionsStart } ∧
      m.extensionsStart ≤ b.len := by
  obtain ⟨h1, call, ext, _, h2, h3, h4⟩ := mark_partition h
  have hle : m.extensionsStart ≤ b.len := by
    unfold Buf.len; rw [h2, h4, h3]; simp
  refine ⟨?_, hle⟩
  unfold Marked.dataNoExtensions Buf.limitLength
  rw [h1, if_neg (by omega)]

/-! ### C24 calls -/

/-- C24. A decoded call is selected by its first two bytes from the enums of the call
type, and its fields are encoded in the bytes after them. -/
theorem decodeAsCallUnmarked_sound {pos pos' : Nat} {c : Call}
    (h : decodeAsCallUnmarked M b pos = .ok (c, pos')) :
    ∃ id, M.callTy = .ok id ∧ IsCall M.types id c (between b pos pos') ∧
      At b.bytes pos (between b pos pos') ∧ pos' = pos + (between b pos pos').length := by
  unfold decodeAsCallUnmarked at h
  obtain ⟨id, h1, h⟩ := ebind_ok.1 h
  obtain ⟨⟨d, q⟩, h2, h⟩ := ebind_ok.1 h
  rw [mapOut_ok] at h1
  rw [mapErr_ok] at h2
  dsimp only at h
  split at h
  · rename_i call hcall
    cases h
    obtain ⟨bs, g1, rfl, g3⟩ := (decode_parses M.types b _ _).sound h2
    have hc := run_call (p := Propagated.new) rfl g3 hcall
    refine ⟨id, h1, ?_⟩
    rw [has_between g1]
    refine ⟨hc, ?_, rfl⟩
    rcases g1 with rfl | g1
    · obtain ⟨_, _, _, _, _, _, _, _, _, _, _, _, _, hb⟩ := hc
      cases hb
    · exact g1
  · cases h

/-- C24. A call type that has not the pattern of pallet calls is an error. -/
theorem decodeAsCallUnmarked_not_a_call {id pos : Nat} (hid : M.callTy = .ok id)
    (hn : ∀ c bs, ¬ IsCall M.types id c bs) : ∃ e, decodeAsCallUnmarked M b pos = .error (.err e) ∧
      (e = .notACall id ∨ ∃ e', e = .parsing e') := by
  unfold decodeAsCallUnmarked
  rw [mapOut_ok.2 hid, eok_bind]
  rcases (decode_fine (R := M.types) (b := b) (.symbol id) pos Propagated.new).cases with ⟨⟨d, q⟩, h⟩ | ⟨e, h⟩
  · rw [mapErr_ok.2 h, eok_bind]
    dsimp only
    split
    · rename_i call hcall
      obtain ⟨bs, g1, rfl, g3⟩ := (decode_parses M.types b _ _).sound h
      exact absurd (run_call (p := Propagated.new) rfl g3 hcall) (hn _ _)
    · exact ⟨_, rfl, .inl rfl⟩
  · rw [h]; exact ⟨_, rfl, .inr ⟨_, rfl⟩⟩

/-- C24. Every call of the call type is decoded. -/
theorem decodeAsCallUnmarked_complete (hk : EmptyArraysGrounded M.types) (hr : Reliable b) {id pos : Nat}
    {c : Call} {bs : Bytes} (hid : M.callTy = .ok id) (hc : IsCall M.types id c bs) (hat : At b.bytes pos bs) :
    ∃ c', decodeAsCallUnmarked M b pos = .ok (c', pos + bs.length) ∧ c'.palletName = c.palletName ∧
      c'.variantName = c.variantName ∧ fdsValue c'.fields = fdsValue c.fields := by
  obtain ⟨d, h1, h2⟩ := decode_complete hk hr (p := Propagated.new) ⟨rfl, rfl⟩ hc.enc hat
  obtain ⟨bs', g1, g2, g3⟩ := (decode_parses M.types b _ _).sound h1
  have hb : bs = bs' := hat.unique (g1.at (by have := hat.le; omega)) (by omega)
  subst hb
  obtain ⟨c', hc'⟩ := run_isCall hc g3 h2
  refine ⟨c', ?_, ?_⟩
  · unfold decodeAsCallUnmarked
    rw [mapOut_ok.2 hid, eok_bind, mapErr_ok.2 h1, eok_bind]
    simp only [hc']
  · obtain ⟨d, info⟩ := d
    rw [asCall_some] at hc'
    simp only at hc'
    subst hc'
    simp only [edValue, pdValue, Value.pallet.injEq] at h2
    exact ⟨h2.2.1, h2.2.2.1, h2.2.2.2⟩

example : decodeAsCallUnmarked Example.chain Example.payload 1 = .ok (Example.call, 8) := rfl

example : IsCall Example.chain.types 2 Example.call Example.callBytes :=
  (decodeAsCallUnmarked_sound (b := Example.payload) (pos := 1) (pos' := 8) (M := Example.chain) rfl).elim
    fun _ h => by cases h.1; exact h.2.1

/-- A struct as call type is not a call. -/
example : decodeAsCallUnmarked { Example.chain with callTy := .ok 7 } (Buf.ofBytes [0]) 0 =
    .error (.err (.notACall 7)) := rfl

/-! ### C23 the call region -/

/-- C23. The call fills the call region exactly. -/
theorem decodeAsCall_sound {m : Marked} {c : Call} (hm : mark (ME := ME) b = .ok m)
    (h : decodeAsCall M m = .ok c) :
    ∃ id, M.callTy = .ok id ∧ IsCall M.types id c (between b m.callStart m.extensionsStart) := by
  obtain ⟨hd, hle⟩ := dataNoExtensions_eq hm
  unfold decodeAsCall at h
  rw [hd, eok_bind] at h
  obtain ⟨⟨call, pos⟩, h1, h⟩ := ebind_ok.1 h
  dsimp only at h
  split at h
  · cases h
  · rename_i hpos
    cases h
    have hpos : pos = m.extensionsStart := by simpa using hpos
    subst hpos
    obtain ⟨id, g1, g2, g3, g4⟩ := decodeAsCallUnmarked_sound h1
    refine ⟨id, g1, ?_⟩
    have : between { b with bytes := b.bytes.take m.extensionsStart } m.callStart m.extensionsStart =
        between b m.callStart m.extensionsStart := by
      unfold between
      simp only [List.drop_take, List.take_take]
      rw [Nat.min_self]
    rwa [this] at g2

/-- C23. The result does not depend on anything after the call region: two payloads
with the same bytes up to the extensions give the same result, of any kind. -/
theorem decodeAsCall_confined {b' : Buf} {m m' : Marked} (hm : mark (ME := ME) b = .ok m)
    (hm' : mark (ME := ME) b' = .ok m') (hf : b.fault = b'.fault)
    (hs : m.extensionsStart = m'.extensionsStart)
    (hb : b.bytes.take m.extensionsStart = b'.bytes.take m'.extensionsStart) :
    decodeAsCall M m = decodeAsCall M m' := by
  obtain ⟨hd, hle⟩ := dataNoExtensions_eq hm
  obtain ⟨hd', hle'⟩ := dataNoExtensions_eq hm'
  obtain ⟨_, call, ext, _, h2, h3, h4⟩ := mark_partition hm
  obtain ⟨_, call', ext', _, h2', h3', h4'⟩ := mark_partition hm'
  have hcs : m.callStart = m'.callStart := by
    rw [h2, h4, h3] at hb
    rw [h2', h4', h3'] at hb
    rw [List.take_left' (by simp), List.take_left' (by simp)] at hb
    have hn : (compactEncode call.length).length + call.length =
        (compactEncode call'.length).length + call'.length := by
      have := congrArg List.length hb; simpa using this
    have e1 := getCompact_complete (w := .u32) (reliable_ofBytes (compactEncode call.length ++ call)) (pos := 0)
      (v := call.length) (by simpa [UW.bytes]) ⟨[], call, rfl, rfl⟩
    have e2 := getCompact_complete (w := .u32) (reliable_ofBytes (compactEncode call'.length ++ call')) (pos := 0)
      (v := call'.length) (by simpa [UW.bytes]) ⟨[], call', rfl, rfl⟩
    rw [hb, e2] at e1
    simp only [Except.ok.injEq, Prod.mk.injEq, Nat.zero_add] at e1
    rw [h3, h3']; exact e1.2.symm
  unfold decodeAsCall
  rw [hd, hd', eok_bind, eok_bind]
  rw [hf, hb, hcs, hs]

/-- C23. A call that fills the call region exactly is decoded. -/
theorem decodeAsCall_complete (hk : EmptyArraysGrounded M.types) (hr : Reliable b) {m : Marked}
    (hm : mark (ME := ME) b = .ok m) {id : Nat} {c : Call} (hid : M.callTy = .ok id)
    (hc : IsCall M.types id c (between b m.callStart m.extensionsStart)) :
    ∃ c', decodeAsCall M m = .ok c' ∧ c'.palletName = c.palletName ∧
      c'.variantName = c.variantName ∧ fdsValue c'.fields = fdsValue c.fields := by
  obtain ⟨hd, hle⟩ := dataNoExtensions_eq hm
  obtain ⟨_, call, ext, _, h2, h3, h4⟩ := mark_partition hm
  have hcall : between b m.callStart m.extensionsStart = call := by
    unfold between
    rw [h4, h3, h2, List.append_assoc, List.drop_left' rfl, show ∀ a b : Nat, a + b - a = b by omega,
      List.take_left' rfl]
  rw [hcall] at hc
  have hat : At (b.bytes.take m.extensionsStart) m.callStart call := by
    refine ⟨compactEncode call.length, [], ?_, h3.symm⟩
    rw [h4, h3, h2, List.take_left' (by simp)]; simp
  obtain ⟨c', g1, g2⟩ := decodeAsCallUnmarked_complete (M := M) hk
    (b := { b with bytes := b.bytes.take m.extensionsStart }) hr hid hc hat
  refine ⟨c', ?_, g2⟩
  unfold decodeAsCall
  rw [hd, eok_bind, g1, eok_bind]
  dsimp only
  rw [if_neg (by omega)]

/-- C23. If the call ends before the call region does, the error tells both places. -/
theorem decodeAsCall_not_all {m : Marked} (hm : mark (ME := ME) b = .ok m) {c : Call} {pos : Nat}
    (h : decodeAsCallUnmarked M { b with bytes := b.bytes.take m.extensionsStart } m.callStart = .ok (c, pos))
    (hne : pos ≠ m.extensionsStart) :
    pos < m.extensionsStart ∧
      decodeAsCall M m = .error (.err (.someDataNotUsedCall pos m.extensionsStart)) := by
  obtain ⟨hd, hle⟩ := dataNoExtensions_eq hm
  constructor
  · obtain ⟨_, _, _, h1, h2⟩ := decodeAsCallUnmarked_sound h
    have := h1.le
    simp only [List.length_take] at this
    omega
  · unfold decodeAsCall
    rw [hd, eok_bind, h, eok_bind]
    dsimp only
    rw [if_pos hne]

/-- Metadata whose functions do not panic. -/
structure CalmMetadata (M : Metadata ME) : Prop where
  callTy : Calm M.callTy
  specNameVersion : Calm M.specNameVersion
  signedExtensions : Calm M.signedExtensions

theorem decodeAsCallUnmarked_calm (hM : CalmMetadata M) (pos : Nat) : Calm (decodeAsCallUnmarked M b pos) := by
  unfold decodeAsCallUnmarked
  refine .bind (hM.callTy.mapOut _) fun id _ => .bind ((decode_fine _ _ _).mapErr _) fun x _ => ?_
  dsimp only
  split
  · exact .ok _
  · exact .err _

/-- C23. No panic, in particular not from the `expect` in `data_no_extensions`. -/
theorem decodeAsCall_calm (hM : CalmMetadata M) {m : Marked} (hm : mark (ME := ME) b = .ok m) :
    Calm (decodeAsCall M m) := by
  unfold decodeAsCall
  rw [(dataNoExtensions_eq hm).1, eok_bind]
  refine .bind (decodeAsCallUnmarked_calm hM _) fun x _ => ?_
  dsimp only
  split
  · exact .err _
  · exact .ok _

example : decodeAsCall Example.chain ⟨Example.payload, 1, 8⟩ = .ok Example.call := rfl
example : decodeAsCall Example.chain ⟨Buf.ofBytes ([32] ++ Example.callBytes ++ [1] ++ Example.extBytes), 1, 9⟩ =
    .error (.err (.someDataNotUsedCall 8 9)) := rfl
example : decodeAsCall Example.chain ⟨Buf.ofBytes ([24] ++ Example.callBytes ++ Example.extBytes), 1, 7⟩ =
    .error (.err (.parsing (.buffer (.dataTooShort 4 4)))) := rfl

/-! ### C25 extensions -/

/-- C25. Decoded extensions: first the types of all signed extensions of the
metadata in order, then the additional signed types, without gaps and up to the end
of the data. C26, C27, C28: and they are accepted. -/
theorem decodeExtensionsUnmarked_sound {pos : Nat} {expected : Option Bytes} {exts : List ED}
    (h : decodeExtensionsUnmarked M b pos expected = .ok exts) :
    ∃ signed spec, M.signedExtensions = .ok signed ∧ M.specNameVersion = .ok spec ∧ pos ≤ b.len ∧
      ItemsAre M.types (extItems signed) exts (b.bytes.drop pos) ∧
      Accepted exts spec.printedSpecVersion expected := by
  unfold decodeExtensionsUnmarked at h
  obtain ⟨signed, h1, h⟩ := ebind_ok.1 h
  obtain ⟨⟨ds, q⟩, h2, h⟩ := ebind_ok.1 h
  obtain ⟨⟨ds', q'⟩, h3, h⟩ := ebind_ok.1 h
  dsimp only at h h2 h3
  split at h
  · cases h
  · rename_i hpos
    obtain ⟨spec, h4, h⟩ := ebind_ok.1 h
    obtain ⟨_, h5, h⟩ := ebind_ok.1 h
    cases h
    rw [mapOut_ok] at h1 h4
    obtain ⟨bs, g1, rfl, g3⟩ := extensionsLoop_sound h2
    obtain ⟨bs', g1', rfl, g3'⟩ := extensionsLoop_sound h3
    have hpos : pos + bs.length + bs'.length = b.len := by simpa using hpos
    have hall := (g1.append g1').at (by unfold Buf.len at hpos; omega)
    have hbs : b.bytes.drop pos = bs ++ bs' := by
      have := (at_iff.1 hall).2
      rw [← this, List.take_of_length_le]
      unfold Buf.len at hpos
      simp; omega
    exact ⟨signed, spec, h1, h4, by omega, by rw [hbs]; exact g3.append g3', checkExtensions_iff'.1 h5⟩

theorem Spec.ItemsAre.length {R : Registry} {items : List (String × Nat)} {ds : List ED} {bs : Bytes}
    (h : ItemsAre R items ds bs) : ds.length = items.length := h.elim fun _ h => h.2.2.1

/-- C25. Conversely, encoded extensions are decoded into their values, and the
outcome is decided by the checks. -/
theorem decodeExtensionsUnmarked_complete (hk : EmptyArraysGrounded M.types) (hr : Reliable b) {pos : Nat}
    {expected : Option Bytes} {signed : List SignedExt} {spec : SpecNameVersion}
    (hs : M.signedExtensions = .ok signed) (hv : M.specNameVersion = .ok spec) {vs : Parts}
    (hl : vs.length = (extItems signed).length)
    (he : ∀ x ∈ (extItems signed).zip vs, Enc M.types false x.1.2 x.2.1 x.2.2)
    (hb : b.bytes.drop pos = vs.bytes) (hpos : pos ≤ b.len) :
    ∃ exts : List ED, exts.map edValue = vs.values ∧ ItemsAre M.types (extItems signed) exts vs.bytes ∧
      ((∃ r, decodeExtensionsUnmarked M b pos expected = .ok r) ↔
        Accepted exts spec.printedSpecVersion expected) ∧
      (Accepted exts spec.printedSpecVersion expected →
        decodeExtensionsUnmarked M b pos expected = .ok exts) := by
  obtain ⟨v1, v2, rfl, l1⟩ : ∃ v1 v2, vs = v1 ++ v2 ∧ v1.length = signed.length :=
    ⟨vs.take signed.length, vs.drop signed.length, (List.take_append_drop _ _).symm, by
      rw [List.length_take, hl]; simp [extItems]⟩
  have l2 : v2.length = signed.length := by simp [extItems] at hl; omega
  have hz : (extItems signed).zip (v1 ++ v2) =
      (signed.map fun e => (e.identifier, e.ty)).zip v1 ++
      (signed.map fun e => (e.identifier, e.additionalSigned)).zip v2 := by
    unfold extItems; rw [List.zip_append (by simp [l1])]
  rw [hz] at he
  have hbytes : Parts.bytes (v1 ++ v2) = v1.bytes ++ v2.bytes := by simp [Parts.bytes]
  rw [hbytes] at hb
  have hat : At b.bytes pos (v1.bytes ++ v2.bytes) :=
    ⟨b.bytes.take pos, [], by rw [← hb]; simp, by unfold Buf.len at hpos; simp; omega⟩
  have hzip : ∀ (f : SignedExt → Nat) (vs : Parts),
      (∀ x ∈ (signed.map fun e => (e.identifier, f e)).zip vs, Enc M.types false x.1.2 x.2.1 x.2.2) →
      ∀ x ∈ (signed.map f).zip vs, Enc M.types false x.1 x.2.1 x.2.2 := by
    intro f vs h x hx
    have : (signed.map f).zip vs = ((signed.map fun e => (e.identifier, f e)).zip vs).map
        fun y => (y.1.2, y.2) := by
      rw [List.zip_map_left, List.zip_map_left, List.map_map]; rfl
    rw [this] at hx
    obtain ⟨y, hy, rfl⟩ := List.mem_map.1 hx
    exact h y hy
  obtain ⟨a1, a2⟩ := at_append.1 hat
  obtain ⟨d1, g1, g2⟩ := extensionsLoop_complete (ME := ME) (sel := (·.ty)) hr hk l1
    (hzip _ _ fun x hx => he x (List.mem_append_left _ hx)) a1
  obtain ⟨d2, g3, g4⟩ := extensionsLoop_complete (ME := ME) (sel := (·.additionalSigned)) hr hk l2
    (hzip _ _ fun x hx => he x (List.mem_append_right _ hx)) a2
  have hlen : pos + v1.bytes.length + v2.bytes.length = b.len := by
    have := congrArg List.length hb
    simp only [List.length_drop, List.length_append] at this
    unfold Buf.len at hpos ⊢
    omega
  have hdec : decodeExtensionsUnmarked M b pos expected =
      (checkExtensions (d1 ++ d2) spec.printedSpecVersion expected >>= fun _ => .ok (d1 ++ d2)) := by
    unfold decodeExtensionsUnmarked
    rw [mapOut_ok.2 hs, eok_bind, g1, eok_bind]
    dsimp only
    rw [g3, eok_bind]
    dsimp only
    rw [if_neg (by omega), mapOut_ok.2 hv, eok_bind]
  refine ⟨d1 ++ d2, by simp [g2, g4, Parts.values], ?_, ?_, ?_⟩
  · obtain ⟨bs, x1, x2, x3⟩ := extensionsLoop_sound g1
    obtain ⟨bs', y1, y2, y3⟩ := extensionsLoop_sound g3
    have e1 : v1.bytes = bs := a1.unique (x1.at (by have := a1.le; omega)) (by omega)
    have e2 : v2.bytes = bs' := a2.unique (y1.at (by have := a2.le; omega)) (by omega)
    rw [hbytes, e1, e2]
    exact x3.append y3
  · rw [hdec]
    constructor
    · rintro ⟨r, h⟩
      obtain ⟨_, h, _⟩ := ebind_ok.1 h
      exact checkExtensions_iff'.1 h
    · intro h
      rw [checkExtensions_iff'.2 h]
      exact ⟨_, rfl⟩
  · intro h
    rw [hdec, checkExtensions_iff'.2 h]; rfl

/-- C25. The call bytes have no influence on the extensions: data with the same bytes
from the start of the extensions on give the same extensions. -/
theorem decodeExtensionsUnmarked_local {b' : Buf} (hr : Reliable b') {pos pos' : Nat} {expected : Option Bytes}
    {exts : List ED} (hb : b.bytes.drop pos = b'.bytes.drop pos') (hpos : pos' ≤ b'.len)
    (h : decodeExtensionsUnmarked M b pos expected = .ok exts) :
    decodeExtensionsUnmarked M b' pos' expected = .ok exts := by
  have loop : ∀ {sel : SignedExt → Nat} {signed : List SignedExt} {k q : Nat} {ds : List ED},
      pos ≤ b.len → extensionsLoop (ME := ME) M.types b sel signed (pos + k) = .ok (ds, q) → pos + k ≤ b.len →
      extensionsLoop (ME := ME) M.types b' sel signed (pos' + k) = .ok (ds, pos' + (q - pos)) ∧
        pos + k ≤ q ∧ q ≤ b.len := by
    intro sel signed k q ds hp
    induction signed generalizing k ds with
    | nil => intro h hk; cases h; exact ⟨by rw [Nat.add_sub_cancel_left]; rfl, Nat.le_refl _, hk⟩
    | cons e es ih =>
      intro h hk
      unfold extensionsLoop at h ⊢
      obtain ⟨⟨d, q1⟩, h1, h⟩ := ebind_ok.1 h
      obtain ⟨⟨ds', q2⟩, h2, h⟩ := ebind_ok.1 h
      cases h
      rw [mapErr_ok] at h1
      obtain ⟨p1, p2, _⟩ := decode_position h1
      have p2 := p2 hk
      have hat : At b'.bytes (pos' + k) (between b (pos + k) q1) := by
        rw [at_iff]
        have hx : ∀ n, (b.bytes.drop (pos + k)).take n = (b'.bytes.drop (pos' + k)).take n := by
          intro n; rw [← List.drop_drop, hb, List.drop_drop]
        have hl : (between b (pos + k) q1).length = q1 - (pos + k) := by
          unfold between; unfold Buf.len at p2; simp; omega
        have hlen := congrArg List.length hb
        simp only [List.length_drop] at hlen
        unfold Buf.len at p2 hpos hp
        refine ⟨by rw [hl]; omega, ?_⟩
        rw [hl, ← hx]; rfl
      have hd := decode_local hr h1 hat
      obtain ⟨k', rfl⟩ : ∃ k', q1 = pos + k' := ⟨q1 - pos, by omega⟩
      have e1 : pos' + k + (pos + k' - (pos + k)) = pos' + k' := by omega
      rw [e1] at hd
      obtain ⟨g1, g2, g3⟩ := ih h2 (by omega)
      rw [mapErr_ok.2 hd, eok_bind]
      dsimp only
      rw [g1, eok_bind]
      exact ⟨rfl, by omega, g3⟩
  have hpos0 : pos ≤ b.len := by
    obtain ⟨_, _, _, _, h, _⟩ := decodeExtensionsUnmarked_sound h; exact h
  unfold decodeExtensionsUnmarked at h ⊢
  obtain ⟨signed, h1, h⟩ := ebind_ok.1 h
  obtain ⟨⟨ds, q⟩, h2, h'⟩ := ebind_ok.1 h
  obtain ⟨⟨ds', q'⟩, h3, hfin⟩ := ebind_ok.1 h'
  dsimp only at hfin h3
  clear h h'
  obtain ⟨g1, g2, g3⟩ := loop (k := 0) hpos0 h2 hpos0
  obtain ⟨k, rfl⟩ : ∃ k, q = pos + k := ⟨q - pos, by omega⟩
  obtain ⟨g4, g5, g6⟩ := loop hpos0 h3 g3
  rw [h1, eok_bind, show extensionsLoop (ME := ME) M.types b' (·.ty) signed pos' = _ from g1, eok_bind]
  dsimp only
  rw [show pos + k - pos = k by omega]
  rw [g4, eok_bind]
  dsimp only
  split at hfin
  · cases hfin
  · rename_i hq
    have hlen := congrArg List.length hb
    simp only [List.length_drop] at hlen
    unfold Buf.len at hq hpos hpos0
    rw [if_neg (by unfold Buf.len; omega)]
    exact hfin

/-- C25. No panic. -/
theorem decodeExtensionsUnmarked_calm (hM : CalmMetadata M) (pos : Nat) (expected : Option Bytes) :
    Calm (decodeExtensionsUnmarked M b pos expected) := by
  unfold decodeExtensionsUnmarked
  refine .bind (hM.signedExtensions.mapOut _) fun s _ => .bind extensionsLoop_calm fun x _ =>
    .bind extensionsLoop_calm fun y _ => ?_
  dsimp only
  split
  · exact .err _
  · exact .bind (hM.specNameVersion.mapOut _) fun v _ => .bind checkExtensions_calm fun _ _ => .ok _

end Verif
