import Verif.Spec.Node
import Verif.Props.Proper
import Verif.Props.Extrinsic
import Verif.Props.Storage
import Verif.Props.Legible
/-!
# C76: extrinsics and storage entries are read as they were written
-/
namespace Verif
open Spec

variable {ME : Type} {M : CompleteMetadata ME} {b : Buf} {R : Registry}

theorem version_byte (version : UInt8) (h : version.toNat < 128) (x : ExtrinsicOf) :
    (UInt8.ofNat (versionByteOf version.toNat x)).toNat = versionByteOf version.toNat x := by
  have : versionByteOf version.toNat x < 256 := by cases x <;> simp only [versionByteOf] <;> omega
  simpa using Nat.mod_eq_of_lt this

/-- **C76.** An extrinsic is decoded, and shows the values `x`, exactly if the data is the compact length of what
follows, the version byte (the version of the metadata, and 128 more if it is signed), the encodings of the parts of
`x`; and whatever may follow the call. -/
theorem decodeUncheckedExtrinsic_exact (hk : EmptyArraysGrounded M.types) (hr : Reliable b) {x : ExtrinsicOf} :
    (∃ u, decodeUncheckedExtrinsic M b = .ok u ∧ extrinsicOf u = x) ↔
      ∃ params version, ∃ (vb : UInt8) (body tail : Bytes), M.extrinsicTypeParams = .ok params ∧ M.extrinsicVersion = .ok version ∧
        version.toNat < 128 ∧ vb.toNat = versionByteOf version.toNat x ∧ (body ++ tail).length + 1 < 2 ^ 32 ∧
        b.bytes = compactEncode ((body ++ tail).length + 1) ++ vb :: (body ++ tail) ∧
        ExtrinsicEnc M.types params x body := by
  constructor
  · rintro ⟨u, h, rfl⟩
    obtain ⟨params, version, vb, body, tail, h1, h2, h3, h4, h5, h6⟩ := decodeUncheckedExtrinsic_sound h
    have hlt : version.toNat < 128 := by rw [← h5]; exact Nat.mod_lt _ (by omega)
    have hvb := vb.toNat_lt
    cases u with
    | unsigned c =>
      obtain ⟨hs, cb, hc, rfl⟩ := h6
      have hs : ¬ 128 ≤ vb.toNat := by simpa using hs
      refine ⟨params, version, vb, cb, tail, h1, h2, hlt, ?_, h3, h4, hc.callEnc⟩
      simp only [extrinsicOf, versionByteOf]; omega
    | signed a s e c =>
      obtain ⟨hs, ab, sb, eb, cb, ha, hsg, he, hc, rfl⟩ := h6
      have hs : 128 ≤ vb.toNat := by simpa using hs
      refine ⟨params, version, vb, ab ++ sb ++ eb ++ cb, tail, h1, h2, hlt, ?_, h3, h4, ab, sb, eb, cb, rfl, ha, hsg, he, hc.callEnc⟩
      simp only [extrinsicOf, versionByteOf]; omega
  · rintro ⟨params, version, vb, body, tail, h1, h2, hlt, hv, h3, h4, h5⟩
    cases x with
    | unsigned c =>
      simp only [versionByteOf] at hv
      obtain ⟨k, hk1, hk2⟩ := callEnc_isCall hk h5
      obtain ⟨c', g1, g2, g3, g4⟩ := decodeUncheckedExtrinsic_unsigned hk hr h1 h2 (by omega) (by omega) hk1 h3 h4
      refine ⟨_, g1, ?_⟩
      rw [← hk2]; simp only [extrinsicOf, callOf]; rw [g2, g3, g4]
    | signed a s e c =>
      simp only [versionByteOf] at hv
      obtain ⟨ab, sb, eb, cb, rfl, ha, hs, he, hc⟩ := h5
      obtain ⟨k, hk1, hk2⟩ := callEnc_isCall hk hc
      obtain ⟨da, ds, de, c', g1, v1, v2, v3, g2, g3, g4⟩ :=
        decodeUncheckedExtrinsic_signed hk hr h1 h2 (by omega) (by omega) ha hs he hk1 h3 h4
      refine ⟨_, g1, ?_⟩
      rw [← hk2]; simp only [extrinsicOf, callOf]; rw [v1, v2, v3, g2, g3, g4]

theorem node_call {n id : Nat} {c : CallOf} {bs : Bytes} (h : Node.call R n id c = some bs) : CallEnc R id c bs := by
  unfold Node.call at h
  split at h
  · rename_i hr
    exact ⟨⟨_, _, hr, rfl⟩, Encoder'.encode_sound h⟩
  · cases h

theorem node_body {n : Nat} {params : ExtrinsicParams} {x : ExtrinsicOf} {bs : Bytes}
    (h : Node.extrinsicBody R n params x = some bs) : ExtrinsicEnc R params x bs := by
  cases x with
  | unsigned c => exact node_call h
  | signed a s e c =>
    simp only [Node.extrinsicBody] at h
    split at h
    · rename_i h1 h2 h3 h4
      cases h
      exact ⟨_, _, _, _, rfl, Encoder'.encode_sound h1, Encoder'.encode_sound h2, Encoder'.encode_sound h3, node_call h4⟩
    · cases h

/-- **C76.** What a node writes as an extrinsic is decoded, and shows exactly the values it was written from. -/
theorem node_extrinsic_decoded (hk : EmptyArraysGrounded M.types) {n : Nat} {x : ExtrinsicOf} {bs : Bytes}
    (h : Node.extrinsic M n x = some bs) : ∃ u, decodeUncheckedExtrinsic M (Buf.ofBytes bs) = .ok u ∧ extrinsicOf u = x := by
  unfold Node.extrinsic at h
  split at h
  · rename_i params version h1 h2
    split at h
    · rename_i body hb
      split at h
      · rename_i hl
        cases h
        exact (decodeUncheckedExtrinsic_exact hk (reliable_ofBytes _)).2
          ⟨params, version, _, body, [], h1, h2, hl.1, version_byte version hl.1 x, by simpa using hl.2,
            by simp [Buf.ofBytes], node_body hb⟩
      · cases h
    · cases h
  · cases h

/-- All values of the extrinsic leave no freedom to who writes them (`Firm`, C50). -/
def Spec.ExtrinsicOf.Firm : ExtrinsicOf → Prop
  | .signed a s e c => Spec.Firm a ∧ Spec.Firm s ∧ Spec.Firm e ∧ Spec.Firm (.pallet .call c.pallet c.call c.args)
  | .unsigned c => Spec.Firm (.pallet .call c.pallet c.call c.args)

theorem call_written (hn : NamesDistinct R) (hs : SignaturesDistinct R) {id : Nat} {c : CallOf} {bs : Bytes}
    (hf : Firm (.pallet .call c.pallet c.call c.args)) (h : CallEnc R id c bs) :
    ∃ n0, ∀ n, n0 ≤ n → Node.call R n id c = some bs := by
  obtain ⟨⟨t, vs, hr, hd⟩, he⟩ := h
  obtain ⟨n0, hw⟩ := Encoder'.typed_written (encoded_typed he)
  refine ⟨n0, fun n hl => ?_⟩
  obtain ⟨bs', hb⟩ := hw n hl
  unfold Node.call
  rw [hr]
  obtain ⟨_, _, _, _⟩ := t
  dsimp only at hd
  subst hd
  dsimp only
  rw [hb, firm_encoding_unique hn hs hf (Encoder'.encode_sound hb) he]

theorem firm_written (hn : NamesDistinct R) (hs : SignaturesDistinct R) {id : Nat} {v : Value} {bs : Bytes}
    (hf : Firm v) (he : Enc R false id v bs) : ∃ n0, ∀ n, n0 ≤ n → Encoder.encode R n false id v = some bs := by
  obtain ⟨n0, hw⟩ := Encoder'.typed_written (encoded_typed he)
  refine ⟨n0, fun n hl => ?_⟩
  obtain ⟨bs', hb⟩ := hw n hl
  rw [hb, firm_encoding_unique hn hs hf (Encoder'.encode_sound hb) he]

theorem body_written (hn : NamesDistinct R) (hs : SignaturesDistinct R) {params : ExtrinsicParams} {x : ExtrinsicOf}
    {bs : Bytes} (hf : x.Firm) (h : ExtrinsicEnc R params x bs) :
    ∃ n0, ∀ n, n0 ≤ n → Node.extrinsicBody R n params x = some bs := by
  cases x with
  | unsigned c => exact call_written hn hs hf h
  | signed a s e c =>
    obtain ⟨ab, sb, eb, cb, rfl, h1, h2, h3, h4⟩ := h
    obtain ⟨f1, f2, f3, f4⟩ := hf
    obtain ⟨n1, w1⟩ := firm_written hn hs f1 h1
    obtain ⟨n2, w2⟩ := firm_written hn hs f2 h2
    obtain ⟨n3, w3⟩ := firm_written hn hs f3 h3
    obtain ⟨n4, w4⟩ := call_written hn hs f4 h4
    refine ⟨max (max n1 n2) (max n3 n4), fun n hl => ?_⟩
    simp only [Node.extrinsicBody]
    rw [w1 n (by omega), w2 n (by omega), w3 n (by omega), w4 n (by omega)]

/-- **C76.** Writing the extrinsic that was decoded gives the data back, up to what may follow the call (and the length
in front, which counts it). If nothing follows: exactly the data. -/
theorem extrinsic_written (hn : NamesDistinct M.types) (hs : SignaturesDistinct M.types) {u : UncheckedExtrinsic}
    (h : decodeUncheckedExtrinsic M b = .ok u) (hf : (extrinsicOf u).Firm) :
    ∃ (n0 : Nat) (head : UInt8) (body tail : Bytes),
      b.bytes = compactEncode ((body ++ tail).length + 1) ++ head :: (body ++ tail) ∧
      ∀ n, n0 ≤ n → Node.extrinsic M n (extrinsicOf u) = some (compactEncode (body.length + 1) ++ head :: body) := by
  obtain ⟨params, version, vb, body, tail, h1, h2, h3, h4, h5, h6⟩ := decodeUncheckedExtrinsic_sound h
  have hlt : version.toNat < 128 := by rw [← h5]; exact Nat.mod_lt _ (by omega)
  have hvb := vb.toNat_lt
  have key : ∃ body' tail', body = body' ++ tail' ∧ vb.toNat = versionByteOf version.toNat (extrinsicOf u) ∧
      ExtrinsicEnc M.types params (extrinsicOf u) body' := by
    cases u with
    | unsigned c =>
      obtain ⟨hs, cb, hc, rfl⟩ := h6
      have hs : ¬ 128 ≤ vb.toNat := by simpa using hs
      refine ⟨cb, tail, rfl, ?_, hc.callEnc⟩
      simp only [extrinsicOf, versionByteOf]; omega
    | signed a s e c =>
      obtain ⟨hs, ab, sb, eb, cb, ha, hsg, he, hc, rfl⟩ := h6
      have hs : 128 ≤ vb.toNat := by simpa using hs
      refine ⟨ab ++ sb ++ eb ++ cb, tail, rfl, ?_, ab, sb, eb, cb, rfl, ha, hsg, he, hc.callEnc⟩
      simp only [extrinsicOf, versionByteOf]; omega
  obtain ⟨body', tail', e, hv, hx⟩ := key
  rw [e] at h3 h4
  obtain ⟨n0, hw⟩ := body_written hn hs hf hx
  refine ⟨n0, vb, body', tail', h4, fun n hl => ?_⟩
  unfold Node.extrinsic
  rw [h1, h2]
  dsimp only
  rw [hw n hl]
  dsimp only
  rw [List.length_append] at h3
  rw [if_pos ⟨hlt, by omega⟩, ← hv]
  simp

/-! ### Storage -/

variable {H : Node.Hashes}

theorem node_part (hk : EmptyArraysGrounded R) (hg : H.Good) {n ty : Nat} {h : Hasher} {v : Value} {bs : Bytes}
    (he : Encoder.encode R n false ty v = some bs) :
    ∃ p, KeyPartIs H.fns R h ty p (Node.hashed H h bs) ∧ partOf p = Node.seen H h ty v bs := by
  obtain ⟨d, _, hd⟩ := decodeAllAsType_complete hk (Encoder'.encode_sound he)
  subst hd
  have he := Encoder'.encode_sound he
  cases h
  · exact ⟨_, .blake2_128 (hg.blake2_128 _), rfl⟩
  · exact ⟨_, .blake2_256 (hg.blake2_256 _), rfl⟩
  · exact ⟨.parsed d, .blake2_128Concat (H := H.fns) he (hg.blake2_128 _), rfl⟩
  · exact ⟨_, .twox128 (hg.twox128 _), rfl⟩
  · exact ⟨_, .twox256 (hg.twox256 _), rfl⟩
  · exact ⟨.parsed d, .twox64Concat (H := H.fns) he (hg.twox64 _), rfl⟩
  · exact ⟨.parsed d, .identity he, rfl⟩

theorem node_parts (hk : EmptyArraysGrounded R) (hg : H.Good) {n : Nat} : ∀ {hs : List Hasher} {tys : List Nat}
    {vs : List Value} {bs : Bytes} {ps : List PartOf}, Node.keyParts H R n hs tys vs = some (bs, ps) →
    ∃ parts, KeyPartsAre H.fns R hs tys parts bs ∧ parts.map partOf = ps
  | [], [], [], _, _, h => by cases h; exact ⟨[], .nil, rfl⟩
  | h :: hs, ty :: tys, v :: vs, bs, ps, e => by
    simp only [Node.keyParts] at e
    split at e
    · rename_i b rest ps' h1 h2
      cases e
      obtain ⟨p, g1, g2⟩ := node_part (h := h) hk hg h1
      obtain ⟨parts, g3, g4⟩ := node_parts hk hg h2
      exact ⟨p :: parts, .cons g1 g3, by rw [List.map_cons, g2, g4]⟩
    · cases e
  | [], [], _ :: _, _, _, h => by cases h
  | [], _ :: _, _, _, _, h => by cases h
  | _ :: _, [], _, _, _, h => by cases h
  | _ :: _, _ :: _, [], _, _, h => by cases h

theorem samePart_of {p p' : KeyPart} (h : SamePart p p') : partOf p = partOf p' := by
  cases p <;> cases p'
  · obtain ⟨rfl, rfl, rfl⟩ := h; rfl
  · exact h.elim
  · exact h.elim
  · exact congrArg PartOf.value h

theorem sameParts_of {ps ps' : List KeyPart} (h : SameParts ps ps') : ps.map partOf = ps'.map partOf := by
  induction h with
  | nil => rfl
  | cons h _ ih => rw [List.map_cons, List.map_cons, samePart_of h, ih]

theorem sameKey_of {k k' : KeyData} (h : SameKey k k') : keyOf k = keyOf k' := by
  cases k <;> cases k' <;> try exact h.elim
  · rfl
  · exact congrArg KeyOf.single (samePart_of h)
  · exact congrArg KeyOf.tuple (sameParts_of h.2)

theorem node_many (hk : EmptyArraysGrounded R) (hg : H.Good) {n : Nat} {start : Bytes} {hs : List Hasher}
    {keyTy : Nat} {vs : List Value} {keyBytes : Bytes} {shown : KeyOf} (hl : hs.length ≠ 1)
    (h : (match R.resolve keyTy with
      | .ok { typeDef := .tuple tys, .. } => (Node.keyParts H R n hs tys vs).map fun (bs, ps) => (start ++ bs, KeyOf.tuple ps)
      | _ => none) = some (keyBytes, shown)) :
    ∃ data rest, keyBytes = start ++ rest ∧ KeyIs H.fns R hs keyTy data rest ∧ keyOf data = shown := by
  split at h
  · rename_i tys _ hr
    cases hp : Node.keyParts H R n hs tys vs with
    | none => rw [hp] at h; cases h
    | some x =>
      obtain ⟨bs, ps⟩ := x
      rw [hp] at h; cases h
      obtain ⟨parts, g1, g2⟩ := node_parts hk hg hp
      exact ⟨.tupleHash parts (Info.fromTy _), bs, rfl, ⟨hl, _, tys, hr, rfl, rfl, g1⟩, congrArg KeyOf.tuple g2⟩
  · cases h

theorem node_keyIs (hk : EmptyArraysGrounded R) (hg : H.Good) {n : Nat} {pallet entryName : Bytes} {hs : List Hasher}
    {keyTy vty : Nat} {docs : List String} {vs : List Value} {keyBytes : Bytes} {shown : KeyOf}
    (h : Node.key H R n pallet entryName ⟨.map hs keyTy vty, docs⟩ vs = some (keyBytes, shown)) :
    ∃ data rest, keyBytes = (H.twox128 pallet ++ H.twox128 entryName) ++ rest ∧ KeyIs H.fns R hs keyTy data rest ∧ keyOf data = shown := by
  match hs, h with
  | [], h => exact node_many hk hg (by simp) h
  | _ :: _ :: _, h => exact node_many hk hg (by simp) h
  | [x], h =>
    simp only [Node.key] at h
    split at h
    · rename_i bs p hp
      cases h
      obtain ⟨parts, g1, g2⟩ := node_parts hk hg hp
      cases g1 with
      | cons g1 g3 =>
        cases g3
        rw [List.append_nil] at *
        simp only [List.map_cons, List.map_nil, List.cons.injEq, and_true] at g2
        exact ⟨.singleHash _, _, rfl, ⟨x, rfl, g1⟩, congrArg KeyOf.single g2⟩
    · cases h

/-- **C76.** What a node stores is decoded, with the key it is stored at, and shows exactly what was written: the value,
and of the key all parts that the hashers keep, and the hashes of the others. -/
theorem node_storage_decoded (hk : EmptyArraysGrounded R) (hg : H.Good) {n m : Nat} {pallet entryName : Bytes} {entry : Entry}
    {vs : List Value} {v : Value} {keyBytes valueBytes : Bytes} {shown : KeyOf}
    (h : Node.key H R n pallet entryName entry vs = some (keyBytes, shown))
    (hv : Encoder.encode R m false (Node.valueTy entry) v = some valueBytes) :
    ∃ s, decodeStorageEntry H.fns R (Buf.ofBytes keyBytes) (Buf.ofBytes valueBytes) entry = .ok s ∧
      keyOf s.key = shown ∧ edValue s.value = v ∧ s.docs = collectDocs entry.docs := by
  have hpre : (H.twox128 pallet ++ H.twox128 entryName).length = 32 := by rw [List.length_append, hg.twox128, hg.twox128]
  have he := Encoder'.encode_sound hv
  obtain ⟨d, _, hd⟩ := decodeAllAsType_complete hk he
  subst hd
  obtain ⟨ty, docs⟩ := entry
  cases ty with
  | plain vty =>
    simp only [Node.key] at h
    split at h
    · cases h
      obtain ⟨s', g1, g2, g3, g4⟩ := decodeStorageEntry_complete (H := H.fns) (key := Buf.ofBytes (H.twox128 pallet ++ H.twox128 entryName))
        (value := Buf.ofBytes valueBytes) (s := ⟨.plain, d, collectDocs docs⟩) hk (reliable_ofBytes _) (reliable_ofBytes _)
        (entry := ⟨.plain vty, docs⟩) ⟨rfl, hpre, rfl, he⟩
      exact ⟨s', g1, sameKey_of g2, g3, g4⟩
    · cases h
  | map hs keyTy vty =>
    obtain ⟨data, rest, rfl, hd, rfl⟩ := node_keyIs hk hg h
    obtain ⟨s', g1, g2, g3, g4⟩ := decodeStorageEntry_complete (H := H.fns)
      (key := Buf.ofBytes ((H.twox128 pallet ++ H.twox128 entryName) ++ rest))
      (value := Buf.ofBytes valueBytes) (s := ⟨data, d, collectDocs docs⟩) hk (reliable_ofBytes _) (reliable_ofBytes _)
      (entry := ⟨.map hs keyTy vty, docs⟩) ⟨rfl, _, rest, rfl, hpre, hd, he⟩
    exact ⟨s', g1, sameKey_of g2, g3, g4⟩

/-- **C76.** Keys of an entry for different values are different, where the values are kept in the key: equal keys show
the same. -/
theorem node_keys_differ (hk : EmptyArraysGrounded R) (hg : H.Good) {n n' : Nat} {pallet entryName pallet' entryName' : Bytes} {entry : Entry}
    {vs vs' : List Value} {keyBytes : Bytes} {shown shown' : KeyOf}
    (h : Node.key H R n pallet entryName entry vs = some (keyBytes, shown))
    (h' : Node.key H R n' pallet' entryName' entry vs' = some (keyBytes, shown')) : shown = shown' := by
  obtain ⟨ty, docs⟩ := entry
  cases ty with
  | plain vty =>
    simp only [Node.key] at h h'
    split at h
    · split at h'
      · simp only [Option.some.injEq, Prod.mk.injEq] at h h'
        rw [← h.2, ← h'.2]
      · cases h'
    · cases h
  | map hs keyTy vty =>
    have hpre : (H.twox128 pallet ++ H.twox128 entryName).length = 32 := by rw [List.length_append, hg.twox128, hg.twox128]
    have hpre' : (H.twox128 pallet' ++ H.twox128 entryName').length = 32 := by rw [List.length_append, hg.twox128, hg.twox128]
    obtain ⟨data, rest, e, hd, rfl⟩ := node_keyIs hk hg h
    obtain ⟨data', rest', e', hd', rfl⟩ := node_keyIs hk hg h'
    obtain ⟨k, g1, g2⟩ := processKeyMapped_complete (key := Buf.ofBytes keyBytes) hk (reliable_ofBytes _) e hd
    obtain ⟨k', g3, g4⟩ := processKeyMapped_complete (key := Buf.ofBytes keyBytes) hk (reliable_ofBytes _) e' hd'
    rw [hpre] at g1
    rw [hpre', g1] at g3
    cases g3
    rw [← sameKey_of g2, ← sameKey_of g4]

/-! ### Instances -/

namespace Example

/-- The call of the examples, as values. -/
def callValues : CallOf := callOf call

/-- The unsigned extrinsic, as a node writes it. -/
theorem unsigned_written : Node.extrinsic extrinsicChain 6 (.unsigned callValues) = some unsignedBytes := rfl

example : ∃ u, decodeUncheckedExtrinsic extrinsicChain (Buf.ofBytes unsignedBytes) = .ok u ∧
    extrinsicOf u = .unsigned callValues :=
  node_extrinsic_decoded chain_ranked.emptyArrays unsigned_written

/-- The signed one. -/
def signedValues : ExtrinsicOf := .signed (.uint .u8 77) (.hash genesis) (.era .immortal) callValues

theorem signed_written : Node.extrinsic extrinsicChain 6 signedValues = some signedBytes := rfl

example : ∃ u, decodeUncheckedExtrinsic extrinsicChain (Buf.ofBytes signedBytes) = .ok u ∧ extrinsicOf u = signedValues :=
  node_extrinsic_decoded chain_ranked.emptyArrays signed_written

/-- The unsigned extrinsic is firm: what was decoded, written again, is the data. -/
example : ∃ (n0 : Nat) (head : UInt8) (body tail : Bytes),
    unsignedBytes = compactEncode ((body ++ tail).length + 1) ++ head :: (body ++ tail) ∧
    ∀ n, n0 ≤ n → Node.extrinsic extrinsicChain n (.unsigned callValues) = some (compactEncode (body.length + 1) ++ head :: body) :=
  extrinsic_written (M := extrinsicChain) (b := Buf.ofBytes unsignedBytes) (u := .unsigned call) chain_names chain_signatures rfl (by
    refine .pallet ?_
    simp only [callOf, call, fdsValue, fdValue, edValue, pdValue, List.forall_mem_cons, List.not_mem_nil, false_imp_iff,
      implies_true, and_true]
    exact ⟨.uint _ _, .uint _ _⟩)

/-- Bytes after the call are ignored, not shown. -/
example : ∃ u, decodeUncheckedExtrinsic extrinsicChain (Buf.ofBytes ([44, 4] ++ callBytes ++ [0xde, 0xad, 0xbe])) = .ok u ∧
    extrinsicOf u = .unsigned callValues :=
  (decodeUncheckedExtrinsic_exact chain_ranked.emptyArrays (reliable_ofBytes _)).2
    ⟨_, 4, 4, callBytes, [0xde, 0xad, 0xbe], rfl, rfl, by decide, rfl, by decide, rfl, node_body (n := 6) rfl⟩

/-- All hash functions, for the examples. -/
def allHashes : Node.Hashes where
  blake2_128 := hashes.blake2_128
  twox64 := hashes.twox64
  blake2_256 bs := List.replicate 31 (UInt8.ofNat bs.length) ++ [bs.foldl (· + ·) 1]
  twox128 bs := List.replicate 15 (UInt8.ofNat bs.length) ++ [bs.foldl (· + ·) 2]
  twox256 bs := List.replicate 31 (UInt8.ofNat bs.length) ++ [bs.foldl (· + ·) 3]

theorem allHashes_good : allHashes.Good :=
  ⟨fun _ => by simp [allHashes, hashes], fun _ => by simp [allHashes], fun _ => by simp [allHashes, hashes],
    fun _ => by simp [allHashes], fun _ => by simp [allHashes]⟩

/-- The key of a double map with three hashers, for `(7, 5, 9)`. -/
def nodeKey : Bytes :=
  (List.replicate 15 1 ++ [82]) ++ (List.replicate 15 2 ++ [165]) ++ (List.replicate 15 1 ++ [7, 7]) ++
    (List.replicate 15 4 ++ [7]) ++ (List.replicate 7 1 ++ [9, 9])

/-- What can be seen in it. -/
def nodeSeen : KeyOf := .tuple [.value (.uint .u8 7), .hash .twox128 (List.replicate 15 4 ++ [7]) 1, .value (.uint .u8 9)]

theorem nodeKey_written : Node.key allHashes storageReg 3 [80] [81, 82] entry [.uint .u8 7, .uint .u32 5, .uint .u8 9] =
    some (nodeKey, nodeSeen) := rfl

example : ∃ s, decodeStorageEntry hashes storageReg (Buf.ofBytes nodeKey) (Buf.ofBytes [2, 1, 0, 0]) entry = .ok s ∧
    keyOf s.key = nodeSeen ∧ edValue s.value = .uint .u32 258 ∧ s.docs = "Doc." :=
  node_storage_decoded (m := 3) storageReg_ranked.emptyArrays allHashes_good nodeKey_written rfl

/-- The middle value is not kept: the key may be that of other values, with the same hash. Here `(7, 1280, 9)`. -/
example : Node.key allHashes storageReg 3 [80] [81, 82] entry [.uint .u8 7, .uint .u32 1280, .uint .u8 9] =
    some (nodeKey, nodeSeen) := rfl

example : nodeSeen = nodeSeen := node_keys_differ storageReg_ranked.emptyArrays allHashes_good nodeKey_written
  (vs' := [.uint .u8 7, .uint .u32 1280, .uint .u8 9]) (pallet' := [80]) (entryName' := [81, 82]) (n' := 3) rfl

/-- One hasher, no hashers. -/
example : (Node.key allHashes storageReg 3 [80] [81, 82] ⟨.map [.identity] 1 0, []⟩ [.uint .u32 5]).map (·.1) =
      some ((List.replicate 15 1 ++ [82]) ++ (List.replicate 15 2 ++ [165]) ++ [5, 0, 0, 0]) ∧
    (Node.key allHashes storageReg 3 [80] [81, 82] ⟨.plain 1, []⟩ []).map (·.1) =
      some ((List.replicate 15 1 ++ [82]) ++ (List.replicate 15 2 ++ [165])) := ⟨rfl, rfl⟩

end Example

end Verif
