import Verif.Props.Transaction
import Verif.Spec.Storage
/-!
# Storage entries
-/
namespace Verif
open Spec

variable {H : HashFns} {R : Registry} {key value : Buf}

/-! ### One key part -/

theorem cutHash_iff {kind : HashKind} {ty pos pos' : Nat} {part : KeyPart} (hr : Reliable key) :
    cutHash kind ty key pos = .ok (part, pos') ↔
      ∃ hash, hash.length = kind.len ∧ At key.bytes pos hash ∧ part = .hash kind hash ty ∧
        pos' = pos + hash.length := by
  constructor
  · intro h
    unfold cutHash at h
    obtain ⟨s, h1, h⟩ := ebind_ok.1 h
    rw [mapErr_ok] at h1
    obtain ⟨g1, g2⟩ := readSlice_ok h1
    rw [if_neg (by simp [g2])] at h
    cases h
    exact ⟨s, g2, g1, rfl, by rw [g2]⟩
  · rintro ⟨s, h1, h2, rfl, rfl⟩
    unfold cutHash
    rw [readSlice_of_at' hr h2 h1, mapErr_ok.2 rfl, eok_bind, if_neg (by simp [h1]), h1]

theorem cutHash_ok {kind : HashKind} {ty pos pos' : Nat} {part : KeyPart}
    (h : cutHash kind ty key pos = .ok (part, pos')) :
    ∃ hash, hash.length = kind.len ∧ At key.bytes pos hash ∧ part = .hash kind hash ty ∧
      pos' = pos + hash.length := by
  unfold cutHash at h
  obtain ⟨s, h1, h⟩ := ebind_ok.1 h
  rw [mapErr_ok] at h1
  obtain ⟨g1, g2⟩ := readSlice_ok h1
  rw [if_neg (by simp [g2])] at h
  cases h
  exact ⟨s, g2, g1, rfl, by rw [g2]⟩

theorem checkHash_ok {n : Nat} {f : Bytes → Bytes} {ty pos pos' : Nat} {part : KeyPart}
    (h : checkHash R n f ty key pos = .ok (part, pos')) :
    ∃ d k, part = .parsed d ∧ Enc R false ty (edValue d) k ∧ (f k).length = n ∧
      At key.bytes pos (f k ++ k) ∧ pos' = pos + (f k ++ k).length := by
  unfold checkHash at h
  obtain ⟨s, h1, h⟩ := ebind_ok.1 h
  rw [mapErr_ok] at h1
  obtain ⟨g1, g2⟩ := readSlice_ok h1
  rw [if_neg (by simp [g2])] at h
  obtain ⟨⟨d, q⟩, h2, h⟩ := ebind_ok.1 h
  rw [mapErr_ok] at h2
  dsimp only at h
  obtain ⟨k, k1, rfl, k3⟩ := (decode_parses R key _ _).sound h2
  rw [show pos + n + k.length - (pos + n) = k.length by omega] at h
  have hle := g1.le
  have hat : At key.bytes (pos + n) k := k1.at (by omega)
  cases hs : key.readSlice (pos + n) k.length with
  | error e => rw [hs] at h; cases h
  | ok bs =>
    rw [hs] at h
    obtain ⟨m1, m2⟩ := readSlice_ok hs
    have : bs = k := m1.unique hat m2
    subst this
    dsimp only at h
    split at h
    · cases h
    · rename_i hne
      have hsf : s = f bs := by simpa using hne
      cases h
      subst hsf
      refine ⟨d, bs, rfl, ?_, g2, at_append.2 ⟨g1, by rw [g2]; exact hat⟩, by simp [g2]; omega⟩
      exact run_sound.symbol k3

theorem checkHash_complete (hk : EmptyArraysGrounded R) (hr : Reliable key) {n : Nat}
    {f : Bytes → Bytes} {ty pos : Nat} {v : Value} {k : Bytes} (he : Enc R false ty v k)
    (hn : (f k).length = n) (hat : At key.bytes pos (f k ++ k)) :
    ∃ d, checkHash R n f ty key pos = .ok (.parsed d, pos + (f k ++ k).length) ∧ edValue d = v := by
  obtain ⟨a1, a2⟩ := at_append.1 hat
  obtain ⟨d, h1, h2⟩ := decode_complete hk hr (p := Propagated.new) ⟨rfl, rfl⟩ he a2
  refine ⟨d, ?_, h2⟩
  unfold checkHash
  rw [readSlice_of_at' hr a1 hn, mapErr_ok.2 rfl, eok_bind, if_neg (by simp [hn])]
  rw [hn] at h1 a2
  dsimp only
  rw [h1, mapErr_ok.2 rfl, eok_bind]
  dsimp only
  rw [readSlice_of_at' hr a2 (by omega)]
  simp [hn]; omega

/-- C33. A hash that differs from the hash of the key bytes after it is refused. -/
theorem checkHash_mismatch (hk : EmptyArraysGrounded R) (hr : Reliable key) {n : Nat}
    {f : Bytes → Bytes} {ty pos : Nat} {v : Value} {hash k : Bytes} (he : Enc R false ty v k)
    (hn : hash.length = n) (hne : hash ≠ f k) (hat : At key.bytes pos (hash ++ k)) :
    checkHash R n f ty key pos = .error (.err .keyPartHashMismatch) := by
  obtain ⟨a1, a2⟩ := at_append.1 hat
  obtain ⟨d, h1, h2⟩ := decode_complete hk hr (p := Propagated.new) ⟨rfl, rfl⟩ he a2
  unfold checkHash
  rw [readSlice_of_at' hr a1 hn, mapErr_ok.2 rfl, eok_bind, if_neg (by simp [hn])]
  rw [hn] at h1 a2
  dsimp only
  rw [h1, mapErr_ok.2 rfl, eok_bind]
  dsimp only
  rw [readSlice_of_at' hr a2 (by omega)]
  simp [hne]

theorem processHasher_ok {h : Hasher} {ty pos pos' : Nat} {part : KeyPart} (hpos : pos ≤ key.len)
    (hp : processHasher H R h ty key pos = .ok (part, pos')) :
    ∃ bs, KeyPartIs H R h ty part bs ∧ At key.bytes pos bs ∧ pos' = pos + bs.length := by
  cases h <;> unfold processHasher at hp <;> dsimp only at hp
  case identity =>
    obtain ⟨⟨d, q⟩, h2, h⟩ := ebind_ok.1 hp
    rw [mapErr_ok] at h2
    cases h
    obtain ⟨k, k1, rfl, k3⟩ := (decode_parses R key _ _).sound h2
    exact ⟨k, .identity (run_sound.symbol k3), k1.at hpos, rfl⟩
  case blake2_128Concat =>
    obtain ⟨d, k, rfl, h1, h2, h3, rfl⟩ := checkHash_ok hp
    exact ⟨_, .blake2_128Concat h1 h2, h3, rfl⟩
  case twox64Concat =>
    obtain ⟨d, k, rfl, h1, h2, h3, rfl⟩ := checkHash_ok hp
    exact ⟨_, .twox64Concat h1 h2, h3, rfl⟩
  all_goals
    obtain ⟨hash, h1, h2, rfl, rfl⟩ := cutHash_ok hp
    exact ⟨hash, by constructor; exact h1, h2, rfl⟩

theorem processHasher_complete (hk : EmptyArraysGrounded R) (hr : Reliable key) {h : Hasher}
    {ty pos : Nat} {part : KeyPart} {bs : Bytes} (hp : KeyPartIs H R h ty part bs)
    (hat : At key.bytes pos bs) :
    ∃ part', processHasher H R h ty key pos = .ok (part', pos + bs.length) ∧ SamePart part' part := by
  cases hp with
  | identity he =>
    obtain ⟨d, h1, h2⟩ := decode_complete hk hr (p := Propagated.new) ⟨rfl, rfl⟩ he hat
    refine ⟨.parsed d, ?_, h2⟩
    unfold processHasher
    dsimp only
    rw [h1, mapErr_ok.2 rfl, eok_bind]
  | blake2_128Concat he hl =>
    obtain ⟨d, h1, h2⟩ := checkHash_complete hk hr he hl hat
    exact ⟨_, h1, h2⟩
  | twox64Concat he hl =>
    obtain ⟨d, h1, h2⟩ := checkHash_complete hk hr he hl hat
    exact ⟨_, h1, h2⟩
  | blake2_128 hl => exact ⟨_, (cutHash_iff hr).2 ⟨bs, hl, hat, rfl, rfl⟩, rfl, rfl, rfl⟩
  | blake2_256 hl => exact ⟨_, (cutHash_iff hr).2 ⟨bs, hl, hat, rfl, rfl⟩, rfl, rfl, rfl⟩
  | twox128 hl => exact ⟨_, (cutHash_iff hr).2 ⟨bs, hl, hat, rfl, rfl⟩, rfl, rfl, rfl⟩
  | twox256 hl => exact ⟨_, (cutHash_iff hr).2 ⟨bs, hl, hat, rfl, rfl⟩, rfl, rfl, rfl⟩

/-! ### All key parts -/

theorem hashersLoop_ok : ∀ {hs : List Hasher} {tys : List Nat} {pos pos' : Nat} {parts : List KeyPart},
    tys.length = hs.length → pos ≤ key.len → hashersLoop H R key hs tys pos = .ok (parts, pos') →
    ∃ bs, KeyPartsAre H R hs tys parts bs ∧ At key.bytes pos bs ∧ pos' = pos + bs.length
  | [], [], pos, pos', parts, _, hpos, h => by
    unfold hashersLoop at h
    cases h
    exact ⟨[], .nil, at_nil.2 hpos, rfl⟩
  | h :: hs, ty :: tys, pos, pos', parts, hl, hpos, hh => by
    unfold hashersLoop at hh
    obtain ⟨⟨part, q⟩, h1, hh⟩ := ebind_ok.1 hh
    dsimp only at hh
    obtain ⟨⟨ps, q'⟩, h2, hh⟩ := ebind_ok.1 hh
    cases hh
    obtain ⟨x, g1, g2, rfl⟩ := processHasher_ok hpos h1
    obtain ⟨y, k1, k2, rfl⟩ := hashersLoop_ok (by simpa using hl) g2.le h2
    exact ⟨x ++ y, .cons g1 k1, at_append.2 ⟨g2, k2⟩, by simp; omega⟩

theorem hashersLoop_complete (hk : EmptyArraysGrounded R) (hr : Reliable key)
    {hs : List Hasher} {tys : List Nat} {parts : List KeyPart} {bs : Bytes}
    (h : KeyPartsAre H R hs tys parts bs) : ∀ {pos : Nat}, At key.bytes pos bs →
    ∃ parts', hashersLoop H R key hs tys pos = .ok (parts', pos + bs.length) ∧
      SameParts parts' parts := by
  induction h with
  | nil => intro pos _; exact ⟨[], rfl, .nil⟩
  | cons h1 h2 ih =>
    intro pos hat
    obtain ⟨a1, a2⟩ := at_append.1 hat
    obtain ⟨part', g1, g2⟩ := processHasher_complete hk hr h1 a1
    obtain ⟨parts', k1, k2⟩ := ih a2
    refine ⟨part' :: parts', ?_, .cons g2 k2⟩
    unfold hashersLoop
    rw [g1, eok_bind]
    dsimp only
    rw [k1, eok_bind]
    simp; omega

theorem Spec.KeyPartsAre.length_eq {hs : List Hasher} {tys : List Nat} {parts : List KeyPart} {bs : Bytes}
    (h : KeyPartsAre H R hs tys parts bs) : tys.length = hs.length ∧ parts.length = hs.length := by
  induction h with
  | nil => exact ⟨rfl, rfl⟩
  | cons _ _ ih => simp [ih]

theorem Registry.get_ok {id : Nat} {t : Typ} : R.get id = .ok t ↔ R.resolve id = .ok t := by
  unfold Registry.get
  split <;> simp_all

theorem processKeyMapped_many {hashers : List Hasher} {keyTy pos : Nat} (hn : hashers.length ≠ 1) :
    processKeyMapped H R hashers keyTy key pos = (do
      let ty ← (R.get keyTy).mapErr .parsingKey
      match ty.typeDef with
      | .tuple elems =>
        if elems.length ≠ hashers.length then .error (.err .multipleHashesNumberMismatch)
        else do
          let (content, pos) ← hashersLoop H R key hashers elems pos
          if pos = key.len then .ok (KeyData.tupleHash content (Info.fromTy ty))
          else .error (.err .keyPartsUnused)
      | _ => .error (.err .multipleHashesNotATuple)) := by
  unfold processKeyMapped
  dsimp only
  split
  · simp at hn
  · cases (R.get keyTy).mapErr StErr.parsingKey with
    | error e => rfl
    | ok t =>
      simp only [eok_bind]
      cases t.typeDef with
      | tuple elems =>
        dsimp only
        by_cases hl : elems.length ≠ hashers.length
        · rw [if_pos hl, if_pos hl]; rfl
        · rw [if_neg hl, if_neg hl]
          try cases hashersLoop H R key hashers elems pos <;> rfl
      | _ => rfl

theorem processKeyMapped_one {h : Hasher} {keyTy pos : Nat} :
    processKeyMapped H R [h] keyTy key pos = (do
      let (content, pos) ← processHasher H R h keyTy key pos
      if pos = key.len then .ok (KeyData.singleHash content) else .error (.err .keyPartsUnused)) := by
  unfold processKeyMapped
  dsimp only
  cases processHasher H R h keyTy key pos <;> rfl

theorem at_to_end {data bs : Bytes} {pos : Nat} (h : At data pos bs) (he : pos + bs.length = data.length) :
    ∃ pre, data = pre ++ bs ∧ pre.length = pos := by
  obtain ⟨pre, post, rfl, rfl⟩ := h
  simp at he
  subst he
  exact ⟨pre, by simp, rfl⟩

/-- C32. Key after position `pos`: exactly the parts of the hashers, to the end of the
key. -/
theorem processKeyMapped_sound {hashers : List Hasher} {keyTy pos : Nat} {data : KeyData}
    (hpos : pos ≤ key.len) (h : processKeyMapped H R hashers keyTy key pos = .ok data) :
    ∃ pre rest, key.bytes = pre ++ rest ∧ pre.length = pos ∧ KeyIs H R hashers keyTy data rest := by
  by_cases hn : hashers.length = 1
  · obtain ⟨x, rfl⟩ := List.length_eq_one_iff.1 hn
    rw [processKeyMapped_one] at h
    obtain ⟨⟨part, q⟩, h1, h⟩ := ebind_ok.1 h
    dsimp only at h
    split at h
    · rename_i hq
      cases h
      obtain ⟨bs, g1, g2, rfl⟩ := processHasher_ok hpos h1
      obtain ⟨pre, e1, e2⟩ := at_to_end g2 hq
      exact ⟨pre, bs, e1, e2, x, rfl, g1⟩
    · cases h
  · rw [processKeyMapped_many hn] at h
    obtain ⟨t, h1, h⟩ := ebind_ok.1 h
    rw [mapErr_ok, Registry.get_ok] at h1
    split at h
    · rename_i elems hel
      split at h
      · cases h
      · rename_i hlen
        obtain ⟨⟨parts, q⟩, h2, h⟩ := ebind_ok.1 h
        dsimp only at h
        split at h
        · rename_i hq
          cases h
          obtain ⟨bs, g1, g2, rfl⟩ := hashersLoop_ok (by simpa using hlen) hpos h2
          obtain ⟨pre, e1, e2⟩ := at_to_end g2 hq
          exact ⟨pre, bs, e1, e2, hn, t, elems, h1, hel, rfl, g1⟩
        · cases h
    · cases h

/-- C32. Every such key is accepted. -/
theorem processKeyMapped_complete (hk : EmptyArraysGrounded R) (hr : Reliable key)
    {hashers : List Hasher} {keyTy : Nat} {data : KeyData} {pre rest : Bytes}
    (hb : key.bytes = pre ++ rest) (h : KeyIs H R hashers keyTy data rest) :
    ∃ data', processKeyMapped H R hashers keyTy key pre.length = .ok data' ∧ SameKey data' data := by
  have hat : At key.bytes pre.length rest := ⟨pre, [], by simp [hb], rfl⟩
  have hlen : key.len = pre.length + rest.length := by unfold Buf.len; rw [hb]; simp
  cases data with
  | plain => exact h.elim
  | singleHash part =>
    obtain ⟨x, rfl, h⟩ := h
    obtain ⟨part', g1, g2⟩ := processHasher_complete hk hr h hat
    refine ⟨.singleHash part', ?_, g2⟩
    rw [processKeyMapped_one, g1, eok_bind]
    dsimp only
    rw [if_pos hlen.symm]
  | tupleHash parts info =>
    obtain ⟨hn, t, elems, h1, h2, rfl, h⟩ := h
    obtain ⟨parts', g1, g2⟩ := hashersLoop_complete hk hr h hat
    refine ⟨.tupleHash parts' (Info.fromTy t), ?_, rfl, g2⟩
    rw [processKeyMapped_many hn, Registry.get_ok.2 h1, mapErr_ok.2 rfl, eok_bind]
    dsimp only
    rw [h2]
    dsimp only
    rw [if_neg (by simpa using h.length_eq.1), g1, eok_bind]
    dsimp only
    rw [if_pos hlen.symm]

/-! ### C32, C33 whole entries -/

/-- C32, C33. An accepted storage entry has a key of 32 bytes and the parts made by the
hashers, with correct hashes, and a value of the value type; nothing is left over. -/
theorem decodeStorageEntry_sound {entry : Entry} {s : Storage}
    (h : decodeStorageEntry H R key value entry = .ok s) :
    StorageIs H R entry key.bytes value.bytes s := by
  unfold decodeStorageEntry at h
  dsimp only at h
  split at h
  · cases h
  rename_i hlen
  unfold StorageIs
  split at h
  · rename_i valueTy hty
    split at h
    · cases h
    · rename_i h32
      obtain ⟨d, h1, h⟩ := ebind_ok.1 h
      rw [mapErr_ok] at h1
      cases h
      rw [hty]
      exact ⟨rfl, by simpa [Buf.len] using h32, rfl, decodeAllAsType_sound h1⟩
  · rename_i hashers keyTy valueTy hty
    obtain ⟨k, h1, h⟩ := ebind_ok.1 h
    obtain ⟨d, h2, h⟩ := ebind_ok.1 h
    rw [mapErr_ok] at h2
    cases h
    rw [hty]
    obtain ⟨pre, rest, g1, g2, g3⟩ := processKeyMapped_sound (by omega) h1
    exact ⟨rfl, pre, rest, g1, g2, g3, decodeAllAsType_sound h2⟩

theorem decodeAllAsType_complete_at (hk : EmptyArraysGrounded R) (hr : Reliable value) {id : Nat}
    {v : Value} (he : Enc R false id v value.bytes) : ∃ d, decodeAllAsType R value id = .ok d ∧ edValue d = v := by
  obtain ⟨d, h1, h2⟩ := decode_complete hk hr (pos := 0) (p := Propagated.new)
    ⟨rfl, rfl⟩ he (at_self value.bytes)
  refine ⟨d, ?_, h2⟩
  rw [decodeAllAsType_iff, h1, Nat.zero_add]; rfl

/-- C32, C33. Every such storage entry is accepted, with these values. -/
theorem decodeStorageEntry_complete (hk : EmptyArraysGrounded R) (hrk : Reliable key)
    (hrv : Reliable value) {entry : Entry} {s : Storage} (h : StorageIs H R entry key.bytes value.bytes s) :
    ∃ s', decodeStorageEntry H R key value entry = .ok s' ∧ SameStorage s' s := by
  unfold StorageIs at h
  unfold decodeStorageEntry
  dsimp only
  obtain ⟨hdocs, h⟩ := h
  split at h
  · rename_i valueTy hty
    obtain ⟨h1, h2, h3⟩ := h
    obtain ⟨d, g1, g2⟩ := decodeAllAsType_complete_at hk hrv h3
    refine ⟨⟨.plain, d, collectDocs entry.docs⟩, ?_, ?_, g2, hdocs.symm⟩
    · rw [if_neg (by unfold Buf.len; omega), hty]
      dsimp only
      rw [if_neg (by simpa [Buf.len] using h1), g1, mapErr_ok.2 rfl, eok_bind]
    · rw [h2]; trivial
  · rename_i hashers keyTy valueTy hty
    obtain ⟨pre, rest, h1, h2, h3, h4⟩ := h
    obtain ⟨d, g1, g2⟩ := decodeAllAsType_complete_at hk hrv h4
    obtain ⟨data', k1, k2⟩ := processKeyMapped_complete hk hrk h1 h3
    refine ⟨⟨data', d, collectDocs entry.docs⟩, ?_, k2, g2, hdocs.symm⟩
    rw [if_neg (by unfold Buf.len; rw [h1, List.length_append]; omega), hty]
    dsimp only
    rw [← h2, k1, eok_bind, g1, mapErr_ok.2 rfl, eok_bind]

/-- C32. Keys shorter than the prefix are refused. -/
theorem decodeStorageEntry_short {entry : Entry} (h : key.bytes.length < 32) :
    decodeStorageEntry H R key value entry = .error (.err .keyShorterThanPrefix) := by
  unfold decodeStorageEntry
  dsimp only
  rw [if_pos (show key.len < 32 from h)]

/-- C32. A key of a plain entry that is longer than the prefix is refused. -/
theorem decodeStorageEntry_plain_long {entry : Entry} {valueTy : Nat} (hty : entry.ty = .plain valueTy)
    (h : 32 < key.bytes.length) :
    decodeStorageEntry H R key value entry = .error (.err .plainKeyExceedsPrefix) := by
  unfold decodeStorageEntry
  dsimp only
  rw [if_neg (show ¬ key.len < 32 by unfold Buf.len; omega), hty]
  dsimp only
  rw [if_pos (show key.len ≠ 32 by unfold Buf.len; omega)]

/-- C32. Bytes after the key parts are refused. -/
theorem decodeStorageEntry_unused (hk : EmptyArraysGrounded R) (hr : Reliable key) {entry : Entry}
    {hashers : List Hasher} {keyTy valueTy : Nat} (hty : entry.ty = .map hashers keyTy valueTy)
    {pre rest tail : Bytes} {data : KeyData} (hb : key.bytes = pre ++ rest ++ tail) (hpre : pre.length = 32)
    (h : KeyIs H R hashers keyTy data rest) (ht : tail ≠ []) :
    decodeStorageEntry H R key value entry = .error (.err .keyPartsUnused) := by
  have hat : At key.bytes pre.length rest := ⟨pre, tail, by simp [hb], rfl⟩
  have hlen : key.len = pre.length + rest.length + tail.length := by unfold Buf.len; rw [hb]; simp; omega
  have htl : 0 < tail.length := List.length_pos_iff.2 ht
  have key' : processKeyMapped H R hashers keyTy key pre.length = .error (.err .keyPartsUnused) := by
    cases data with
    | plain => exact h.elim
    | singleHash part =>
      obtain ⟨x, rfl, h⟩ := h
      obtain ⟨part', g1, g2⟩ := processHasher_complete hk hr h hat
      rw [processKeyMapped_one, g1, eok_bind]
      dsimp only
      rw [if_neg (by omega)]
    | tupleHash parts info =>
      obtain ⟨hn, t, elems, h1, h2, rfl, h⟩ := h
      obtain ⟨parts', g1, g2⟩ := hashersLoop_complete hk hr h hat
      rw [processKeyMapped_many hn, Registry.get_ok.2 h1, mapErr_ok.2 rfl, eok_bind]
      dsimp only
      rw [h2]
      dsimp only
      rw [if_neg (by simpa using h.length_eq.1), g1, eok_bind]
      dsimp only
      rw [if_neg (by omega)]
  unfold decodeStorageEntry
  dsimp only
  rw [if_neg (by omega), hty]
  dsimp only
  rw [← hpre, key', eerror_bind]

/-- C32. Several hashers need a tuple key type with as many elements. -/
theorem decodeStorageEntry_tuple {entry : Entry}
    {hashers : List Hasher} {keyTy valueTy : Nat} (hty : entry.ty = .map hashers keyTy valueTy)
    (hlen : 32 ≤ key.bytes.length) (hn : hashers.length ≠ 1) {t : Typ} (ht : R.resolve keyTy = .ok t) :
    ((∀ elems, t.typeDef ≠ .tuple elems) →
      decodeStorageEntry H R key value entry = .error (.err .multipleHashesNotATuple)) ∧
    (∀ elems, t.typeDef = .tuple elems → elems.length ≠ hashers.length →
      decodeStorageEntry H R key value entry = .error (.err .multipleHashesNumberMismatch)) := by
  unfold decodeStorageEntry
  dsimp only
  rw [if_neg (show ¬ key.len < 32 by unfold Buf.len; omega), hty]
  dsimp only
  rw [processKeyMapped_many hn, Registry.get_ok.2 ht, mapErr_ok.2 rfl, eok_bind]
  constructor
  · intro h
    split
    · rename_i elems he; exact absurd he (h elems)
    · rfl
  · intro elems he hl
    rw [he]
    dsimp only
    rw [if_pos hl, eerror_bind]

/-- C33. A concatenating hasher with a wrong hash is refused. -/
theorem decodeStorageEntry_mismatch (hk : EmptyArraysGrounded R) (hr : Reliable key) {entry : Entry}
    {h : Hasher} {keyTy valueTy : Nat} (hty : entry.ty = .map [h] keyTy valueTy)
    {pre hash k tail : Bytes} {v : Value} (hb : key.bytes = pre ++ (hash ++ k) ++ tail) (hpre : pre.length = 32)
    (he : Enc R false keyTy v k)
    (hbad : (h = .blake2_128Concat ∧ hash.length = 16 ∧ hash ≠ H.blake2_128 k) ∨
      (h = .twox64Concat ∧ hash.length = 8 ∧ hash ≠ H.twox64 k)) :
    decodeStorageEntry H R key value entry = .error (.err .keyPartHashMismatch) := by
  have hat : At key.bytes pre.length (hash ++ k) := ⟨pre, tail, by simp [hb], rfl⟩
  have hlen : 32 ≤ key.len := by unfold Buf.len; rw [hb]; simp; omega
  unfold decodeStorageEntry
  dsimp only
  rw [if_neg (by omega), hty]
  dsimp only
  rw [← hpre, processKeyMapped_one]
  rcases hbad with ⟨rfl, h1, h2⟩ | ⟨rfl, h1, h2⟩
  all_goals
    unfold processHasher
    dsimp only
    rw [checkHash_mismatch hk hr he h1 h2 hat]
    rfl

/-! ### C34 no panic -/

theorem readSlice_mapErr_calm {ε : Type} (f : PErr → ε) (pos n : Nat) : Calm ((key.readSlice pos n).mapErr f) :=
  (readSlice_fine _ _ _).mapErr f

theorem cutHash_calm (kind : HashKind) (ty pos : Nat) : Calm (cutHash kind ty key pos) := by
  unfold cutHash
  refine .bind (readSlice_mapErr_calm _ _ _) fun s hs => ?_
  rw [mapErr_ok] at hs
  rw [if_neg (by simp [(readSlice_ok hs).2])]
  exact .ok _

theorem checkHash_calm (hr : Reliable key) (n : Nat) (f : Bytes → Bytes) (ty pos : Nat) :
    Calm (checkHash R n f ty key pos) := by
  unfold checkHash
  refine .bind (readSlice_mapErr_calm _ _ _) fun s hs => ?_
  rw [mapErr_ok] at hs
  obtain ⟨g1, g2⟩ := readSlice_ok hs
  rw [if_neg (by simp [g2])]
  refine .bind ((decode_fine _ _ _).mapErr _) fun x hx => ?_
  obtain ⟨d, q⟩ := x
  rw [mapErr_ok] at hx
  dsimp only
  have hle := g1.le
  obtain ⟨k, k1, rfl, k3⟩ := (decode_parses R key _ _).sound hx
  rw [readSlice_of_at' hr (k1.at (by omega)) (by omega)]
  dsimp only
  split
  · exact .err _
  · exact .ok _

theorem processHasher_calm (hr : Reliable key) (h : Hasher) (ty pos : Nat) :
    Calm (processHasher H R h ty key pos) := by
  unfold processHasher
  split
  case h_7 =>
    refine .bind ((decode_fine _ _ _).mapErr _) fun x _ => .ok _
  all_goals first | exact cutHash_calm _ _ _ | exact checkHash_calm hr _ _ _ _

theorem hashersLoop_calm (hr : Reliable key) : ∀ (hs : List Hasher) (tys : List Nat) (pos : Nat),
    Calm (hashersLoop H R key hs tys pos)
  | [], _, _ => by unfold hashersLoop; exact .ok _
  | _ :: _, [], _ => by unfold hashersLoop; exact .ok _
  | h :: hs, ty :: tys, pos => by
    unfold hashersLoop
    refine .bind (processHasher_calm hr _ _ _) fun x _ => ?_
    dsimp only
    exact .bind (hashersLoop_calm hr hs tys _) fun y _ => .ok _

theorem processKeyMapped_calm (hr : Reliable key) (hashers : List Hasher) (keyTy pos : Nat) :
    Calm (processKeyMapped H R hashers keyTy key pos) := by
  by_cases hn : hashers.length = 1
  · obtain ⟨x, rfl⟩ := List.length_eq_one_iff.1 hn
    rw [processKeyMapped_one]
    refine .bind (processHasher_calm hr _ _ _) fun x _ => ?_
    dsimp only
    split
    · exact .ok _
    · exact .err _
  · rw [processKeyMapped_many hn]
    refine .bind ((Registry.get_fine _ _).mapErr _) fun t _ => ?_
    split
    · split
      · exact .err _
      · refine .bind (hashersLoop_calm hr _ _ _) fun x _ => ?_
        dsimp only
        split
        · exact .ok _
        · exact .err _
    · exact .err _

theorem decodeAllAsType_fine (id : Nat) : Fine (decodeAllAsType R value id) := by
  unfold decodeAllAsType decodeAsTypeAtPosition
  refine .bind (decode_fine _ _ _) fun x _ => ?_
  dsimp only
  split
  · exact .err _
  · exact .ok _

/-- C34. With a key memory that does not fail, the outcome is a storage entry or an
error, for every entry description; the memory of the value may fail. -/
theorem decodeStorageEntry_calm (hr : Reliable key) (entry : Entry) :
    Calm (decodeStorageEntry H R key value entry) := by
  unfold decodeStorageEntry
  dsimp only
  split
  · exact .err _
  · split
    · split
      · exact .err _
      · exact .bind ((decodeAllAsType_fine _).mapErr _) fun _ _ => .ok _
    · exact .bind (processKeyMapped_calm hr _ _ _) fun _ _ =>
        .bind ((decodeAllAsType_fine _).mapErr _) fun _ _ => .ok _

/-! ### Examples -/

namespace Example

/-- Hash functions for the examples: the length and the sum of the bytes, filled up. -/
def hashes : HashFns where
  blake2_128 bs := List.replicate 15 (UInt8.ofNat bs.length) ++ [bs.foldl (· + ·) 0]
  twox64 bs := List.replicate 7 (UInt8.ofNat bs.length) ++ [bs.foldl (· + ·) 0]

/-- Types: `0: u8`, `1: u32`, `2: (u8, u32, u8)`. -/
def storageReg : Registry :=
  Registry.portable [{ typeDef := .primitive .u8 }, { typeDef := .primitive .u32 }, { typeDef := .tuple [0, 1, 0] }]

theorem storageReg_ranked : Ranked storageReg (fun i => if i = 2 then 1 else 0) :=
  ranked_of_check (by decide)

/-- Double map with three hashers. -/
def entry : Entry := { ty := .map [.blake2_128Concat, .twox128, .twox64Concat] 2 1, docs := ["Doc."] }

/-- Prefix of keys. -/
def prefixBytes : Bytes := List.replicate 32 0x55

/-- Key of the entry. -/
def keyBytes : Bytes :=
  prefixBytes ++ (List.replicate 15 1 ++ [7] ++ [7]) ++ List.replicate 16 0xab ++ (List.replicate 7 1 ++ [9] ++ [9])

/-- Decoded entry. -/
def stored : Storage where
  key := .tupleHash
    [.parsed ⟨.uint .u8 7 .none, []⟩, .hash .twox128 (List.replicate 16 0xab) 1, .parsed ⟨.uint .u8 9 .none, []⟩] ⟨"", []⟩
  value := ⟨.uint .u32 258 .none, []⟩
  docs := "Doc."

theorem stored_decoded : decodeStorageEntry hashes storageReg (Buf.ofBytes keyBytes) (Buf.ofBytes [2, 1, 0, 0]) entry =
    .ok stored := rfl

example : StorageIs hashes storageReg entry keyBytes [2, 1, 0, 0] stored := decodeStorageEntry_sound stored_decoded

example : ∃ s', decodeStorageEntry hashes storageReg (Buf.ofBytes keyBytes) (Buf.ofBytes [2, 1, 0, 0]) entry = .ok s' ∧
    SameStorage s' stored :=
  decodeStorageEntry_complete storageReg_ranked.emptyArrays (reliable_ofBytes _) (reliable_ofBytes _)
    (decodeStorageEntry_sound stored_decoded)

/-- Wrong last hash. -/
example : decodeStorageEntry hashes storageReg
    (Buf.ofBytes (prefixBytes ++ (List.replicate 15 1 ++ [7] ++ [7]) ++ List.replicate 16 0xab ++
      (List.replicate 7 1 ++ [8] ++ [9]))) (Buf.ofBytes [2, 1, 0, 0]) entry = .error (.err .keyPartHashMismatch) := rfl

/-- Byte after the key. -/
example : decodeStorageEntry hashes storageReg (Buf.ofBytes (keyBytes ++ [0])) (Buf.ofBytes [2, 1, 0, 0]) entry =
    .error (.err .keyPartsUnused) := rfl

/-- Byte after the value. -/
example : decodeStorageEntry hashes storageReg (Buf.ofBytes keyBytes) (Buf.ofBytes [2, 1, 0, 0, 0]) entry =
    .error (.err (.parsingValue (.someDataNotUsedBlob 4))) := rfl

/-- Tuple with a wrong number of elements, key that is not a tuple, plain entry with long
key, short key. -/
example : decodeStorageEntry hashes storageReg (Buf.ofBytes keyBytes) (Buf.ofBytes [2, 1, 0, 0])
      { ty := .map [.blake2_128Concat, .twox128] 2 1 } = .error (.err .multipleHashesNumberMismatch) ∧
    decodeStorageEntry hashes storageReg (Buf.ofBytes keyBytes) (Buf.ofBytes [2, 1, 0, 0])
      { ty := .map [.blake2_128Concat, .twox128] 1 1 } = .error (.err .multipleHashesNotATuple) ∧
    decodeStorageEntry hashes storageReg (Buf.ofBytes keyBytes) (Buf.ofBytes [2, 1, 0, 0])
      { ty := .plain 1 } = .error (.err .plainKeyExceedsPrefix) ∧
    decodeStorageEntry hashes storageReg (Buf.ofBytes [1]) (Buf.ofBytes [2, 1, 0, 0])
      { ty := .plain 1 } = .error (.err .keyShorterThanPrefix) := ⟨rfl, rfl, rfl, rfl⟩

/-- Plain entry. -/
example : ∃ s, decodeStorageEntry hashes storageReg (Buf.ofBytes prefixBytes) (Buf.ofBytes [2, 1, 0, 0])
      { ty := .plain 1 } = .ok s := ⟨_, rfl⟩

end Example

/-- C34. The condition on the memory is needed: if the external memory of the key fails
on the second read of the key bytes (here two `u8`, which are read as one range only for
hashing), the `expect` of the crate panics. -/
theorem decodeStorageEntry_panics :
    ∃ (R : Registry) (key value : Buf) (entry : Entry) (rk : Nat → Nat), Ranked R rk ∧
      decodeStorageEntry Example.hashes R key value entry = .error .panic ∧
      Calm (decodeStorageEntry Example.hashes R (Buf.ofBytes key.bytes) value entry) :=
  ⟨Registry.portable [{ typeDef := .primitive .u8 }, { typeDef := .tuple [0, 0] }],
    { bytes := Example.prefixBytes ++ (List.replicate 7 2 ++ [3] ++ [1, 2]),
      fault := fun pos n => decide (pos = 40 ∧ n = 2) }, Buf.ofBytes [1],
    { ty := .map [.twox64Concat] 1 0 }, (fun i => if i = 1 then 1 else 0),
    Example.ranked_of_check (by decide), rfl, decodeStorageEntry_calm (reliable_ofBytes _) _⟩

end Verif
