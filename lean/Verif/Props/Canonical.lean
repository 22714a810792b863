import Verif.Proof.Canonical
import Verif.Props.Decode
/-!
# C50. One value, one encoding

Decoding is a function: one byte string shows one value (C06). Here the other
direction: when the value leaves no freedom (`Firm`), only one byte string decodes
to it. Two different byte strings (for instance two different transactions to be
signed) then never decode to the same value.
-/
namespace Verif
open Spec

variable {R : Registry}

/-- C50. A firm value of a type has one encoding. -/
theorem firm_encoding_unique (hn : NamesDistinct R) (hs : SignaturesDistinct R) {id : Nat} {v : Value} {bs bs' : Bytes}
    (hf : Firm v) (h : Enc R false id v bs) (h' : Enc R false id v bs') : bs = bs' :=
  (enc_unique hn hs h hf v bs' h' rfl).symm

/-- C50. If two successful decodings (any data, any positions, any hints) of the
same type show the same firm value, they read the same bytes. -/
theorem decode_canonical (hn : NamesDistinct R) (hs : SignaturesDistinct R) {b b' : Buf} {id pos q pos' q' : Nat}
    {p p' : Propagated} {d d' : ED} (hp : Fresh p) (hp' : Fresh p')
    (h : decode R b (.symbol id) pos p = .ok (d, q)) (h' : decode R b' (.symbol id) pos' p' = .ok (d', q'))
    (hf : Firm (edValue d)) (he : edValue d = edValue d') : between b pos q = between b' pos' q' :=
  firm_encoding_unique hn hs hf (decode_sound hp h) (he ▸ decode_sound hp' h')

/-- C50, entry point `decode_all_as_type`: different data, different values. -/
theorem decodeAllAsType_canonical (hn : NamesDistinct R) (hs : SignaturesDistinct R) {b b' : Buf} {id : Nat} {d d' : ED}
    (h : decodeAllAsType R b id = .ok d) (h' : decodeAllAsType R b' id = .ok d')
    (hf : Firm (edValue d)) (he : edValue d = edValue d') : b.bytes = b'.bytes :=
  firm_encoding_unique hn hs hf (decodeAllAsType_sound h) (he ▸ decodeAllAsType_sound h')

/-! ### Checking the conditions -/

theorem portable_mem {ts : List Typ} {id : Nat} {t : Typ} (h : (Registry.portable ts).resolve id = .ok t) : t ∈ ts := by
  simp only [Registry.portable] at h
  cases hx : ts[id]? with
  | none => rw [hx] at h; cases h
  | some t' => rw [hx] at h; cases h; exact List.mem_of_getElem? hx

/-- Variants of a type. -/
def variantsOf (t : Typ) : List Variant :=
  match t.typeDef with
  | .variant vs => vs
  | _ => []

/-- Distinct names can be checked type by type. -/
theorem namesDistinct_of_check {ts : List Typ}
    (h : ∀ t ∈ ts, ((variantsOf t).map (·.name)).Nodup) : NamesDistinct (Registry.portable ts) := by
  intro id t vs hr hd v hv w hw hvw
  have h1 := h t (portable_mem hr)
  unfold variantsOf at h1
  rw [hd] at h1
  dsimp only at h1
  clear hd
  induction vs with
  | nil => cases hv
  | cons u us ih =>
    rw [List.map_cons, List.nodup_cons] at h1
    rcases List.mem_cons.1 hv with rfl | hv'
    · rcases List.mem_cons.1 hw with rfl | hw'
      · rfl
      · exact absurd (List.mem_map.2 ⟨w, hw', hvw.symm⟩) h1.1
    · rcases List.mem_cons.1 hw with rfl | hw'
      · exact absurd (List.mem_map.2 ⟨v, hv', hvw⟩) h1.1
      · exact ih hv' hw' h1.2

/-- Distinct signatures can be checked type by type: variants with the same field
type names have the same index. -/
theorem signaturesDistinct_of_check {ts : List Typ}
    (h : ∀ t ∈ ts, ∀ v ∈ variantsOf t, ∀ w ∈ variantsOf t,
      special t.path = some .multiSignature → v.fields.map (·.typeName) = w.fields.map (·.typeName) →
      v.index = w.index) : SignaturesDistinct (Registry.portable ts) := by
  intro id t i j k hr hi hj
  obtain ⟨hp, vs, v, f, hd, hv, hvf, ht, -⟩ := hi
  obtain ⟨-, vs', w, g, hd', hw, hwf, ht', -⟩ := hj
  rw [hd] at hd'
  cases hd'
  rw [← (selects_mem hv).2, ← (selects_mem hw).2]
  have hvs : variantsOf t = vs := by unfold variantsOf; rw [hd]
  refine h t (portable_mem hr) v (hvs ▸ (selects_mem hv).1) w (hvs ▸ (selects_mem hw).1) hp ?_
  rw [hvf, hwf]
  simp only [List.map_cons, List.map_nil, List.cons.injEq, and_true]
  rcases ht with ⟨rfl, h1⟩ | ⟨rfl, h1⟩ | ⟨rfl, h1⟩ <;>
    rcases ht' with ⟨h2, h3⟩ | ⟨h2, h3⟩ | ⟨h2, h3⟩ <;> first | (cases h2; done) | rw [h1, h3]

/-- Types with a signature enum: `0: u8`, `1: [u8; 64]`, `2: [u8; 65]`, `3: ed25519::Signature`,
`4: ecdsa::Signature`, `5: MultiSignature`. -/
def sigTypes : List Typ :=
  [{ typeDef := .primitive .u8 }, { typeDef := .array 64 0 }, { typeDef := .array 65 0 },
   { path := ["sp_core", "ed25519", "Signature"], typeDef := .composite [{ ty := 1 }] },
   { path := ["sp_core", "ecdsa", "Signature"], typeDef := .composite [{ ty := 2 }] },
   { path := ["sp_runtime", "MultiSignature"], typeDef := .variant
      [{ name := "Ed25519", index := 0, fields := [{ ty := 3, typeName := some "ed25519::Signature" }] },
       { name := "Ecdsa", index := 2, fields := [{ ty := 4, typeName := some "ecdsa::Signature" }] }] }]

example : NamesDistinct (Registry.portable sigTypes) ∧ SignaturesDistinct (Registry.portable sigTypes) :=
  ⟨namesDistinct_of_check (by decide), signaturesDistinct_of_check (by decide)⟩

theorem good_names : NamesDistinct Example.good := namesDistinct_of_check (by decide)
theorem good_signatures : SignaturesDistinct Example.good := signaturesDistinct_of_check (by decide)

theorem sValue_firm : Firm Example.sValue := by
  refine .record ?_
  simp only [List.forall_mem_cons, List.not_mem_nil, false_imp_iff, implies_true, and_true]
  refine ⟨.uint _ _, .uint _ _, .seq ?_⟩
  simp only [List.forall_mem_cons, List.not_mem_nil, false_imp_iff, implies_true, and_true]
  exact ⟨.uint _ _, .uint _ _⟩

/-- The conditions are met by a struct of a registry with an enum. -/
example : ∃ d, decodeAllAsType Example.good (Buf.ofBytes Example.sBytes) 4 = .ok d ∧ edValue d = Example.sValue ∧
    Firm Example.sValue ∧ NamesDistinct Example.good ∧ SignaturesDistinct Example.good :=
  ⟨_, rfl, rfl, sValue_firm, good_names, good_signatures⟩

/-! ### Where there is freedom

Each condition is needed: without it two byte strings decode to the same value. -/

/-- The unused bits of the last store element of a bit sequence are dropped. -/
example : ∃ d, decodeAllAsType bitReg (Buf.ofBytes [0x0c, 0x34, 0xc0]) 2 = .ok d ∧
    decodeAllAsType bitReg (Buf.ofBytes [0x0c, 0x35, 0xc0]) 2 = .ok d := ⟨_, rfl, rfl⟩

/-- `0: u8`, `1: Percent`, `2: Compact<Percent>`. -/
def perReg : Registry := Registry.portable
  [{ typeDef := .primitive .u8 }, { path := ["Percent"], typeDef := .composite [{ ty := 0 }] }, { typeDef := .compact 1 }]

/-- Compact 100 and compact 200 both are read as a hundred percent. -/
example : ∃ d, decodeAllAsType perReg (Buf.ofBytes [0x91, 0x01]) 2 = .ok d ∧
    decodeAllAsType perReg (Buf.ofBytes [0x21, 0x03]) 2 = .ok d := ⟨_, rfl, rfl⟩

/-- `0`: an enum that names two variants alike. -/
def twinReg : Registry := Registry.portable [{ typeDef := .variant [{ name := "A", index := 0 }, { name := "A", index := 1 }] }]

example : ∃ d d', decodeAllAsType twinReg (Buf.ofBytes [0]) 0 = .ok d ∧ decodeAllAsType twinReg (Buf.ofBytes [1]) 0 = .ok d' ∧
    edValue d = edValue d' := ⟨_, _, rfl, rfl, rfl⟩

end Verif
