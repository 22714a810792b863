import Verif.Model.Codec
import Verif.Spec.Codec
import Verif.Proof.Leaf
/-!
# Property theorems about the stored structures (C88)
-/
namespace Verif
open Spec

theorem takeUInt_iff {n : Nat} {bs r : Bytes} {v : Nat} :
    takeUInt n bs = some (v, r) ↔ v < 256 ^ n ∧ bs = leBytes n v ++ r := by
  unfold takeUInt
  constructor
  · intro h
    split at h
    · cases h
    · rename_i hl
      simp only [Option.some.injEq, Prod.mk.injEq] at h
      obtain ⟨rfl, rfl⟩ := h
      have e : (bs.take n).length = n := by rw [List.length_take]; omega
      have b := leNat_lt (bs.take n)
      have k := leBytes_leNat (bs.take n)
      rw [e] at b k
      exact ⟨b, by rw [k, List.take_append_drop]⟩
  · rintro ⟨hv, rfl⟩
    rw [if_neg (by rw [List.length_append, leBytes_length]; omega),
      List.take_left' (leBytes_length n v), List.drop_left' (leBytes_length n v),
      leNat_leBytes n v hv]

theorem takeSymbol_iff {bs r : Bytes} {v : Nat} :
    takeSymbol bs = some (v, r) ↔ v < 2 ^ 32 ∧ bs = compactEncode v ++ r := by
  unfold takeSymbol
  constructor
  · intro h; exact compactDecode_sound h
  · rintro ⟨hv, rfl⟩; exact compactDecode_complete r hv

theorem takeString_iff {bs r : Bytes} {s : String} :
    takeString bs = some (s, r) ↔ FitsPrefix s ∧ bs = strEncode s ++ r := by
  unfold takeString
  constructor
  · intro h
    rw [Option.bind_eq_some_iff] at h
    obtain ⟨⟨n, q⟩, h1, h2⟩ := h
    obtain ⟨hn, rfl⟩ := compactDecode_sound h1
    dsimp only at h2
    split at h2
    · cases h2
    · rename_i hl
      rw [Option.map_eq_some_iff] at h2
      obtain ⟨t, h3, h4⟩ := h2
      simp only [Prod.mk.injEq] at h4
      obtain ⟨rfl, rfl⟩ := h4
      have e := stringFromUtf8_iff.1 h3
      have l : (utf8 t).length = n := by rw [← e, List.length_take]; omega
      refine ⟨by unfold FitsPrefix; rw [l]; exact hn, ?_⟩
      rw [strEncode, l, ← e, List.append_assoc, List.take_append_drop]
  · rintro ⟨hs, rfl⟩
    rw [strEncode, List.append_assoc, compactDecode_complete _ hs]
    dsimp only [Option.bind_some]
    rw [if_neg (by rw [List.length_append]; omega), List.take_left, List.drop_left,
      stringFromUtf8_iff.2 rfl]
    rfl

/-- C88. Reading `ShortSpecs` gives exactly the value whose encoding stands there. -/
theorem decodeShortSpecs_iff {bs r : Bytes} {x : ShortSpecs} :
    decodeShortSpecs bs = some (x, r) ↔ ShortSpecsFits x ∧ bs = shortSpecsBytes x ++ r := by
  unfold decodeShortSpecs shortSpecsBytes
  constructor
  · intro h
    simp only [Option.bind_eq_some_iff, Prod.exists, takeUInt_iff, takeString_iff,
      Option.some.injEq, Prod.mk.injEq] at h
    obtain ⟨a, _, ⟨ha, rfl⟩, b, _, ⟨hb, rfl⟩, c, _, ⟨hc, rfl⟩, rfl, rfl⟩ := h
    exact ⟨⟨ha, hb, hc⟩, by simp only [List.append_assoc]⟩
  · rintro ⟨⟨ha, hb, hc⟩, rfl⟩
    simp only [List.append_assoc]
    rw [takeUInt_iff.2 ⟨ha, rfl⟩]
    dsimp only [Option.bind_some]
    rw [takeUInt_iff.2 ⟨hb, rfl⟩]
    dsimp only [Option.bind_some]
    rw [takeString_iff.2 ⟨hc, rfl⟩]
    rfl

/-- C88. The same for `ExtrinsicTypeParams`. -/
theorem decodeExtrinsicParams_iff {bs r : Bytes} {x : ExtrinsicParams} :
    decodeExtrinsicParams bs = some (x, r) ↔
      ExtrinsicParamsFits x ∧ bs = extrinsicParamsBytes x ++ r := by
  unfold decodeExtrinsicParams extrinsicParamsBytes
  constructor
  · intro h
    simp only [Option.bind_eq_some_iff, Prod.exists, takeSymbol_iff,
      Option.some.injEq, Prod.mk.injEq] at h
    obtain ⟨a, _, ⟨ha, rfl⟩, b, _, ⟨hb, rfl⟩, c, _, ⟨hc, rfl⟩, d, _, ⟨hd, rfl⟩, rfl, rfl⟩ := h
    exact ⟨⟨ha, hb, hc, hd⟩, by simp only [List.append_assoc]⟩
  · rintro ⟨⟨ha, hb, hc, hd⟩, rfl⟩
    simp only [List.append_assoc]
    rw [takeSymbol_iff.2 ⟨ha, rfl⟩]
    dsimp only [Option.bind_some]
    rw [takeSymbol_iff.2 ⟨hb, rfl⟩]
    dsimp only [Option.bind_some]
    rw [takeSymbol_iff.2 ⟨hc, rfl⟩]
    dsimp only [Option.bind_some]
    rw [takeSymbol_iff.2 ⟨hd, rfl⟩]
    rfl

/-- C88. The same for `SignedExtensionMetadata`. -/
theorem decodeSignedExt_iff {bs r : Bytes} {x : SignedExt} :
    decodeSignedExt bs = some (x, r) ↔ SignedExtFits x ∧ bs = signedExtBytes x ++ r := by
  unfold decodeSignedExt signedExtBytes
  constructor
  · intro h
    simp only [Option.bind_eq_some_iff, Prod.exists, takeSymbol_iff, takeString_iff,
      Option.some.injEq, Prod.mk.injEq] at h
    obtain ⟨a, _, ⟨ha, rfl⟩, b, _, ⟨hb, rfl⟩, c, _, ⟨hc, rfl⟩, rfl, rfl⟩ := h
    exact ⟨⟨ha, hb, hc⟩, by simp only [List.append_assoc]⟩
  · rintro ⟨⟨ha, hb, hc⟩, rfl⟩
    simp only [List.append_assoc]
    rw [takeString_iff.2 ⟨ha, rfl⟩]
    dsimp only [Option.bind_some]
    rw [takeSymbol_iff.2 ⟨hb, rfl⟩]
    dsimp only [Option.bind_some]
    rw [takeSymbol_iff.2 ⟨hc, rfl⟩]
    rfl

/-- C88. The same for `SpecNameVersion`. -/
theorem decodeSpecNameVersion_iff {bs r : Bytes} {x : SpecNameVersion} :
    decodeSpecNameVersion bs = some (x, r) ↔
      SpecNameVersionFits x ∧ bs = specNameVersionBytes x ++ r := by
  unfold decodeSpecNameVersion specNameVersionBytes
  constructor
  · intro h
    simp only [Option.bind_eq_some_iff, Prod.exists, takeString_iff,
      Option.some.injEq, Prod.mk.injEq] at h
    obtain ⟨a, _, ⟨ha, rfl⟩, b, _, ⟨hb, rfl⟩, rfl, rfl⟩ := h
    exact ⟨⟨ha, hb⟩, by simp only [List.append_assoc]⟩
  · rintro ⟨⟨ha, hb⟩, rfl⟩
    simp only [List.append_assoc]
    rw [takeString_iff.2 ⟨ha, rfl⟩]
    dsimp only [Option.bind_some]
    rw [takeString_iff.2 ⟨hb, rfl⟩]
    rfl

/-- C88. Different structures have different encodings, and what follows does not matter:
neither can an encoding be read as another structure with a shorter or longer tail. -/
theorem stored_once {r r' : Bytes} :
    (∀ {x y : ShortSpecs}, ShortSpecsFits x → ShortSpecsFits y →
      shortSpecsBytes x ++ r = shortSpecsBytes y ++ r' → x = y ∧ r = r') ∧
    (∀ {x y : ExtrinsicParams}, ExtrinsicParamsFits x → ExtrinsicParamsFits y →
      extrinsicParamsBytes x ++ r = extrinsicParamsBytes y ++ r' → x = y ∧ r = r') ∧
    (∀ {x y : SignedExt}, SignedExtFits x → SignedExtFits y →
      signedExtBytes x ++ r = signedExtBytes y ++ r' → x = y ∧ r = r') ∧
    (∀ {x y : SpecNameVersion}, SpecNameVersionFits x → SpecNameVersionFits y →
      specNameVersionBytes x ++ r = specNameVersionBytes y ++ r' → x = y ∧ r = r') := by
  refine ⟨?_, ?_, ?_, ?_⟩ <;> intro x y hx hy e
  · have h := decodeShortSpecs_iff (r := r).2 ⟨hx, rfl⟩
    rw [e, decodeShortSpecs_iff.2 ⟨hy, rfl⟩] at h
    simpa [eq_comm] using h
  · have h := decodeExtrinsicParams_iff (r := r).2 ⟨hx, rfl⟩
    rw [e, decodeExtrinsicParams_iff.2 ⟨hy, rfl⟩] at h
    simpa [eq_comm] using h
  · have h := decodeSignedExt_iff (r := r).2 ⟨hx, rfl⟩
    rw [e, decodeSignedExt_iff.2 ⟨hy, rfl⟩] at h
    simpa [eq_comm] using h
  · have h := decodeSpecNameVersion_iff (r := r).2 ⟨hx, rfl⟩
    rw [e, decodeSpecNameVersion_iff.2 ⟨hy, rfl⟩] at h
    simpa [eq_comm] using h

/-! ### Examples -/

namespace CodecExample

/-- Specs of Westend. -/
def wnd : ShortSpecs := ⟨42, 12, "WND"⟩

theorem wnd_fits : ShortSpecsFits wnd := by
  refine ⟨by decide, by decide, ?_⟩; unfold FitsPrefix; decide

example : decodeShortSpecs [42, 0, 12, 12, 87, 78, 68, 1, 2] = some (wnd, [1, 2]) :=
  decodeShortSpecs_iff.2 ⟨wnd_fits, by decide⟩

example : decodeShortSpecs [42, 0, 12, 16, 87, 78, 68] = none := rfl

example : decodeExtrinsicParams [0xc9, 0x02, 0x04, 0xfc, 0x01, 0x01] =
    some (⟨178, 1, 63, 64⟩, []) :=
  decodeExtrinsicParams_iff.2 ⟨⟨by decide, by decide, by decide, by decide⟩, by decide⟩

example : decodeSignedExt [8, 104, 105, 4, 8, 0] = some (⟨"hi", 1, 2⟩, [0]) :=
  decodeSignedExt_iff.2 ⟨⟨by unfold FitsPrefix; decide, by decide, by decide⟩, by decide⟩

example : decodeSpecNameVersion [16, 57, 49, 49, 49, 0] = some (⟨"9111", ""⟩, []) :=
  decodeSpecNameVersion_iff.2 ⟨⟨by unfold FitsPrefix; decide, by unfold FitsPrefix; decide⟩, by decide⟩

example {y : ShortSpecs} (hy : ShortSpecsFits y)
    (e : [42, 0, 12, 12, 87, 78, 68, 1, 2] = shortSpecsBytes y ++ [1, 2]) : y = wnd :=
  ((stored_once (r := [1, 2]) (r' := [1, 2])).1 wnd_fits hy
    ((show shortSpecsBytes wnd ++ [1, 2] = _ by decide).trans e)).1.symm

end CodecExample

end Verif
