import Verif.Spec.Text
import Verif.Props.Show
/-!
# C47: the words of a card
-/
namespace Verif
open Spec

variable {showBits : BitStore → BitOrder → List Bool → String}

theorem written_repr (n : Nat) : Written n (toString n) := by
  have e : (toString n).toList = Nat.toDigits 10 n := by simp
  refine ⟨⟨?_, ?_, ?_⟩, ?_, ?_⟩
  · rw [e]; exact Nat.toDigits_ne_nil
  · rw [e]; intro c hc; exact isDigit_digits (by simpa using hc)
  · simp
  · intro h
    rw [e] at h
    by_cases h0 : n = 0
    · subst h0; rfl
    · exact absurd h (head_digits (Nat.pos_of_ne_zero h0))
  · rw [e]; simp [mantissa, Nat.ofDigitChars_ten_toDigits]

theorem writtenInt_repr (v : Int) : WrittenInt v (toString v) := by
  cases v with
  | ofNat n => exact .inl ⟨Int.natCast_nonneg n, written_repr n⟩
  | negSucc n =>
    refine .inr ⟨Int.negSucc_lt_zero n, toString (n + 1), ?_, rfl⟩
    have : (-(Int.negSucc n)).toNat = n + 1 := rfl
    rw [this]; exact written_repr _

/-- A number has one text. -/
theorem written_unique {n m : Nat} {s : String} (h : Written n s) (h' : Written m s) : n = m :=
  h.2.2.symm.trans h'.2.2

theorem hexText_bytes (h : Bytes) : HexText (hexBytes h).toList (h.map UInt8.toNat) :=
  hexEncode_ok fun b hb => by
    obtain ⟨x, -, rfl⟩ := List.mem_map.1 hb
    exact x.toNat_lt

/-- **C47.** The text of a card is two spaces for every indent, the label of the card and
its payload as described by the specification. The only cards without such a text are those
whose amount could not be printed, and there are none (C36). -/
theorem show_line (c : ExtendedCard) (hb : c.parserCard ≠ .balance none) (ht : c.parserCard ≠ .tip none) :
    ∃ label payload, Line showBits c.parserCard label payload ∧
      (c.show showBits).toList = List.replicate (2 * c.indent) ' ' ++ label.toList ++
        (match payload with | none => [] | some p => ':' :: ' ' :: p.toList) := by
  refine ⟨(c.parserCard.line showBits).1, (c.parserCard.line showBits).2, ?_, ?_⟩
  · obtain ⟨card, indent, info⟩ := c
    simp only at hb ht ⊢
    cases card with
    | balance a =>
      cases a with
      | none => exact absurd rfl hb
      | some a => exact .balance
    | balanceRaw s => exact .balanceRaw
    | bitVec s o l =>
      have : ∃ a b, (s, a) ∈ storeLabels ∧ (o, b) ∈ orderLabels ∧
          bitVecCardName s o = "BitVec<" ++ a ++ ", " ++ b ++ ">" := by
        clear hb ht
        refine ⟨match s with | .u8 => "u8" | .u16 => "u16" | .u32 => "u32" | .u64 => "u64",
          match o with | .lsb0 => "Lsb0" | .msb0 => "Msb0", ?_, ?_, ?_⟩
        · cases s <;> simp [storeLabels]
        · cases o <;> simp [orderLabels]
        · cases s <;> cases o <;> decide
      obtain ⟨a, b, ha, hb, e⟩ := this
      show Line showBits _ (bitVecCardName s o) _
      rw [e]
      exact .bits ha hb
    | blockHash h => exact .blockHash (hexText_bytes h)
    | callName s => exact .call
    | compositeAnnounced n => exact .struct (written_repr n)
    | emptyEnum => exact .never
    | enumAnnounced => exact .enum
    | enumVariantName s => exact .variantName
    | era e =>
      cases e with
      | immortal => exact .immortal
      | mortal period phase => exact .mortal (written_repr _) (written_repr _)
    | eventName s => exact .event
    | fieldName s => exact .fieldName
    | fieldNumber n => exact .fieldNumber (written_repr n)
    | genesisHash h => exact .genesisHash (hexText_bytes h)
    | h256 h => exact .h256 (hexText_bytes h)
    | raw k h => exact .raw (by cases k <;> simp [fixedLabels, FixedKind.cardName, ParserCard.line]) (hexText_bytes h)
    | key k d =>
      obtain ⟨a, i⟩ := d
      exact .key (by cases k <;> simp [fixedLabels, FixedKind.cardName, ParserCard.line])
    | nameSpecVersion n v => exact .chain
    | nonce s => exact .nonce
    | palletName s => exact .pallet
    | perThing k v => exact .per (by cases k <;> simp [perLabels, PerKind.name, ParserCard.line]) (written_repr v)
    | bool v => cases v with
      | true => exact .yes
      | false => exact .no
    | char v => exact .char
    | int w v => exact .int (by cases w <;> simp [intLabels, IW.name, ParserCard.line]) (writtenInt_repr v)
    | uint w v => exact .uint (by cases w <;> simp [uintLabels, UW.name, ParserCard.line]) (written_repr v)
    | u256 v => exact .u256 (written_repr v)
    | sequenceAnnounced n is => exact .list (written_repr n)
    | sequenceU8 hex t is => cases t with
      | none => exact .bytesHex
      | some s => exact .bytesText
    | specName s => exact .specName
    | text s => exact .text
    | tip a =>
      cases a with
      | none => exact absurd rfl ht
      | some a => exact .tip
    | tipAsset s => exact .tipAsset
    | tupleAnnounced n => exact .tuple (written_repr n)
    | txVersion s => exact .txVersion
  · rw [show_toList, List.append_assoc]
    cases (c.parserCard.line showBits).2 <;> simp [afterLabel]

/-- **C48.** Docs and path beside a card are those of the type. -/
theorem flatten_flat (i : Info) : i.flatten = flat i.docs i.path := by
  obtain ⟨docs, path⟩ := i
  have key : ∀ (s : String) (rest : List String),
      " >> ".intercalate (s :: rest) = rest.foldl (fun a b => a ++ " >> " ++ b) s := by
    intro s rest
    induction rest generalizing s with
    | nil =>
      apply String.toList_inj.1
      simp [String.toList_intercalate]
    | cons b rest ih =>
      rw [List.foldl_cons, ← ih]
      apply String.toList_inj.1
      cases rest <;> simp [String.toList_intercalate, List.intercalate, String.toList_append]
  unfold Info.flatten flat
  congr 1
  · simp
  · cases path with
    | nil => rfl
    | cons s rest => simp [key]

example : (⟨"the docs", ["sp_core", "crypto", "AccountId32"]⟩ : Info).flatten =
    ⟨some "the docs", some "sp_core >> crypto >> AccountId32"⟩ := by decide

example : ∃ c : ExtendedCard, c.parserCard ≠ .balance none ∧ c.parserCard ≠ .tip none ∧
    c.show (fun _ _ _ => "") = "    Block Hash: 0aff" := by
  refine ⟨⟨.blockHash [10, 255], 2, []⟩, by decide, by decide, by decide⟩

end Verif
