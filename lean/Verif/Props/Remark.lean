import Verif.Proof.Remark
import Verif.Proof.RemarkLines
import Verif.Props.PolkadotScreen
import Verif.Props.Unforged
/-!
# C97: remarks, shown and signed

`System.remark` carries any bytes, as text, digits or an empty list. What is shown for it is the message that is signed, and
without line breaks in the message no other payload can be printed like it.
-/
namespace Verif
open Spec Spec.Polkadot
open Verif.Polkadot (remark_iff remark_lines)
open Spec.Westend (screen)

variable {b : Buf} {expected : Option Bytes} {message : Bytes} {x : Extensions} {specs : ShortSpecs}
  {showBits : BitStore → BitOrder → List Bool → String}

/-- C97. A payload is read as the remark of this message exactly if it is, byte by byte, one with this remark. -/
theorem polkadot_remark (hr : Reliable b) :
    (∃ r k, parseTransaction polkadot.toMetadata b expected = .ok r ∧ r.callResult = .ok k ∧ callOf k = remark message) ↔
      (remarkCall message).length < 2 ^ 32 ∧
        ∃ x : Extensions, x.Valid expected ∧ b.bytes = payload (remarkCall message) x := by
  constructor
  · rintro ⟨r, k, h1, h2, h3⟩
    obtain ⟨call, x, hb, hl, hx, -, hc⟩ := (polkadot_transaction hr).1 ⟨r, k, h1, h2, h3, rfl⟩
    obtain ⟨-, rfl⟩ := remark_iff.1 hc
    exact ⟨hl, x, hx, hb⟩
  · rintro ⟨hl, x, hx, hb⟩
    have hm : message.length < 2 ^ 32 := by
      simp only [remarkCall, List.length_append, List.length_cons, List.length_nil] at hl
      omega
    obtain ⟨r, k, h1, h2, h3, -⟩ := (polkadot_transaction hr).2 ⟨_, x, hb, hl, hx, rfl, remark_iff.2 ⟨hm, rfl⟩⟩
    exact ⟨r, k, h1, h2, h3⟩

/-- C97. It is shown with exactly these lines, whatever the message. -/
theorem polkadot_remark_screen (P : Printers) (specs : ShortSpecs) (showBits : BitStore → BitOrder → List Bool → String)
    (hr : Reliable b) (hl : (remarkCall message).length < 2 ^ 32) (hx : x.Valid expected)
    (hb : b.bytes = payload (remarkCall message) x) :
    ∃ r k, parseTransaction polkadot.toMetadata b expected = .ok r ∧ r.callResult = .ok k ∧
      screen showBits (k.card P specs "polkadot" 0) = remarkScreen message ∧
      screen showBits (r.card P specs "polkadot").extensions = extensionsScreen specs x := by
  obtain ⟨-, hcall, -, -, hsig⟩ := polkadot_metadata
  have hm : message.length < 2 ^ 32 := by
    simp only [remarkCall, List.length_append, List.length_cons, List.length_nil] at hl
    omega
  obtain ⟨r, k, h, hk, hc, hv⟩ := (polkadot_transaction hr).2 ⟨_, x, hb, hl, hx, rfl, remark_iff.2 ⟨hm, rfl⟩⟩
  refine ⟨r, k, h, hk, ?_, ?_⟩
  · obtain ⟨m, -, -, ⟨c', k1, k2⟩ | ⟨e, -, k2⟩⟩ := parseTransaction_iff.1 h
    · rw [hk] at k2; cases k2
      obtain ⟨id', info, k3, k4⟩ := decodeAsCall_shown k1
      cases hcall.symm.trans k3
      exact remark_lines k4 hc
    · rw [hk] at k2; cases k2
  · obtain ⟨_, signed, _, _, extBytes, -, h2, -, -, -, -, h4, -⟩ := parseTransaction_sound_length h hk
    cases hsig.symm.trans h2
    exact Verif.Polkadot.extensions_lines hx.metadataHash h4 hv

theorem remark_firm (message : Bytes) : ∀ f ∈ (remark message).args, Firm f.2 := by
  simp only [remark, List.forall_mem_cons, List.not_mem_nil, false_implies, implies_true, and_true]
  refine .seq ?_
  intro v hv
  obtain ⟨y, -, rfl⟩ := List.mem_map.1 hv
  exact .uint _ _

/-- C97. Line by line, the payload of this remark is the only one with these lines, whatever the message. -/
theorem polkadot_remark_screen_only {checksum : Bytes → UInt8 × UInt8} {icon : Bytes → Bytes}
    (hd : specs.decimals < 256) (hs : ShowsBits showBits) (hr : Reliable b)
    (hl : (remarkCall message).length < 2 ^ 32) (hx : x.Valid expected) :
    (∃ r k, parseTransaction polkadot.toMetadata b expected = .ok r ∧ r.callResult = .ok k ∧
      screen showBits (k.card (ss58Printers checksum icon) specs "polkadot" 0) = remarkScreen message ∧
      screen showBits (r.card (ss58Printers checksum icon) specs "polkadot").extensions = extensionsScreen specs x) ↔
    b.bytes = payload (remarkCall message) x := by
  constructor
  · rintro ⟨r, k, h1, h2, h3, h4⟩
    obtain ⟨r', k', g1, g2, e1, e2⟩ := polkadot_remark_screen (ss58Printers checksum icon) specs showBits
      (reliable_ofBytes (payload (remarkCall message) x)) hl hx rfl
    obtain ⟨r'', k'', g1', g2', g3⟩ := (polkadot_remark (expected := expected)
      (reliable_ofBytes (payload (remarkCall message) x))).2 ⟨hl, x, hx, rfl⟩
    cases g1.symm.trans g1'
    cases g2.symm.trans g2'
    have hf : ∀ f ∈ fdsValue k'.fields, Firm f.2 := by
      have : fdsValue k'.fields = (remark message).args := by rw [← g3]; rfl
      rw [this]
      exact remark_firm message
    exact (polkadot_signs hd hs (reliable_ofBytes _) g1 h1 g2 h2 hf (screen_cardLines (e1.trans h3.symm))
      (screen_cardLines (e2.trans h4.symm))).symm
  · exact fun hb => polkadot_remark_screen _ specs showBits hr hl hx hb

/-- The lines of a remark are plain, or have no line breaks if the message has none. -/
theorem remark_plain (ht : ∀ s, stringFromUtf8 message = some s → Unbroken s) :
    ∀ s ∈ remarkScreen message, PlainLine s ∨ Unbroken s := by
  unfold remarkScreen messageLine
  simp only [List.forall_mem_cons, List.not_mem_nil, false_implies, implies_true, and_true]
  refine ⟨.inl (by decide), .inl (by decide), .inl (by decide), ?_⟩
  split
  · exact .inl (by decide)
  · cases hm : stringFromUtf8 message with
    | none => exact .inl (plain_append _ (by decide))
    | some t => exact .inr (unbroken_append (by unfold Unbroken; decide) (ht t hm))

/-- C97. As one text: without line breaks in the message, no other payload, with any texts in it, is printed like this one. -/
theorem polkadot_remark_unforged {checksum : Bytes → UInt8 × UInt8} {icon : Bytes → Bytes}
    (hd : specs.decimals < 256) (hs : ShowsBits showBits) (hb : ∀ s o l, Unbroken (showBits s o l)) (hu : Unbroken specs.unit)
    (hr : Reliable b) (hl : (remarkCall message).length < 2 ^ 32) (hx : x.Valid expected)
    (ht : ∀ s, stringFromUtf8 message = some s → Unbroken s)
    (hm : ∀ h s, x.metadataHash = some h → stringFromUtf8 h = some s → Unbroken s) :
    (∃ r k, parseTransaction polkadot.toMetadata b expected = .ok r ∧ r.callResult = .ok k ∧
      printout showBits (k.card (ss58Printers checksum icon) specs "polkadot" 0 ++
        (r.card (ss58Printers checksum icon) specs "polkadot").extensions) =
      "\n".intercalate (remarkScreen message ++ extensionsScreen specs x)) ↔
    b.bytes = payload (remarkCall message) x := by
  constructor
  · rintro ⟨r, k, h1, h2, h3⟩
    obtain ⟨r', k', g1, g2, e1, e2⟩ := polkadot_remark_screen (ss58Printers checksum icon) specs showBits
      (reliable_ofBytes (payload (remarkCall message) x)) hl hx rfl
    obtain ⟨r'', k'', g1', g2', g3⟩ := (polkadot_remark (expected := expected)
      (reliable_ofBytes (payload (remarkCall message) x))).2 ⟨hl, x, hx, rfl⟩
    cases g1.symm.trans g1'
    cases g2.symm.trans g2'
    have hf : ∀ f ∈ fdsValue k'.fields, Firm f.2 := by
      have : fdsValue k'.fields = (remark message).args := by rw [← g3]; rfl
      rw [this]
      exact remark_firm message
    have e := screen_append e1 e2
    refine (polkadot_unforged hd hs hb hu (reliable_ofBytes _) g1 h1 g2 h2 hf (oneLine_of_screen
      (parsed_tidy Verif.Polkadot.unbrokenNames (ss58_unbroken checksum icon hb hu (by unfold Unbroken; decide)) g1 g2) e ?_)
      ((printout_screen e).trans h3.symm)).symm
    intro s hs
    replace hs := List.mem_append.1 hs
    rcases hs with hs | hs
    · exact remark_plain ht s hs
    · exact polkadot_extensions_lines _ hm s hs
  · intro hb
    obtain ⟨r, k, h1, h2, h3, h4⟩ := polkadot_remark_screen (ss58Printers checksum icon) specs showBits hr hl hx hb
    exact ⟨r, k, h1, h2, printout_screen (screen_append h3 h4)⟩

open Verif.Polkadot (system_variant remark_variant systemVariant remarkVariant message_iff) in
/-- A remark is known by its pallet and call. -/
theorem remark_named {k : CallOf} {bs : Bytes} (h : CallEnc Verif.Polkadot.registry 93 k bs) (h1 : k.pallet = "System") (h2 : k.call = "remark") :
    ∃ message', k = remark message' := by
  obtain ⟨p, c, args⟩ := k
  cases h1
  cases h2
  rw [Layout.call_iff Verif.Polkadot.namesDistinct Verif.Polkadot.indicesDistinct system_variant rfl remark_variant (by decide +kernel) (by decide +kernel)] at h
  obtain ⟨ps, hl, he, rfl, -⟩ := h
  obtain ⟨⟨v, b⟩, rfl⟩ := Verif.Polkadot.one_length hl
  have e1 : Enc Verif.Polkadot.registry false 14 v b := he (14, v, b) (by simp [remarkVariant])
  obtain ⟨l, -, rfl, -⟩ := message_iff.1 e1
  exact ⟨l, rfl⟩

/-- The first two lines of a call. -/
theorem call_head (P : Printers) (specs : ShortSpecs) (name : String) (k : Call) :
    ∃ i i' l, k.card P specs name 0 = ⟨.palletName k.palletName, 0, i⟩ :: ⟨.callName k.variantName, 1, i'⟩ :: l := by
  unfold Call.card Call.toPD
  rw [PD.card]
  exact ⟨_, _, _, rfl⟩

/-- C97. As one text, too, a payload with a remark is the only one printed like this, whatever line breaks are in its message, in the
hash of its metadata, or in the texts of the other payload. -/
theorem polkadot_remark_unforgeable {checksum : Bytes → UInt8 × UInt8} {icon : Bytes → Bytes}
    (hd : specs.decimals < 256) (hs : ShowsBits showBits) (hb : ∀ s o l, Unbroken (showBits s o l)) (hu : Unbroken specs.unit)
    (hr : Reliable b) (hl : (remarkCall message).length < 2 ^ 32) (hx : x.Valid expected) :
    (∃ r k, parseTransaction polkadot.toMetadata b expected = .ok r ∧ r.callResult = .ok k ∧
      printout showBits (k.card (ss58Printers checksum icon) specs "polkadot" 0 ++
        (r.card (ss58Printers checksum icon) specs "polkadot").extensions) =
      "\n".intercalate (remarkScreen message ++ extensionsScreen specs x)) ↔
    b.bytes = payload (remarkCall message) x := by
  have U := ss58_unbroken checksum icon (specs := specs) (specName := "polkadot") hb hu (by unfold Unbroken; decide)
  constructor
  · rintro ⟨r, k, h1, h2, h3⟩
    obtain ⟨r', k', g1, g2, e1, e2⟩ := polkadot_remark_screen (ss58Printers checksum icon) specs showBits
      (reliable_ofBytes (payload (remarkCall message) x)) hl hx rfl
    have t := parsed_tidy Verif.Polkadot.unbrokenNames U h1 h2
    have t' := parsed_tidy Verif.Polkadot.unbrokenNames U g1 g2
    -- pallet and call
    have hn : k.palletName = "System" ∧ k.variantName = "remark" := by
      obtain ⟨i, i', l, hk⟩ := call_head (ss58Printers checksum icon) specs "polkadot" k
      rw [hk] at h3 t
      have u1 : Unbroken (ExtendedCard.show showBits ⟨.palletName k.palletName, 0, i⟩) := tidy_clean (t _ (by simp)) (by simp [Wordy])
      have u2 : Unbroken (ExtendedCard.show showBits ⟨.callName k.variantName, 1, i'⟩) := tidy_clean (t _ (by simp)) (by simp [Wordy])
      have s1 : ExtendedCard.show showBits ⟨.palletName k.palletName, 0, i⟩ = "Pallet: " ++ k.palletName := by
        simp only [ExtendedCard.show, ParserCard.line]
        rw [Verif.Polkadot.line_at 0 "Pallet" _ "Pallet: " (by decide)]
      have s2 : ExtendedCard.show showBits ⟨.callName k.variantName, 1, i'⟩ = "  Call: " ++ k.variantName := by
        simp only [ExtendedCard.show, ParserCard.line]
        rw [Verif.Polkadot.line_at 1 "Call" _ "  Call: " (by decide)]
      rw [s1] at u1
      rw [s2] at u2
      unfold printout remarkScreen at h3
      simp only [List.cons_append, List.map_cons, s1, s2] at h3
      have h4 := congrArg String.toList h3
      rw [intercalate_nl, intercalate_nl] at h4
      obtain ⟨a1, a2⟩ := cut_at u1 (by decide) (nl_head _) (nl_head _) h4
      obtain ⟨a3, -⟩ := nl_cut u2 (by unfold Unbroken; decide) a2
      have split : ∀ {p a b : String}, p ++ a = p ++ b → a = b := by
        intro p a b h
        have h := congrArg String.toList h
        rw [String.toList_append, String.toList_append] at h
        exact String.toList_inj.1 (List.append_cancel_left h)
      refine ⟨split (p := "Pallet: ") ?_, split (p := "  Call: ") ?_⟩
      · rw [String.toList_inj.1 a1]; decide
      · rw [a3]; decide
    obtain ⟨call, y, hb', hl', hy, -, hc⟩ := (polkadot_transaction hr).1 ⟨r, k, h1, h2, rfl, rfl⟩
    obtain ⟨message', hm⟩ := remark_named hc hn.1 hn.2
    rw [hm] at hc
    obtain ⟨-, rfl⟩ := remark_iff.1 hc
    obtain ⟨r'', k'', f1, f2, e3, e4⟩ := polkadot_remark_screen (ss58Printers checksum icon) specs showBits hr hl' hy hb'
    cases h1.symm.trans f1
    cases h2.symm.trans f2
    have e := screen_append e1 e2
    have e' := screen_append e3 e4
    rw [printout_screen e'] at h3
    have w := screen_unbroken t' e
    have w' := screen_unbroken t e'
    have h4 := congrArg String.toList h3
    have m0 : ∀ m, remarkScreen m = ["Pallet: System", "  Call: remark", "    Field Name: remark"] ++ [messageLine m] := fun _ => rfl
    have m1 : ∀ m (l : List String), remarkScreen m ++ l = "Pallet: System" :: ("  Call: remark" :: "    Field Name: remark" :: messageLine m :: l) :=
      fun _ _ => rfl
    rw [m1, m1, intercalate_nl, intercalate_nl, List.append_cancel_left_eq] at h4
    simp only [nl, List.cons_append, List.cons.injEq, true_and, List.append_cancel_left_eq] at h4
    obtain ⟨h5, h6⟩ := Verif.Polkadot.text_told (specs := specs) hy.metadataHash hx.metadataHash
      (fun s hs => w' s (List.mem_append_right _ hs)) (fun s hs => w s (List.mem_append_right _ hs)) h4
    have h7 := Verif.Polkadot.extensions_told (specs := specs) (fun s hs => w' s (List.mem_append_right _ hs))
      (fun s hs => w s (List.mem_append_right _ hs)) h6
    have h8 : remarkScreen message' = remarkScreen message := by rw [m0, m0, String.toList_inj.1 h5]
    exact (polkadot_remark_screen_only hd hs hr hl hx).1 ⟨r, k, h1, h2, e3.trans h8, e4.trans h7⟩
  · intro hb
    obtain ⟨r, k, h1, h2, h3, h4⟩ := polkadot_remark_screen (ss58Printers checksum icon) specs showBits hr hl hx hb
    exact ⟨r, k, h1, h2, printout_screen (screen_append h3 h4)⟩

end Verif
