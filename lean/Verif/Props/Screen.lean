import Verif.Proof.Screen
import Verif.Props.Westend
import Verif.Props.Show
/-!
# C85: the screen of a transfer

Line by line what `show` gives for every transfer of Westend 9111, and that nothing but this transfer gives these lines.
-/
namespace Verif
open Spec Westend Spec.Westend

variable {b : Buf} {expected : Option Bytes} {account : Bytes} {amount : Nat} {x : Extensions}

theorem card_of_transfer (P : Printers) (specs : ShortSpecs) (showBits : BitStore → BitOrder → List Bool → String)
    {r : TransactionParsed V14Err} {k : Call} (h : parseTransaction westend.toMetadata b expected = .ok r) (hk : r.callResult = .ok k)
    (hc : callOf k = transfer account amount) (hv : r.extensions.map edValue = x.values) :
    screen showBits (k.card P specs "westend" 0) = callScreen specs (P.base58 .id account specs.base58prefix) amount ∧
      screen showBits (r.card P specs "westend").extensions = extensionsScreen specs x := by
  obtain ⟨-, hcall, -, -, hsig⟩ := westend_metadata
  constructor
  · obtain ⟨m, -, -, ⟨c', k1, k2⟩ | ⟨e, -, k2⟩⟩ := parseTransaction_iff.1 h
    · rw [hk] at k2; cases k2
      obtain ⟨id', info, k3, k4⟩ := decodeAsCall_shown k1
      cases hcall.symm.trans k3
      exact call_lines k4 hc
    · rw [hk] at k2; cases k2
  · obtain ⟨_, signed, _, _, extBytes, -, h2, -, -, -, -, h4, -⟩ := parseTransaction_sound_length h hk
    cases hsig.symm.trans h2
    exact extensions_lines h4 hv

/-- C85. A payload for the transfer of `amount` to `account` is shown with exactly these lines. -/
theorem westend_screen (P : Printers) (specs : ShortSpecs) (showBits : BitStore → BitOrder → List Bool → String) (hr : Reliable b)
    (ha : account.length = 32) (hn : amount < 2 ^ 128) (hx : x.Valid expected)
    (hb : b.bytes = payload (transferKeepAlive account amount) x) :
    ∃ r k, parseTransaction westend.toMetadata b expected = .ok r ∧ r.callResult = .ok k ∧
      screen showBits (k.card P specs "westend" 0) = callScreen specs (P.base58 .id account specs.base58prefix) amount ∧
      screen showBits (r.card P specs "westend").extensions = extensionsScreen specs x := by
  have hl : (transferKeepAlive account amount).length < 2 ^ 32 := by
    have := compactEncode_length_le (v := amount) (by omega)
    simp only [transferKeepAlive, List.length_append, List.length_cons, List.length_nil, ha]
    omega
  obtain ⟨r, k, h1, h2, h3, h4⟩ := (westend_transaction hr).2 ⟨_, x, hb, hl, hx, rfl, transfer_iff.2 ⟨ha, hn, rfl⟩⟩
  exact ⟨r, k, h1, h2, card_of_transfer P specs showBits h1 h2 h3 h4⟩

theorem screen_cardLines {showBits : BitStore → BitOrder → List Bool → String} :
    ∀ {l l' : List ExtendedCard}, screen showBits l = screen showBits l' → cardLines showBits l = cardLines showBits l'
  | [], [], _ => rfl
  | [], _ :: _, h => by cases h
  | _ :: _, [], h => by cases h
  | c :: l, c' :: l', h => by
    unfold screen at h
    rw [List.map_cons, List.map_cons] at h
    injection h with h1 h2
    unfold cardLines
    rw [List.map_cons, List.map_cons, (show_injective h1).2]
    have := screen_cardLines (l := l) (l' := l') h2
    unfold cardLines at this
    rw [this]

/-- C85. With addresses in SS58, the payload of this transfer is the only one with these lines. -/
theorem westend_screen_only {specs : ShortSpecs} {checksum : Bytes → UInt8 × UInt8} {icon : Bytes → Bytes}
    {showBits : BitStore → BitOrder → List Bool → String} (hd : specs.decimals < 256) (hs : ShowsBits showBits) (hr : Reliable b)
    (ha : account.length = 32) (hn : amount < 2 ^ 128) (hx : x.Valid expected) :
    (∃ r k, parseTransaction westend.toMetadata b expected = .ok r ∧ r.callResult = .ok k ∧
      screen showBits (k.card (ss58Printers checksum icon) specs "westend" 0) =
        callScreen specs ((ss58Printers checksum icon).base58 .id account specs.base58prefix) amount ∧
      screen showBits (r.card (ss58Printers checksum icon) specs "westend").extensions = extensionsScreen specs x) ↔
    b.bytes = payload (transferKeepAlive account amount) x := by
  constructor
  · rintro ⟨r, k, h1, h2, h3, h4⟩
    have hl : (transferKeepAlive account amount).length < 2 ^ 32 := by
      have := compactEncode_length_le (v := amount) (by omega)
      simp only [transferKeepAlive, List.length_append, List.length_cons, List.length_nil, ha]
      omega
    obtain ⟨r', k', g1, g2, g3, g4⟩ := (westend_transaction (expected := expected)
      (reliable_ofBytes (payload (transferKeepAlive account amount) x))).2
      ⟨_, x, rfl, hl, hx, rfl, transfer_iff.2 ⟨ha, hn, rfl⟩⟩
    obtain ⟨e1, e2⟩ := card_of_transfer (ss58Printers checksum icon) specs showBits g1 g2 g3 g4
    have hf : ∀ f ∈ fdsValue k'.fields, Firm f.2 := by
      have : fdsValue k'.fields = (transfer account amount).args := by rw [← g3]; rfl
      rw [this]
      simp only [transfer, List.forall_mem_cons, List.not_mem_nil, false_implies, implies_true, and_true]
      exact ⟨.variant (by simp; exact .fixed _ _), .uint _ _⟩
    exact (westend_signs hd hs (reliable_ofBytes _) g1 h1 g2 h2 hf (screen_cardLines (e1.trans h3.symm))
      (screen_cardLines (e2.trans h4.symm))).symm
  · exact fun hb => westend_screen _ specs showBits hr ha hn hx hb

/-- C85. The texts of amount and tip tell them, in the unit of the chain. -/
theorem amountText_money (specs : ShortSpecs) (hd : specs.decimals < 256) (n : Nat) (hn : n < 2 ^ 128) :
    Money specs n (amountText specs n) := by
  obtain ⟨cur, pre, num, den, whole, fraction, h1, h2, h3, h4, h5⟩ := balance_value n specs.decimals specs.unit hn hd
  refine ⟨cur.number, pre, num, den, whole, fraction, ?_, h3, h4, h5⟩
  unfold amountText
  rw [h1, currencyText, h2]

end Verif
