import Verif.Proof.PolkadotScreen
import Verif.Props.Polkadot
import Verif.Props.Screen
/-!
# C93: the screen of a transfer, with V15 metadata

Line by line what `show` gives for every transfer of Polkadot 1003003, and that nothing but this transfer gives these lines.
-/
namespace Verif
open Spec Spec.Polkadot
open Verif.Polkadot (transfer_iff)
open Spec.Westend (screen callScreen)

variable {b : Buf} {expected : Option Bytes} {account : Bytes} {amount : Nat} {x : Extensions}

theorem polkadot_card (P : Printers) (specs : ShortSpecs) (showBits : BitStore → BitOrder → List Bool → String)
    {r : TransactionParsed VersionErr} {k : Call} (h : parseTransaction polkadot.toMetadata b expected = .ok r) (hk : r.callResult = .ok k)
    (hc : callOf k = transfer account amount) (hv : r.extensions.map edValue = x.values)
    (hm : ∀ h, x.metadataHash = some h → h.length = 32) :
    screen showBits (k.card P specs "polkadot" 0) = callScreen specs (P.base58 .id account specs.base58prefix) amount ∧
      screen showBits (r.card P specs "polkadot").extensions = extensionsScreen specs x := by
  obtain ⟨-, hcall, -, -, hsig⟩ := polkadot_metadata
  constructor
  · obtain ⟨m, -, -, ⟨c', k1, k2⟩ | ⟨e, -, k2⟩⟩ := parseTransaction_iff.1 h
    · rw [hk] at k2; cases k2
      obtain ⟨id', info, k3, k4⟩ := decodeAsCall_shown k1
      cases hcall.symm.trans k3
      exact Verif.Polkadot.call_lines k4 hc
    · rw [hk] at k2; cases k2
  · obtain ⟨_, signed, _, _, extBytes, -, h2, -, -, -, -, h4, -⟩ := parseTransaction_sound_length h hk
    cases hsig.symm.trans h2
    exact Verif.Polkadot.extensions_lines hm h4 hv

/-- C93. A payload for the transfer of `amount` to `account` is shown with exactly these lines. -/
theorem polkadot_screen (P : Printers) (specs : ShortSpecs) (showBits : BitStore → BitOrder → List Bool → String) (hr : Reliable b)
    (ha : account.length = 32) (hn : amount < 2 ^ 128) (hx : x.Valid expected)
    (hb : b.bytes = payload (transferKeepAlive account amount) x) :
    ∃ r k, parseTransaction polkadot.toMetadata b expected = .ok r ∧ r.callResult = .ok k ∧
      screen showBits (k.card P specs "polkadot" 0) = callScreen specs (P.base58 .id account specs.base58prefix) amount ∧
      screen showBits (r.card P specs "polkadot").extensions = extensionsScreen specs x := by
  have hl : (transferKeepAlive account amount).length < 2 ^ 32 := by
    have := compactEncode_length_le (v := amount) (by omega)
    simp only [transferKeepAlive, List.length_append, List.length_cons, List.length_nil, ha]
    omega
  obtain ⟨r, k, h1, h2, h3, h4⟩ := (polkadot_transaction hr).2 ⟨_, x, hb, hl, hx, rfl, transfer_iff.2 ⟨ha, hn, rfl⟩⟩
  exact ⟨r, k, h1, h2, polkadot_card P specs showBits h1 h2 h3 h4 hx.metadataHash⟩

/-- C93. With addresses in SS58, the payload of this transfer is the only one with these lines. -/
theorem polkadot_screen_only {specs : ShortSpecs} {checksum : Bytes → UInt8 × UInt8} {icon : Bytes → Bytes}
    {showBits : BitStore → BitOrder → List Bool → String} (hd : specs.decimals < 256) (hs : ShowsBits showBits) (hr : Reliable b)
    (ha : account.length = 32) (hn : amount < 2 ^ 128) (hx : x.Valid expected) :
    (∃ r k, parseTransaction polkadot.toMetadata b expected = .ok r ∧ r.callResult = .ok k ∧
      screen showBits (k.card (ss58Printers checksum icon) specs "polkadot" 0) =
        callScreen specs ((ss58Printers checksum icon).base58 .id account specs.base58prefix) amount ∧
      screen showBits (r.card (ss58Printers checksum icon) specs "polkadot").extensions = extensionsScreen specs x) ↔
    b.bytes = payload (transferKeepAlive account amount) x := by
  constructor
  · rintro ⟨r, k, h1, h2, h3, h4⟩
    obtain ⟨r', k', g1, g2, e1, e2⟩ := polkadot_screen (ss58Printers checksum icon) specs showBits
      (reliable_ofBytes (payload (transferKeepAlive account amount) x)) ha hn hx rfl
    obtain ⟨r'', k'', g1', g2', g3⟩ := (polkadot_transfer (expected := expected)
      (reliable_ofBytes (payload (transferKeepAlive account amount) x))).2 ⟨ha, hn, x, hx, rfl⟩
    cases g1.symm.trans g1'
    cases g2.symm.trans g2'
    have hf : ∀ f ∈ fdsValue k'.fields, Firm f.2 := by
      have : fdsValue k'.fields = (transfer account amount).args := by rw [← g3]; rfl
      rw [this]
      simp only [transfer, List.forall_mem_cons, List.not_mem_nil, false_implies, implies_true, and_true]
      exact ⟨.variant (by simp; exact .fixed _ _), .uint _ _⟩
    exact (polkadot_signs hd hs (reliable_ofBytes _) g1 h1 g2 h2 hf (screen_cardLines (e1.trans h3.symm))
      (screen_cardLines (e2.trans h4.symm))).symm
  · exact fun hb => polkadot_screen _ specs showBits hr ha hn hx hb

end Verif
