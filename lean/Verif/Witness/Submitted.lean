import Verif.Props.Submitted
import Verif.Witness.Westend
/-! # Every theorem applied to a concrete case: C84

The transaction of the crate's documentation, and an extrinsic made of it. -/
namespace Verif.Witness.Submitted
open Spec Verif.Westend Spec.Westend Witness.Westend

/-- Era, nonce and tip of the documented transaction; signed by its receiver. -/
def signed : Signed := ⟨account, .ecdsa, List.replicate 65 7, .mortal 64 61, 261, 10000000⟩

def call : Bytes := transferKeepAlive account 100000000

/-- The extrinsic that is sent. -/
def sent : Bytes := compactEncode (signed.bytes call).length ++ signed.bytes call

/-- The documented transaction, sent: the extrinsic shows the transfer and the extensions of the payload. -/
theorem sent_shown : ∃ r k u, parseTransaction westend.toMetadata b (some genesis) = .ok r ∧ r.callResult = .ok k ∧
    decodeUncheckedExtrinsic westend (.ofBytes sent) = .ok u ∧
    extrinsicOf u = .signed (.variant "Id" [(none, .fixed .id account)])
      (.variant "Ecdsa" [(none, .fixed .signatureEcdsa (List.replicate 65 7))])
      (.tuple ((r.extensions.take 7).map edValue)) (transfer account 100000000) := by
  obtain ⟨r, k, h, hk, hv⟩ := documented_shown
  obtain ⟨u, hu, e⟩ := westend_submitted (b' := .ofBytes sent) (call := call) (s := signed) (reliable_ofBytes _) (reliable_ofBytes _) documented_eq
    (by decide) extensions_valid h hk (by decide) (by decide) rfl rfl rfl (by decide +kernel) rfl
  exact ⟨r, k, u, h, hk, hu, by rw [e, hv]; rfl⟩

example (r : TransactionParsed V14Err) (k : Call) (h : parseTransaction westend.toMetadata b (some genesis) = .ok r)
    (hk : r.callResult = .ok k) :=
  westend_submitted (b' := .ofBytes sent) (call := call) (s := signed) (reliable_ofBytes _) (reliable_ofBytes _) documented_eq
    (by decide) extensions_valid h hk (by decide) (by decide) rfl rfl rfl (by decide +kernel) rfl

/-- The same by the theorem on all chains. -/
example : ∀ r k, parseTransaction westend.toMetadata b (some genesis) = .ok r → r.callResult = .ok k →
    ∃ call extra added, documented = signedPayload call extra added := fun r k h hk => by
  obtain ⟨call, extra, added, hb, -⟩ := submitted_as_signed emptyArraysGrounded westend_oneChain (reliable_ofBytes _) h hk
  exact ⟨call, extra, added, hb⟩

/-- And back: the payload of the extrinsic. -/
example : ∃ a s e c call extra added r k,
    decodeUncheckedExtrinsic westend (.ofBytes sent) = .ok (.signed a s e c) ∧
    parseTransaction westend.toMetadata (.ofBytes (signedPayload call extra added)) (some genesis) = .ok r ∧
    r.callResult = .ok k ∧ callOf k = transfer account 100000000 ∧ r.extensions.map edValue = extensions.values := by
  obtain ⟨r, k, u, h, hk, hu, e⟩ := sent_shown
  obtain ⟨r', k', h', hk', -, hv⟩ := (westend_transaction (reliable_ofBytes documented)).2 ⟨_, extensions, documented_eq, by decide,
    extensions_valid, rfl, transfer_iff.2 ⟨by decide, by decide, rfl⟩⟩
  cases h.symm.trans h'
  cases u with
  | unsigned c => cases e
  | signed a s ex c =>
    simp only [extrinsicOf, ExtrinsicOf.signed.injEq] at e
    obtain ⟨-, -, e3, e4⟩ := e
    obtain ⟨vs, ab, sb, extra, cb, tail, g1, g2, -, g⟩ := signed_as_submitted (expected := some genesis) emptyArraysGrounded westend_oneChain hu
    have hf : Verif.Westend.Fits 9111 extensions := ⟨extensions_valid.era, extensions_valid.nonce, extensions_valid.tip, by decide,
      extensions_valid.txVersion, extensions_valid.genesis, extensions_valid.blockHash⟩
    obtain ⟨us, ws, xs, ys, f1, -, f2, -, f3⟩ := itemsEnc_append.1
      (show ItemsEnc registry (sentItems signedExtensions ++ unsentItems signedExtensions) _ _ from items_iff.2 ⟨9111, extensions, hf, rfl, rfl⟩)
    have hvs : vs = us := by
      rw [e3, List.map_take, hv] at g1
      cases g1
      rw [← valuesOf_9111, f1, List.take_left' (show us.length = 7 from f2)]
    subst hvs
    obtain ⟨r2, k2, q1, q2, q3, q4⟩ := g (b' := .ofBytes (signedPayload cb extra ys)) (reliable_ofBytes _) westend_metadata.1 f3
      (by rw [← f1]; exact proper_values.2 ⟨by decide, extensions_valid.expected, extensions_valid.immortal⟩) rfl
    exact ⟨a, s, ex, c, cb, extra, ys, r2, k2, hu, q1, q2, q3.trans e4, by rw [q4, ← f1, valuesOf_9111]⟩

end Verif.Witness.Submitted
