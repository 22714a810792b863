import Verif.Proof.Batch
import Verif.Props.Screen
/-!
# C86: nested orders

Batches of transfers, and batches in batches, to any depth: what is shown is what is signed.
-/
namespace Verif
open Spec Westend Spec.Westend

variable {b : Buf} {expected : Option Bytes} {o : Order} {x : Extensions}

/-- C86. A payload is shown as these orders exactly if its call is, byte by byte, these orders. -/
theorem westend_orders (hr : Reliable b) :
    (∃ r k, parseTransaction westend.toMetadata b expected = .ok r ∧ r.callResult = .ok k ∧ callOf k = o.call) ↔
      o.Valid ∧ o.bytes.length < 2 ^ 32 ∧ ∃ x : Extensions, x.Valid expected ∧ b.bytes = payload o.bytes x := by
  constructor
  · rintro ⟨r, k, h1, h2, h3⟩
    obtain ⟨call, x, hb, hl, hx, -, hc⟩ := (westend_transaction hr).1 ⟨r, k, h1, h2, h3, rfl⟩
    obtain ⟨hv, rfl⟩ := (order_iff o call).1 (callEnc_iff.1 hc)
    exact ⟨hv, hl, x, hx, hb⟩
  · rintro ⟨hv, hl, x, hx, hb⟩
    obtain ⟨r, k, h1, h2, h3, -⟩ := (westend_transaction hr).2
      ⟨_, x, hb, hl, hx, rfl, (callEnc_iff (c := o.call)).2 ((order_iff o _).2 ⟨hv, rfl⟩)⟩
    exact ⟨r, k, h1, h2, h3⟩

theorem cards_of_orders (P : Printers) (specs : ShortSpecs) (showBits : BitStore → BitOrder → List Bool → String)
    {r : TransactionParsed V14Err} {k : Call} (h : parseTransaction westend.toMetadata b expected = .ok r) (hk : r.callResult = .ok k)
    (hc : callOf k = o.call) (hv : r.extensions.map edValue = x.values) :
    screen showBits (k.card P specs "westend" 0) = o.screen specs (fun a => P.base58 .id a specs.base58prefix) 0 ∧
      screen showBits (r.card P specs "westend").extensions = extensionsScreen specs x := by
  obtain ⟨-, hcall, -, -, hsig⟩ := westend_metadata
  constructor
  · obtain ⟨m, -, -, ⟨c', k1, k2⟩ | ⟨e, -, k2⟩⟩ := parseTransaction_iff.1 h
    · rw [hk] at k2; cases k2
      obtain ⟨id', info, k3, k4⟩ := decodeAsCall_shown k1
      cases hcall.symm.trans k3
      have e : edValue ⟨k.toPD, info⟩ = .pallet .call o.pallet o.name o.args := by
        have e1 : (callOf k).pallet = o.pallet := congrArg CallOf.pallet hc
        have e2 : (callOf k).call = o.name := congrArg CallOf.call hc
        have e3 : (callOf k).args = o.args := congrArg CallOf.args hc
        rw [edValue, Call.toPD, pdValue, ← e1, ← e2, ← e3]
        rfl
      have k4 : Shown Westend.registry .none [] 267 ⟨k.toPD, info⟩ := k4
      exact order_lines o k4 e [] 0 false
    · rw [hk] at k2; cases k2
  · obtain ⟨_, signed, _, _, extBytes, -, h2, -, -, -, -, h4, -⟩ := parseTransaction_sound_length h hk
    cases hsig.symm.trans h2
    exact extensions_lines h4 hv

/-- C86. A payload for these orders is shown with exactly these lines. -/
theorem westend_orders_screen (P : Printers) (specs : ShortSpecs) (showBits : BitStore → BitOrder → List Bool → String) (hr : Reliable b)
    (ho : o.Valid) (hl : o.bytes.length < 2 ^ 32) (hx : x.Valid expected) (hb : b.bytes = payload o.bytes x) :
    ∃ r k, parseTransaction westend.toMetadata b expected = .ok r ∧ r.callResult = .ok k ∧
      screen showBits (k.card P specs "westend" 0) = o.screen specs (fun a => P.base58 .id a specs.base58prefix) 0 ∧
      screen showBits (r.card P specs "westend").extensions = extensionsScreen specs x := by
  obtain ⟨r, k, h1, h2, h3, h4⟩ := (westend_transaction hr).2
    ⟨_, x, hb, hl, hx, rfl, (callEnc_iff (c := o.call)).2 ((order_iff o _).2 ⟨ho, rfl⟩)⟩
  exact ⟨r, k, h1, h2, cards_of_orders P specs showBits h1 h2 h3 h4⟩

/-- C86. With addresses in SS58, no other payload has these lines. -/
theorem westend_orders_only {specs : ShortSpecs} {checksum : Bytes → UInt8 × UInt8} {icon : Bytes → Bytes}
    {showBits : BitStore → BitOrder → List Bool → String} (hd : specs.decimals < 256) (hs : ShowsBits showBits) (hr : Reliable b)
    (ho : o.Valid) (hl : o.bytes.length < 2 ^ 32) (hx : x.Valid expected) :
    (∃ r k, parseTransaction westend.toMetadata b expected = .ok r ∧ r.callResult = .ok k ∧
      screen showBits (k.card (ss58Printers checksum icon) specs "westend" 0) =
        o.screen specs (fun a => ss58 checksum a specs.base58prefix) 0 ∧
      screen showBits (r.card (ss58Printers checksum icon) specs "westend").extensions = extensionsScreen specs x) ↔
    b.bytes = payload o.bytes x := by
  constructor
  · rintro ⟨r, k, h1, h2, h3, h4⟩
    obtain ⟨r', k', g1, g2, g3, g4⟩ := (westend_transaction (expected := expected) (reliable_ofBytes (payload o.bytes x))).2
      ⟨_, x, rfl, hl, hx, rfl, (callEnc_iff (c := o.call)).2 ((order_iff o _).2 ⟨ho, rfl⟩)⟩
    obtain ⟨e1, e2⟩ := cards_of_orders (ss58Printers checksum icon) specs showBits g1 g2 g3 g4
    have hf : ∀ f ∈ fdsValue k'.fields, Firm f.2 := by
      have : fdsValue k'.fields = o.args := congrArg CallOf.args g3
      rw [this]
      exact order_firm o
    exact (westend_signs hd hs (reliable_ofBytes _) g1 h1 g2 h2 hf (screen_cardLines (e1.trans h3.symm))
      (screen_cardLines (e2.trans h4.symm))).symm
  · exact fun hb => westend_orders_screen (ss58Printers checksum icon) specs showBits hr ho hl hx hb

mutual
theorem order_inj : ∀ o o' : Order, o.name = o'.name → o.args = o'.args → o = o'
  | .pay a _ _, .pay a' _ _, h1, h2 => by
    rw [Order.args, Order.args] at h2
    obtain rfl : a = a' := by cases a <;> cases a' <;> first | rfl | (simp [Order.name] at h1; done)
    simp only [List.cons.injEq, Prod.mk.injEq, true_and, and_true, Value.variant.injEq, Value.fixed.injEq, Value.uint.injEq] at h2
    rw [h2.1, h2.2]
  | .batch a l, .batch a' l', h1, h2 => by
    rw [Order.args, Order.args] at h2
    obtain rfl : a = a' := by cases a <;> cases a' <;> first | rfl | (simp [Order.name] at h1; done)
    simp only [List.cons.injEq, Prod.mk.injEq, true_and, and_true, Value.seq.injEq] at h2
    rw [orders_inj l l' h2]
  | .derived n o, .derived n' o', h1, h2 => by
    rw [Order.args, Order.args] at h2
    simp only [List.cons.injEq, Prod.mk.injEq, true_and, and_true, Value.uint.injEq, Value.pallet.injEq] at h2
    rw [h2.1, order_inj o o' h2.2.2.1 h2.2.2.2]
  | .pay a _ _, .batch a' _, h1, _ => by cases a <;> cases a' <;> (simp [Order.name] at h1; done)
  | .pay a _ _, .derived _ _, h1, _ => by cases a <;> (simp [Order.name] at h1; done)
  | .batch a _, .pay a' _ _, h1, _ => by cases a <;> cases a' <;> (simp [Order.name] at h1; done)
  | .batch a _, .derived _ _, h1, _ => by cases a <;> (simp [Order.name] at h1; done)
  | .derived _ _, .pay a _ _, h1, _ => by cases a <;> (simp [Order.name] at h1; done)
  | .derived _ _, .batch a _, h1, _ => by cases a <;> (simp [Order.name] at h1; done)
theorem orders_inj : ∀ l l' : List Order, ordersValues l = ordersValues l' → l = l'
  | [], [], _ => rfl
  | [], _ :: _, h => by rw [ordersValues, ordersValues] at h; cases h
  | _ :: _, [], h => by rw [ordersValues, ordersValues] at h; cases h
  | o :: l, o' :: l', h => by
    rw [ordersValues, ordersValues] at h
    simp only [List.cons.injEq, Value.pallet.injEq, true_and] at h
    rw [order_inj o o' h.1.2.1 h.1.2.2, orders_inj l l' h.2]
end

/-- C86. Different orders have different bytes: who signs for `o` signs for nothing else. -/
theorem orders_distinct {o o' : Order} (ho : o.Valid) (ho' : o'.Valid) (h : o.bytes = o'.bytes) : o = o' := by
  have e1 := (order_iff o _).2 ⟨ho, rfl⟩
  have e2 := (order_iff o' _).2 ⟨ho', h⟩
  obtain ⟨d, h1, h2⟩ := (westend_values (reliable_ofBytes o.bytes)).2 e1
  obtain ⟨d', h1', h2'⟩ := (westend_values (reliable_ofBytes o.bytes)).2 e2
  cases h1.symm.trans h1'
  have := h2.symm.trans h2'
  injection this with _ _ h3 h4
  exact order_inj o o' h3 h4

end Verif
