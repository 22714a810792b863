import Verif.Props.Batch
import Verif.Witness.Screen
/-! # Every theorem applied to a concrete case: C86 -/
namespace Verif.Witness.Batch
open Spec Verif.Westend Spec.Westend Witness.Westend Witness.Screen

/-- A transfer, an empty batch, and a batch with a transfer from a derived account. -/
def orders : Order := .batch true [.pay true account 100000000, .batch false [], .batch true [.derived 3 (.pay false account 1)]]

theorem orders_valid : orders.Valid := by
  simp [orders, Order.Valid, AllValid, show account.length = 32 from by decide]

/-- The bytes, spelled out. -/
theorem orders_bytes : orders.bytes = [16, 2, 12, 4, 3, 0] ++ account ++ [2, 132, 215, 23] ++ [16, 0, 0] ++ [16, 2, 4, 16, 1, 3, 0, 4, 0, 0] ++ account ++ [4] := by
  simp only [orders, Order.bytes, ordersBytes]
  decide +kernel

theorem orders_short : orders.bytes.length < 2 ^ 32 := by rw [orders_bytes]; decide +kernel

def b : Buf := .ofBytes (payload orders.bytes extensions)

example : ∃ r k, parseTransaction westend.toMetadata b (some genesis) = .ok r ∧ r.callResult = .ok k ∧ callOf k = orders.call :=
  (westend_orders (reliable_ofBytes _)).2 ⟨orders_valid, orders_short, extensions, extensions_valid, rfl⟩

theorem orders_text : orders.screen specs (fun a => printers.base58 .id a specs.base58prefix) 0 =
    ["Pallet: Utility",
     "  Call: batch_all",
     "    Field Name: calls",
     "      Sequence: 3 element(s)",
     "        Pallet: Balances",
     "          Call: transfer_keep_alive",
     "            Field Name: dest",
     "              Enum",
     "                Enum Variant Name: Id",
     "                  Id: 5FHneW46xGXgs5mUiveU4sbTyGBzmstUspZC92UhjJM694ty",
     "            Field Name: value",
     "              Balance: 100.000000 uWND",
     "        Pallet: Utility",
     "          Call: batch",
     "            Field Name: calls",
     "              Sequence: 0 element(s)",
     "        Pallet: Utility",
     "          Call: batch_all",
     "            Field Name: calls",
     "              Sequence: 1 element(s)",
     "                Pallet: Utility",
     "                  Call: as_derivative",
     "                    Field Name: index",
     "                      u16: 3",
     "                    Field Name: call",
     "                      Pallet: Balances",
     "                        Call: transfer",
     "                          Field Name: dest",
     "                            Enum",
     "                              Enum Variant Name: Id",
     "                                Id: 5FHneW46xGXgs5mUiveU4sbTyGBzmstUspZC92UhjJM694ty",
     "                          Field Name: value",
     "                            Balance: 1 pWND"] := by
  simp only [orders, Order.screen, ordersScreen, address]
  decide +kernel

example : ∃ r k, parseTransaction westend.toMetadata b (some genesis) = .ok r ∧ r.callResult = .ok k ∧
    screen Example.bitsText (k.card printers specs "westend" 0) = orders.screen specs (fun a => printers.base58 .id a specs.base58prefix) 0 ∧
    screen Example.bitsText (r.card printers specs "westend").extensions = extensionsScreen specs extensions :=
  westend_orders_screen printers specs Example.bitsText (reliable_ofBytes _) orders_valid orders_short extensions_valid rfl

example (b' : Buf) (hr : Reliable b') : (∃ r k, parseTransaction westend.toMetadata b' (some genesis) = .ok r ∧ r.callResult = .ok k ∧
    screen Example.bitsText (k.card printers specs "westend" 0) = orders.screen specs (fun a => ss58 (fun _ => (0x73, 0x82)) a specs.base58prefix) 0 ∧
    screen Example.bitsText (r.card printers specs "westend").extensions = extensionsScreen specs extensions) ↔
    b'.bytes = payload orders.bytes extensions :=
  westend_orders_only (by decide) Meaning.bits_shown hr orders_valid orders_short extensions_valid

/-- A batch with one transfer in it is not the transfer. -/
example : (Order.batch false [.pay true account 1]).bytes ≠ (Order.pay true account 1).bytes := by
  intro h
  cases orders_distinct (by simp [Order.Valid, AllValid, show account.length = 32 from by decide])
    (by simp [Order.Valid, show account.length = 32 from by decide]) h

end Verif.Witness.Batch
