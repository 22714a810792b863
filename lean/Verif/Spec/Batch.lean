import Verif.Spec.Screen
/-!
# Batches of transfers on Westend (specification)

Orders to pay, batches of orders and orders on behalf of derived accounts, nested to any depth: their bytes, their
values and their lines on the screen.
-/
namespace Verif.Spec.Westend

/-- What is ordered. -/
inductive Order
  /-- Pay `amount` to `account`; with `keepAlive`, only if something is left. -/
  | pay (keepAlive : Bool) (account : Bytes) (amount : Nat)
  /-- Do all these, one after another; with `all`, either all or none. -/
  | batch (all : Bool) (orders : List Order)
  /-- Do this from the derived account with this number. -/
  | derived (number : Nat) (order : Order)

/-- Names of the pallet and of the call. -/
def Order.pallet : Order → String
  | .pay .. => "Balances" | .batch .. => "Utility" | .derived .. => "Utility"
@[inherit_doc Order.pallet]
def Order.name : Order → String
  | .pay true _ _ => "transfer_keep_alive" | .pay false _ _ => "transfer"
  | .batch true _ => "batch_all" | .batch false _ => "batch"
  | .derived .. => "as_derivative"

mutual
/-- The bytes. -/
def Order.bytes : Order → Bytes
  | .pay keepAlive account amount => [4, if keepAlive then 3 else 0, 0] ++ account ++ compactEncode amount
  | .batch all orders => [16, if all then 2 else 0] ++ compactEncode orders.length ++ ordersBytes orders
  | .derived number order => [16, 1] ++ leBytes 2 number ++ order.bytes
/-- The bytes, one after another. -/
def ordersBytes : List Order → Bytes
  | [] => []
  | o :: os => o.bytes ++ ordersBytes os
end

mutual
/-- The numbers fit their types. -/
def Order.Valid : Order → Prop
  | .pay _ account amount => account.length = 32 ∧ amount < 2 ^ 128
  | .batch _ orders => orders.length < 2 ^ 32 ∧ AllValid orders
  | .derived number order => number < 2 ^ 16 ∧ order.Valid
@[inherit_doc Order.Valid]
def AllValid : List Order → Prop
  | [] => True
  | o :: os => o.Valid ∧ AllValid os
end

mutual
/-- The arguments of the call. -/
def Order.args : Order → List (Option String × Value)
  | .pay _ account amount =>
    [(some "dest", .variant "Id" [(none, .fixed .id account)]), (some "value", .uint .u128 amount)]
  | .batch _ orders => [(some "calls", .seq (ordersValues orders))]
  | .derived number order => [(some "index", .uint .u16 number), (some "call", .pallet .call order.pallet order.name order.args)]
/-- The calls as values. -/
def ordersValues : List Order → List Value
  | [] => []
  | o :: os => .pallet .call o.pallet o.name o.args :: ordersValues os
end

/-- The order as a call. -/
def Order.call (o : Order) : CallOf := ⟨o.pallet, o.name, o.args⟩

/-- A line of the screen, `n` steps from the left. -/
def line (n : Nat) (text : String) : String := String.ofList (List.replicate (2 * n) ' ') ++ text

mutual
/-- The lines, `n` steps from the left; `address` is the text for an account. -/
def Order.screen (specs : ShortSpecs) (address : Bytes → String) (n : Nat) : Order → List String
  | .pay keepAlive account amount =>
    [line n "Pallet: Balances",
     line (n + 1) (if keepAlive then "Call: transfer_keep_alive" else "Call: transfer"),
     line (n + 2) "Field Name: dest",
     line (n + 3) "Enum",
     line (n + 4) "Enum Variant Name: Id",
     line (n + 5) ("Id: " ++ address account),
     line (n + 2) "Field Name: value",
     line (n + 3) ("Balance: " ++ amountText specs amount)]
  | .batch all orders =>
    [line n "Pallet: Utility",
     line (n + 1) (if all then "Call: batch_all" else "Call: batch"),
     line (n + 2) "Field Name: calls",
     line (n + 3) ("Sequence: " ++ toString orders.length ++ " element(s)")] ++ ordersScreen specs address (n + 4) orders
  | .derived number order =>
    [line n "Pallet: Utility",
     line (n + 1) "Call: as_derivative",
     line (n + 2) "Field Name: index",
     line (n + 3) ("u16: " ++ toString number),
     line (n + 2) "Field Name: call"] ++ order.screen specs address (n + 3)
/-- The lines of all. -/
def ordersScreen (specs : ShortSpecs) (address : Bytes → String) (n : Nat) : List Order → List String
  | [] => []
  | o :: os => o.screen specs address n ++ ordersScreen specs address n os
end

end Verif.Spec.Westend
