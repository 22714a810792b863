import Verif.Spec.PolkadotScreen
/-!
# Remarks on Polkadot (specification)

`System.remark` carries any bytes, as sites use it to let a user sign a message.
-/
namespace Verif.Spec.Polkadot

/-- The call `System.remark`: pallet 0, call 0, number of bytes (compact), bytes. -/
def remarkCall (message : Bytes) : Bytes := [0, 0] ++ compactEncode message.length ++ message

/-- The same as a value. -/
def remark (message : Bytes) : CallOf where
  pallet := "System"
  call := "remark"
  args := [(some "remark", .seq (message.map fun x => .uint .u8 x.toNat))]

/-- The line of the message: an empty list, a text, else hexadecimal digits. -/
def messageLine (message : Bytes) : String :=
  if message = [] then "      Sequence: 0 element(s)"
  else match stringFromUtf8 message with
    | some text => "      Text: " ++ text
    | none => "      Sequence u8: " ++ hexBytes message

/-- The lines of a remark. -/
def remarkScreen (message : Bytes) : List String :=
  ["Pallet: System", "  Call: remark", "    Field Name: remark", messageLine message]

end Verif.Spec.Polkadot
