import Verif.Spec.Value
/-!
# What a decoded result says

The value told by parsed data: docs, paths, hints (`specialty`, `GenesisHash`,
`BlockHash` marks) are dropped, the shortcuts for sequences of integers are
written out, single-field structs are transparent.
-/
namespace Verif.Spec

/-- A struct with one field is transparent. -/
def recordValue : List (Option String × Value) → Value
  | [(_, v)] => v
  | l => .record l

/-- Elements of the shortcut forms of sequences. -/
def sequenceValues : Sequence → List Value
  | .uints w l => l.map (Value.uint w)
  | .vecU8 l _ => l.map fun x => .seq (x.map (Value.uint .u8))

mutual
/-- Value of parsed data. -/
def pdValue : PD → Value
  | .bitVec s o l => .bits s o l
  | .blockHash h => .hash h
  | .genesisHash h => .hash h
  | .h256 h => .hash h
  | .fixed k h => .fixed k h
  | .pallet item _ _ p v fs => .pallet item p v (fdsValue fs)
  | .composite fs => recordValue (fdsValue fs)
  | .emptyEnum => .never
  | .era e => .era e
  | .perThing k v => .per k v
  | .bool v => .bool v
  | .char v => .char v
  | .int w v => .int w v
  | .uint w v _ => .uint w v
  | .u256 v => .u256 v
  | .sequence _ s => .seq (sequenceValues s)
  | .sequenceRaw _ l => .seq (pdsValue l)
  | .text s _ => .str s
  | .tuple l => .tuple (edsValue l)
  | .variant n _ fs => .variant n (fdsValue fs)

/-- Value of data with info. -/
def edValue : ED → Value
  | ⟨d, _⟩ => pdValue d

/-- Name and value of a field. -/
def fdValue : FD → Option String × Value
  | ⟨n, _, _, d⟩ => (n, edValue d)

/-- Values of a list of data. -/
def pdsValue : List PD → List Value
  | [] => []
  | d :: ds => pdValue d :: pdsValue ds

/-- Values of a list of data with info. -/
def edsValue : List ED → List Value
  | [] => []
  | d :: ds => edValue d :: edsValue ds

/-- Names and values of fields. -/
def fdsValue : List FD → List (Option String × Value)
  | [] => []
  | d :: ds => fdValue d :: fdsValue ds
end

end Verif.Spec
