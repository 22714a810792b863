import Verif.Model.Types
import Verif.Model.Buffer
import Verif.Model.Compact
import Verif.Model.Era
import Verif.Model.Indicators
import Verif.Model.Data
import Verif.Model.Propagated
import Verif.Model.Special
import Verif.Model.BitSeq
import Verif.Model.Decode
import Verif.Model.Metadata
import Verif.Model.Transaction
import Verif.Model.Extrinsic
import Verif.Model.Storage
import Verif.Spec.Scale
import Verif.Proof.Bytes
import Verif.Proof.CompactCodec
import Verif.Spec.Region
import Verif.Proof.Buffer
import Verif.Spec.Leaf
import Verif.Spec.Value
import Verif.Proof.Parses
import Verif.Proof.Leaf
import Verif.Proof.EraBits
import Verif.Proof.Fine
import Verif.Proof.Run
import Verif.Proof.Fuel
import Verif.Proof.Fix
import Verif.Spec.Meaning
import Verif.Proof.Bridge
import Verif.Proof.HuskBridge
import Verif.Proof.Sound
import Verif.Proof.Complete
import Verif.Props.Example
import Verif.Props.Decode

import Verif.Props.Compact
import Verif.Props.Era
import Verif.Props.Values
import Verif.Props.CompactInside
import Verif.Props.Husk
import Verif.Proof.Hints
import Verif.Spec.Shown
import Verif.Proof.Shown
import Verif.Props.Hints
import Verif.Proof.Out
import Verif.Spec.Transaction
import Verif.Proof.Transaction
import Verif.Props.Transaction
import Verif.Props.Extensions
import Verif.Props.Extrinsic
import Verif.Spec.Storage
import Verif.Props.Storage
import Verif.Spec.Metadata
import Verif.Props.Metadata
import Verif.Model.Balance
import Verif.Spec.Balance
import Verif.Props.Balance
import Verif.Props.BalanceTests
import Verif.Model.Cards
import Verif.Spec.Cards
import Verif.Props.Cards
import Verif.Props.CardsTx
import Verif.Model.Show
import Verif.Props.Show
import Verif.Props.Text
import Verif.Props.Sizes
import Verif.Model.BitPatch
import Verif.Spec.BitPatch
import Verif.Props.BitPatch
import Verif.Proof.Faults
import Verif.Spec.Errors
import Verif.Proof.Truth
import Verif.Props.Errors
import Verif.Spec.Canonical
import Verif.Proof.Canonical
import Verif.Props.Canonical
import Verif.Props.Versions
import Verif.Spec.Legible
import Verif.Proof.Legible
import Verif.Props.Legible
import Verif.Spec.Shortened
import Verif.Proof.Shortened
import Verif.Props.Shortened
import Verif.Props.Agree
import Verif.Spec.Depth
import Verif.Props.Depth
import Verif.Spec.TxErrors
import Verif.Props.TxErrors
import Verif.Model.Device
import Verif.Spec.Device
import Verif.Proof.Device
import Verif.Proof.Steady
import Verif.Proof.Flaky
import Verif.Proof.Labels
import Verif.Proof.FlakyComplete
import Verif.Proof.FlakyGood
import Verif.Props.Device
import Verif.Model.DeviceTx
import Verif.Proof.DeviceTx
import Verif.Props.Words
import Verif.Spec.Reach
import Verif.Proof.LabelFree
import Verif.Spec.DeviceTx
import Verif.Proof.FlakyTx
import Verif.Proof.FlakyTxAgree
import Verif.Props.FlakyTx
import Verif.Spec.Checkers
import Verif.Spec.Weight
import Verif.Proof.Weight
import Verif.Props.Weight
import Verif.Spec.Cost
import Verif.Proof.Cost
import Verif.Proof.CostTypes
import Verif.Proof.CostTx
import Verif.Props.Cost
import Verif.Props.Checkers
import Verif.Test.Conformance
import Verif.Spec.Renaming
import Verif.Proof.Renaming
import Verif.Props.Renaming
import Verif.Model.Position
import Verif.Spec.Position
import Verif.Proof.Position
import Verif.Props.Position
import Verif.Model.ErrorText
import Verif.Spec.ErrorText
import Verif.Proof.ErrorText
import Verif.Props.ErrorText
import Verif.Model.Target32
import Verif.Spec.Target32
import Verif.Proof.Target32
import Verif.Props.Target32
import Verif.Spec.Growth
import Verif.Proof.Growth
import Verif.Props.Growth
import Verif.Spec.Base58
import Verif.Props.Base58
import Verif.Spec.Shift
import Verif.Proof.Shift
import Verif.Props.Shift
import Verif.Spec.OneVersion
import Verif.Props.OneVersion
import Verif.Spec.Inside
import Verif.Proof.Inside
import Verif.Proof.Touched
import Verif.Props.Inside
import Verif.Spec.Typed
import Verif.Props.Typed
import Verif.Spec.Encoder
import Verif.Proof.Encoder
import Verif.Props.Encoder
import Verif.Spec.Proper
import Verif.Spec.Payload
import Verif.Spec.Wallet
import Verif.Proof.Proper
import Verif.Proof.Wallet
import Verif.Props.Proper
import Verif.Spec.Node
import Verif.Props.Node
import Verif.Spec.Stored
import Verif.Props.Stored
import Verif.Spec.Pieces
import Verif.Proof.Pieces
import Verif.Props.Pieces
import Verif.Spec.Names
import Verif.Proof.Names
import Verif.Props.Names
import Verif.Spec.TxPieces
import Verif.Proof.TxPieces
import Verif.Props.TxPieces
import Verif.Spec.Hostile
import Verif.Proof.Hostile
import Verif.Proof.HostileValues
import Verif.Proof.HostileTx
import Verif.Props.Hostile
import Verif.Witness.Hostile
import Verif.Real.WestendTypes
import Verif.Real.Westend
import Verif.Real.WestendChecks
import Verif.Real.WestendBounds
import Verif.Proof.Inversion
import Verif.Spec.Westend
import Verif.Proof.Westend
import Verif.Props.Westend
import Verif.Witness.Westend
import Verif.Spec.Submitted
import Verif.Props.Submitted
import Verif.Witness.Submitted
import Verif.Spec.Screen
import Verif.Proof.ShownInversion
import Verif.Proof.Screen
import Verif.Props.Screen
import Verif.Witness.Screen
import Verif.Spec.Batch
import Verif.Proof.Batch
import Verif.Props.Batch
import Verif.Witness.Batch
import Verif.Model.PosDevice
import Verif.Spec.PosDevice
import Verif.Proof.PosDevice
import Verif.Props.PosDevice
import Verif.Model.Codec
import Verif.Spec.Codec
import Verif.Props.Codec
import Verif.Proof.Repaired
import Verif.Spec.Retry
import Verif.Props.Retry
import Verif.Witness.Retry
import Verif.Spec.Upgrade
import Verif.Proof.Upgrade
import Verif.Props.Upgrade
import Verif.Props.UpgradeBy
import Verif.Witness.Upgrade
import Verif.Proof.Layout
import Verif.Real.PolkadotTypes
import Verif.Real.Polkadot
import Verif.Real.PolkadotNames
import Verif.Real.PolkadotChecks
import Verif.Spec.Polkadot
import Verif.Proof.Polkadot
import Verif.Props.Polkadot
import Verif.Witness.Polkadot
import Verif.Spec.Accounts
import Verif.Proof.Accounts
import Verif.Proof.AccountScreen
import Verif.Props.Accounts
import Verif.Witness.Accounts
import Verif.Spec.PolkadotScreen
import Verif.Proof.PolkadotScreen
import Verif.Props.PolkadotScreen
import Verif.Witness.PolkadotScreen
import Verif.Spec.Printed
import Verif.Proof.Printed
import Verif.Real.WestendPrinted
import Verif.Real.PolkadotPrinted
import Verif.Props.Printed
import Verif.Witness.Printed
import Verif.Proof.PrintedReads
import Verif.Props.Unforged
import Verif.Witness.Unforged
import Verif.Spec.Quoted
import Verif.Proof.Quoted
import Verif.Props.Quoted
import Verif.Witness.Quoted
import Verif.Spec.Remark
import Verif.Proof.Remark
import Verif.Proof.RemarkLines
import Verif.Props.Remark
import Verif.Witness.Remark
import Verif.Witness.Values
import Verif.Witness.Transaction
import Verif.Witness.Cards
import Verif.Witness.Meaning
import Verif.Witness.Device
import Verif.Witness.Bounds
import Verif.Witness.Encoding
