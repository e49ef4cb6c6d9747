import Verif.Model.Asm
import Verif.Model.AsmGen
import Verif.Model.BitIterator
import Verif.Model.FQ
import Verif.Model.FQ12
import Verif.Model.FQ2
import Verif.Model.FQ6
import Verif.Model.FQRepr
import Verif.Model.FR
import Verif.Model.FRRepr
import Verif.Model.G1
import Verif.Model.G1Pubs
import Verif.Model.G2
import Verif.Model.G2Pubs
import Verif.Model.Hash
import Verif.Model.Heap
import Verif.Model.Heap12
import Verif.Model.Heap6
import Verif.Model.HeapFQ12
import Verif.Model.HeapFR
import Verif.Model.HeapPoints
import Verif.Model.Pairing
import Verif.Model.Rand
import Verif.Model.Reader
import Verif.Model.SortBytes
import Verif.Model.Strings
import Verif.Model.Word
import Verif.Proof.AnyCurve
import Verif.Proof.AnyCurveInv
import Verif.Proof.Asm
import Verif.Proof.Asm2
import Verif.Proof.AsmGen
import Verif.Proof.BigPrimes
import Verif.Proof.Bilinear
import Verif.Proof.BitIterator
import Verif.Proof.Calc
import Verif.Proof.CalcLib
import Verif.Proof.Cards
import Verif.Proof.Chain
import Verif.Proof.Clear
import Verif.Proof.ClearData
import Verif.Proof.ClearOrder
import Verif.Proof.Cocycle
import Verif.Proof.Collide
import Verif.Proof.Collide2
import Verif.Proof.CollideCases
import Verif.Proof.CollideEqual
import Verif.Proof.Compress
import Verif.Proof.Denote
import Verif.Proof.Domain
import Verif.Proof.Encode
import Verif.Proof.Euclid
import Verif.Proof.Extension
import Verif.Proof.FQ12
import Verif.Proof.FQ2
import Verif.Proof.FQ6
import Verif.Proof.FQExp
import Verif.Proof.FQInverse
import Verif.Proof.FQMont
import Verif.Proof.FQOps
import Verif.Proof.FQRepr
import Verif.Proof.FQSquare
import Verif.Proof.FRExp
import Verif.Proof.FRInverse
import Verif.Proof.FROps
import Verif.Proof.FRRepr
import Verif.Proof.Field12
import Verif.Proof.Field6
import Verif.Proof.FinalExp
import Verif.Proof.Flex
import Verif.Proof.Frame
import Verif.Proof.G1
import Verif.Proof.G1Pubs
import Verif.Proof.G1Slopes
import Verif.Proof.G2
import Verif.Proof.G2Pubs
import Verif.Proof.G2Slopes
import Verif.Proof.Gens
import Verif.Proof.GroupOrders
import Verif.Proof.Groups
import Verif.Proof.GroupsLib
import Verif.Proof.HashCaseData
import Verif.Proof.HashCases
import Verif.Proof.HashG1
import Verif.Proof.HashG2
import Verif.Proof.HashTop
import Verif.Proof.Heap
import Verif.Proof.Heap12
import Verif.Proof.Heap12Pairing
import Verif.Proof.HeapFQ12
import Verif.Proof.HeapFR
import Verif.Proof.HeapKeys
import Verif.Proof.HeapPoints
import Verif.Proof.History
import Verif.Proof.History12
import Verif.Proof.History6
import Verif.Proof.HistoryPoints
import Verif.Proof.Int
import Verif.Proof.Jacobian
import Verif.Proof.Lagrange
import Verif.Proof.LineData
import Verif.Proof.Lists
import Verif.Proof.Miller
import Verif.Proof.MillerCurve
import Verif.Proof.MillerMul
import Verif.Proof.MulBits
import Verif.Proof.N2
import Verif.Proof.NPoly
import Verif.Proof.Nondegen
import Verif.Proof.OrderData
import Verif.Proof.Orders
import Verif.Proof.PairingData
import Verif.Proof.PairingSteps1
import Verif.Proof.PairingSteps2
import Verif.Proof.PairingSteps3
import Verif.Proof.PairingSteps4
import Verif.Proof.PairingVal
import Verif.Proof.Primes
import Verif.Proof.Queries
import Verif.Proof.Rand
import Verif.Proof.RawPoints
import Verif.Proof.Reader
import Verif.Proof.ReaderPoints
import Verif.Proof.Scalar
import Verif.Proof.Shift
import Verif.Proof.Sort
import Verif.Proof.Spread
import Verif.Proof.Step
import Verif.Proof.Stepanov
import Verif.Proof.Strings
import Verif.Proof.SwEncode
import Verif.Proof.Swu
import Verif.Proof.Threads
import Verif.Proof.ThreadsFQ12
import Verif.Proof.ThreadsFQ12Run
import Verif.Proof.ThreadsFQ12Start
import Verif.Proof.ThreadsFR
import Verif.Proof.ThreadsFRRun
import Verif.Proof.ThreadsFRStart
import Verif.Proof.ThreadsOps
import Verif.Proof.ThreadsRun
import Verif.Proof.ThreadsStep
import Verif.Proof.Threshold
import Verif.Proof.TowerVal
import Verif.Proof.Uniform
import Verif.Proof.Uses
import Verif.Proof.UsesLib
import Verif.Proof.UsesLib2
import Verif.Proof.Word
import Verif.Props.Agree
import Verif.Props.AnyCurve
import Verif.Props.Asm
import Verif.Props.AsmGen
import Verif.Props.Batch
import Verif.Props.Blind
import Verif.Props.Calc
import Verif.Props.Canonical
import Verif.Props.Constants
import Verif.Props.Curve
import Verif.Props.Derive
import Verif.Props.Encoding
import Verif.Props.Euclid
import Verif.Props.FQ
import Verif.Props.FR
import Verif.Props.Frame
import Verif.Props.Groups
import Verif.Props.Hash
import Verif.Props.HashOff
import Verif.Props.Heap
import Verif.Props.Heap12
import Verif.Props.Heap6
import Verif.Props.HeapPoints
import Verif.Props.MulBits
import Verif.Props.Network
import Verif.Props.Pairing
import Verif.Props.PanicBytes
import Verif.Props.Panics
import Verif.Props.Queries
import Verif.Props.Rand
import Verif.Props.Reader
import Verif.Props.ReaderPoints
import Verif.Props.Reduce
import Verif.Props.ReduceAggregate
import Verif.Props.ReduceCommon
import Verif.Props.Repr
import Verif.Props.Rogue
import Verif.Props.Seal
import Verif.Props.Sharing
import Verif.Props.SigG1
import Verif.Props.SigG2
import Verif.Props.Sorter
import Verif.Props.Spread
import Verif.Props.Steps
import Verif.Props.Strings
import Verif.Props.Subgroup
import Verif.Props.Svdw
import Verif.Props.Threads
import Verif.Props.ThreadsFQ12
import Verif.Props.ThreadsFR
import Verif.Props.Threshold
import Verif.Props.Tower
import Verif.Props.Transfer
import Verif.Props.Uniform
import Verif.Props.Uses
import Verif.Spec.Agree
import Verif.Spec.AnyCurve
import Verif.Spec.Asm
import Verif.Spec.AsmGen
import Verif.Spec.Batch
import Verif.Spec.Bits
import Verif.Spec.Blind
import Verif.Spec.Bytes
import Verif.Spec.Calc
import Verif.Spec.Curve
import Verif.Spec.Denote
import Verif.Spec.Euclid
import Verif.Spec.Field12
import Verif.Spec.Fields
import Verif.Spec.Frame
import Verif.Spec.Groups
import Verif.Spec.Hash
import Verif.Spec.History
import Verif.Spec.History12
import Verif.Spec.History6
import Verif.Spec.HistoryPoints
import Verif.Spec.Keys
import Verif.Spec.Limbs
import Verif.Spec.Network
import Verif.Spec.Params
import Verif.Spec.Points
import Verif.Spec.Program
import Verif.Spec.Queries
import Verif.Spec.Reader
import Verif.Spec.Reduce
import Verif.Spec.ReduceAggregate
import Verif.Spec.ReduceCommon
import Verif.Spec.Seal
import Verif.Spec.Sharing
import Verif.Spec.Sorter
import Verif.Spec.Steps
import Verif.Spec.Strings
import Verif.Spec.Threads
import Verif.Spec.ThreadsFQ12
import Verif.Spec.ThreadsFR
import Verif.Spec.Threshold
import Verif.Spec.Uses
import Verif.Vectors
