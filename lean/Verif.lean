import Verif.Model.Core
import Verif.Model.BaseChip
import Verif.Model.RangeInfo
import Verif.Model.RangeChip
import Verif.Model.SelectChip
import Verif.Model.IntegerChip
import Verif.Spec.Circuit
import Verif.Spec.Judgement
import Verif.Proof.Logic
import Verif.Proof.Row
import Verif.Proof.Base
import Verif.Proof.MulAdd
import Verif.Spec.Integer
import Verif.Proof.RangeRow
import Verif.Proof.Range
import Verif.Proof.RangeInfo
import Verif.Proof.IntBasic
import Verif.Proof.IntReduce
import Verif.Proof.IntLinear
import Verif.Proof.IntMul
import Verif.Proof.IntDiv
import Verif.Spec.Fields
import Verif.Proof.Primes
import Verif.Spec.IntProg
import Verif.Props.Base
import Verif.Props.Params
import Verif.Props.Integer
import Verif.Props.IntProg
import Verif.Model.EccChip
import Verif.Spec.Curve
import Verif.Proof.Curve
import Verif.Proof.EccMath
import Verif.Proof.Ecc
import Verif.Proof.EccComplete
import Verif.Props.Ecc
import Verif.Model.Scalar
import Verif.Spec.Bits
import Verif.Proof.Scalar
import Verif.Props.Scalar
import Verif.Proof.ProgAttr
import Verif.Proof.Prog
import Verif.Spec.Log
import Verif.Proof.Log
import Verif.Model.Parallel
import Verif.Model.Msm
import Verif.Proof.Parallel
import Verif.Proof.MsmMath
import Verif.Proof.EccAffine
import Verif.Proof.Msm
import Verif.Proof.MsmBatch
import Verif.Spec.Select
import Verif.Spec.Msm
import Verif.Proof.Select
import Verif.Proof.MsmTop
import Verif.Proof.CurveOrder
import Verif.Proof.CurveCard
import Verif.Props.Select
import Verif.Props.Msm
import Verif.Spec.Shape
import Verif.Spec.TowerShape
import Verif.Spec.ApiStore
import Verif.Spec.ApiTower
import Verif.Spec.Api
import Verif.Spec.ApiShape
import Verif.Proof.Shape
import Verif.Proof.Rel
import Verif.Proof.RelOps
import Verif.Proof.RelEcc
import Verif.Proof.RelPar
import Verif.Proof.RelMsm
import Verif.Proof.RelTower
import Verif.Proof.RelApi
import Verif.Props.Shape
import Verif.Proof.Forge
import Verif.Props.ScalarForge
import Verif.Proof.Raised
import Verif.Proof.ProgTower
import Verif.Proof.ApiProg
import Verif.Spec.Interleave
import Verif.Proof.Interleave
import Verif.Props.Records
import Verif.Model.Synthesis
import Verif.Spec.Synthesis
import Verif.Proof.Synthesis
import Verif.Proof.Cells
import Verif.Proof.CellsAttr
import Verif.Proof.CellsOps
import Verif.Proof.CellsEcc
import Verif.Proof.CellsPar
import Verif.Proof.CellsMsm
import Verif.Proof.CellsTower
import Verif.Proof.CellsKeccak
import Verif.Proof.CellsApi
import Verif.Props.Synthesis
import Verif.Spec.Values
import Verif.Props.Values
import Verif.Model.Fq12
import Verif.Spec.Tower
import Verif.Proof.Calc
import Verif.Proof.Tower
import Verif.Proof.TowerMath
import Verif.Proof.Enc
import Verif.Model.Bn256Constants
import Verif.Model.Pairing
import Verif.Props.Tower
import Verif.Proof.TowerField
import Verif.Proof.Frobenius
import Verif.Props.Frobenius
import Verif.Proof.FinalExp
import Verif.Props.FinalExp
import Verif.Spec.Pairing
import Verif.Spec.AtePairing
import Verif.Proof.PairingCalc
import Verif.Proof.PairingMath
import Verif.Proof.PairingLoop
import Verif.Proof.PairingRuns
import Verif.Proof.AteMath
import Verif.Proof.AteLoop
import Verif.Proof.AteFrob
import Verif.Proof.Ate
import Verif.Proof.Pairing
import Verif.Proof.G2Gen
import Verif.Proof.AteNeg
import Verif.Props.Pairing
import Verif.Spec.Encode
import Verif.Proof.Encode
import Verif.Props.Encode
import Verif.Model.Keccak
import Verif.Spec.Keccak
import Verif.Proof.KeccakEval
import Verif.Proof.Keccak
import Verif.Proof.RelKeccak
import Verif.Props.Keccak
import Verif.Spec.Keys
import Verif.Proof.Keys
import Verif.Proof.KeysApi
import Verif.Props.Keys
import Verif.Props.MsmCalls
import Verif.Spec.MsmPosition
import Verif.Proof.SelectComplete
import Verif.Proof.ParallelComplete
import Verif.Proof.MsmComplete
import Verif.Proof.MsmPosition
import Verif.Proof.MsmCompleteTop
import Verif.Proof.MsmRandom
import Verif.Props.MsmComplete
import Verif.Proof.MsmForge
import Verif.Props.MsmForge
import Verif.Props.IntegerFindings
import Verif.Spec.EccProg
import Verif.Proof.EccMore
import Verif.Props.EccProg
import Verif.Spec.TowerProg
import Verif.Spec.NativeProg
import Verif.Spec.FullProg
import Verif.Props.TowerOps
import Verif.Props.TowerProg
import Verif.Props.NativeProg
import Verif.Props.FullProg
import Verif.Spec.GeneralProg
import Verif.Props.GeneralProg
import Verif.Props.SelectPoint
import Verif.Spec.Table
import Verif.Proof.Table
import Verif.Props.Table
import Verif.Model.Guarded
import Verif.Spec.Guarded
import Verif.Proof.Guarded
import Verif.Props.Guarded
import Verif.Spec.Layout
import Verif.Proof.CellsProg
import Verif.Props.Layout
import Verif.Proof.Balance
import Verif.Proof.BalanceMsm
import Verif.Spec.Balance
import Verif.Props.Balance
import Verif.Proof.Low
import Verif.Props.Heights
import Verif.Model.Configure
import Verif.Spec.Plonk
import Verif.Proof.Configure
import Verif.Props.Configure
import Verif.Props.Plonk
import Verif.Proof.Counter
import Verif.Proof.CounterAttr
import Verif.Proof.CounterOps
import Verif.Proof.CounterEcc
import Verif.Proof.CounterPar
import Verif.Proof.CounterMsm
import Verif.Proof.CounterTower
import Verif.Proof.CounterKeccak
import Verif.Proof.CounterApi
import Verif.Spec.Counters
import Verif.Props.Counters
import Verif.Model.Utils
import Verif.Props.Utils
import Verif.Spec.TwoCurves
import Verif.Proof.Marks
import Verif.Props.TwoCurves
import Verif.Spec.NoSelect
import Verif.Proof.NoSelect
import Verif.Proof.NoSelectMsm
import Verif.Proof.NoSelectApi
import Verif.Props.NoSelect
import Verif.Props.MsmGroup
import Verif.Proof.Quartic
import Verif.Proof.OffTwist
import Verif.Props.PairingGroups
import Verif.Model.Ownership
import Verif.Props.Ownership
import Verif.Props.Race
