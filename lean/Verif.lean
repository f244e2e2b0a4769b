import Verif.Model.BigUInt
import Verif.Model.UInt
import Verif.Model.F256
import Verif.Model.Add
import Verif.Spec.Rne
import Verif.Spec.Float
import Verif.Spec.Order
import Verif.Proofs.Lawful
import Verif.Proofs.LawfulU128
import Verif.Proofs.LawfulUInt
import Verif.Proofs.DivRem
import Verif.Proofs.Rounding
import Verif.Proofs.F256Nat
import Verif.Proofs.U256Nat
import Verif.Proofs.Order
import Verif.Proofs.Sticky
import Verif.Proofs.Round2
import Verif.Proofs.Add
import Verif.Proofs.Add2
import Verif.Props.Compare
import Verif.Props.Basic
import Verif.Props.Add
import Verif.Model.Mul
import Verif.Proofs.RemPow2
import Verif.Proofs.MulDiv
import Verif.Proofs.Mul
import Verif.Proofs.Div
import Verif.Props.Mul
import Verif.Props.Div
import Verif.Proofs.EulerGamma
import Verif.Proofs.Exact
import Verif.Props.Laws
import Verif.Model.Wide
import Verif.Proofs.Wide
import Verif.Props.Wide
import Verif.Model.Sqrt
import Verif.Proofs.New
import Verif.Proofs.Sqrt
import Verif.Props.Sqrt
import Verif.Model.Integral
import Verif.Proofs.Integral
import Verif.Proofs.Integral2
import Verif.Proofs.Scale
import Verif.Proofs.Codec
import Verif.Props.Integral
import Verif.Props.Scale
import Verif.Model.Rem
import Verif.Proofs.Rem
import Verif.Props.Rem
import Verif.Spec.Small
import Verif.Model.Conv
import Verif.Proofs.Conv
import Verif.Props.Conv
import Verif.Model.Fma
import Verif.Proofs.U768
import Verif.Proofs.Fma
import Verif.Props.Fma
import Verif.Model.Sos
import Verif.Proofs.Sos
import Verif.Props.Sos
import Verif.Spec.Decimal
import Verif.Model.Chunk
import Verif.Proofs.Chunk
import Verif.Props.Chunk
import Verif.Model.Log
import Verif.Model.Misc
import Verif.Model.PowersOfFive
import Verif.Props.Log
import Verif.Props.Misc
import Verif.Model.Parse
import Verif.Spec.Literal
import Verif.Proofs.Parse
import Verif.Proofs.Parse2
import Verif.Proofs.Parse3
import Verif.Props.Parse
import Verif.Model.Decimal
import Verif.Model.PowersOfFive2
import Verif.Model.FromStr
import Verif.Proofs.Near
import Verif.Proofs.FastExact
import Verif.Proofs.PowTable
import Verif.Proofs.FastApprox
import Verif.Proofs.Decimal
import Verif.Proofs.SlowExact
import Verif.Proofs.ParseDec
import Verif.Proofs.FromStr
import Verif.Proofs.FromStr2
import Verif.Spec.Midpoint
import Verif.Props.FromStr
import Verif.Proofs.Pi
import Verif.Model.Consts
import Verif.Props.Consts
import Verif.Model.Degrees
import Verif.Proofs.Degrees
import Verif.Proofs.RelErr
import Verif.Props.Degrees
import Verif.Model.FP492
import Verif.Model.FeynmanLut
import Verif.Model.Ln
import Verif.Proofs.FP492
import Verif.Proofs.LogTable
import Verif.Proofs.Feynman
import Verif.Proofs.Ln
import Verif.Proofs.ExactClose
import Verif.Props.Ln
import Verif.Props.LnNearest
import Verif.Model.BigFloat
import Verif.Model.TrigCoeffs
import Verif.Model.TwoOverPi
import Verif.Model.Trig
import Verif.Props.TrigSymmetry
import Verif.Proofs.PiBig
import Verif.Proofs.TrigCert
import Verif.Proofs.TrigCert0
import Verif.Proofs.TrigCert1
import Verif.Proofs.TrigCert2
import Verif.Proofs.TrigCert3
import Verif.Proofs.TrigDist
import Verif.Proofs.UlpErr
import Verif.Proofs.TrigApprox
import Verif.Proofs.TrigUlp
import Verif.Proofs.TrigFrom
import Verif.Proofs.TrigPi
import Verif.Proofs.TrigRed
import Verif.Proofs.TrigLarge
import Verif.Proofs.BigFloat
import Verif.Proofs.BigFma
import Verif.Proofs.BigAdd
import Verif.Proofs.BigTail
import Verif.Proofs.TrigFma
import Verif.Proofs.TrigFmaRed
import Verif.Proofs.TrigFinal
import Verif.Props.Trig
import Verif.Props.Tan
import Verif.Model.ToStr
import Verif.Proofs.ToStrMul
import Verif.Proofs.ToStrTrim
import Verif.Proofs.ToStrRound
import Verif.Proofs.ToStrConv
import Verif.Proofs.ToStrShortest
import Verif.Proofs.ToStrText
import Verif.Proofs.ToStrFinal
import Verif.Props.ToStr
import Verif.Proofs.ToStrExact
import Verif.Props.ToStrExact
import Verif.Proofs.ToStrWide
import Verif.Proofs.ToStrWideRead
import Verif.Props.ToStrWide
import Verif.Model.ToFixed
import Verif.Proofs.ToFixed
import Verif.Proofs.ToFixedText
import Verif.Proofs.ToFixedReal
import Verif.Props.ToFixed
import Verif.Model.AtanTable
import Verif.Model.Atan
import Verif.Proofs.AtanTable
import Verif.Proofs.AtanApprox
import Verif.Proofs.BigDiv
import Verif.Proofs.BigConv
import Verif.Proofs.AtanArg
import Verif.Proofs.AtanFinal
import Verif.Props.Atan
import Verif.Props.Atan2
import Verif.Proofs.BigSqrt
import Verif.Proofs.AsinArg
import Verif.Proofs.AsinFinal
import Verif.Props.Asin
import Verif.Props.Acos
import Verif.Model.Format
import Verif.Props.Format
import Verif.Props.AtanOdd
import Verif.Props.AtanSymmetry
import Verif.Model.Scientific
import Verif.Proofs.Scientific
import Verif.Proofs.ScientificText
import Verif.Proofs.SciChunks
import Verif.Props.Scientific
import Verif.Props.Atan2Small
import Verif.Props.SciChunks
import Verif.Proofs.ErrorFree
import Verif.Props.ErrorFree
import Verif.Props.SqrtSquare
import Verif.Props.Consequences
import Verif.Props.Exactness
import Verif.Props.TrigRange
import Verif.Props.IntText
import Verif.Props.Debug
import Verif.Props.Radix
import Verif.Props.Normalise
import Verif.Props.IntegralMono
import Verif.Props.Pythagoras
import Verif.Props.LogOrder
import Verif.Props.Accumulate
import Verif.Props.Horner
import Verif.Props.Compensated
import Verif.Props.DotNorm
import Verif.Props.Remainders
import Verif.Props.Bisection
import Verif.Props.HalfUlp
import Verif.Props.Absorb
import Verif.Props.Extremes
import Verif.Props.Sorting
import Verif.Props.Enclosure
import Verif.Props.MonotoneLoops
import Verif.Props.FixedPoint
import Verif.Props.TreeSum
