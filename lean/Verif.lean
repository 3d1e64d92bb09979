import Verif.Spec
import Verif.Model.Limb
import Verif.Model.Add
import Verif.Model.Sub
import Verif.Lemmas.Basic
import Verif.Lemmas.Limb
import Verif.Lemmas.Signed
import Verif.Lemmas.Add
import Verif.Lemmas.Sub
import Verif.Model.Ord
import Verif.Lemmas.Ord
import Verif.Model.Common
import Verif.Model.AddSubApi
import Verif.Lemmas.Contract
import Verif.Lemmas.AddSubApi
import Verif.Lemmas.Scalar
import Verif.Lemmas.NegAbs
import Verif.Props.AddSub
import Verif.Props.Scalar
import Verif.Props.Ord
import Verif.Props.Sign
import Verif.Model.Mul
import Verif.Lemmas.Mul
import Verif.Model.Bitops
import Verif.Lemmas.Bitops
import Verif.Props.Bitops
import Verif.Model.MulApi
import Verif.Lemmas.Pow
import Verif.Lemmas.MulApi
import Verif.Props.Mul
import Verif.Props.Pow
import Verif.Model.Shift
import Verif.Lemmas.Shift
import Verif.Lemmas.Rotate
import Verif.Lemmas.ShiftApi
import Verif.Props.Shift
import Verif.Props.ShiftAll
import Verif.Model.Casts
import Verif.Lemmas.Casts
import Verif.Props.Casts
import Verif.SpecDiv
import Verif.Model.Div
import Verif.Model.DivApi
import Verif.Model.DivScalar
import Verif.Lemmas.DivNat
import Verif.Lemmas.Div
import Verif.Lemmas.DivStep
import Verif.Lemmas.DivLoop
import Verif.Lemmas.DivFull
import Verif.Lemmas.DivTop
import Verif.Lemmas.DivApi
import Verif.Lemmas.DivSigned
import Verif.Lemmas.DivMisc
import Verif.Lemmas.DivMult
import Verif.Lemmas.DivScalar
import Verif.Lemmas.DivClean
import Verif.Lemmas.DivForms
import Verif.Props.Div
import Verif.Props.DivSigned
import Verif.SpecBytes
import Verif.Model.Endian
import Verif.Lemmas.Endian
import Verif.Props.Endian
import Verif.Model.Misc
import Verif.Lemmas.Misc
import Verif.Props.Misc
import Verif.Model.Ilog
import Verif.Lemmas.Ilog
import Verif.Props.Ilog
import Verif.SpecText
import Verif.Model.Parse
import Verif.Model.Write
import Verif.Lemmas.Parse
import Verif.Lemmas.Write
import Verif.Props.Parse
import Verif.Props.Write
import Verif.SpecFixed
import Verif.Model.Fixed
import Verif.Lemmas.Fixed
import Verif.Lemmas.FixedDiv
import Verif.Lemmas.FixedStray
import Verif.Props.Fixed
import Verif.Props.FixedStray
import Verif.Props.FixedZero
import Verif.SpecSame
import Verif.Lemmas.Same
import Verif.Lemmas.SameDiv
import Verif.Props.LimbSize
import Verif.Props.LimbSizeBits
import Verif.Props.LimbSizeDiv
import Verif.Props.LimbSizeFixed
import Verif.Props.LimbSizeRest
import Verif.Props.LimbSizeText
import Verif.Model.Glue
import Verif.Lemmas.Glue
import Verif.Props.Glue
import Verif.SpecGap
import Verif.Lemmas.Gap
import Verif.Props.GapAll
import Verif.Lemmas.Laws
import Verif.Props.Laws
import Verif.Props.DivScalar
import Verif.Lemmas.DivMultAll
import Verif.Props.DivZero
import Verif.Props.DivForms
import Verif.Lemmas.Pad
import Verif.Props.Flags
import Verif.Props.Align
import Verif.SpecRaw
import Verif.Model.Raw
import Verif.Model.RawAdd
import Verif.Model.RawMul
import Verif.Model.RawShift
import Verif.Model.RawApi
import Verif.Lemmas.Raw
import Verif.Lemmas.RawRun
import Verif.Lemmas.RawAdd
import Verif.Lemmas.RawMul
import Verif.Lemmas.RawShift
import Verif.Lemmas.RawApi
import Verif.Props.RawAdd
import Verif.Props.RawMul
import Verif.Props.RawShift
import Verif.Props.RawScan
import Verif.Model.RawDiv
import Verif.Model.RawDivApi
import Verif.Lemmas.RawDiv
import Verif.Lemmas.RawKnuth
import Verif.Lemmas.RawDivFull
import Verif.Lemmas.RawDivApi
import Verif.Props.RawDiv
import Verif.Model.RawScalar
import Verif.Lemmas.RawScalar
import Verif.Props.RawScalar
import Verif.Model.RawCasts
import Verif.Lemmas.RawCasts
import Verif.Props.RawCasts
import Verif.SpecRawText
import Verif.Model.RawText
import Verif.Lemmas.RawText
import Verif.Props.RawText
import Verif.Model.RawPow
import Verif.Lemmas.RawPow
import Verif.Props.RawPow
import Verif.Model.Traits
import Verif.Props.Traits
import Verif.Model.LimbHelpers
import Verif.Props.LimbHelpers
import Verif.Props.ByteOrder
import Verif.Lemmas.TextNormal
import Verif.Props.TextNormal
import Verif.Props.ChainMul
import Verif.SpecHex
import Verif.Lemmas.TextBits
import Verif.Props.TextBits
import Verif.Lemmas.DivLaws
import Verif.Props.DivLaws
import Verif.Lemmas.SignView
import Verif.Props.SignView
import Verif.Lemmas.OrderLaws
import Verif.Props.OrderLaws
import Verif.SpecForms
import Verif.Lemmas.FormsAgree
import Verif.Props.FormsAgree
import Verif.Lemmas.FormsScalar
import Verif.Props.FormsScalar
import Verif.Props.CrateTypes
import Verif.Lemmas.LogLaws
import Verif.Props.LogLaws
import Verif.Repair.Div
import Verif.Repair.Rest
import Verif.Repair.More
import Verif.Lemmas.RepairDiv
import Verif.Lemmas.RepairRest
import Verif.Lemmas.RepairMore
import Verif.Props.Repair
import Verif.Props.RepairMore
import Verif.Props.RepairMath
import Verif.SpecMath
import Verif.Lemmas.MathDiv
import Verif.Props.MathDiv
import Verif.Lemmas.MathArith
import Verif.Props.MathArith
import Verif.Model.RawForms
import Verif.Lemmas.RawForms
import Verif.Props.RawForms
import Verif.Model.RawDivForms
import Verif.Lemmas.RawDivForms
import Verif.Props.RawDivForms
import Verif.Model.RawShiftForms
import Verif.Lemmas.RawShiftForms
import Verif.Props.RawShiftForms
import Verif.SpecRawForms
import Verif.Model.RawScalarForms
import Verif.Lemmas.RawScalarForms
import Verif.Props.RawScalarForms
import Verif.Model.RawFixed
import Verif.Lemmas.RawFixed
import Verif.Props.RawFixed
import Verif.SpecRawDiv
import Verif.Model.RawDivScalar
import Verif.Lemmas.RawDivScalar
import Verif.Props.RawDivScalar
import Verif.Model.MathShift
import Verif.Lemmas.MathShift
import Verif.Props.MathShift
import Verif.Props.CrateTests
import Verif.SpecBench
import Verif.Model.Bench
import Verif.Lemmas.Bench
import Verif.Lemmas.BenchRest
import Verif.Props.Bench
import Verif.Model.Libdivide
import Verif.Lemmas.Libdivide
import Verif.Props.Libdivide
import Verif.Model.Magic
import Verif.Lemmas.Magic
import Verif.Props.Magic
import Verif.Props.Sci
import Verif.Props.RepairSci
import Verif.Model.QuickCheck
import Verif.SpecBits
import Verif.Lemmas.BitVecs
import Verif.Lemmas.QuickCheck
import Verif.Props.QuickCheck
import Verif.Lemmas.BitVecForms
import Verif.Lemmas.BitVecCounts
import Verif.Props.BitVecs
import Verif.Lemmas.ScalarFull
import Verif.Props.ScalarFull
import Verif.SpecWiden
import Verif.Lemmas.Widen
import Verif.Props.Widen
import Verif.Props.WidenBits
import Verif.Props.WidenDiv
import Verif.Lemmas.WidenText
import Verif.Props.WidenText
import Verif.SpecProg
import Verif.Model.Prog
import Verif.Lemmas.Prog
import Verif.Props.Prog
import Verif.SpecLoop
import Verif.Model.Loop
import Verif.Lemmas.Loop
import Verif.Props.Loop
import Verif.SpecIdeal
import Verif.Repair.Prog
import Verif.Lemmas.RepairProg
import Verif.Props.RepairProg
import Verif.SpecStyle
import Verif.Model.Style
import Verif.Lemmas.Style
import Verif.Props.Style
import Verif.SpecCalc
import Verif.Model.Calc
import Verif.Lemmas.Calc
import Verif.Props.Calc
import Verif.Repair.Calc
import Verif.Lemmas.RepairCalc
import Verif.Props.RepairCalc
import Verif.SpecMixed
import Verif.Model.Mixed
import Verif.Lemmas.Mixed
import Verif.Props.Mixed
import Verif.Repair.Mixed
import Verif.Lemmas.RepairMixed
import Verif.Props.RepairMixed
import Verif.Lemmas.Client
import Verif.Props.Client
import Verif.SpecWork
import Verif.Model.Work
import Verif.Lemmas.Work
import Verif.Props.Work
import Verif.SpecWorkText
import Verif.Model.WorkText
import Verif.Lemmas.WorkText
import Verif.Props.WorkText
import Verif.Props.Digits
import Verif.Props.Root
import Verif.Props.ModPow
import Verif.Lemmas.Rare
import Verif.Props.Rare
import Verif.Lemmas.RareMul
import Verif.Props.RareMul
import Verif.Lemmas.BadDivisor
import Verif.Props.BadDivisor
import Verif.Lemmas.BadWide
import Verif.Props.BadWide
import Verif.Lemmas.Multiples
import Verif.Props.Multiples
import Verif.Lemmas.BadSigned
import Verif.Props.BadSigned
import Verif.Lemmas.ManyDiv
import Verif.Props.ManyDiv
