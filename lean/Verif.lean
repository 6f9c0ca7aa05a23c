import Verif.Model.Arith
import Verif.Model.Bessel
import Verif.Model.Big
import Verif.Model.Cbrt
import Verif.Model.Decomp
import Verif.Model.Env
import Verif.Model.Erf
import Verif.Model.Exp
import Verif.Model.Facade
import Verif.Model.Fma
import Verif.Model.FmaWide
import Verif.Model.Fmod
import Verif.Model.Gamma
import Verif.Model.Generic
import Verif.Model.HexFloat
import Verif.Model.Hyperbolic
import Verif.Model.Hypot
import Verif.Model.I586
import Verif.Model.InvTrig
import Verif.Model.Lit
import Verif.Model.Log
import Verif.Model.Pow
import Verif.Model.Round
import Verif.Model.Scalbn
import Verif.Model.Sqrt
import Verif.Model.Traits
import Verif.Model.Trig
import Verif.Model.Words
import Verif.Props.AcoshSign
import Verif.Props.AsinAcc
import Verif.Props.Atan2
import Verif.Props.Atan2Acc
import Verif.Props.AtanAcc
import Verif.Props.Basic
import Verif.Props.Bessel
import Verif.Props.Big
import Verif.Props.Cbrt
import Verif.Props.Erf
import Verif.Props.Exp
import Verif.Props.Exp10
import Verif.Props.Exp10Acc
import Verif.Props.Exp10Range
import Verif.Props.Exp10Sat
import Verif.Props.Exp2
import Verif.Props.Exp2Acc
import Verif.Props.Exp2fAcc
import Verif.Props.ExpAcc
import Verif.Props.ExpRange
import Verif.Props.ExpfAcc
import Verif.Props.Expm1Acc
import Verif.Props.Facade
import Verif.Props.Fma
import Verif.Props.FmaWide
import Verif.Props.Fmod
import Verif.Props.Frexp
import Verif.Props.Gamma
import Verif.Props.HexFloat
import Verif.Props.HexFmt
import Verif.Props.HypAcc
import Verif.Props.HypSpecial
import Verif.Props.Hyperbolic
import Verif.Props.Hypot
import Verif.Props.I586
import Verif.Props.Integral
import Verif.Props.InvHyp
import Verif.Props.InvHypAcc
import Verif.Props.InvTrig
import Verif.Props.Lgamma
import Verif.Props.Log
import Verif.Props.Log1pAcc
import Verif.Props.Log2Acc
import Verif.Props.LogAcc
import Verif.Props.MinMax
import Verif.Props.Modf
import Verif.Props.Monotone
import Verif.Props.PiTable
import Verif.Props.Pow
import Verif.Props.PowSign
import Verif.Props.PowSym
import Verif.Props.PowTotal
import Verif.Props.Range
import Verif.Props.RangeHyp
import Verif.Props.Remquo
import Verif.Props.RoundInt
import Verif.Props.Scalbn
import Verif.Props.Sign
import Verif.Props.Signs
import Verif.Props.Sincos
import Verif.Props.Sincosf
import Verif.Props.Sqrt
import Verif.Props.SymTrigD
import Verif.Props.TanAccD
import Verif.Props.Trig
import Verif.Props.TrigAcc
import Verif.Props.TrigAccD
import Verif.Spec.Bessel
import Verif.Spec.Float
import Verif.Spec.HexFloat
import Verif.Spec.Symmetry
import Verif.Spec.Ulp
import Verif.Theory.AcoshDom
import Verif.Theory.Add
import Verif.Theory.Ap
import Verif.Theory.Ap32
import Verif.Theory.Arith
import Verif.Theory.As
import Verif.Theory.As32
import Verif.Theory.AsW
import Verif.Theory.AsinAcc
import Verif.Theory.AsinBig
import Verif.Theory.AsinKern
import Verif.Theory.AsinReal
import Verif.Theory.AsinSqrt
import Verif.Theory.Atan2Acc
import Verif.Theory.AtanAcc
import Verif.Theory.BesselD
import Verif.Theory.BesselF
import Verif.Theory.Bits
import Verif.Theory.CF
import Verif.Theory.CF2
import Verif.Theory.CbrtBits
import Verif.Theory.CbrtCore
import Verif.Theory.CbrtEnd
import Verif.Theory.CbrtF
import Verif.Theory.CbrtF2
import Verif.Theory.CbrtFin
import Verif.Theory.CbrtFirst
import Verif.Theory.CbrtStep
import Verif.Theory.Cut
import Verif.Theory.Decomp
import Verif.Theory.ErfConst
import Verif.Theory.ErfKern
import Verif.Theory.Err
import Verif.Theory.Err64
import Verif.Theory.Exact
import Verif.Theory.Exp2D
import Verif.Theory.Exp2F
import Verif.Theory.Exp2Tab
import Verif.Theory.ExpD
import Verif.Theory.ExpEnd
import Verif.Theory.ExpF
import Verif.Theory.ExpReal
import Verif.Theory.ExpRed
import Verif.Theory.Expm1End
import Verif.Theory.Expm1K
import Verif.Theory.Expm1Real
import Verif.Theory.Flt
import Verif.Theory.Fma
import Verif.Theory.Fma2
import Verif.Theory.Fma3
import Verif.Theory.FmaWide
import Verif.Theory.Fmod
import Verif.Theory.GammaR
import Verif.Theory.Grow
import Verif.Theory.HexFloat
import Verif.Theory.HexFloat2
import Verif.Theory.HexFloat3
import Verif.Theory.HypCore
import Verif.Theory.Hypot
import Verif.Theory.Hypot2
import Verif.Theory.Hypotf
import Verif.Theory.Integral
import Verif.Theory.InvHypCore
import Verif.Theory.InvKern
import Verif.Theory.InvTrig
import Verif.Theory.InvTrigConst
import Verif.Theory.KernD
import Verif.Theory.KernF
import Verif.Theory.Log2Body
import Verif.Theory.LogAs
import Verif.Theory.LogBody
import Verif.Theory.LogCore
import Verif.Theory.LogHi
import Verif.Theory.LogReal
import Verif.Theory.LogRed
import Verif.Theory.Magic
import Verif.Theory.Neg
import Verif.Theory.Odd
import Verif.Theory.Order
import Verif.Theory.PiBits
import Verif.Theory.PolyBd
import Verif.Theory.Pow10
import Verif.Theory.PowCut
import Verif.Theory.PowExp
import Verif.Theory.PowLog
import Verif.Theory.PowMul
import Verif.Theory.PowSplit
import Verif.Theory.PowSum
import Verif.Theory.PowTail
import Verif.Theory.PowTot
import Verif.Theory.PowTot2
import Verif.Theory.PowfTot
import Verif.Theory.RNE
import Verif.Theory.Rel64
import Verif.Theory.Rem32
import Verif.Theory.RemD
import Verif.Theory.RemMed
import Verif.Theory.RemSmall
import Verif.Theory.Rep
import Verif.Theory.Rl
import Verif.Theory.Round
import Verif.Theory.RoundInt
import Verif.Theory.Rpl
import Verif.Theory.RplAcc
import Verif.Theory.RplArg
import Verif.Theory.RplFin
import Verif.Theory.RplLoop
import Verif.Theory.RplNear
import Verif.Theory.RplPass
import Verif.Theory.RplPass2
import Verif.Theory.RplTail
import Verif.Theory.Scale
import Verif.Theory.SinPi
import Verif.Theory.SinSeries
import Verif.Theory.Sqrt
import Verif.Theory.Sqrt2
import Verif.Theory.Sqrt3
import Verif.Theory.Sqrt4
import Verif.Theory.Sqrt5
import Verif.Theory.Sqrt6
import Verif.Theory.Sqrt7
import Verif.Theory.Sticky
import Verif.Theory.SymD
import Verif.Theory.SymF
import Verif.Theory.TanBig
import Verif.Theory.TanD
import Verif.Theory.TanInv
import Verif.Theory.TanPoly
import Verif.Theory.TanReal
import Verif.Theory.Trans
import Verif.Theory.TrigConst
import Verif.Theory.TrigD
import Verif.Theory.TrigDir
import Verif.Theory.TrigF
import Verif.Theory.Ulp
import Verif.Theory.UlpTop
import Verif.Theory.Word
