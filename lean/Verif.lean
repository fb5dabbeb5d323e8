import Verif.EFT
import Verif.F64
import Verif.F64Lemmas
import Verif.Model.Alg
import Verif.Model.Display
import Verif.Model.Double
import Verif.Model.Func
import Verif.Model.Parse
import Verif.Model.Platform
import Verif.Model.Primitive
import Verif.Model.Quad
import Verif.Model.QuadFunc
import Verif.Model.Tables
import Verif.Proofs.AddCore
import Verif.Proofs.Approx
import Verif.Proofs.Atan2
import Verif.Proofs.Atan2Real
import Verif.Proofs.Atan2Step
import Verif.Proofs.Atan2Witness
import Verif.Proofs.Consts
import Verif.Proofs.Dekker
import Verif.Proofs.Display
import Verif.Proofs.DisplayAcc
import Verif.Proofs.DisplayTotal
import Verif.Proofs.DivWide
import Verif.Proofs.DoubleAdd
import Verif.Proofs.DoubleDiv
import Verif.Proofs.DoubleMul
import Verif.Proofs.Exp
import Verif.Proofs.Fract
import Verif.Proofs.Hyper
import Verif.Proofs.HyperLoop
import Verif.Proofs.Ident
import Verif.Proofs.Ints
import Verif.Proofs.Lift
import Verif.Proofs.Ln
import Verif.Proofs.NoFma
import Verif.Proofs.Nroot
import Verif.Proofs.NrootStep
import Verif.Proofs.Opp
import Verif.Proofs.OppDiv
import Verif.Proofs.Parse
import Verif.Proofs.ParseGen
import Verif.Proofs.PlatformWitness
import Verif.Proofs.Pow2
import Verif.Proofs.Powi
import Verif.Proofs.Prim
import Verif.Proofs.Prod
import Verif.Proofs.QuadAcc
import Verif.Proofs.QuadAddLoop
import Verif.Proofs.QuadAddLoop2
import Verif.Proofs.QuadAddZ
import Verif.Proofs.QuadAp
import Verif.Proofs.QuadApDiv
import Verif.Proofs.QuadAtan2
import Verif.Proofs.QuadAtan2Step
import Verif.Proofs.QuadDisp
import Verif.Proofs.QuadDivHead
import Verif.Proofs.QuadDivIdent
import Verif.Proofs.QuadDivInt
import Verif.Proofs.QuadEft
import Verif.Proofs.QuadExp
import Verif.Proofs.QuadFloorGap
import Verif.Proofs.QuadFloorNear
import Verif.Proofs.QuadGrid
import Verif.Proofs.QuadHyper
import Verif.Proofs.QuadIdent
import Verif.Proofs.QuadIntSum
import Verif.Proofs.QuadInts
import Verif.Proofs.QuadLn
import Verif.Proofs.QuadLnOf
import Verif.Proofs.QuadMerge
import Verif.Proofs.QuadMul
import Verif.Proofs.QuadMul2
import Verif.Proofs.QuadMul3
import Verif.Proofs.QuadNroot
import Verif.Proofs.QuadReduce
import Verif.Proofs.QuadRel
import Verif.Proofs.QuadRelW
import Verif.Proofs.QuadRound
import Verif.Proofs.QuadSinh
import Verif.Proofs.QuadSlDiv
import Verif.Proofs.QuadSlMul
import Verif.Proofs.QuadSlSqr
import Verif.Proofs.QuadSlack
import Verif.Proofs.QuadSlackAdd
import Verif.Proofs.QuadSlackDiv
import Verif.Proofs.QuadSlackLoop
import Verif.Proofs.QuadSlackMul
import Verif.Proofs.QuadSqrt
import Verif.Proofs.QuadSqrtOf
import Verif.Proofs.QuadSqrtSlack
import Verif.Proofs.QuadSym
import Verif.Proofs.QuadTaylor
import Verif.Proofs.QuadTies
import Verif.Proofs.QuadTrigCore
import Verif.Proofs.QuadWhole
import Verif.Proofs.Rem
import Verif.Proofs.Renorm4
import Verif.Proofs.Renorm5
import Verif.Proofs.Renorm5Exact
import Verif.Proofs.RenormHead
import Verif.Proofs.Same
import Verif.Proofs.Sqr
import Verif.Proofs.Sqrt
import Verif.Proofs.SqrtF64
import Verif.Proofs.Tables
import Verif.Proofs.TextWitness
import Verif.Proofs.TrigComb
import Verif.Proofs.TrigReduce
import Verif.Proofs.TrigSeries
import Verif.Proofs.TrigTaylor
import Verif.Proofs.Whole
import Verif.Proofs.Wide
import Verif.Props.AddSub
import Verif.Props.Asin
import Verif.Props.Atan
import Verif.Props.Consts
import Verif.Props.Display
import Verif.Props.DisplayShow
import Verif.Props.Div
import Verif.Props.DivAny
import Verif.Props.EFT
import Verif.Props.Exp
import Verif.Props.Folds
import Verif.Props.FromFloat
import Verif.Props.FuncSpecial
import Verif.Props.Hyper
import Verif.Props.Identities
import Verif.Props.Ints
import Verif.Props.InvHyper
import Verif.Props.InvHyper2
import Verif.Props.Inverse
import Verif.Props.Inverse2
import Verif.Props.Laws
import Verif.Props.Ldexp
import Verif.Props.LdexpBig
import Verif.Props.Ln
import Verif.Props.Mul
import Verif.Props.MulComm
import Verif.Props.NoFma
import Verif.Props.Nroot
import Verif.Props.Order
import Verif.Props.Parse
import Verif.Props.Powf
import Verif.Props.Powi
import Verif.Props.QuadAdd
import Verif.Props.QuadAsin
import Verif.Props.QuadAtan
import Verif.Props.QuadBasic
import Verif.Props.QuadCompare
import Verif.Props.QuadDisplay
import Verif.Props.QuadDiv
import Verif.Props.QuadExact
import Verif.Props.QuadExp
import Verif.Props.QuadFromFloat
import Verif.Props.QuadFuncSpecial
import Verif.Props.QuadHyper
import Verif.Props.QuadHyperIdentity
import Verif.Props.QuadIdentities
import Verif.Props.QuadInts
import Verif.Props.QuadInvHyper
import Verif.Props.QuadInverse
import Verif.Props.QuadInverse2
import Verif.Props.QuadLaws
import Verif.Props.QuadLn
import Verif.Props.QuadLog
import Verif.Props.QuadMul
import Verif.Props.QuadNroot
import Verif.Props.QuadOrder
import Verif.Props.QuadParse
import Verif.Props.QuadParseAcc
import Verif.Props.QuadPowi
import Verif.Props.QuadRem
import Verif.Props.QuadRemAny
import Verif.Props.QuadRoundTies
import Verif.Props.QuadSinh
import Verif.Props.QuadSqr
import Verif.Props.QuadSqrt
import Verif.Props.QuadSum
import Verif.Props.QuadTrig
import Verif.Props.QuadUnit
import Verif.Props.QuadWhole
import Verif.Props.Ranges
import Verif.Props.Rem
import Verif.Props.RemAny
import Verif.Props.Renorm
import Verif.Props.Roots
import Verif.Props.RoundTrip
import Verif.Props.Separated
import Verif.Props.SinCos
import Verif.Props.Special
import Verif.Props.Sqrt
import Verif.Props.Symmetry
import Verif.Props.Tables
import Verif.Props.ToQuad
import Verif.Props.Trig
import Verif.Props.TrigAdd
import Verif.Props.TrigTiny
import Verif.Props.TypesAgree
import Verif.Props.TypesAgree2
import Verif.Props.Whole
import Verif.Round
import Verif.Spec
import Verif.SpecAtan2
import Verif.SpecDisplay
import Verif.SpecLibmExp
import Verif.SpecPlatform
import Verif.SpecQuad
import Verif.SpecQuadRound
import Verif.SpecText
