import Verif.Tensor.Fast
import Verif.Tensor.Tactic
import Verif.Model.CCEnergy
import Verif.Model.CCGT
import Verif.Model.CCGL
import Verif.Model.CCGRdm
import Verif.Model.CCUT
import Verif.Model.CCUL
import Verif.Model.CCURdm
import Verif.Model.CCRT
import Verif.Model.CCRL
import Verif.Model.CCRRdm
import Verif.Spec.Sym
import Verif.Spec.CCSD
import Verif.Spec.Lagrangian
import Verif.Props.GT
import Verif.Props.GL
import Verif.Props.GRdm
import Verif.Model.Spin
import Verif.Spec.SymU
import Verif.Props.LDeriv
import Verif.Props.UT
import Verif.Props.UL
import Verif.Props.URdm
import Verif.Spec.Closed
import Verif.Props.RT
import Verif.Props.RL
import Verif.Props.RRdm
import Verif.Model.SpinFin
import Verif.Props.Spin
import Verif.Props.Num
import Verif.Model.Ft
import Verif.Props.Ft
import Verif.Model.Util
import Verif.Props.Util
import Verif.Spec.Fock
import Verif.Spec.SlaterCondon
import Verif.Model.CI
import Verif.Model.CIExp
import Verif.Props.CILemmas
import Verif.Props.CIString
import Verif.Props.CIStrings
import Verif.Props.CIBasis
import Verif.Props.CIQuad
import Verif.Props.CIVib
import Verif.Props.CIMatrix
import Verif.Props.CIVec
import Verif.Spec.ExpT
import Verif.Props.CIExpLemmas
import Verif.Props.CIExpLoc
import Verif.Props.CIExpSpec
import Verif.Props.CIExpG
import Verif.Props.CIExpU
import Verif.Props.CIExpU4
import Verif.Props.CIExp
import Verif.Props.CIExp2
import Verif.Props.CIExp4
import Verif.Props.CIExp5
import Verif.Model.Integrals
import Verif.Props.Integrals
import Verif.Props.IntegralsK
import Verif.Model.Heap
import Verif.Model.HeapProg
import Verif.Props.HeapLemmas
import Verif.Props.HeapFun
import Verif.Props.HeapCC
import Verif.Spec.Second
import Verif.Props.Wick
import Verif.Props.Dress
import Verif.Props.Proj
import Verif.Props.ProjS
import Verif.Props.ProjD
import Verif.Props.FockRep
import Verif.Props.GSecond
import Verif.Props.GSecondL
import Verif.Props.GExact
import Verif.Spec.Separate
import Verif.Props.Sep
import Verif.Props.SepL
import Verif.Props.SepR
import Verif.Props.SepU
import Verif.Model.Numpy
import Verif.Spec.ArrTypes
import Verif.Spec.Tensors
import Verif.Spec.Arrays
import Verif.Props.NumSim
import Verif.Props.NumTypes
import Verif.Props.NumRun
import Verif.Props.NumG
import Verif.Props.NumU
import Verif.Props.NumR
import Verif.Props.NumEx
import Verif.Spec.Basis
import Verif.Props.Rotate
import Verif.Props.RotRun
import Verif.Props.RotG
import Verif.Props.RotU
import Verif.Props.RotR
import Verif.Props.RotEx
import Verif.Props.Response
import Verif.Props.ResponseSq
import Verif.Props.ResponseU
import Verif.Props.ResponseR
import Verif.Props.SumRules
import Verif.Props.Exist
import Verif.Props.ExistMP
import Verif.Props.Rows
import Verif.Props.CCCI
import Verif.Props.CCCIRow
import Verif.Props.CCCIEnd
import Verif.Model.Rounded
import Verif.Props.Round
import Verif.Props.RoundRun
import Verif.Props.RoundCC
import Verif.Model.Views
import Verif.Props.Views
import Verif.Props.ViewsSpin
import Verif.Props.ViewsInt
import Verif.Props.ViewsShare
import Verif.Props.SpinSum
import Verif.Props.Morph
import Verif.Props.Scale
import Verif.Props.ScaleCC
import Verif.Props.Linear
import Verif.Props.LinearCC
import Verif.Props.Units
import Verif.Props.Denom
import Verif.Props.Iterate
import Verif.Props.Lagrange
import Verif.Props.CIVar
import Verif.Spec.Select
import Verif.Props.Grade
import Verif.Props.SymCC
import Verif.Props.Sym
import Verif.Model.FtRound
import Verif.Props.FtRound
import Verif.Props.Machine
import Verif.Props.CISym
import Verif.Props.IterateU
import Verif.Props.CIS
import Verif.Props.Thermo
import Verif.Props.KEx
import Verif.Props.FockRot
import Verif.Props.CIRot
import Verif.Props.FockSpin
import Verif.Props.CISpin
import Verif.Model.CIEx
import Verif.Props.Cisd
import Verif.Props.CisEx
import Verif.Props.FockAdd
import Verif.Props.CIAdd
import Verif.Props.CIAdditive
import Verif.Model.CIRound
import Verif.Props.CIRound
import Verif.Props.CIRoundEx
import Verif.Model.Tests
import Verif.Props.Tests
import Verif.Model.FtTests
import Verif.Model.CITests
import Verif.Props.FtDiff
import Verif.Props.CITests
import Verif.Spec.Binary
import Verif.Props.Binary
import Verif.Model.FtOver
import Verif.Props.FtOver
import Verif.Model.IntTests
import Verif.Props.IntTests
import Verif.Model.CIRe
import Verif.Props.CIReTerms
import Verif.Props.CIRe
import Verif.Props.FtRound2
import Verif.Props.FtDouble
import Verif.Props.CostCmp
import Verif.Props.CISize
import Verif.Props.CIQuad2
import Verif.Props.CILadder
import Verif.Props.SepMany
import Verif.Model.CIMem
import Verif.Props.CIMemRun
import Verif.Props.CIMem
import Verif.Props.Orders
import Verif.Props.OrdersU
import Verif.Props.IterRound
import Verif.Props.IterAnti
import Verif.Props.RoundUni
import Verif.Props.IterUni
import Verif.Props.IterUniL
import Verif.Props.IterUniR
import Verif.Props.IterGen
import Verif.Props.IterUniU
import Verif.Model.IntRound
import Verif.Props.IntRound
import Verif.Model.CIExpRound
import Verif.Props.CIExpRoundTerms
import Verif.Props.CIExpRoundRun
import Verif.Props.CIExpRound
import Verif.Props.CIExpRoundU
import Verif.Model.IntRoundK
import Verif.Props.IntRoundK
import Verif.Model.CIType
import Verif.Props.CIType
import Verif.Model.CIIndex
import Verif.Props.CIIndex
import Verif.Model.Overflow
import Verif.Props.Overflow
import Verif.Props.OverflowCC
import Verif.Props.OverflowEx
import Verif.Props.OverflowRef
import Verif.Props.OverflowIter
import Verif.Props.FtMu
import Verif.Props.FtLaws
import Verif.Props.OverflowIterL
import Verif.Props.OverflowIterU
import Verif.Props.OverflowIterR
import Verif.Props.Agree
import Verif.Props.SymIter
import Verif.Props.AgreeRdm
import Verif.Props.SepIter
import Verif.Props.SepLam
import Verif.Props.RotIter
import Verif.Props.ScaleIter
import Verif.Props.FlipIter
import Verif.Props.LimitEx
import Verif.Props.LimitU
