import Verif.Py
import Verif.Model.Integrate
import Verif.Model.LinOp
import Verif.Model.OdeExp
import Verif.Model.Wrapper
import Verif.Model.Rounded
import Verif.Model.Poly
import Verif.Model.Leja
import Verif.Model.LejaImag
import Verif.Model.Phi
import Verif.Model.Arnoldi
import Verif.Model.Krylov
import Verif.Model.ExpLeja
import Verif.Model.Writes
import Verif.Model.PhiInt
import Verif.Props.History
import Verif.Spec.Phi
import Verif.Spec.Client
import Verif.Props.Reset
import Verif.Props.Trial
import Verif.Props.Stale
import Verif.Props.Wrapper
import Verif.Props.Substep
import Verif.Spec.Exact
import Verif.Model.Threads
import Verif.Props.Dispatch
import Verif.Props.Total
import Verif.Props.Callbacks
import Verif.Props.LinOps
import Verif.Props.Threads
import Verif.Props.PhiExt
import Verif.Props.PhiSq
import Verif.Props.PhiAcc
import Verif.Props.Pfd
import Verif.Props.Arnoldi
import Verif.Props.Krylov
import Verif.Props.KrylovErr
import Verif.Props.KrylovCode
import Verif.Props.Steps
import Verif.Props.LinExact
import Verif.Props.Equil
import Verif.Props.Rk4
import Verif.Props.OrderBase
import Verif.Props.OrderRB
import Verif.Props.OrderRBStep
import Verif.Props.OrderSplit
import Verif.Props.Converge
import Verif.Props.ConvergeStep
import Verif.Props.ConvergeRun
import Verif.Props.OrderRK
import Verif.Props.DivDiff
import Verif.Props.LejaEval
import Verif.Props.LejaEst
import Verif.Props.LejaImag
import Verif.Props.NewtonErr
import Verif.Props.LejaStep
import Verif.Props.LejaDemo
import Verif.Props.DdTaylor
import Verif.Model.PolyExp
import Verif.Props.DdSeries
import Verif.Props.DdTs
import Verif.Props.DdPhi
import Verif.Props.DdTaylorAcc
import Verif.Props.LejaCircle
import Verif.Props.LejaEllipse
import Verif.Props.LejaReorder
import Verif.Props.LejaFast
import Verif.Model.Bateman
import Verif.Props.Bateman
import Verif.Props.BatemanFlow
import Verif.Props.BatemanAnalytic
import Verif.Props.Invariant
import Verif.Props.InvariantRun
import Verif.Props.BatemanReal
import Verif.Model.Progression
import Verif.Props.Transfer
import Verif.Props.Layout
import Verif.Props.Dirichlet
import Verif.Props.Torus
import Verif.Props.Gll
import Verif.Props.LotkaVolterra
import Verif.Props.BasisCache
import Verif.Model.RsSys
import Verif.Model.RsKernels
import Verif.Model.RsWrapper
import Verif.Spec.RsClient
import Verif.Props.RsHistory
import Verif.Spec.RsExact
import Verif.Props.RsImplicit
import Verif.Props.RsRk
import Verif.Props.RsPhi
import Verif.Props.RsArnoldi
import Verif.Props.RsTriple
import Verif.Props.RsPade
import Verif.Props.RsPadeAcc
import Verif.Props.RsExp
import Verif.Props.RsCauchy
import Verif.Props.RsOps
import Verif.Props.LejaTol
import Verif.Model.PfdTables
import Verif.Props.PfdPoly
import Verif.Props.PfdCertA
import Verif.Props.PfdCertB
import Verif.Props.PfdCertC
import Verif.Props.PfdAcc
import Verif.Props.CramRun
import Verif.Props.PfdZero
import Verif.Props.PfdEquil
import Verif.Props.RsCram
import Verif.Spec.Approx
import Verif.Spec.Restart
import Verif.Spec.RsInexact
import Verif.Props.ApproxStep
import Verif.Props.ApproxLoop
import Verif.Props.ApproxRB
import Verif.Props.ApproxRun
import Verif.Props.ApproxSplit
import Verif.Props.ApproxSplitRun
import Verif.Props.ApproxEpi3
import Verif.Props.ApproxDemo
import Verif.Props.ApproxDense
import Verif.Props.ApproxKrylov
import Verif.Props.ApproxKrylovRun
import Verif.Props.ApproxKiops
import Verif.Props.RsConverge
import Verif.Props.RsConvergeExp
import Verif.Props.ArnDecomp
import Verif.Props.RsKrylovErr
import Verif.Model.RsMatUtils
import Verif.Props.RsMatUtils
import Verif.Props.RsInvariant
import Verif.Model.RsSystems
import Verif.Props.RsSystems
import Verif.Props.RsPadeSmall
import Verif.Props.RsConvergeReal
import Verif.Model.Bridge
import Verif.Props.Bridge
import Verif.Props.PfdRsRun
import Verif.Props.Crash
import Verif.Props.PhiInt
import Verif.Props.LejaConv
import Verif.Props.LejaConvStep
import Verif.Props.LejaConvRun
import Verif.Props.LejaConvTotal
import Verif.Props.LejaConvDemo
import Verif.Props.LejaConvIm
import Verif.Props.LejaConvPair
import Verif.Props.LejaConvImRun
import Verif.Props.LejaConvEpi3
import Verif.Props.LejaTolIm
import Verif.Props.Rounded
import Verif.Props.RoundedRun
import Verif.Model.Sem
import Verif.Props.Sem
import Verif.Props.SemRun
import Verif.Model.RadData
import Verif.Props.Metzler
import Verif.Props.RadSys
import Verif.Props.RadRun
import Verif.Props.RadShipped
import Verif.Props.PosExist
import Verif.Props.RadExist
import Verif.Props.RadSharp
import Verif.Props.KrylovIom
import Verif.Props.RobustStep
import Verif.Props.RobustRun
import Verif.Props.RobustRad
import Verif.Props.RobustNewton
import Verif.Props.RsRobust
import Verif.Props.RsCnOrder
import Verif.Props.RsKiopsSmall
import Verif.Props.RsRobustRk
import Verif.Props.RsRobustExp
import Verif.Props.RsRobustRun
import Verif.Props.RsEpi3Converge
import Verif.Props.RsEpi3Real
import Verif.Props.Lanczos
import Verif.Props.RsCramRun
import Verif.Props.PfdCertP
import Verif.Props.RsParabolic
import Verif.Props.RsParabolicRun
import Verif.Props.RsPositive
import Verif.Props.PfdCertQ
import Verif.Props.PfdCertR
import Verif.Props.PfdPade
import Verif.Props.PowerIter
import Verif.Props.Restart
import Verif.Props.RsRestart
import Verif.Props.RsInexact
import Verif.Props.RsStiff
import Verif.Spec.Stiff
import Verif.Props.StiffSplit
import Verif.Props.StiffRB
import Verif.Props.StiffRB3
import Verif.Props.StiffRB4
import Verif.Props.RsMonotone
import Verif.Props.RsMonotone2
import Verif.Props.RsMonotoneCn
import Verif.Props.RsTurn
import Verif.Props.RsUnits
import Verif.Props.KrylovTurn
import Verif.Props.RsAffine
import Verif.Spec.Covariant
import Verif.Props.Covariant
