import Verif.Lemmas.Acceptance
import Verif.Lemmas.Ampl
import Verif.Lemmas.AmplFunc
import Verif.Lemmas.AmplKeywords
import Verif.Lemmas.AmplProblem
import Verif.Lemmas.AugJac
import Verif.Lemmas.AugJacDirect
import Verif.Lemmas.AugJacReduced
import Verif.Lemmas.Bfgs
import Verif.Lemmas.BfgsMat
import Verif.Lemmas.CauchyLp
import Verif.Lemmas.CauchyLpEx
import Verif.Lemmas.CauchyLpExtra
import Verif.Lemmas.CauchyLpHist
import Verif.Lemmas.CauchyLpState
import Verif.Lemmas.CauchyLpWork
import Verif.Lemmas.CauchyStep
import Verif.Lemmas.CauchyStepEx
import Verif.Lemmas.Certificate
import Verif.Lemmas.Cursor
import Verif.Lemmas.DerivCheck
import Verif.Lemmas.EvalPoints
import Verif.Lemmas.EvalProtocol
import Verif.Lemmas.FactBackend
import Verif.Lemmas.FactBackends
import Verif.Lemmas.FactBackendsHsl
import Verif.Lemmas.FactBackendsSparse
import Verif.Lemmas.FactLoops
import Verif.Lemmas.Feas
import Verif.Lemmas.GaussNewton
import Verif.Lemmas.Hist
import Verif.Lemmas.Iteration
import Verif.Lemmas.Krylov
import Verif.Lemmas.LocalInfeas
import Verif.Lemmas.LpBackend
import Verif.Lemmas.LpBasis
import Verif.Lemmas.Lsqr
import Verif.Lemmas.Mat
import Verif.Lemmas.MatNum
import Verif.Lemmas.Mex
import Verif.Lemmas.MexFunc
import Verif.Lemmas.Minimize
import Verif.Lemmas.MinimizeBounds
import Verif.Lemmas.NullProj
import Verif.Lemmas.Own
import Verif.Lemmas.OwnStep
import Verif.Lemmas.Parametric
import Verif.Lemmas.Phases
import Verif.Lemmas.Presolve
import Verif.Lemmas.PresolveInv
import Verif.Lemmas.PresolveRun
import Verif.Lemmas.PresolveStruct
import Verif.Lemmas.PyErrors
import Verif.Lemmas.Python
import Verif.Lemmas.QnBlocks
import Verif.Lemmas.QnRun
import Verif.Lemmas.QnVec
import Verif.Lemmas.Remove
import Verif.Lemmas.Reset
import Verif.Lemmas.Restoration
import Verif.Lemmas.RestoreCorrect
import Verif.Lemmas.RestoreForcing
import Verif.Lemmas.RestoreMain
import Verif.Lemmas.RestorePrep
import Verif.Lemmas.Ring
import Verif.Lemmas.Scale
import Verif.Lemmas.SolverCreate
import Verif.Lemmas.Spqr
import Verif.Lemmas.Sr1
import Verif.Lemmas.Steihaug
import Verif.Lemmas.Transform
import Verif.Lemmas.TrialPoint
import Verif.Lemmas.TrialPointEx
import Verif.Lemmas.Trlib
import Verif.Lemmas.Vec
import Verif.Lemmas.VecNum
import Verif.Lemmas.WorkRhs
import Verif.Model.Acceptance
import Verif.Model.Ampl
import Verif.Model.AmplKeywords
import Verif.Model.AmplProblem
import Verif.Model.AmplRun
import Verif.Model.AugJac
import Verif.Model.AugJacDirect
import Verif.Model.AugJacReduced
import Verif.Model.Bfgs
import Verif.Model.Callback
import Verif.Model.Capacity
import Verif.Model.Cauchy
import Verif.Model.CauchyLp
import Verif.Model.CauchyStep
import Verif.Model.Choice
import Verif.Model.Cmp
import Verif.Model.Cursor
import Verif.Model.DerivCheck
import Verif.Model.DerivCheckLsq
import Verif.Model.DirCheck
import Verif.Model.Direction
import Verif.Model.DualEstimation
import Verif.Model.Dump
import Verif.Model.Dyn
import Verif.Model.DynLayer
import Verif.Model.EvalPoints
import Verif.Model.EvalProtocol
import Verif.Model.Events
import Verif.Model.Ext
import Verif.Model.FactBackend
import Verif.Model.Feas
import Verif.Model.FixedVar
import Verif.Model.Flags
import Verif.Model.GaussNewton
import Verif.Model.Gil
import Verif.Model.HessStruct
import Verif.Model.IterBufs
import Verif.Model.Iteration
import Verif.Model.Linesearch
import Verif.Model.Log
import Verif.Model.LpBackend
import Verif.Model.LpHandover
import Verif.Model.Lsq
import Verif.Model.Lsqr
import Verif.Model.Mat
import Verif.Model.MatPrint
import Verif.Model.MaxStep
import Verif.Model.Measure
import Verif.Model.Mex
import Verif.Model.MexFunc
import Verif.Model.MexMain
import Verif.Model.MexOptions
import Verif.Model.MexOwn
import Verif.Model.Minimize
import Verif.Model.MinimizeBounds
import Verif.Model.Newton
import Verif.Model.NewtonLog
import Verif.Model.Own
import Verif.Model.OwnLayout
import Verif.Model.Parametric
import Verif.Model.Penalty
import Verif.Model.Phases
import Verif.Model.Polish
import Verif.Model.Preprocessing
import Verif.Model.Presolve
import Verif.Model.Problem
import Verif.Model.PyDyn
import Verif.Model.PyErrors
import Verif.Model.PyHess
import Verif.Model.PyScale
import Verif.Model.PySettings
import Verif.Model.PyViews
import Verif.Model.Python
import Verif.Model.Reset
import Verif.Model.Restoration
import Verif.Model.RestoreDual
import Verif.Model.Ring
import Verif.Model.Scale
import Verif.Model.Settings
import Verif.Model.Soc
import Verif.Model.SolveTime
import Verif.Model.Solver
import Verif.Model.SolverCreate
import Verif.Model.Spqr
import Verif.Model.Sr1
import Verif.Model.StartWarn
import Verif.Model.State
import Verif.Model.Steihaug
import Verif.Model.SteihaugDebug
import Verif.Model.StepRule
import Verif.Model.Summary
import Verif.Model.Threads
import Verif.Model.TimeLimits
import Verif.Model.Timer
import Verif.Model.TimerNest
import Verif.Model.Transform
import Verif.Model.TrialPar
import Verif.Model.TrialPoint
import Verif.Model.Trlib
import Verif.Model.TrlibCheck
import Verif.Model.Vec
import Verif.Model.Violated
import Verif.Model.WSetPrint
import Verif.Model.WorkStep
import Verif.Model.WorkingSet
import Verif.Props.Acceptance
import Verif.Props.Ampl
import Verif.Props.AmplKeywords
import Verif.Props.AmplProblem
import Verif.Props.AmplRun
import Verif.Props.AugJac
import Verif.Props.AugJacDirect
import Verif.Props.AugJacReduced
import Verif.Props.Bfgs
import Verif.Props.Callback
import Verif.Props.Capacity
import Verif.Props.Cauchy
import Verif.Props.CauchyLp
import Verif.Props.CauchyLpDual
import Verif.Props.CauchyLpWork
import Verif.Props.CauchyLs
import Verif.Props.CauchyLsEps
import Verif.Props.CauchyStep
import Verif.Props.Certificate
import Verif.Props.Choice
import Verif.Props.Clip
import Verif.Props.Cmp
import Verif.Props.DerivCheck
import Verif.Props.DerivCheckLsq
import Verif.Props.DirCheck
import Verif.Props.DirCheckNewton
import Verif.Props.DirCheckTrial
import Verif.Props.Direction
import Verif.Props.DirectionEps
import Verif.Props.DropTol
import Verif.Props.DualEstimation
import Verif.Props.Dump
import Verif.Props.Dyn
import Verif.Props.DynLayer
import Verif.Props.EvalPoints
import Verif.Props.EvalProtocol
import Verif.Props.Events
import Verif.Props.ExactLs
import Verif.Props.FactBackend
import Verif.Props.Feas
import Verif.Props.FixedVar
import Verif.Props.Flags
import Verif.Props.GaussNewton
import Verif.Props.Gil
import Verif.Props.HessStruct
import Verif.Props.IterBufs
import Verif.Props.LocalInfeas
import Verif.Props.Log
import Verif.Props.LpBackend
import Verif.Props.LpBasis
import Verif.Props.LpHandover
import Verif.Props.Lsq
import Verif.Props.Lsqr
import Verif.Props.Mat
import Verif.Props.MatPrint
import Verif.Props.MatRemove
import Verif.Props.MaxStep
import Verif.Props.Measure
import Verif.Props.Merit
import Verif.Props.Mex
import Verif.Props.MexFunc
import Verif.Props.MexMain
import Verif.Props.MexOptions
import Verif.Props.MexOwn
import Verif.Props.MexProblem
import Verif.Props.Minimize
import Verif.Props.MinimizeBounds
import Verif.Props.Newton
import Verif.Props.NewtonLog
import Verif.Props.Own
import Verif.Props.Parametric
import Verif.Props.ParametricEps
import Verif.Props.Penalty
import Verif.Props.Phases
import Verif.Props.Polish
import Verif.Props.Presolve
import Verif.Props.Problem
import Verif.Props.PyDyn
import Verif.Props.PyErrors
import Verif.Props.PyHess
import Verif.Props.PyScale
import Verif.Props.PySettings
import Verif.Props.PyViews
import Verif.Props.Python
import Verif.Props.QuasiNewton
import Verif.Props.Remove
import Verif.Props.Reset
import Verif.Props.Restoration
import Verif.Props.RestoreDual
import Verif.Props.Scale
import Verif.Props.Settings
import Verif.Props.Soc
import Verif.Props.Solve
import Verif.Props.SolveTime
import Verif.Props.Solver
import Verif.Props.SolverCreate
import Verif.Props.Spqr
import Verif.Props.Sr1
import Verif.Props.StartWarn
import Verif.Props.State
import Verif.Props.Steihaug
import Verif.Props.SteihaugDebug
import Verif.Props.SteihaugEps
import Verif.Props.StepRule
import Verif.Props.StepRulePenalty
import Verif.Props.Summary
import Verif.Props.Threads
import Verif.Props.TimeLimits
import Verif.Props.Timer
import Verif.Props.TimerNest
import Verif.Props.TrialEps
import Verif.Props.TrialLs
import Verif.Props.TrialLsEps
import Verif.Props.TrialPar
import Verif.Props.TrialParEps
import Verif.Props.TrialPoint
import Verif.Props.Trlib
import Verif.Props.TrlibCheck
import Verif.Props.Trust
import Verif.Props.Vec
import Verif.Props.Violated
import Verif.Props.WSetPrint
import Verif.Props.WorkStep
import Verif.Props.WorkingSet
import Verif.Spec.Acceptance
import Verif.Spec.Ampl
import Verif.Spec.AmplProblem
import Verif.Spec.AmplRun
import Verif.Spec.AugJac
import Verif.Spec.AugJacDirect
import Verif.Spec.Bfgs
import Verif.Spec.Callback
import Verif.Spec.Capacity
import Verif.Spec.CauchyLp
import Verif.Spec.CauchyStep
import Verif.Spec.Certificate
import Verif.Spec.Choice
import Verif.Spec.DerivCheck
import Verif.Spec.DerivExact
import Verif.Spec.DirCheck
import Verif.Spec.Direction
import Verif.Spec.DirectionEps
import Verif.Spec.Dump
import Verif.Spec.DynLayer
import Verif.Spec.EvalPoints
import Verif.Spec.EvalProtocol
import Verif.Spec.FactBackend
import Verif.Spec.Feas
import Verif.Spec.FixedVar
import Verif.Spec.GaussNewton
import Verif.Spec.Gil
import Verif.Spec.HessStruct
import Verif.Spec.Hist
import Verif.Spec.IterBufs
import Verif.Spec.LocalInfeas
import Verif.Spec.Log
import Verif.Spec.LpBackend
import Verif.Spec.LpHandover
import Verif.Spec.Lsq
import Verif.Spec.Lsqr
import Verif.Spec.Mat
import Verif.Spec.Measure
import Verif.Spec.Mex
import Verif.Spec.MexFunc
import Verif.Spec.MexMain
import Verif.Spec.MexOptions
import Verif.Spec.Minimize
import Verif.Spec.MinimizeBounds
import Verif.Spec.Newton
import Verif.Spec.NewtonLog
import Verif.Spec.Own
import Verif.Spec.Parametric
import Verif.Spec.ParametricEps
import Verif.Spec.Phases
import Verif.Spec.Presolve
import Verif.Spec.Problem
import Verif.Spec.PyDyn
import Verif.Spec.PyErrors
import Verif.Spec.PyScale
import Verif.Spec.PySettings
import Verif.Spec.Python
import Verif.Spec.QuasiNewton
import Verif.Spec.Remove
import Verif.Spec.RestoreDual
import Verif.Spec.Scale
import Verif.Spec.Settings
import Verif.Spec.Soc
import Verif.Spec.SolveTime
import Verif.Spec.SolverCreate
import Verif.Spec.Spqr
import Verif.Spec.Sr1
import Verif.Spec.State
import Verif.Spec.Steihaug
import Verif.Spec.Threads
import Verif.Spec.TimeLimits
import Verif.Spec.Timer
import Verif.Spec.TimerNest
import Verif.Spec.TrialEps
import Verif.Spec.TrialPar
import Verif.Spec.TrialPoint
import Verif.Spec.Trlib
import Verif.Spec.Vec
import Verif.Spec.WorkingSet
