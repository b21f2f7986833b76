import Verif.Audit
import Verif.Common
import Verif.Lemmas.Advance
import Verif.Lemmas.AdvanceBisim
import Verif.Lemmas.AdvanceComplete
import Verif.Lemmas.AdvanceDrive
import Verif.Lemmas.AdvanceTarget
import Verif.Lemmas.AdvanceTarget2
import Verif.Lemmas.AdvanceTarget3
import Verif.Lemmas.Coordinates
import Verif.Lemmas.Float
import Verif.Lemmas.FloatNearest
import Verif.Lemmas.GaussNewtonConvergence
import Verif.Lemmas.GaussNewtonSemiLocal
import Verif.Lemmas.Implicit
import Verif.Lemmas.ImplicitArbitrary
import Verif.Lemmas.ImplicitAsked
import Verif.Lemmas.ImplicitPolicy
import Verif.Lemmas.ImplicitRun
import Verif.Lemmas.LeastSquares
import Verif.Lemmas.LmConvergence
import Verif.Lemmas.LmIterate
import Verif.Lemmas.Lspg
import Verif.Lemmas.LspgAssemble
import Verif.Lemmas.LspgRuns
import Verif.Lemmas.MatrixFree
import Verif.Lemmas.NewtonConvergence
import Verif.Lemmas.NewtonDomain
import Verif.Lemmas.NewtonResidual
import Verif.Lemmas.Nonlinear
import Verif.Lemmas.NonlinearAgree
import Verif.Lemmas.NonlinearChain
import Verif.Lemmas.NonlinearEnds
import Verif.Lemmas.NonlinearIterate
import Verif.Lemmas.NonlinearLoop
import Verif.Lemmas.NonlinearObjects
import Verif.Lemmas.NonlinearSearch
import Verif.Lemmas.NonlinearSolve
import Verif.Lemmas.Numerics
import Verif.Lemmas.QR
import Verif.Lemmas.RecoveryRuns
import Verif.Lemmas.Run
import Verif.Lemmas.Sharing
import Verif.Lemmas.SolverAlike
import Verif.Lemmas.SolverAlikeRuns
import Verif.Lemmas.SolverAsks
import Verif.Lemmas.SolverRun
import Verif.Lemmas.SolverTree
import Verif.Lemmas.TaylorOrder
import Verif.Lemmas.TaylorRK
import Verif.Lemmas.TaylorSmooth
import Verif.Lemmas.Units
import Verif.Model.Advance
import Verif.Model.AdvanceFloat
import Verif.Model.Diagnostics
import Verif.Model.Explicit
import Verif.Model.ExplicitMM
import Verif.Model.Factory
import Verif.Model.Float
import Verif.Model.Galerkin
import Verif.Model.GalerkinObjects
import Verif.Model.HypredUpdater
import Verif.Model.Implicit
import Verif.Model.LinSolvers
import Verif.Model.LinearRom
import Verif.Model.Lspg
import Verif.Model.Nonlinear
import Verif.Model.Overloads
import Verif.Model.QR
import Verif.Model.Reconstructor
import Verif.Model.SolveTree
import Verif.Model.SolverM
import Verif.Model.SteadySolve
import Verif.Model.Stencil
import Verif.Model.Subspace
import Verif.Props.AdvanceFloat
import Verif.Props.AdvanceFloatRecovery
import Verif.Props.AdvanceImplicit
import Verif.Props.AdvanceN
import Verif.Props.AdvanceTarget
import Verif.Props.CollateralBasis
import Verif.Props.CollateralBasisExamples
import Verif.Props.Convergence
import Verif.Props.ConvergenceHighOrder
import Verif.Props.ConvergenceOrder
import Verif.Props.Coordinates
import Verif.Props.CoordinatesAdvance
import Verif.Props.CoordinatesExamples
import Verif.Props.CoordinatesGalerkin
import Verif.Props.CoordinatesSampled
import Verif.Props.CustomSchemes
import Verif.Props.Diagnostics
import Verif.Props.ExactGuess
import Verif.Props.Explicit
import Verif.Props.ExplicitMM
import Verif.Props.ExplicitRun
import Verif.Props.ExplicitTry
import Verif.Props.Factory
import Verif.Props.FomStates
import Verif.Props.FullBasis
import Verif.Props.FullBasisAdvance
import Verif.Props.FullBasisExamples
import Verif.Props.FullyDiscrete
import Verif.Props.Galerkin
import Verif.Props.GalerkinError
import Verif.Props.GalerkinErrorExplicit
import Verif.Props.GalerkinObjects
import Verif.Props.GalerkinRun
import Verif.Props.GalerkinRuns
import Verif.Props.GalerkinStability
import Verif.Props.GalerkinTry
import Verif.Props.GaussNewtonConvergence
import Verif.Props.GaussNewtonSemiLocal
import Verif.Props.HypredUpdater
import Verif.Props.Implicit
import Verif.Props.ImplicitJacobian
import Verif.Props.ImplicitNewton
import Verif.Props.ImplicitNewtonRuns
import Verif.Props.ImplicitStability
import Verif.Props.ImplicitStabilityNewton
import Verif.Props.InvariantSpace
import Verif.Props.InvariantSpaceAdvance
import Verif.Props.InvariantSpaceExamples
import Verif.Props.InvariantSpaceMass
import Verif.Props.InvariantSpaceSteady
import Verif.Props.Invariants
import Verif.Props.LeastSquares
import Verif.Props.LevenbergMarquardt
import Verif.Props.LinSolvers
import Verif.Props.LineSearch
import Verif.Props.LinearRom
import Verif.Props.LmConvergence
import Verif.Props.Lspg
import Verif.Props.LspgError
import Verif.Props.LspgGaussNewton
import Verif.Props.LspgInstances
import Verif.Props.LspgReuse
import Verif.Props.LspgRuns
import Verif.Props.MaskEmulates
import Verif.Props.MaskEmulatesExamples
import Verif.Props.MaskEmulatesSteady
import Verif.Props.MassMatrixNewton
import Verif.Props.MassMatrixRuns
import Verif.Props.MassSolved
import Verif.Props.MatrixFree
import Verif.Props.Newton
import Verif.Props.NewtonConvergence
import Verif.Props.Overloads
import Verif.Props.QR
import Verif.Props.Reconstructor
import Verif.Props.RecoveryRuns
import Verif.Props.Restart
import Verif.Props.RestartAdvance
import Verif.Props.RestartExamples
import Verif.Props.SampleMeshExact
import Verif.Props.SampleMeshExactLspg
import Verif.Props.Sampling
import Verif.Props.SamplingExamples
import Verif.Props.Sensitivity
import Verif.Props.Sharing
import Verif.Props.SharingExamples
import Verif.Props.SolverAlike
import Verif.Props.SolverAlikeExamples
import Verif.Props.SolverAlikeQR
import Verif.Props.SolverAlikeRuns
import Verif.Props.SolverMemory
import Verif.Props.SteadyMatrixFree
import Verif.Props.SteadySolve
import Verif.Props.Stencil
import Verif.Props.Subspace
import Verif.Props.Superposition
import Verif.Props.SuperpositionAdvance
import Verif.Props.SuperpositionMass
import Verif.Props.SuperpositionMassImplicit
import Verif.Props.TimeAsState
import Verif.Props.Units
import Verif.Props.UnitsClock
import Verif.Props.UnitsExamples
import Verif.Spec.Advance
import Verif.Spec.AdvanceDrive
import Verif.Spec.AdvanceFloat
import Verif.Spec.AdvanceFloatRecovery
import Verif.Spec.AdvanceTarget
import Verif.Spec.AdvanceTargetFail
import Verif.Spec.CollateralBasis
import Verif.Spec.Coordinates
import Verif.Spec.CustomSchemes
import Verif.Spec.Explicit
import Verif.Spec.ExplicitMM
import Verif.Spec.ExplicitTry
import Verif.Spec.Float
import Verif.Spec.Galerkin
import Verif.Spec.GalerkinRuns
import Verif.Spec.GaussNewtonConvergence
import Verif.Spec.Implicit
import Verif.Spec.ImplicitNewtonRuns
import Verif.Spec.InvariantSpace
import Verif.Spec.LeastSquares
import Verif.Spec.LevenbergMarquardt
import Verif.Spec.LmConvergence
import Verif.Spec.Lspg
import Verif.Spec.LspgRuns
import Verif.Spec.MassMatrix
import Verif.Spec.MassMatrixNewton
import Verif.Spec.MatrixFree
import Verif.Spec.NewtonConvergence
import Verif.Spec.Nonlinear
import Verif.Spec.NonlinearObjects
import Verif.Spec.NonlinearWitness
import Verif.Spec.QR
import Verif.Spec.RecoveryRuns
import Verif.Spec.ReducedModel
import Verif.Spec.Restart
import Verif.Spec.Run
import Verif.Spec.Sampling
import Verif.Spec.Sharing
import Verif.Spec.SolverAlike
import Verif.Spec.SolverRun
import Verif.Spec.SteadySolve
import Verif.Spec.Subspace
import Verif.Spec.Units
