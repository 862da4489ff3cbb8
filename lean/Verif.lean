import Verif.Spec.Legendre
import Verif.Spec.Transport
import Verif.Model.Basis
import Verif.Model.Matrices
import Verif.Model.Flux
import Verif.Model.SlabRhs
import Verif.Lemmas.Legendre
import Verif.Lemmas.SlabBasis
import Verif.Lemmas.SlabMatrices
import Verif.Lemmas.Flux
import Verif.Lemmas.Advection
import Verif.Lemmas.SlabBalance
import Verif.Props.SlabBasis
import Verif.Model.Build
import Verif.Props.SlabTransport
import Verif.Props.SlabCollision
import Verif.Model.Angular
import Verif.Spec.Angular
import Verif.Lemmas.Angular
import Verif.Props.Angular
import Verif.Lemmas.Chebyshev
import Verif.Model.GmatTable
import Verif.Lemmas.GmatExact
import Verif.Lemmas.GmatEntries
import Verif.Spec.Sphere
import Verif.Model.SphereMatrices
import Verif.Lemmas.SphereMatrices
import Verif.Props.SphereMatrices
import Verif.Model.ActiveRhs
import Verif.Lemmas.SphereBalance
import Verif.Lemmas.ActiveRhs
import Verif.Props.ActiveRhs
import Verif.Props.SphereTransport
import Verif.Lemmas.SphereInverse
import Verif.Props.SphereUniform
import Verif.Spec.Mesh
import Verif.Model.Mesh
import Verif.Lemmas.Mesh
import Verif.Lemmas.MeshGrids
import Verif.Props.Mesh
import Verif.Props.MeshMotion
import Verif.Props.MeshAccel
import Verif.Props.MeshExtra
import Verif.Model.Numerics
import Verif.Props.Numerics
import Verif.Spec.Uncollided
import Verif.Model.Uncollided
import Verif.Lemmas.Uncollided
import Verif.Props.Uncollided
import Verif.Props.UncollidedS2
import Verif.Props.UncollidedMore
import Verif.Model.Sources
import Verif.Spec.Sources
import Verif.Lemmas.Sources
import Verif.Props.Sources
import Verif.Props.InitialCondition
import Verif.Model.Opacity
import Verif.Lemmas.Triple
import Verif.Props.Opacity
import Verif.Model.Output
import Verif.Props.Output
import Verif.Model.Spline
import Verif.Props.GaussElim
import Verif.Props.Spline
import Verif.Model.Saving
import Verif.Lemmas.Saving
import Verif.Props.Saving
import Verif.Props.Parameters
import Verif.Spec.Stability
import Verif.Lemmas.Stability
import Verif.Props.Stability
import Verif.Props.Residual
import Verif.Spec.Mirror
import Verif.Props.Mirror
import Verif.Lemmas.GronwallExcept
import Verif.Lemmas.LinearODE
import Verif.Lemmas.StreamContinuity
import Verif.Lemmas.Monotone
import Verif.Props.Existence
import Verif.Props.Monotone
import Verif.Spec.Projection
import Verif.Spec.Exact
import Verif.Lemmas.ParamIntegral
import Verif.Lemmas.Projection
import Verif.Lemmas.Approximation
import Verif.Props.ErrorEstimate
import Verif.Spec.Beam
import Verif.Spec.Diffusion
import Verif.Model.Benchmarks
import Verif.Props.Beam
import Verif.Props.BenchmarkFlux
import Verif.Props.SelfSimilar
import Verif.Model.Driver
import Verif.Model.Layout
import Verif.Spec.Scaling
import Verif.Props.Scaling
import Verif.Props.Driver
import Verif.Props.ActiveUnits
import Verif.Props.Layout
import Verif.Spec.SphereStability
import Verif.Lemmas.SphereStability
import Verif.Props.SphereStability
import Verif.Lemmas.SphereContinuity
import Verif.Props.SphereExistence
import Verif.Model.SphereTables
import Verif.Lemmas.SphereTables
import Verif.Props.SphereTables
import Verif.Props.SphereTableFiles
import Verif.Spec.SphereExact
import Verif.Lemmas.SphereProjection
import Verif.Lemmas.SphereApproximation
import Verif.Props.SphereErrorEstimate
import Verif.Props.SphereConvergence
import Verif.Model.System
import Verif.Lemmas.System
import Verif.Props.System
import Verif.Props.SystemSphere
import Verif.Props.SphereProgram
import Verif.Props.SpherePositivity
import Verif.Props.SystemOpacity
import Verif.Props.SystemRun
import Verif.Model.Results
import Verif.Props.Results
import Verif.Lemmas.Lobatto
import Verif.Lemmas.LegendreRoots
import Verif.Lemmas.LobattoRule
import Verif.Model.Quadrature
import Verif.Props.Quadrature
import Verif.Model.Wave
import Verif.Props.Wave
import Verif.Model.ErrorTables
import Verif.Props.ErrorTables
import Verif.Model.RunFunctions
import Verif.Props.RunFunctions
import Verif.Props.SphereSuperposition
import Verif.Model.SphereQuad
import Verif.Props.BallFluxRadius
import Verif.Props.SphereSourceError
import Verif.Props.SphereSource
import Verif.Model.TimeStep
import Verif.Lemmas.RungeKutta
import Verif.Props.TimeStep
import Verif.Props.TimeStepExact
import Verif.Props.TimeStepNumber
import Verif.Lemmas.RungeKuttaOrder
import Verif.Lemmas.SphereSmooth
import Verif.Props.TimeStepOrder
import Verif.Model.Solve
import Verif.Props.Solve
import Verif.Model.SlabSolve
import Verif.Props.SlabSolve
import Verif.Props.SolveError
import Verif.Props.OpacityRun
import Verif.Props.FiniteDomain
import Verif.Lemmas.GaussNodes
import Verif.Props.GaussDirections
import Verif.Props.AnyDirections
import Verif.Spec.RungeKutta
import Verif.Lemmas.RungeKuttaLinear
import Verif.Model.Dop853
import Verif.Lemmas.Dop853Order
import Verif.Lemmas.Dop853Double
import Verif.Props.Dop853
import Verif.Model.SolveOptions
import Verif.Props.SolveOptions
import Verif.Model.MovingShock
import Verif.Props.MovingShock
import Verif.Model.ConvergencePlots
import Verif.Props.ConvergencePlots
import Verif.Spec.SphereTransport
import Verif.Lemmas.AngularConsistency
import Verif.Props.AllDirections
import Verif.Props.AllDirectionsLimit
import Verif.Props.UnitTests
import Verif.Props.GaussAccuracy
import Verif.Props.OldFunctions
import Verif.Props.SavingMore
import Verif.Props.OtherStarts
import Verif.Props.SourceIntegrals
import Verif.Props.SourceRules
import Verif.Props.UnusedMesh
import Verif.Props.SmallTables
import Verif.Props.SpareFunctions
import Verif.Props.OldMesh
import Verif.Props.BasisTests
import Verif.Props.ExitFlux
import Verif.Props.FrontMesh
import Verif.Props.SquareMesh
