import Verif.Py
import Verif.Spec
import Verif.Model.Knots
import Verif.Model.Basis
import Verif.Lemmas.Piece
import Verif.Lemmas.BasisFunctions
import Verif.Lemmas.FindSpan
import Verif.Props.FindSpan
import Verif.Lemmas.BasisAux
import Verif.Props.Basis
import Verif.Lemmas.Ders
import Verif.Lemmas.OneBasis
import Verif.Lemmas.KnotValues
import Verif.Lemmas.DersAux
import Verif.Props.Ders
import Verif.Lemmas.OneBasisAux
import Verif.Props.OneBasis
import Verif.Lemmas.KnotUtil
import Verif.Lemmas.KnotsAux
import Verif.Props.Knots
import Verif.Lemmas.Boehm
import Verif.Lemmas.Insertion
import Verif.Lemmas.InsertionEnd
import Verif.Lemmas.InsertionAux
import Verif.Props.Insertion
import Verif.Model.BSpline
import Verif.Lemmas.Curve
import Verif.Lemmas.Surface
import Verif.Lemmas.CurveAux
import Verif.Props.Curve
import Verif.Lemmas.SurfaceAux
import Verif.Props.Surface
import Verif.Model.Geometry
import Verif.Model.Parameterize
import Verif.Lemmas.Parameterize
import Verif.Lemmas.GeometryAux
import Verif.Props.Geometry
import Verif.Lemmas.ParameterizeAux
import Verif.Props.Parameterize
import Verif.Model.Fitting
import Verif.Lemmas.LeastSquares
import Verif.Lemmas.Fitting
import Verif.Lemmas.KnotFit
import Verif.Lemmas.FittingAux
import Verif.Props.Fitting
import Verif.Props.KnotFit
import Verif.Model.IO
import Verif.Model.Data
import Verif.SpecData
import Verif.Lemmas.Meth
import Verif.Lemmas.Data
import Verif.Lemmas.IO
import Verif.Props.Data
import Verif.Props.Ruled
import Verif.Lemmas.IOAux
import Verif.Props.IO
import Verif.Lemmas.NewtonAux
import Verif.Props.Newton
import Verif.Props.Committed
import Verif.Props.CommittedErrors
import Verif.Lemmas.AttributesAux
import Verif.Props.Attributes
import Verif.Props.FitStages
import Verif.Lemmas.SurfaceMoreAux
import Verif.Props.SurfaceMore
import Verif.Rounding
import Verif.Model.Rounded
import Verif.Lemmas.VtkDouble
import Verif.Lemmas.Rounded
import Verif.Props.VtkDouble
import Verif.Lemmas.RoundedAux
import Verif.Props.Rounded
import Verif.Lemmas.DoubleAux
import Verif.Props.Double
import Verif.Lemmas.KnotsDoubleAux
import Verif.Props.KnotsDouble
import Verif.Lemmas.Smooth
import Verif.Lemmas.SmoothAux
import Verif.Props.Smooth
import Verif.Lemmas.Refine
import Verif.Lemmas.Marsden
import Verif.Lemmas.Zeros
import Verif.Props.Variation
import Verif.Lemmas.FitUniqueAux
import Verif.Props.FitUnique
import Verif.Model.RoundedFit
import Verif.Lemmas.RoundedFit
import Verif.Lemmas.FitDoubleAux
import Verif.Props.FitDouble
import Verif.Lemmas.FrameAux
import Verif.Props.Frame
import Verif.Lemmas.Interlace
import Verif.Props.FitDetermined
import Verif.Lemmas.Bezier
import Verif.Props.Bezier
import Verif.Lemmas.CurveMore
import Verif.Lemmas.Reversal
import Verif.Props.CurveMore
import Verif.Props.CurveText
import Verif.Props.Session
import Verif.Lemmas.Edge
import Verif.Lemmas.SurfaceEdgesAux
import Verif.Props.SurfaceEdges
import Verif.Lemmas.SurfaceFitUniqueAux
import Verif.Props.SurfaceFitUnique
import Verif.Lemmas.SurfaceInversionAux
import Verif.Props.SurfaceInversion
import Verif.Model.RoundedInsertion
import Verif.Lemmas.RoundedInsertion
import Verif.Lemmas.InsertionDoubleAux
import Verif.Props.InsertionDouble
import Verif.Lemmas.InsertionOverfull
import Verif.Props.InsertionOverfull
import Verif.Props.FitRounds
import Verif.Props.FitLipschitz
import Verif.Props.FitPlanar
import Verif.Props.FitOrder
import Verif.Lemmas.FitProject
import Verif.Props.FitProject
import Verif.RepoTests
import Verif.Lemmas.StartValues
import Verif.Props.StartValues
import Verif.Lemmas.EndsDouble
import Verif.Lemmas.EndsDoubleAux
import Verif.Props.EndsDouble
import Verif.Lemmas.Convergence
import Verif.Props.Convergence
import Verif.Lemmas.Repelling
import Verif.Props.Repelling
import Verif.Lemmas.ConvergenceSurf
import Verif.Lemmas.ConvergenceTrough
import Verif.Props.ConvergenceSurf
import Verif.Lemmas.InteriorAux
import Verif.Props.Interior
import Verif.Props.Missing
import Verif.Lemmas.SingularAux
import Verif.Props.Singular
import Verif.Model.RoundedDers
import Verif.Lemmas.RoundedDers
import Verif.Lemmas.RoundedDersAll
import Verif.Lemmas.RoundedDersSurf
import Verif.Props.RoundedDers
import Verif.Props.DersDouble
import Verif.SpecInversion
import Verif.Lemmas.Trace
import Verif.Lemmas.TraceAux
import Verif.Props.Trace
import Verif.Lemmas.Simulation
import Verif.Lemmas.Affine
import Verif.Props.Affine
import Verif.Lemmas.InsertionMore
import Verif.Props.InsertionMore
import Verif.Lemmas.InsertionOnce
import Verif.Props.InsertionOnce
import Verif.SpecPolygon
import Verif.Lemmas.Polygon
import Verif.Props.Polygon
import Verif.Ext
import Verif.Model.Extended
import Verif.Lemmas.Extended
import Verif.Lemmas.ExtendedMore
import Verif.Lemmas.ExtendedNan
import Verif.Lemmas.ExtendedChecks
import Verif.Lemmas.ExtendedPoints
import Verif.Props.Extended
import Verif.Props.Nan
import Verif.Props.NanInputs
import Verif.Lemmas.NanInversionAux
import Verif.Props.NanInversion
import Verif.Props.Setters
import Verif.Lemmas.ExtendedDers
import Verif.Props.NanDers
import Verif.Props.Vtk
import Verif.Lemmas.BroadcastAux
import Verif.Props.Broadcast
import Verif.Props.ExtReal
import Verif.Model.Integers
import Verif.Lemmas.Integers
import Verif.Props.Integers
import Verif.Props.IntegersBasis
import Verif.Model.Vtk
import Verif.Lemmas.Vtk
import Verif.Model.AnyArithmetic
import Verif.Lemmas.AnyArithmetic
import Verif.Props.AnyArithmetic
import Verif.Lemmas.StartRounded
import Verif.Props.StartRounded
import Verif.Model.Ieee
import Verif.Lemmas.Ieee
import Verif.Lemmas.IeeeDouble
import Verif.Lemmas.IeeeDot
import Verif.Lemmas.IeeeAux
import Verif.Lemmas.IeeeSurf
import Verif.Props.Ieee
import Verif.Props.IeeeSurf
import Verif.Lemmas.IeeeKnots
import Verif.Props.IeeeKnots
import Verif.Lemmas.IeeeInsertion
import Verif.Props.IeeeInsertion
import Verif.Lemmas.Greville
import Verif.Props.Greville
import Verif.Lemmas.GrevilleSecond
import Verif.Props.GrevilleSecond
import Verif.Model.IeeeFit
import Verif.Lemmas.IeeeFit
import Verif.Lemmas.IeeeFitAux
import Verif.Props.IeeeFit
import Verif.Lemmas.Strict
import Verif.Props.Strict
import Verif.Lemmas.Inexact
import Verif.Props.Inexact
import Verif.SpecSolver
import Verif.Model.RoundedSolve
import Verif.Lemmas.RoundedSolve
import Verif.Props.RoundedSolve
import Verif.Model.RoundedKnotFit
import Verif.Lemmas.RoundedKnotFit
import Verif.Lemmas.RoundedKnotRuns
import Verif.Props.RoundedKnotFit
import Verif.Lemmas.Leverage
import Verif.Props.Leverage
import Verif.Model.RoundedSurfaceFit
import Verif.Lemmas.RoundedSurfaceFit
import Verif.Props.RoundedSurfaceFit
import Verif.Lemmas.Approximation
import Verif.Props.Approximation
import Verif.Lemmas.Decay
import Verif.Props.Decay
import Verif.Lemmas.SupStable
import Verif.Props.SupStable
import Verif.Props.FitGrid
import Verif.Model.IeeeDers
import Verif.Lemmas.IeeeDersTri
import Verif.Lemmas.IeeeDersStep
import Verif.Lemmas.IeeeDersRow
import Verif.Lemmas.IeeeDersAll
import Verif.Lemmas.IeeeDersSurf
import Verif.Lemmas.IeeeDersAgree
import Verif.Props.IeeeDers
import Verif.Model.IeeeNormalize
import Verif.Lemmas.IeeeNormalize
import Verif.Lemmas.PatchBound
import Verif.Props.IeeeNormalize
import Verif.Model.RoundedOneDers
import Verif.Lemmas.RoundedOneDers
import Verif.Props.RoundedOneDers
import Verif.Props.DegreeOne
import Verif.Lemmas.Integral
import Verif.Props.Integral
import Verif.Model.Cutoff
import Verif.Lemmas.Cutoff
import Verif.Lemmas.CutoffFit
import Verif.Lemmas.CutoffReal
import Verif.Lemmas.CutoffBackward
import Verif.Props.Cutoff
import Verif.Props.CutoffRounds
import Verif.Props.Memory
import Verif.Props.MemoryData
import Verif.Props.IeeeSolve
import Verif.Props.IeeeKnotFit
import Verif.Props.IeeeSurfaceFit
import Verif.Props.IeeeInversionFit
import Verif.Props.IeeeProblems
import Verif.Props.IeeeSessionEval
import Verif.Props.IeeeAdaptiveSession
import Verif.SpecIeeeMesh
import Verif.Lemmas.IeeeMesh
import Verif.Props.IeeeMesh
import Verif.SpecIeeeNewton
import Verif.Lemmas.IeeeNewton
import Verif.Props.IeeeNewton
import Verif.Props.IeeeSurfNewton
import Verif.Props.IeeeOwnSurf
import Verif.Model.IeeeCurveDers
import Verif.Props.IeeeCommitted
import Verif.Props.IeeeCommittedFit
import Verif.Props.IeeeOwnFit
import Verif.Props.IeeeOwnInterior
