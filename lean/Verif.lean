import Verif.Lemmas.Analytic
import Verif.Lemmas.Config
import Verif.Lemmas.Decay
import Verif.Lemmas.Embed
import Verif.Lemmas.Energy
import Verif.Lemmas.FdtdConverge
import Verif.Lemmas.FdtdConvergeMean
import Verif.Lemmas.FdtdField
import Verif.Lemmas.FdtdSeries
import Verif.Lemmas.FdtdSmooth
import Verif.Lemmas.Films
import Verif.Lemmas.Gauge
import Verif.Lemmas.Grating
import Verif.Lemmas.HalfSpace
import Verif.Lemmas.Invariance
import Verif.Lemmas.LabFrame
import Verif.Lemmas.LatticeCount
import Verif.Lemmas.LayerEnergy
import Verif.Lemmas.Layers
import Verif.Lemmas.LineDecay
import Verif.Lemmas.Lossy
import Verif.Lemmas.MatrixRoot
import Verif.Lemmas.Pixels
import Verif.Lemmas.PrintText
import Verif.Lemmas.Py
import Verif.Lemmas.Reciprocity
import Verif.Lemmas.Relabel
import Verif.Lemmas.SMatrix
import Verif.Lemmas.Smooth
import Verif.Lemmas.Solvable
import Verif.Lemmas.Symmetry
import Verif.Lemmas.Tiling
import Verif.Lemmas.Tmm
import Verif.Lemmas.TmmFlux
import Verif.Lemmas.Triangular
import Verif.Lemmas.Units
import Verif.Model.Backend
import Verif.Model.Config
import Verif.Model.ConfigEffects
import Verif.Model.Conv
import Verif.Model.EpsDispatch
import Verif.Model.EpsGrid
import Verif.Model.FdtdArrival
import Verif.Model.FdtdBoundary
import Verif.Model.FdtdCoefficients
import Verif.Model.FdtdCurrent
import Verif.Model.FdtdGrid
import Verif.Model.FdtdIntegration
import Verif.Model.FdtdNames
import Verif.Model.FdtdObjects
import Verif.Model.FdtdPlane
import Verif.Model.FdtdPrint
import Verif.Model.FdtdQueries
import Verif.Model.FdtdSources
import Verif.Model.FdtdStep
import Verif.Model.FdtdSteps
import Verif.Model.FdtdTensors
import Verif.Model.FdtdVisual
import Verif.Model.Fft
import Verif.Model.GridScale
import Verif.Model.Impedance
import Verif.Model.Lattice
import Verif.Model.LogLevel
import Verif.Model.Loss
import Verif.Model.Materials
import Verif.Model.Nets
import Verif.Model.Plots
import Verif.Model.Py
import Verif.Model.Rcwa
import Verif.Model.RcwaDriver
import Verif.Model.RcwaEntry
import Verif.Model.RcwaFields
import Verif.Model.RcwaGrid
import Verif.Model.Runs
import Verif.Model.Shapes
import Verif.Model.SirenRecord
import Verif.Model.Tables
import Verif.Model.Tmm
import Verif.Model.TmmInc
import Verif.Model.TorchOps
import Verif.Model.TrainConfig
import Verif.Model.TrainSeed
import Verif.Model.Training
import Verif.Model.TrcwaLayers
import Verif.Model.Units
import Verif.Props.Backend
import Verif.Props.Backward
import Verif.Props.Bragg
import Verif.Props.Classification
import Verif.Props.Config
import Verif.Props.ConfigAccept
import Verif.Props.ConfigEffects
import Verif.Props.ConfigErr
import Verif.Props.Conv
import Verif.Props.ConvHull
import Verif.Props.ConvInverse
import Verif.Props.ConvMonotone
import Verif.Props.ConvRobust
import Verif.Props.ConvSolvable
import Verif.Props.ConvSpectrum
import Verif.Props.Energy
import Verif.Props.EpsDispatch
import Verif.Props.EpsGrid
import Verif.Props.EpsValues
import Verif.Props.FdtdArrival
import Verif.Props.FdtdAxes
import Verif.Props.FdtdBoundary
import Verif.Props.FdtdCoefficients
import Verif.Props.FdtdConverge
import Verif.Props.FdtdConvergeDriven
import Verif.Props.FdtdConvergeLayers
import Verif.Props.FdtdConvergePieces
import Verif.Props.FdtdCurl
import Verif.Props.FdtdCurrent
import Verif.Props.FdtdDecibel
import Verif.Props.FdtdDispersion
import Verif.Props.FdtdEnergy
import Verif.Props.FdtdEntry
import Verif.Props.FdtdFilms
import Verif.Props.FdtdFilmsDriver
import Verif.Props.FdtdFilmsLimit
import Verif.Props.FdtdFlat
import Verif.Props.FdtdForward
import Verif.Props.FdtdFront
import Verif.Props.FdtdGrid
import Verif.Props.FdtdLayerStable
import Verif.Props.FdtdLayout
import Verif.Props.FdtdLists
import Verif.Props.FdtdLoss
import Verif.Props.FdtdMirror
import Verif.Props.FdtdMirrorObject
import Verif.Props.FdtdNames
import Verif.Props.FdtdObjects
import Verif.Props.FdtdOrder
import Verif.Props.FdtdPicture
import Verif.Props.FdtdPieces
import Verif.Props.FdtdPipeline
import Verif.Props.FdtdPlane
import Verif.Props.FdtdPml
import Verif.Props.FdtdPoint
import Verif.Props.FdtdPoynting
import Verif.Props.FdtdPrint
import Verif.Props.FdtdPrintWhere
import Verif.Props.FdtdQueries
import Verif.Props.FdtdReciprocity
import Verif.Props.FdtdResolution
import Verif.Props.FdtdResponse
import Verif.Props.FdtdReverse
import Verif.Props.FdtdRows
import Verif.Props.FdtdRun
import Verif.Props.FdtdScaleFree
import Verif.Props.FdtdScaling
import Verif.Props.FdtdSettle
import Verif.Props.FdtdSettleRows
import Verif.Props.FdtdSettleStack
import Verif.Props.FdtdSettled
import Verif.Props.FdtdSignals
import Verif.Props.FdtdSmooth
import Verif.Props.FdtdSources
import Verif.Props.FdtdSpectrum
import Verif.Props.FdtdSpeed
import Verif.Props.FdtdStack
import Verif.Props.FdtdSteps
import Verif.Props.FdtdStretch
import Verif.Props.FdtdTensors
import Verif.Props.FdtdTorus
import Verif.Props.FdtdTorusEnergy
import Verif.Props.FdtdTranslate
import Verif.Props.FdtdVideo
import Verif.Props.FdtdWalls
import Verif.Props.FdtdWaves
import Verif.Props.FdtdWindow
import Verif.Props.FdtdWitness
import Verif.Props.Fft
import Verif.Props.Films
import Verif.Props.FilmsCases
import Verif.Props.FilterEnergy
import Verif.Props.Flux
import Verif.Props.Fresnel
import Verif.Props.GridScale
import Verif.Props.Homogenise
import Verif.Props.Impedance
import Verif.Props.Invariance
import Verif.Props.Lattice
import Verif.Props.LatticeMax
import Verif.Props.LayerBuilder
import Verif.Props.LogLevel
import Verif.Props.Loss
import Verif.Props.Materials
import Verif.Props.Maxwell
import Verif.Props.MetalGain
import Verif.Props.Nets
import Verif.Props.Noise
import Verif.Props.Opaque
import Verif.Props.Orders
import Verif.Props.Orientation
import Verif.Props.Oversample
import Verif.Props.OversampleExact
import Verif.Props.Plots
import Verif.Props.RcwaDriver
import Verif.Props.RcwaEntry
import Verif.Props.RcwaFields
import Verif.Props.RcwaGrid
import Verif.Props.Reciprocity
import Verif.Props.Relabel
import Verif.Props.Runs
import Verif.Props.SMatrix
import Verif.Props.SampledDesign
import Verif.Props.Selection
import Verif.Props.Shapes
import Verif.Props.Shift
import Verif.Props.ShiftWitness
import Verif.Props.SirenRecord
import Verif.Props.Smooth
import Verif.Props.SmoothFilter
import Verif.Props.SmoothPattern
import Verif.Props.Solvable
import Verif.Props.Supercell
import Verif.Props.SupercellCases
import Verif.Props.Tables
import Verif.Props.Tmm
import Verif.Props.TmmAccept
import Verif.Props.TmmAngles
import Verif.Props.TmmEnergy
import Verif.Props.TmmFields
import Verif.Props.TmmGroups
import Verif.Props.TmmIncAccept
import Verif.Props.TmmIncEnergy
import Verif.Props.TmmIncPlaces
import Verif.Props.TmmIncoherent
import Verif.Props.TmmLayers
import Verif.Props.TmmNormal
import Verif.Props.TmmPlaces
import Verif.Props.TmmPolar
import Verif.Props.TmmRcwa
import Verif.Props.TmmReverse
import Verif.Props.TmmUnits
import Verif.Props.TorchOps
import Verif.Props.TrainBuild
import Verif.Props.TrainConfig
import Verif.Props.TrainSeed
import Verif.Props.Training
import Verif.Props.TrcwaLayers
import Verif.Props.Twins
import Verif.Props.Units
import Verif.Spec.Config
import Verif.Spec.FdtdConfig
import Verif.Spec.Films
import Verif.Spec.Maxwell
import Verif.Spec.MaxwellLayers
import Verif.Spec.MaxwellSheets
import Verif.Spec.MaxwellTime
import Verif.Spec.PySlice
import Verif.Spec.Stack
import Verif.Spec.Structure
import Verif.Spec.Torus
