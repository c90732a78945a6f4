import Verif.Props.Tasks
import Verif.Props.Memoize
import Verif.Props.Stats
import Verif.Props.FrameCache
import Verif.Props.ImageFiles
import Verif.Props.Omega
import Verif.Props.Process
import Verif.Props.PlaneData
import Verif.Props.SpaceGroup
import Verif.Props.Absences
import Verif.Props.SGTables
import Verif.Props.UnitCell
import Verif.Props.Hkls
import Verif.Props.Material
import Verif.Props.Miller
import Verif.Props.Orbit
import Verif.Props.Stiffness
import Verif.Props.Units
import Verif.Props.Angles
import Verif.Props.Quat
import Verif.Props.Laue
import Verif.Props.Tensors
import Verif.Props.DupVectors
import Verif.Props.ApplySym
import Verif.Props.Grid
import Verif.Props.Clip
import Verif.Props.Multiproc
import Verif.Props.Codec
import Verif.Props.Detector
import Verif.Props.Frames
import Verif.Props.AngleRanges
import Verif.Props.Geometry
import Verif.Props.Oscillation
import Verif.Props.Planar
import Verif.Props.CalibNames
import Verif.Props.CalibRigid
import Verif.Props.CalibRoundTrip
import Verif.Props.Snip
import Verif.Props.Distortion
import Verif.Props.Indexer
import Verif.Props.Cylinder
import Verif.Props.Polar
import Verif.Props.Peaks
import Verif.Props.PeakFit
import Verif.Props.Spectrum
import Verif.Props.Simulate
import Verif.Props.Xrdutil
import Verif.Props.Config
import Verif.Props.Transmission
import Verif.Props.Fiber
import Verif.Props.EtaOme
import Verif.Props.Cluster
import Verif.Props.PullSpots
import Verif.Props.FitGrains
import Verif.Props.RFZ
import Verif.Props.RFZSample
import Verif.Props.EOS
import Verif.Props.Variants
import Verif.Props.Jcpds
import Verif.Props.StructFac
import Verif.Props.Rietveld
import Verif.Props.Stephens
import Verif.Props.PowderPeak
import Verif.Props.LeBail
import Verif.Props.Pattern
import Verif.Props.Params
import Verif.Props.Diffuse
import Verif.Props.Composition
import Verif.Props.HarmonicSeries
import Verif.Props.MarchDollase
import Verif.Props.PoleFigure
import Verif.Props.Odf
import Verif.Props.OdfModes
import Verif.Props.LaueSim
import Verif.Props.LaueResidual
import Verif.Props.Picks
import Verif.Props.GrainCalib
import Verif.Props.PowderResidual
import Verif.Props.Structureless
import Verif.Props.GrainFit
import Verif.Props.ColorSpace
import Verif.Props.PointGroups
import Verif.Props.Reduce
import Verif.Props.Sectors
import Verif.Props.IpfColor
import Verif.Props.NearField
import Verif.Props.Confidence
import Verif.Props.TestGrid
import Verif.Props.GrainMap
import Verif.Props.Pinhole
import Verif.Props.PinholeRays
import Verif.Props.PinholeFrame
import Verif.Props.Commands
import Verif.Props.Preprocess
import Verif.Props.Special
import Verif.Props.SpecialSeries
import Verif.Props.MaterialFile
import Verif.Props.PointKinds
import Verif.Props.Tomo
import Verif.Props.Include
import Verif.Props.Adapters
import Verif.Props.PatternFit
import Verif.Props.Calibrator
import Verif.Props.InstrFile
import Verif.Props.Chunks
import Verif.Props.Convolved
import Verif.Props.Aliases
import Verif.Props.MatArrays
import Verif.Props.Spherical
import Verif.Props.LeBailCalib
import Verif.Props.StackFault
import Verif.Props.H5Opts
import Verif.Props.Profiler
import Verif.Props.Scoped
import Verif.Props.Resolution
import Verif.Props.NfKernels
import Verif.Props.CellSummary
import Verif.Props.NamedBuffer
import Verif.Props.CheckRun
import Verif.Props.FrameMemo
import Verif.Props.AtomData
import Verif.Props.EulerClass
import Verif.Props.LayerAttrs
import Verif.Props.ImsConfig
import Verif.Props.ClusterParams
import Verif.Props.OutFiles
