import Verif.Scalar
import Verif.Monad
import Verif.Model.Basic
import Verif.Model.Interactions
import Verif.Model.Particle
import Verif.Model.Geometry
import Verif.Model.Material
import Verif.Model.Bca
import Verif.Model.Output
import Verif.Model.Physics
import Verif.Model.Input
import Verif.Spec.Cascade
import Verif.Proofs.ParticleLemmas
import Verif.Proofs.Cascade
import Verif.Proofs.CascadeLoop
import Verif.Props.Cascade
import Verif.Examples.Cascade
import Verif.Spec.Vectors
import Verif.Proofs.Rotation
import Verif.Proofs.Kinematics
import Verif.Proofs.CollisionFacts
import Verif.Proofs.PassTrace
import Verif.Props.Collision
import Verif.Props.Motion
import Verif.Spec.Potentials
import Verif.Spec.Polynomial
import Verif.Proofs.Screening
import Verif.Proofs.Newton
import Verif.Proofs.Screened
import Verif.Props.RootFinding
import Verif.Props.TurningPoints
import Verif.Props.Scattering
import Verif.Props.Integrals
import Verif.Examples.Scattering
import Verif.Spec.Materials
import Verif.Props.Materials
import Verif.Spec.Surface
import Verif.Props.Surface
import Verif.Props.Stopping
import Verif.Props.FreePaths
import Verif.Examples.Materials
import Verif.Spec.Geometry
import Verif.Props.Geometry
import Verif.Props.Meshes
import Verif.Examples.Geometry
import Verif.Spec.Input
import Verif.Props.Input
import Verif.Examples.Input
import Verif.Spec.Run
import Verif.Spec.Output
import Verif.Spec.Histograms
import Verif.Spec.Crash
import Verif.Props.Run
import Verif.Props.Output
import Verif.Props.Histograms
import Verif.Props.Crash
import Verif.Examples.Run
import Verif.Model.Lib
import Verif.Model.Yields
import Verif.Spec.Lib
import Verif.Proofs.Pool
import Verif.Props.Yields
import Verif.Props.Lib
import Verif.Props.SurfaceNormal
import Verif.Examples.Lib
import Verif.Proofs.Relational
import Verif.Proofs.Simulation
import Verif.Spec.Symmetry
import Verif.Props.Symmetry
import Verif.Examples.Symmetry
import Verif.Spec.Energy
import Verif.Spec.Streams
import Verif.Proofs.Energy
import Verif.Proofs.EnergyLoop
import Verif.Props.Streams
import Verif.Props.Energy
import Verif.Examples.Energy
import Verif.Model.Parry
import Verif.Model.Main
import Verif.Spec.Main
import Verif.Props.Main
import Verif.Spec.Threshold
import Verif.Props.Threshold
import Verif.Examples.Threshold
import Verif.Spec.Parry
import Verif.Props.Parry
import Verif.Examples.Parry
import Verif.Examples.Main
import Verif.Spec.Recoils
import Verif.Proofs.CascadeTree
import Verif.Props.Recoils
import Verif.Spec.Stopping
import Verif.Props.LocalLoss
import Verif.Examples.Recoils
import Verif.Props.Potentials
import Verif.Examples.Potentials
import Verif.Props.Deflection
import Verif.Examples.Deflection
import Verif.Spec.Magic
import Verif.Props.Magic
import Verif.Examples.Magic
import Verif.Props.YieldInputs
import Verif.Props.Tungsten
import Verif.Props.Cpr
import Verif.Examples.Cpr
import Verif.Spec.Vacuum
import Verif.Props.Vacuum
import Verif.Examples.Vacuum
import Verif.Double
import Verif.Spec.Double
import Verif.Props.Double
import Verif.Props.DoubleDir
import Verif.Props.Gimbal
import Verif.Examples.Double
import Verif.Props.NewtonSpeed
import Verif.Special
import Verif.Spec.Special
import Verif.Props.Special
import Verif.Props.SpecialRefuted
import Verif.Examples.Special
import Verif.Props.Random
import Verif.Examples.Random
import Verif.Spec.SpecialRun
import Verif.Spec.NoPanic
import Verif.Proofs.SpecialLift
import Verif.Proofs.SpecialTarget
import Verif.Proofs.SpecialFlight
import Verif.Proofs.SpecialCollide
import Verif.Proofs.SpecialFinish
import Verif.Props.SpecialRun
import Verif.Props.NoPanic
import Verif.Props.NoPanicMesh
import Verif.Examples.SpecialRun
import Verif.Spec.Independent
import Verif.Proofs.Independent
import Verif.Props.Independent
import Verif.Spec.Statistics
import Verif.Props.Statistics
import Verif.Props.StatisticsRun
import Verif.Examples.Statistics
import Verif.Model.Geo
import Verif.Spec.Polygon
import Verif.Proofs.Polygon
import Verif.Proofs.PolygonRing
import Verif.Proofs.PolygonNearest
import Verif.Props.Polygon
import Verif.Props.PolygonEntry
import Verif.Props.GeometryLift
import Verif.Examples.Polygon
import Verif.Spec.Solid
import Verif.Props.ParrySolid
import Verif.Props.ParryAlmost
import Verif.Examples.Solid
import Verif.Props.LayersReady
import Verif.Props.MeshLift
import Verif.Props.RangeEnd
import Verif.Examples.Range
import Verif.Examples.RecoilCount
import Verif.Examples.Bulk
import Verif.Examples.BulkScreened
import Verif.Examples.HistogramRun
import Verif.Props.Refraction
import Verif.Props.Units
import Verif.Examples.Units
import Verif.Props.Features
import Verif.Examples.Features
import Verif.Spec.Start
import Verif.Props.Start
import Verif.Examples.Start
import Verif.Props.RunStatistics
import Verif.Examples.RunStatistics
import Verif.Spec.ParryInput
import Verif.Props.ParryInput
import Verif.Examples.ParryInput
import Verif.Spec.DoubleEnergy
import Verif.Props.DoubleEnergy
import Verif.Examples.DoubleEnergy
import Verif.Spec.Volumes
import Verif.Props.Volumes
import Verif.Examples.Volumes
import Verif.Spec.Library
import Verif.Props.Library
import Verif.Examples.Library
import Verif.Model.Disk
import Verif.Spec.Disk
import Verif.Props.Disk
import Verif.Examples.Disk
import Verif.Spec.Relisted
import Verif.Props.Relisted
import Verif.Examples.Relisted
import Verif.Spec.AsRead
import Verif.Props.AsRead
import Verif.Examples.AsRead
import Verif.Props.DoubleSurface
import Verif.Examples.DoubleSurface
import Verif.Props.DoubleBalance
import Verif.Examples.DoubleBalance
import Verif.Spec.Campaign
import Verif.Proofs.Campaign
import Verif.Props.Campaign
import Verif.Examples.Campaign
import Verif.Spec.Means
import Verif.Proofs.Means
import Verif.Proofs.FinitelyMany
import Verif.Props.Means
import Verif.Examples.Means
import Verif.Props.HistogramStatistics
import Verif.Examples.HistogramStatistics
import Verif.Props.CorrectionFactor
import Verif.Examples.CorrectionFactor
import Verif.Props.DividedLayers
import Verif.Examples.DividedLayers
import Verif.Proofs.Monotone
import Verif.Props.Elsewhere
import Verif.Examples.Elsewhere
import Verif.Proofs.Fuel
import Verif.Props.OneOutcome
import Verif.Examples.OneOutcome
import Verif.Ieee
import Verif.Proofs.Ieee
import Verif.Spec.NotNaN
import Verif.Props.NotNaN
import Verif.Examples.NotNaN
import Verif.Proofs.IeeeInterval
import Verif.Props.YieldsF64
import Verif.Examples.YieldsF64
import Verif.Props.DirectionF64
import Verif.Examples.DirectionF64
import Verif.Props.AlmostSurely
import Verif.Examples.AlmostSurely
import Verif.Model.CMemory
import Verif.Spec.CMemory
import Verif.Props.CMemory
import Verif.Examples.CMemory
import Verif.Props.AlmostSurelyScreened
import Verif.Examples.AlmostSurelyScreened
import Verif.Props.LocalEnds
import Verif.Examples.LocalEnds
import Verif.Examples.Toml
import Verif.Props.Hdf5
import Verif.Examples.Hdf5
import Verif.Props.BulkPolygon
import Verif.Examples.BulkPolygon
import Verif.Props.RelistedShapes
import Verif.Examples.RelistedShapes
import Verif.Props.RelistedMesh
import Verif.Examples.RelistedMesh
import Verif.Props.RunEnds
import Verif.Props.RunEndsSurely
import Verif.Examples.RunEnds
import Verif.Props.PolygonScale
import Verif.Examples.PolygonScale
import Verif.Props.MeshInput
import Verif.Examples.MeshInput
import Verif.Conformance
