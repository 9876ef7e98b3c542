import Verif.Py
import Verif.Model.Utils
import Verif.Model.Boundary
import Verif.Model.NeighbourGraph
import Verif.Model.CellBox
import Verif.Model.MeshBuilder
import Verif.Spec.Geometry
import Verif.Spec.Circle
import Verif.Proof.Geometry
import Verif.Proof.GraphOps
import Verif.Proof.Quarters
import Verif.Proof.SplitExact
import Verif.Proof.SplitExact2
import Verif.Props.Longitude
import Verif.Props.Boundary
import Verif.Props.NeighbourCase
import Verif.Props.CellSplit
import Verif.Model.Config
import Verif.Model.ConfigValidator
import Verif.Proof.Grid
import Verif.Proof.InitialGraph
import Verif.Proof.InitialExact
import Verif.Props.InitialGrid
import Verif.Spec.Mesh
import Verif.Proof.MeshInv
import Verif.Proof.MeshInit
import Verif.Proof.MeshSplit
import Verif.Proof.SplitLoop
import Verif.Props.Mesh
import Verif.Props.SplitToDepth
import Verif.Props.Crossing
import Verif.Model.Data
import Verif.Proof.Trim
import Verif.Proof.History
import Verif.Props.Trim
import Verif.Props.Homogeneity
import Verif.Props.Values
import Verif.Props.SplitValues
import Verif.Props.Aggregate
import Verif.Model.Vector
import Verif.Props.Vector
import Verif.Model.EnvMesh
import Verif.Spec.EnvMesh
import Verif.Proof.Removal
import Verif.Proof.EnvSplit
import Verif.Proof.EnvMesh
import Verif.Proof.DictKeys
import Verif.Props.EnvQuery
import Verif.Proof.EnvBuild
import Verif.Proof.EnvOps
import Verif.Props.EnvJson
import Verif.Props.EnvSplits
import Verif.Props.EnvOps
import Verif.Props.EnvPoints
import Verif.Proof.EnvMerge
import Verif.Props.EnvMerge
import Verif.Props.Build
import Verif.Props.BuildCrossing
import Verif.Model.Calendar
import Verif.Props.Calendar
import Verif.Model.TimeStr
import Verif.Props.TimeStr
import Verif.Model.Tif
import Verif.Props.Tif
import Verif.Model.Numeric
import Verif.Props.Numeric
import Verif.Model.Validation
import Verif.Props.Validation
import Verif.Model.Lut
import Verif.Props.Lut
import Verif.Model.Season
import Verif.Props.Season
import Verif.Model.Forecast
import Verif.Props.Forecast
import Verif.Model.Factory
import Verif.Model.Shape
import Verif.Model.Downsample
import Verif.Model.LoaderInit
import Verif.Model.Sources
import Verif.Props.Factory
import Verif.Props.Shape
import Verif.Props.Downsample
import Verif.Props.LoaderInit
import Verif.Props.Sources
import Verif.Proof.SoundSplit
import Verif.Props.CrossingGraph
import Verif.Model.Sphere
import Verif.Props.Sphere
import Verif.Model.Grf
import Verif.Props.Grf
import Verif.Model.VectorHom
import Verif.Props.VectorHom
import Verif.Model.Compare
import Verif.Props.Compare
import Verif.Model.ErrorStats
import Verif.Props.ErrorStats
import Verif.Model.Importers
import Verif.Props.Importers
import Verif.Props.Config
import Verif.Model.Export
import Verif.Props.ExportGeo
import Verif.Props.ExportSave
import Verif.Model.LutInit
import Verif.Props.LutVerify
import Verif.Props.LutFiles
import Verif.Props.LutValues
import Verif.Props.LutSeasons
import Verif.Props.LutCsv
import Verif.Model.Params
import Verif.Props.Params
import Verif.Props.ParamsKept
import Verif.Props.Cli
import Verif.Model.Reproject
import Verif.Props.Reproject
import Verif.Model.Rounding
import Verif.Proof.Rounding
import Verif.Props.Rounding
import Verif.Proof.RoundingError
import Verif.Props.RoundingError
import Verif.Model.TestRun
import Verif.Props.TestRun
import Verif.Model.PolyText
import Verif.Props.PolyText
import Verif.Proof.SplitTree
import Verif.Props.SplitTree
import Verif.Props.BuildValues
import Verif.Model.LutStats
import Verif.Props.LutStats
import Verif.Model.Mixed
import Verif.Proof.Faithful
import Verif.Proof.FaithfulValues
import Verif.Props.Mixed
import Verif.Proof.Connected
import Verif.Props.Connected
import Verif.Props.Around
import Verif.Proof.SplitTurns
import Verif.Props.Locks
import Verif.Proof.Locality
import Verif.Props.Blocks
import Verif.Proof.Turning
import Verif.Props.Turned
import Verif.Proof.Related
import Verif.Props.Units
import Verif.Props.Looser
import Verif.Props.Sizes
import Verif.Props.AroundLocks
import Verif.Props.Update
import Verif.Props.OwnData
import Verif.Props.Shifted
import Verif.Props.RoundedData
import Verif.Props.RoundedVector
import Verif.Props.Scaled
import Verif.Props.Drift
import Verif.Props.Counting
import Verif.Props.Degree
import Verif.Props.Sides
import Verif.Props.Lines
import Verif.Props.LinesParts
import Verif.Props.Reading
import Verif.Props.MergeOrder
import Verif.Props.Accuracy
import Verif.Props.VectorAccuracy
import Verif.Props.AroundAccuracy
import Verif.Props.DegreeAround
import Verif.Props.Thresholds
import Verif.Props.Totals
import Verif.Props.VectorTotals
