import Verif.Base.Res
import Verif.Base.Bytes
import Verif.Base.Out
import Verif.Base.F64
import Verif.Proofs.F64Round
import Verif.Proofs.F64Ops
import Verif.Model.Header
import Verif.Model.PointRecord
import Verif.Model.File
import Verif.Model.FileOps
import Verif.Model.Compression
import Verif.Model.Io
import Verif.Spec.Io
import Verif.Proofs.Io
import Verif.Proofs.IoCompressed
import Verif.Proofs.IoGeneral
import Verif.Props.Io
import Verif.Props.File
import Verif.Model.Point
import Verif.Model.Extent
import Verif.Model.Utils
import Verif.Spec.Geometry
import Verif.Proofs.Geometry
import Verif.Props.Geometry
import Verif.Base.Par
import Verif.Proofs.Par
import Verif.Proofs.ResList
import Verif.Model.Voxel
import Verif.Model.Subsampling
import Verif.Model.RadiusSearch
import Verif.Model.Loops
import Verif.Props.Parallel
import Verif.Spec.Voxel
import Verif.Proofs.Voxel
import Verif.Props.Voxel
import Verif.Proofs.Subsampling
import Verif.Props.Subsampling
import Verif.Proofs.RadiusSearch
import Verif.Proofs.VoxelNear
import Verif.Props.RadiusSearch
import Verif.Props.Mutual
import Verif.Props.Nested
import Verif.Props.Counts
import Verif.Model.FileSteps
import Verif.Props.FileSteps
import Verif.Base.Text
import Verif.Proofs.Text
import Verif.Model.AppUtils
import Verif.Model.Apps
import Verif.Model.Transform
import Verif.Proofs.Apps
import Verif.Props.Apps
import Verif.Spec.Fields
import Verif.Props.Fields
import Verif.Spec.Transform
import Verif.Proofs.Transform
import Verif.Props.Transform
import Verif.Spec.Value
import Verif.Spec.Quantize
import Verif.Spec.Rotation
import Verif.Proofs.F64Err
import Verif.Proofs.Quantize
import Verif.Proofs.Rotation
import Verif.Proofs.Rescale
import Verif.Props.Quantize
import Verif.Props.Rotation
import Verif.Props.Rescale
import Verif.Base.Strtod
import Verif.Model.Filter
import Verif.Spec.Filter
import Verif.Proofs.Filter
import Verif.Props.Filter
import Verif.Model.Merge
import Verif.Spec.Merge
import Verif.Proofs.Merge
import Verif.Props.Merge
import Verif.Model.Tile
import Verif.Spec.Tile
import Verif.Proofs.Tile
import Verif.Props.Tile
import Verif.Model.Diff
import Verif.Spec.Diff
import Verif.Proofs.Diff
import Verif.Props.Diff
import Verif.Base.TextIo
import Verif.Model.Tool
import Verif.Spec.Numeral
import Verif.Spec.Nearest
import Verif.Spec.Tool
import Verif.Proofs.Decimal
import Verif.Proofs.TextIo
import Verif.Proofs.Nearest
import Verif.Proofs.Tool
import Verif.Props.Tool
import Verif.Spec.ToolPoints
import Verif.Proofs.ToolPoints
import Verif.Proofs.Upsample
import Verif.Props.ToolPoints
import Verif.Props.Upsample
import Verif.Base.Fixed
import Verif.Model.Info
import Verif.Spec.Info
import Verif.Proofs.Fixed
import Verif.Proofs.Info
import Verif.Proofs.InfoOrder
import Verif.Proofs.Json
import Verif.Props.Info
import Verif.Props.Json
import Verif.Spec.Metrics
import Verif.Proofs.Metrics
import Verif.Props.Metrics
import Verif.Base.Getopt
import Verif.Model.Cmd
import Verif.Model.Main
import Verif.Spec.Cmd
import Verif.Proofs.Getopt
import Verif.Proofs.Cmd
import Verif.Props.Cmd
import Verif.Proofs.Main
import Verif.Props.Main
import Verif.Props.Report
import Verif.Props.FilterSteps
import Verif.Props.EndToEnd
import Verif.Spec.Manual
import Verif.Props.Manual
import Verif.Props.Switches
import Verif.Props.Missing
import Verif.Model.Stream
import Verif.Spec.Stream
import Verif.Proofs.Stream
import Verif.Proofs.StreamToy
import Verif.Props.Stream
import Verif.Model.Examples
import Verif.Props.Examples
import Verif.Model.Python
import Verif.Proofs.WriteSafe
import Verif.Props.Python
import Verif.Props.Write
import Verif.Spec.AppSafe
import Verif.Proofs.AppSafe
import Verif.Proofs.AppSafe2
import Verif.Proofs.AppSafe3
import Verif.Props.AppSafe
import Verif.Proofs.AppSafe4
import Verif.Props.AppSafeFits
import Verif.Props.Center
import Verif.Spec.Format
import Verif.Model.AllZero
import Verif.Proofs.Format
import Verif.Props.Format
import Verif.Props.AllZero
import Verif.Proofs.Distance
import Verif.Props.Distance
import Verif.Props.Numbers
import Verif.Props.TileNames
import Verif.Spec.Area
import Verif.Proofs.MergeArea
import Verif.Props.MergeWarnings
import Verif.Proofs.Builds
import Verif.Proofs.BuildsMain
import Verif.Proofs.BuildsSame
import Verif.Props.Axes
import Verif.Props.Builds
import Verif.Model.TestUtils
import Verif.Model.ExtentArea
import Verif.Proofs.ExtentArea
import Verif.Props.ExtentArea
import Verif.Tests.Unit
import Verif.Tests.Apps
import Verif.Tests.Scripts
import Verif.Tests.Machine
import Verif.Model.Noise
import Verif.Proofs.Noise
import Verif.Props.Noise
import Verif.Proofs.Accept
import Verif.Props.Accept
import Verif.Proofs.Ascii
import Verif.Props.ToolFiles
import Verif.Props.TileForce
import Verif.Props.Coverage
import Verif.Props.InfoOrder
import Verif.Props.DiffTransitive
import Verif.Props.MergeStages
import Verif.Spec.Grid
import Verif.Proofs.ThereAndBack
import Verif.Props.ThereAndBack
import Verif.Spec.Commute
import Verif.Proofs.Commute
import Verif.Props.CommandOrder
import Verif.Props.MergeCommutes
import Verif.Proofs.Blind
import Verif.Props.TransformMerge
import Verif.Props.FilterTransform
import Verif.Props.Transparent
import Verif.Spec.Special
import Verif.Proofs.Special
import Verif.Props.Special
import Verif.Proofs.Twice
import Verif.Props.Twice
import Verif.Spec.Truncated
import Verif.Proofs.SetCopy
import Verif.Props.SetCopy
import Verif.Props.QuantizeFile
import Verif.Props.Options
import Verif.Proofs.Period
import Verif.Proofs.Gauss
import Verif.Props.Gauss
import Verif.Spec.TestUtils
import Verif.Proofs.TestUtils
import Verif.Props.TestUtils
import Verif.Props.GaussCloud
import Verif.Spec.Displaced
import Verif.Proofs.Displaced
import Verif.Props.Displaced
import Verif.Spec.Places
import Verif.Props.HowMany
import Verif.Props.Plain
import Verif.Props.Pipeline
import Verif.Props.TileByTile
import Verif.Spec.Scaled
import Verif.Proofs.Scaled
import Verif.Props.Scaled
import Verif.Model.Benchmarks
import Verif.Props.Benchmarks
import Verif.Model.Viewer
import Verif.Proofs.Viewer
import Verif.Props.Viewer
import Verif.Model.Messages
import Verif.Proofs.Messages
import Verif.Proofs.Verbose
import Verif.Proofs.Silence
import Verif.Proofs.Written
import Verif.Proofs.Assigned
import Verif.Props.Messages
import Verif.Props.MergeMessages
import Verif.Props.UpsampleLaws
import Verif.Spec.Named
import Verif.Proofs.Named
import Verif.Proofs.NamedMessages
import Verif.Props.Named
import Verif.Proofs.Label
import Verif.Props.Carried
import Verif.Proofs.Reordered
import Verif.Props.Reordered
import Verif.Proofs.Related
import Verif.Props.Related
import Verif.Props.TileTransform
import Verif.Props.RadiusMonotone
import Verif.Props.Again
import Verif.Model.PyExamples
import Verif.Props.PyExamples
import Verif.Props.Nothing
import Verif.Props.Cells
import Verif.Props.Multiples
import Verif.Props.ExactSearch
import Verif.Props.CarriedClasses
import Verif.Props.ExactCenter
import Verif.Props.ToOrigin
import Verif.Props.Snapped
import Verif.Props.Cubes
import Verif.Props.Labelled
import Verif.Props.HexNumbers
import Verif.Props.Undone
import Verif.Props.Coarse
import Verif.Props.NegativeZero
import Verif.Props.SameInPython
import Verif.Props.LosslessSteps
