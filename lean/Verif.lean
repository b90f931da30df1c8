import Verif.Lemmas.AnyIndex
import Verif.Lemmas.Arrays
import Verif.Lemmas.Assemble
import Verif.Lemmas.Basic
import Verif.Lemmas.Collection
import Verif.Lemmas.Components
import Verif.Lemmas.Cxi
import Verif.Lemmas.CxiDisk
import Verif.Lemmas.DetArray
import Verif.Lemmas.DetIterate
import Verif.Lemmas.DetSuccess
import Verif.Lemmas.FileOrder
import Verif.Lemmas.Geometry
import Verif.Lemmas.Glob
import Verif.Lemmas.Images
import Verif.Lemmas.Json
import Verif.Lemmas.JsonRound
import Verif.Lemmas.Natural
import Verif.Lemmas.NaturalCxi
import Verif.Lemmas.OneTrain
import Verif.Lemmas.Open
import Verif.Lemmas.RefsInit
import Verif.Lemmas.Regions
import Verif.Lemmas.Selection
import Verif.Lemmas.Sizes
import Verif.Lemmas.StackDetector
import Verif.Lemmas.StackView
import Verif.Lemmas.Stacking
import Verif.Lemmas.Stream
import Verif.Lemmas.StreamCount
import Verif.Lemmas.StreamLive
import Verif.Lemmas.StreamMessage
import Verif.Lemmas.Strings
import Verif.Lemmas.Trains
import Verif.Lemmas.Writer
import Verif.Lemmas.WriterData
import Verif.Model.AtomicDump
import Verif.Model.Collection
import Verif.Model.Components
import Verif.Model.CrystFEL
import Verif.Model.CrystFELText
import Verif.Model.Cxi
import Verif.Model.CxiDisk
import Verif.Model.CxiTree
import Verif.Model.FileAccess
import Verif.Model.FilesMap
import Verif.Model.FilesMapHistory
import Verif.Model.Frame
import Verif.Model.Geometry
import Verif.Model.Glob
import Verif.Model.H5Index
import Verif.Model.H5Tools
import Verif.Model.Images
import Verif.Model.InfoText
import Verif.Model.Json
import Verif.Model.Links
import Verif.Model.LsText
import Verif.Model.LsXfel
import Verif.Model.Msgpack
import Verif.Model.MsgpackNumpy
import Verif.Model.Names
import Verif.Model.NdArray
import Verif.Model.OldGeometry
import Verif.Model.OldGeometryText
import Verif.Model.Plot
import Verif.Model.Py
import Verif.Model.QuickView
import Verif.Model.ReadMachinery
import Verif.Model.Roi
import Verif.Model.RoiList
import Verif.Model.RoiMask
import Verif.Model.RunValidation
import Verif.Model.Serve
import Verif.Model.SetOrder
import Verif.Model.Stacking
import Verif.Model.Stream
import Verif.Model.TrainArrays
import Verif.Model.ValidateMain
import Verif.Model.Validation
import Verif.Model.VirtualCxiCli
import Verif.Model.WriteDisk
import Verif.Model.Writer
import Verif.Model.Yields
import Verif.Props.AnyIndex
import Verif.Props.AnyIndexArrays
import Verif.Props.AnyIndexWrite
import Verif.Props.ArrayMap
import Verif.Props.ArrayOrder
import Verif.Props.Arrays
import Verif.Props.Assemble
import Verif.Props.AtomicDump
import Verif.Props.CacheText
import Verif.Props.Commute
import Verif.Props.Construct
import Verif.Props.Copies
import Verif.Props.CopyCxi
import Verif.Props.CopyDetIter
import Verif.Props.CopyGaps
import Verif.Props.CopyTrains
import Verif.Props.CrystFEL
import Verif.Props.CrystFELText
import Verif.Props.Cxi
import Verif.Props.CxiArray
import Verif.Props.CxiDisk
import Verif.Props.CxiFileOrder
import Verif.Props.CxiGaps
import Verif.Props.CxiPart
import Verif.Props.CxiPulses
import Verif.Props.CxiTree
import Verif.Props.Dask
import Verif.Props.DaskErrors
import Verif.Props.DataCxi
import Verif.Props.DataDask
import Verif.Props.DataDetIter
import Verif.Props.DataDetector
import Verif.Props.DataNarrow
import Verif.Props.DerivedGaps
import Verif.Props.DetArray
import Verif.Props.DetCopy
import Verif.Props.DetFileOrder
import Verif.Props.DetInit
import Verif.Props.DetIterKeys
import Verif.Props.DetIterSlow
import Verif.Props.DetIterSuccess
import Verif.Props.DetIterate
import Verif.Props.DetPart
import Verif.Props.DetRuns
import Verif.Props.DetSlow
import Verif.Props.DetSources
import Verif.Props.DetSuccess
import Verif.Props.EndToEnd
import Verif.Props.EndToEndUnion
import Verif.Props.FileOrder
import Verif.Props.FilesMap
import Verif.Props.FilesMapErrors
import Verif.Props.FilesMapHistory
import Verif.Props.Frame
import Verif.Props.FrameOrder
import Verif.Props.GeomFiles
import Verif.Props.Glob
import Verif.Props.GlobAll
import Verif.Props.H5Index
import Verif.Props.H5Tools
import Verif.Props.History
import Verif.Props.HistoryGaps
import Verif.Props.Images
import Verif.Props.Info
import Verif.Props.InfoText
import Verif.Props.Interpolate
import Verif.Props.InterpolateImage
import Verif.Props.Iterate
import Verif.Props.IterateKeys
import Verif.Props.KeysForSource
import Verif.Props.Links
import Verif.Props.LinksCxi
import Verif.Props.LoneProcess
import Verif.Props.LsText
import Verif.Props.LsXfel
import Verif.Props.Metadata
import Verif.Props.Moving
import Verif.Props.Msgpack
import Verif.Props.MsgpackNumpy
import Verif.Props.Names
import Verif.Props.OldGeometry
import Verif.Props.OldGeometryText
import Verif.Props.OneTrain
import Verif.Props.Open
import Verif.Props.OpenUnion
import Verif.Props.OrderGaps
import Verif.Props.Overlap
import Verif.Props.Parts
import Verif.Props.Plot
import Verif.Props.Positions
import Verif.Props.PulseSelection
import Verif.Props.Quads
import Verif.Props.QuickView
import Verif.Props.Reuse
import Verif.Props.Roi
import Verif.Props.RoiList
import Verif.Props.RoiMask
import Verif.Props.RunImages
import Verif.Props.RunReport
import Verif.Props.RunValidation
import Verif.Props.SameData
import Verif.Props.SameSeries
import Verif.Props.SelectAll
import Verif.Props.SelectData
import Verif.Props.Selection
import Verif.Props.Series
import Verif.Props.Serve
import Verif.Props.ServeStream
import Verif.Props.SetOrder
import Verif.Props.SliceRepr
import Verif.Props.SplitRun
import Verif.Props.StackViews
import Verif.Props.Stacking
import Verif.Props.Stream
import Verif.Props.StreamErrors
import Verif.Props.StreamLive
import Verif.Props.StreamMessage
import Verif.Props.Tiles
import Verif.Props.Trains
import Verif.Props.UnionExact
import Verif.Props.ValidateMain
import Verif.Props.Validated
import Verif.Props.Validation
import Verif.Props.ValidationDoubles
import Verif.Props.ValidationVirtual
import Verif.Props.VirtualCxiCli
import Verif.Props.VirtualSucceeds
import Verif.Props.WriteDisk
import Verif.Props.WriteErrors
import Verif.Props.WriteIndex
import Verif.Props.WriteOrder
import Verif.Props.WriteSucceeds
import Verif.Props.Writer
import Verif.Props.Yields
import Verif.Spec.ArrayOrder
import Verif.Spec.AtomicDump
import Verif.Spec.Collection
import Verif.Spec.Commute
import Verif.Spec.Components
import Verif.Spec.Copies
import Verif.Spec.CrystFEL
import Verif.Spec.CrystFELText
import Verif.Spec.Cxi
import Verif.Spec.CxiDisk
import Verif.Spec.CxiFileOrder
import Verif.Spec.CxiTree
import Verif.Spec.Data
import Verif.Spec.DetFileOrder
import Verif.Spec.DetIterSlow
import Verif.Spec.DetSlow
import Verif.Spec.Detector
import Verif.Spec.Doubles
import Verif.Spec.EndToEnd
import Verif.Spec.File
import Verif.Spec.FileOrder
import Verif.Spec.FilesMap
import Verif.Spec.FilesMapHistory
import Verif.Spec.Frame
import Verif.Spec.Geometry
import Verif.Spec.Glob
import Verif.Spec.H5Index
import Verif.Spec.History
import Verif.Spec.Images
import Verif.Spec.InfoText
import Verif.Spec.Json
import Verif.Spec.Links
import Verif.Spec.LoneProcess
import Verif.Spec.LsText
import Verif.Spec.LsXfel
import Verif.Spec.Moving
import Verif.Spec.Msgpack
import Verif.Spec.MsgpackNumpy
import Verif.Spec.Names
import Verif.Spec.OldGeometry
import Verif.Spec.OldGeometryText
import Verif.Spec.Plot
import Verif.Spec.Regions
import Verif.Spec.Roi
import Verif.Spec.RoiList
import Verif.Spec.RoiMask
import Verif.Spec.RunImages
import Verif.Spec.Runs
import Verif.Spec.SameData
import Verif.Spec.Serve
import Verif.Spec.SetOrder
import Verif.Spec.SplitRun
import Verif.Spec.Stacking
import Verif.Spec.Stream
import Verif.Spec.StreamLive
import Verif.Spec.Stretch
import Verif.Spec.Trains
import Verif.Spec.ValidateMain
import Verif.Spec.Validation
import Verif.Spec.Write
import Verif.Spec.WriteDisk
