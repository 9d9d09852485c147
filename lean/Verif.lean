import Verif.Aggregation.Lemmas
import Verif.Aggregation.Model
import Verif.Aggregation.Props
import Verif.Aggregation.SetInvariant
import Verif.Aggregation.SetLemmas
import Verif.Aggregation.SetModel
import Verif.Aggregation.SetProps
import Verif.Aggregation.SetStep
import Verif.ArrayLoop.Blocks
import Verif.ArrayLoop.Lemmas
import Verif.ArrayLoop.Model
import Verif.ArrayLoop.Named
import Verif.ArrayLoop.Props
import Verif.Basic
import Verif.CApi.Model
import Verif.CApi.Props
import Verif.Cdm.Invariant
import Verif.Cdm.Lemmas
import Verif.Cdm.Model
import Verif.Cdm.Props
import Verif.Command.Asked
import Verif.Command.Contents
import Verif.Command.ContentsProps
import Verif.Command.Heard
import Verif.Command.Lemmas
import Verif.Command.Model
import Verif.Command.Props
import Verif.Command.Runs
import Verif.Config.TemplateModel
import Verif.Config.TemplateProps
import Verif.CoordSys.Axes
import Verif.CoordSys.BestModel
import Verif.CoordSys.BestProps
import Verif.CoordSys.CfAxisProps
import Verif.CoordSys.CfLemmas
import Verif.CoordSys.CfListing
import Verif.CoordSys.CfModel
import Verif.CoordSys.CfProjProps
import Verif.CoordSys.CfProps
import Verif.CoordSys.CfVertProps
import Verif.CoordSys.ChangeChain
import Verif.CoordSys.ChangeLemmas
import Verif.CoordSys.ChangeModel
import Verif.CoordSys.ChangeProps
import Verif.CoordSys.GridDefinition
import Verif.CoordSys.LonLatLemmas
import Verif.CoordSys.LonLatModel
import Verif.CoordSys.LonLatProps
import Verif.CoordSys.ProjAttrs
import Verif.CoordSys.ProjCases
import Verif.CoordSys.ProjEarth
import Verif.CoordSys.ProjKept
import Verif.CoordSys.ProjModel
import Verif.CoordSys.ProjProps
import Verif.CoordSys.ProjRead
import Verif.CoordSys.ProjTable
import Verif.CoordSys.ProjText
import Verif.CoordSys.ProjWrite
import Verif.CoordSys.SectionModel
import Verif.CoordSys.SectionProps
import Verif.CoordSys.Template
import Verif.CoordSys.TemplateProps
import Verif.CoordSys.VecModel
import Verif.CoordSys.VecProps
import Verif.CoordSys.WrfLemmas
import Verif.CoordSys.WrfModel
import Verif.CoordSys.WrfProps
import Verif.CoordSys.WrfSteps
import Verif.DataCopy.Join
import Verif.DataCopy.Model
import Verif.DataCopy.Props
import Verif.DataIndex.Model
import Verif.DataIndex.Props
import Verif.Extractor.Lemmas
import Verif.Extractor.Model
import Verif.Extractor.Props
import Verif.Extractor.Spec
import Verif.Felt.Arrays
import Verif.Felt.ArraysProps
import Verif.Felt.File
import Verif.Felt.FileProps
import Verif.Felt.Grid
import Verif.Felt.GridProps
import Verif.Felt.Params
import Verif.Felt.ParamsProps
import Verif.Felt.Reader
import Verif.Felt.ReaderProps
import Verif.Files.Chunks
import Verif.Files.Factory
import Verif.Files.Formats
import Verif.Files.FormatsProps
import Verif.Files.Glob
import Verif.Files.GlobProps
import Verif.Files.Paths
import Verif.Files.Scan
import Verif.Fill.Linear
import Verif.Fill.Model
import Verif.Fill.Props
import Verif.Grib.Config
import Verif.Grib.ConfigLemmas
import Verif.Grib.ConfigProps
import Verif.Grib.Cut
import Verif.Grib.CutProps
import Verif.Grib.Dataset
import Verif.Grib.DatasetLemmas
import Verif.Grib.DatasetProps
import Verif.Grib.Earth
import Verif.Grib.Grbml
import Verif.Grib.GrbmlLemmas
import Verif.Grib.GrbmlProps
import Verif.Grib.GridLemmas
import Verif.Grib.GridModel
import Verif.Grib.GridProps
import Verif.Grib.Index
import Verif.Grib.IndexProps
import Verif.Grib.Levels
import Verif.Grib.LevelsProps
import Verif.Grib.Messages
import Verif.Grib.MessagesProps
import Verif.Grib.Protobuf
import Verif.Grib.ProtobufProps
import Verif.Grib.Slice
import Verif.Grib.SliceProps
import Verif.Interp.Bearing
import Verif.Interp.Bicubic
import Verif.Interp.Forward
import Verif.Interp.ForwardProps
import Verif.Interp.GridDistance
import Verif.Interp.History
import Verif.Interp.HistoryChain
import Verif.Interp.HistoryProps
import Verif.Interp.Horizontal
import Verif.Interp.HorizontalProps
import Verif.Interp.Layers
import Verif.Interp.Longitude
import Verif.Interp.NearestModel
import Verif.Interp.NearestProps
import Verif.Interp.OneDim
import Verif.Interp.Position
import Verif.Interp.Reduced
import Verif.Interp.ReducedProps
import Verif.Interp.Regrid
import Verif.Interp.RegridProps
import Verif.Interp.RegridValues
import Verif.Interp.Slices
import Verif.Interp.SlicesProps
import Verif.Interp.Undefined
import Verif.Interp.Vector
import Verif.Merge.Auxiliary
import Verif.Merge.Axis
import Verif.Merge.DatasetCases
import Verif.Merge.DatasetLemmas
import Verif.Merge.DatasetModel
import Verif.Merge.DatasetProps
import Verif.Merge.Overlay
import Verif.Merge.Smoothing
import Verif.MinMax.Model
import Verif.Ncml.DocFrame
import Verif.Ncml.DocLemmas
import Verif.Ncml.DocModel
import Verif.Ncml.DocProps
import Verif.Ncml.Rename
import Verif.Ncml.Values
import Verif.Ncml.Write
import Verif.Ncml.WriteLemmas
import Verif.Ncml.WriteNodes
import Verif.Ncml.WriteProps
import Verif.Ncml.WriteRead
import Verif.Netcdf.ChunkProps
import Verif.Netcdf.CompressProps
import Verif.Netcdf.ConfigProps
import Verif.Netcdf.DataExamples
import Verif.Netcdf.DataLemmas
import Verif.Netcdf.DataProps
import Verif.Netcdf.DefineLemmas
import Verif.Netcdf.File
import Verif.Netcdf.FileLemmas
import Verif.Netcdf.Identity
import Verif.Netcdf.PutData
import Verif.Netcdf.ReadData
import Verif.Netcdf.Reader
import Verif.Netcdf.ReaderProps
import Verif.Netcdf.RoundTrip
import Verif.Netcdf.Writer
import Verif.Pressure.Data
import Verif.Pressure.DataProps
import Verif.Pressure.Lemmas
import Verif.Pressure.Model
import Verif.Pressure.Props
import Verif.Processor.Accumulate
import Verif.Processor.AccumulateProps
import Verif.Processor.RotateDataset
import Verif.Processor.RotateModel
import Verif.Processor.RotateProps
import Verif.Processor.RotateReads
import Verif.Quality.Config
import Verif.Quality.ConfigProps
import Verif.Quality.Model
import Verif.Reader.Lemmas
import Verif.Reader.Model
import Verif.Reader.Props
import Verif.ReaderUtils.Names
import Verif.ReaderUtils.Shapes
import Verif.Scale.Lemmas
import Verif.Scale.Model
import Verif.Scale.Props
import Verif.Search.Model
import Verif.Search.Neighbours
import Verif.Slice.Lemmas
import Verif.Slice.Model
import Verif.Slice.Props
import Verif.Slice.Spec
import Verif.SliceBuilder.CoordSys
import Verif.SliceBuilder.Model
import Verif.SliceBuilder.Props
import Verif.Tables.DataType
import Verif.Tables.GribSteps
import Verif.Tables.Methods
import Verif.Text.AxisSpec
import Verif.Text.Dotted
import Verif.Text.DottedProps
import Verif.Text.Model
import Verif.Text.Props
import Verif.Time.Calendar
import Verif.Time.Clock
import Verif.Time.ClockProps
import Verif.Time.Interpolate
import Verif.Time.Model
import Verif.Time.Props
import Verif.Vertical.Column
import Verif.Vertical.ColumnProps
import Verif.Vertical.Converters
import Verif.Vertical.ConvertersLemmas
import Verif.Vertical.ConvertersProps
import Verif.Vertical.DatasetCases
import Verif.Vertical.DatasetLemmas
import Verif.Vertical.DatasetModel
import Verif.Vertical.DatasetProps
import Verif.Vertical.DatasetReads
import Verif.Vertical.DatasetText
import Verif.Vertical.Formulas
import Verif.Vertical.FormulasProps
import Verif.Vertical.Hypsometric
import Verif.Vertical.HypsometricLemmas
import Verif.Vertical.HypsometricProps
import Verif.Vertical.Levels
import Verif.Vertical.LevelsLemmas
import Verif.Vertical.LevelsProps
import Verif.Vertical.Shapes
import Verif.Vertical.ShapesProps
import Verif.Vertical.Velocity
import Verif.Vertical.VelocityProps
import Verif.Writer.FillModel
import Verif.Writer.FillProps
import Verif.Writer.Translate
