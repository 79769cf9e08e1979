import Verif.Model.Res
import Verif.Model.Float
import Verif.Model.Bytes
import Verif.Model.Grib2
import Verif.Lemmas.Float
import Verif.Lemmas.FloatOps
import Verif.Lemmas.Bytes
import Verif.Lemmas.Grib2
import Verif.Lemmas.Grib2Panic
import Verif.Spec.Grib2
import Verif.Props.Grib2Read
import Verif.Model.Geo
import Verif.Model.Decode
import Verif.Model.Physics
import Verif.Model.Unstructured
import Verif.Spec.Decode
import Verif.Lemmas.Decode
import Verif.Lemmas.Geo
import Verif.Lemmas.FloatErr
import Verif.Props.Decode
import Verif.Props.Geo
import Verif.Props.Interp
import Verif.Lemmas.Res
import Verif.Lemmas.Unstructured
import Verif.Lemmas.Window
import Verif.Props.Convert
import Verif.Props.Nearest
import Verif.Props.Window
import Verif.Props.Physics
import Verif.Model.NetCdf
import Verif.Spec.NetCdf
import Verif.Lemmas.NetCdf
import Verif.Lemmas.NetCdfPrefix
import Verif.Props.NetCdf
import Verif.Model.Imaging
import Verif.Model.Text
import Verif.Model.Libm
import Verif.Model.MapTile
import Verif.Spec.Imaging
import Verif.Lemmas.Imaging
import Verif.Lemmas.Line
import Verif.Lemmas.Text
import Verif.Lemmas.MapTile
import Verif.Props.Imaging
import Verif.Props.MapTile
import Verif.Spec.Mercator
import Verif.Lemmas.Mercator
import Verif.Props.Mercator
import Verif.Model.Layer
import Verif.Model.Metobin
import Verif.Model.Colors
import Verif.Spec.Layer
import Verif.Spec.Legend
import Verif.Lemmas.Metobin
import Verif.Lemmas.Sqrt
import Verif.Props.Metobin
import Verif.Props.Layer
import Verif.Props.Colors
import Verif.Model.Forecast
import Verif.Model.Swiss
import Verif.Model.Dwd
import Verif.Spec.Time
import Verif.Props.Swiss
import Verif.Props.Dwd
import Verif.Model.Render
import Verif.Lemmas.Render
import Verif.Props.Forecast
import Verif.Props.Render
import Verif.Props.CanDraw
import Verif.Model.Readers
import Verif.Model.Program
import Verif.Lemmas.Program
import Verif.Props.Program
import Verif.Props.ProgramSwiss
import Verif.Props.EndToEnd
import Verif.Props.EndToEndDemo
import Verif.Spec.Nearest
import Verif.Spec.MercatorRow
import Verif.Lemmas.SwissGrid
import Verif.Lemmas.MercatorRow
import Verif.Props.LayerBytes
import Verif.Props.EndToEndSwiss
import Verif.Props.Rows
import Verif.Props.SwissSuccess
import Verif.Props.SwissDemo
import Verif.Props.DwdSuccess
import Verif.Props.WeatherFile
import Verif.Model.Calendar
import Verif.Lemmas.Calendar
import Verif.Props.Calendar
import Verif.Model.Request
import Verif.Spec.Catalogue
import Verif.Props.Request
import Verif.Props.Catalogue
import Verif.Props.CatalogueFiles
import Verif.Props.Weights
import Verif.Props.General
import Verif.Props.Scattered
import Verif.Spec.Position
import Verif.Lemmas.Coordinate
import Verif.Props.Position
import Verif.Props.Places
import Verif.Props.Tiles
import Verif.Props.CloudTiles
import Verif.Props.TilesDemo
import Verif.Props.NetCdfSound
import Verif.Props.Grib2Sound
import Verif.Props.SwissTiles
import Verif.Props.SwissTilesDemo
import Verif.Props.SwissNeeds
import Verif.Props.SwissNeedsDemo
import Verif.Props.Downloads
import Verif.Props.SwissDownloads
import Verif.Props.DownloadsDemo
import Verif.Model.LayerLookup
import Verif.Spec.TimeText
import Verif.Props.TimeText
import Verif.Props.LayerLookup
import Verif.Model.Build
import Verif.Lemmas.Build
import Verif.Lemmas.BuildSim
import Verif.Lemmas.Release
import Verif.Props.Release
import Verif.Lemmas.Monotone
import Verif.Props.Repeat
import Verif.Props.RepeatDemo
import Verif.Model.Answers
import Verif.Spec.Answers
import Verif.Lemmas.Answers
import Verif.Props.Answers
import Verif.Props.Servers
import Verif.Props.ModelFiles
import Verif.Props.Regrid
import Verif.Props.HorizonText
import Verif.Props.Pyramid
import Verif.Props.CommandLine
import Verif.Props.Calls
import Verif.Props.Together
import Verif.Props.Growing
import Verif.Model.Small
import Verif.Spec.Ieee
import Verif.Conformance.Ieee
import Verif.Conformance.SignedZero
import Verif.Conformance.Geo
import Verif.Conformance.Grib2
import Verif.Conformance.NetCdf
import Verif.Conformance.Forecast
import Verif.Props.Sums
import Verif.Props.Refinements
import Verif.Props.MissingTotals
import Verif.Props.Locality
import Verif.Props.LocalitySwiss
import Verif.Props.Order
import Verif.Model.Disk
import Verif.Lemmas.Disk
import Verif.Props.Disk
import Verif.Model.Memory
import Verif.Lemmas.Memory
import Verif.Props.Memory
import Verif.Props.Pixels
import Verif.Props.PixelsDemo
import Verif.Model.Network
import Verif.Lemmas.Network
import Verif.Props.Network
import Verif.Props.NetworkLevels
import Verif.Props.Once
import Verif.Props.Agree
import Verif.Props.AgreeDemo
import Verif.Model.Requests
import Verif.Lemmas.Requests
import Verif.Lemmas.RequestsMain
import Verif.Lemmas.RequestsCount
import Verif.Props.Requests
import Verif.Props.RequestsSwiss
import Verif.Props.RequestsDemo
import Verif.Props.Packing
import Verif.Model.Output
import Verif.Model.Progress
import Verif.Props.Silent
import Verif.Props.Portable
import Verif.Props.Turns
import Verif.Props.Isolation
import Verif.Props.Chance
import Verif.Props.Seams
import Verif.Props.Progress
import Verif.Props.ProgressRun
import Verif.Props.Examples
import Verif.Props.Complements
import Verif.Props.Exact
import Verif.Props.Always
import Verif.Props.Later
import Verif.Props.Yesterday
import Verif.Props.SameData
import Verif.Props.SameDataSwiss
import Verif.Props.ExactTwo
import Verif.Props.DateLine
import Verif.Props.NetCdfText
import Verif.Props.NetCdfTextLossless
import Verif.Props.ExactThree
import Verif.Props.ExactFour
import Verif.Props.UniformSample
