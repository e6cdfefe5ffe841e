import Verif.Props.Fill
import Verif.Props.Flow
import Verif.Props.Label
import Verif.Props.Net
import Verif.Props.Network
import Verif.Props.NetworkFloat
import Verif.Props.Rain
import Verif.Props.Streams
import Verif.Props.Complete
import Verif.Props.Hyps
import Verif.Props.Approx
import Verif.Props.Filter
import Verif.Props.Speedups
import Verif.Props.Io
import Verif.Props.Float
import Verif.Props.Levels
import Verif.Props.Scripts
import Verif.Props.Vector
import Verif.Props.Rerun
import Verif.Props.Polygons
import Verif.Props.CompleteFloat
import Verif.Props.HypsFloat
import Verif.Props.FillStable
import Verif.Props.FlowFloat
import Verif.Props.Engines
import Verif.Props.Downstream
import Verif.Props.EvenRaster
import Verif.Props.Datum
import Verif.Props.MoreRain
import Verif.Props.Command
import Verif.Props.Filters
import Verif.Props.FillUp
import Verif.Props.FillStored
import Verif.Props.Shown
import Verif.Props.WayOut
import Verif.Props.NetDepth
import Verif.Props.Dig
import Verif.Props.Tiles
import Verif.Props.Nodata
import Verif.Props.Turned
import Verif.Props.Time
import Verif.Props.Units
import Verif.Props.Response
import Verif.Props.Missing
import Verif.Props.LabelTypes
import Verif.Props.Subcommands
import Verif.Props.Sequence
import Verif.Props.OwnFiles
import Verif.Props.Direct
import Verif.Props.Numbering
import Verif.Props.Ignored
import Verif.Props.StrictWater
import Verif.Props.Relief
import Verif.Props.Resolution
import Verif.Props.TimeComplete
import Verif.Props.Catchment
import Verif.Props.RasterRain
import Verif.Props.Accuracy
import Verif.Props.Nearest
import Verif.Props.Basin
import Verif.Props.LevelRule
import Verif.Props.Shared
import Verif.Props.ApproxFloat
import Verif.Props.LevelsFloat
import Verif.Props.RainFloat
import Verif.Props.MoreRainFloat
import Verif.Props.Stability
import Verif.Props.ExactState
import Verif.Props.ScriptsFloat
