import Verif.Props.Units
import Verif.Props.Window
import Verif.Props.DDT
import Verif.Props.Thermochem
import Verif.Props.Bolt
import Verif.Props.TubeTables
import Verif.Props.Tube
import Verif.Props.Flange
import Verif.Props.Materials
import Verif.Props.CurveFit
import Verif.Props.SD
import Verif.Props.SDLimits
import Verif.Props.CJSpeed
import Verif.Props.Reflected
import Verif.Props.MaxInitial
import Verif.Props.Import
import Verif.Props.BoltInput
import Verif.Props.Tangency
import Verif.Props.CJPerfect
import Verif.Props.Rounded
import Verif.Props.Workflow
import Verif.Props.Vector
import Verif.Props.Nan
import Verif.Props.Proc
import Verif.Props.Csv
import Verif.Props.Conformance
import Verif.Props.Frames
import Verif.Props.FlangeInverse
import Verif.Props.FlangeExact
import Verif.Model.Inf
import Verif.Lemmas.Inf
import Verif.Props.Inf
import Verif.Props.InfBolt
import Verif.Props.InfTube
import Verif.Model.InfSearch
import Verif.Props.InfSearch
import Verif.Props.Converged
import Verif.Props.Scaling
import Verif.Props.ReflectedPerfect
import Verif.Props.RoundedTube
import Verif.Props.RoundedBolt
import Verif.Props.ReflectedAccuracy
import Verif.Props.ReflectedConverges
import Verif.Props.CJBranch
import Verif.Props.CJAccuracy
import Verif.Props.ReflectedCJ
import Verif.Props.InitialCJ
import Verif.Props.Messages
import Verif.Props.Witness
import Verif.Props.Registries
import Verif.Props.VectorRunUp
import Verif.Props.VectorTube
import Verif.Props.RoundedLookup
import Verif.Props.RoundedFlange
import Verif.Props.FloatRoundTrip
import Verif.Props.RunUp
import Verif.Props.RoundedTemperature
import Verif.Props.RoundedRunUp
import Verif.Props.RoundedSearch
import Verif.Props.RoundedSD
import Verif.Props.RoundedReflect
import Verif.Props.RoundedFit
import Verif.Props.RoundedSpeed
import Verif.Props.RoundedEndToEnd
import Verif.Props.FloatRange
import Verif.Props.FloatRangeLookup
import Verif.Props.SearchConverges
import Verif.Props.SafeBelow
import Verif.Props.BoltDesign
import Verif.Props.SoundSpeed
import Verif.Props.LimitOrder
import Verif.Props.FlangeOrder
import Verif.Props.Patience
import Verif.Props.Paths
