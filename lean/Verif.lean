import Verif.Props.Canopy
import Verif.Props.Snow
import Verif.Props.Soil
import Verif.Props.Lai
import Verif.Props.Radiation
import Verif.Props.Vertical
import Verif.Props.Groundwater
import Verif.Props.LakeWetland
import Verif.Props.River
import Verif.Props.Reservoir
import Verif.Props.Abstraction
import Verif.Props.Routing
import Verif.Props.Network
import Verif.Props.LandFrac
import Verif.Props.RunLoop
import Verif.Props.Output
import Verif.Props.MonthlyDemand
import Verif.Props.Demand
import Verif.Props.Restart
import Verif.Props.Config
import Verif.Props.Forcing
import Verif.Props.Basin
import Verif.Props.Calibration
import Verif.Props.CalibData
import Verif.Props.Misc
import Verif.Props.GlobalBalance
import Verif.Props.Neighbour
import Verif.Props.PetOutput
import Verif.Props.WaterUse
import Verif.Props.CalibSchedule
import Verif.Props.ParamPath
import Verif.Props.Whole
import Verif.Props.Float
import Verif.Props.FloatRange
import Verif.Props.FloatWhole
import Verif.Props.LatOutput
import Verif.Props.Rounding
import Verif.Props.RoundingNet
import Verif.Props.Regional
import Verif.Props.YearStart
import Verif.Props.Years
import Verif.Props.CalibYears
import Verif.Props.ConfigFile
import Verif.Props.OutSelect
import Verif.Props.DemandUnits
import Verif.Props.ShippedNetwork
import Verif.Props.LandCover
import Verif.Props.Bankfull
import Verif.Props.Checked
import Verif.Props.NbWhole
import Verif.Props.NbBasin
import Verif.Props.NbOff
import Verif.Props.CheckedNb
import Verif.Props.Natural
import Verif.Props.Runoff
import Verif.Props.NbRunoff
import Verif.Props.OrderFree
import Verif.Props.ShippedSurface
import Verif.Props.Monotone
import Verif.Props.Rain
import Verif.Props.RainFlow
import Verif.Props.UseFiles
import Verif.Props.Regression
import Verif.Props.Memory
import Verif.Props.StartMonth
import Verif.Props.RoundingBasin
import Verif.Props.RoundingLand
import Verif.Props.RoundingVert
import Verif.Props.ShippedParams
import Verif.Props.ShippedAlloc
import Verif.Props.CalibFiles
import Verif.Props.Interrupt
import Verif.Props.ShippedNeighbours
import Verif.Props.FloatDemand
import Verif.Props.FloatYears
import Verif.Props.NbFloat
import Verif.Props.NbYears
import Verif.Props.CheckedYears
import Verif.Props.NbOrder
import Verif.Props.OrderYears
import Verif.Props.BasinYears
import Verif.Props.LedgerYears
import Verif.Props.SameBitsYears
import Verif.Props.SameBitsNb
import Verif.Props.RunoffYears
import Verif.Props.SameBits
