import Verif.Queue
import Verif.QueueLemmas
import Verif.QueueProps
import Verif.Pipeline
import Verif.PipelineDet
import Verif.PipelineLive
import Verif.PipelineSerial
import Verif.PipelineProps
import Verif.Network
import Verif.NetworkLemmas
import Verif.NetworkWF
import Verif.NetworkProps
import Verif.NetworkSerial
import Verif.NetworkEqProps
import Verif.Alias
import Verif.AliasLemmas
import Verif.AliasProps
import Verif.Output
import Verif.OutputLemmas
import Verif.OutputProps
import Verif.Calendar
import Verif.CalendarProps
import Verif.Utils
import Verif.UtilsProps
import Verif.Storms
import Verif.StormsLemmas
import Verif.StormsBasin
import Verif.StormsProps
import Verif.Nasde
import Verif.NasdeProps
import Verif.Precip
import Verif.PrecipProps
import Verif.Albedo
import Verif.AlbedoProps
import Verif.Vapor
import Verif.VaporProps
import Verif.Dewpoint
import Verif.DewpointProps
import Verif.WetBulb
import Verif.WetBulbProps
import Verif.Twostream
import Verif.TwostreamLemmas
import Verif.TwostreamProps
import Verif.Solar
import Verif.SolarProps
import Verif.Thermal
import Verif.ThermalProps
import Verif.Idw
import Verif.IdwLemmas
import Verif.IdwProps
import Verif.Lu
import Verif.LuLemmas
import Verif.LuProps
import Verif.Krige
import Verif.KrigeLemmas
import Verif.KrigeDistance
import Verif.KrigeProps
import Verif.Wind
import Verif.WindProps
import Verif.Bres
import Verif.BresLemmas
import Verif.BresProps
import Verif.Horizon
import Verif.HorizonProps
import Verif.Window
import Verif.WindowProps
import Verif.Ninja
import Verif.NinjaProps
import Verif.Sun
import Verif.SunLemmas
import Verif.SunProps
import Verif.SunOrbitProps
import Verif.SunVectorProps
import Verif.Topo
import Verif.TopoProps
import Verif.Grid
import Verif.GridProps
import Verif.Csv
import Verif.CsvProps
import Verif.Hru
import Verif.HruProps
import Verif.GridInterp
import Verif.GridInterpProps
import Verif.Atmos
import Verif.AtmosProps
import Verif.NcInput
import Verif.NcInputProps
import Verif.WindFill
import Verif.WindFillProps
import Verif.ConfigVeg
import Verif.ConfigVegLemmas
import Verif.ConfigVegProps
import Verif.Restart
import Verif.RestartProps
import Verif.StormRun
import Verif.StormRunProps
import Verif.Omp
import Verif.OmpLemmas
import Verif.OmpProps
import Verif.NinjaDir
import Verif.NinjaDirProps
import Verif.Setup
import Verif.SetupProps
import Verif.CMem
import Verif.CMemLemmas
import Verif.KrigeMem
import Verif.KrigeMemLemmas
import Verif.KrigeMemRef
import Verif.KrigeMemProps
import Verif.BresAny
import Verif.MaxusMem
import Verif.MaxusMemLemmas
import Verif.MaxusMemRef
import Verif.MaxusMemProps
import Verif.Wrap
import Verif.WrapProps
import Verif.Items
import Verif.ItemsLemmas
import Verif.ItemsProps
import Verif.Tbreak
import Verif.TbreakLemmas
import Verif.TbreakProps
import Verif.Zone
import Verif.ZoneLemmas
import Verif.ZoneProps
import Verif.Spectrum
import Verif.SpectrumLemmas
import Verif.SpectrumProps
import Verif.VaporSlope
import Verif.DewpointBrent
import Verif.DewpointBrentProps
import Verif.Run
import Verif.RunSpec
import Verif.RunLemmas
import Verif.RunProps
import Verif.Stamp
import Verif.StampLemmas
import Verif.StampProps
import Verif.RunChain
import Verif.RunChainProps
import Verif.VaporDecay
import Verif.WetBulbConv
import Verif.WetBulbLoop
import Verif.WetBulbLoopProps
import Verif.RunWet
import Verif.Sessions
import Verif.SessionsProps
import Verif.RunFiles
import Verif.RunFilesProps
import Verif.Feed
import Verif.FeedProps
import Verif.MaxusLib
import Verif.MaxusLibProps
import Verif.Threaded
import Verif.ThreadedLemmas
import Verif.ThreadedProps
import Verif.StationEnh
import Verif.StationEnhProps
import Verif.Wrf
import Verif.WrfProps
import Verif.OutAsked
import Verif.OutAskedProps
import Verif.Crash
import Verif.CrashLemmas
import Verif.CrashProps
import Verif.CausalLemmas
import Verif.CausalProps
import Verif.Crop
import Verif.CropLemmas
import Verif.CropProps
import Verif.OrderProps
import Verif.FrameLemmas
import Verif.FrameProps
import Verif.Pykrige
import Verif.PykrigeProps
import Verif.LegendreLemmas
import Verif.BetaLemmas
import Verif.BetaProps
import Verif.Start
import Verif.StartProps
import Verif.IdwFloat
import Verif.IdwFloatLemmas
import Verif.IdwFloatProps
import Verif.Hrrr
import Verif.HrrrProps
import Verif.TwoEq
import Verif.TwoEqLemmas
import Verif.TwoEqProps
import Verif.KrigeBestProps
import Verif.KrigeNuggetProps
import Verif.ClockFloat
import Verif.ClockFloatProps
import Verif.Unread
import Verif.UnreadProps
import Verif.ClipFloat
import Verif.ClipFloatProps
import Verif.LuFloat
import Verif.LuFloatLemmas
import Verif.LuFloatSolve
import Verif.LuFloatProps
import Verif.KrigeFloat
import Verif.KrigeFloatLemmas
import Verif.KrigeFloatProps
import Verif.RestartFloat
import Verif.RestartFloatProps
import Verif.CoordFloat
import Verif.CoordFloatProps
import Verif.DiskFloat
import Verif.DiskFloatProps
import Verif.Split
import Verif.SplitProps
import Verif.Reread
import Verif.RereadProps
import Verif.DewFloat
import Verif.DewFloatProps
import Verif.Logs
import Verif.LogsProps
import Verif.KrigeCell
import Verif.KrigeCellProps
import Verif.SunDigits
import Verif.SunDigitsProps
import Verif.TwoFloat
import Verif.TwoFloatProps
import Verif.HorizonFloat
import Verif.HorizonFloatLemmas
import Verif.HorizonFloatProps
import Verif.HorizonBentLemmas
import Verif.HorizonBentProps
import Verif.HorizonTerrainProps
import Verif.FresherProps
import Verif.WarmerProps
import Verif.StormStepProps
import Verif.SolarResponseProps
import Verif.ThermalResponseProps
import Verif.InfluenceProps
import Verif.ShelterProps
import Verif.GaugeProps
import Verif.MoisterProps
import Verif.WetMoreProps
import Verif.BounceProps
import Verif.DenserProps
import Verif.MarksWarmProps
import Verif.SteadyProps
import Verif.GapProps
import Verif.SolarErrorProps
import Verif.PhaseErrorProps
import Verif.ThermalErrorProps
import Verif.UnderErrorProps
import Verif.AgeErrorProps
import Verif.WindErrorProps
import Verif.DriftErrorProps
import Verif.DewErrorProps
import Verif.ReadingDewProps
import Verif.ViewErrorProps
import Verif.MoistErrorProps
import Verif.DewSkyErrorProps
import Verif.HeatErrorProps
import Verif.BudgetErrorProps
