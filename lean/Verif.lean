import Verif.Base.Binary64
import Verif.Base.Float
import Verif.Base.Py
import Verif.Base.Rounding
import Verif.Model.Alias
import Verif.Model.Argparse
import Verif.Model.Attributes
import Verif.Model.Calendar
import Verif.Model.Cli
import Verif.Model.Compare
import Verif.Model.Compute
import Verif.Model.Eto
import Verif.Model.Indices
import Verif.Model.Lmoments
import Verif.Model.Masked
import Verif.Model.OldScipy
import Verif.Model.Palmer
import Verif.Model.PalmerSpell
import Verif.Model.Parallel
import Verif.Model.SpiCommand
import Verif.Model.SpiTool
import Verif.Model.Stats
import Verif.Model.Utils
import Verif.Spec.Calendar
import Verif.Spec.Cli
import Verif.Spec.Days366
import Verif.Spec.Ext
import Verif.Spec.McKee
import Verif.Spec.PalmerMirror
import Verif.Spec.PalmerRules
import Verif.Spec.PalmerZ
import Verif.Spec.Pearson
import Verif.Spec.RealExt
import Verif.Spec.SpiLive
import Verif.Spec.SpiTool
import Verif.Spec.Thornthwaite
import Verif.Spec.TrigReal
import Verif.Lemmas.Alias
import Verif.Lemmas.AliasFit
import Verif.Lemmas.Calendar
import Verif.Lemmas.Cli
import Verif.Lemmas.CliCells
import Verif.Lemmas.CliJoin
import Verif.Lemmas.CliLive
import Verif.Lemmas.CliLiveDaily
import Verif.Lemmas.CliLiveDailySpei
import Verif.Lemmas.CliLivePet
import Verif.Lemmas.CliLiveSpei
import Verif.Lemmas.CliRun
import Verif.Lemmas.Compute
import Verif.Lemmas.Daily
import Verif.Lemmas.Daylight64
import Verif.Lemmas.DaylightNear
import Verif.Lemmas.Drift64
import Verif.Lemmas.DriftRun64
import Verif.Lemmas.Lmoments
import Verif.Lemmas.Lmoments64
import Verif.Lemmas.LogErr
import Verif.Lemmas.Near64
import Verif.Lemmas.Palmer64
import Verif.Lemmas.PalmerBack
import Verif.Lemmas.PalmerBalance
import Verif.Lemmas.PalmerCast
import Verif.Lemmas.PalmerLast
import Verif.Lemmas.PalmerMirror
import Verif.Lemmas.PalmerMirrorRun
import Verif.Lemmas.PalmerNan
import Verif.Lemmas.PalmerNum
import Verif.Lemmas.PalmerRun
import Verif.Lemmas.PalmerSpell
import Verif.Lemmas.Parallel
import Verif.Lemmas.Py
import Verif.Lemmas.Rel64
import Verif.Lemmas.Round64
import Verif.Lemmas.Signed64
import Verif.Lemmas.Soil64
import Verif.Lemmas.Spi
import Verif.Lemmas.SpiFit
import Verif.Lemmas.SpiLive
import Verif.Lemmas.SpiLiveDays
import Verif.Lemmas.SpiLivePrepare
import Verif.Lemmas.SpiLoad
import Verif.Lemmas.SpiLoadLive
import Verif.Lemmas.SpiPairs
import Verif.Lemmas.SpiPipe
import Verif.Lemmas.SpiPrepare
import Verif.Lemmas.SpiRun
import Verif.Lemmas.SpiScales
import Verif.Lemmas.SpiStage
import Verif.Lemmas.SpiTool
import Verif.Props.Alias
import Verif.Props.Arrays
import Verif.Props.Calendar
import Verif.Props.Cli
import Verif.Props.CliCells
import Verif.Props.CliDaily
import Verif.Props.CliJoin
import Verif.Props.CliLive
import Verif.Props.CliLiveDaily
import Verif.Props.CliLiveDailySpei
import Verif.Props.CliLivePet
import Verif.Props.CliLiveSpei
import Verif.Props.CliMatch
import Verif.Props.CliOptions
import Verif.Props.CliScales
import Verif.Props.CliSequenceDaily
import Verif.Props.CliYears
import Verif.Props.CliYearsTemp
import Verif.Props.Daily
import Verif.Props.EndToEnd
import Verif.Props.EndToEnd64
import Verif.Props.EndToEndPet
import Verif.Props.EndToEndScaled
import Verif.Props.EndToEndScaledDaily
import Verif.Props.EndToEndSpei
import Verif.Props.EndToEndSpei64
import Verif.Props.EndToEndTemp64
import Verif.Props.Eto
import Verif.Props.EtoSeason
import Verif.Props.Exchange
import Verif.Props.ExchangePet
import Verif.Props.Extend
import Verif.Props.ExtendEto
import Verif.Props.ExtendPalmer
import Verif.Props.Float64Accum
import Verif.Props.Float64Daylight
import Verif.Props.Float64Drift
import Verif.Props.Float64Gamma
import Verif.Props.Float64Lmoments
import Verif.Props.Float64Palmer
import Verif.Props.Float64Pet
import Verif.Props.Float64Replay
import Verif.Props.Float64Rmse
import Verif.Props.Float64Shape
import Verif.Props.Float64Soil
import Verif.Props.Float64Spi
import Verif.Props.Float64Sums
import Verif.Props.Float64Units
import Verif.Props.Float64Warm
import Verif.Props.Gamma
import Verif.Props.GammaGiven
import Verif.Props.Lmoments
import Verif.Props.LmomentsMatch
import Verif.Props.Masked
import Verif.Props.McKee
import Verif.Props.McKeeOutside
import Verif.Props.McKeePearson
import Verif.Props.Negative
import Verif.Props.OldScipy
import Verif.Props.PalmerBack
import Verif.Props.PalmerBalance
import Verif.Props.PalmerCapacity
import Verif.Props.PalmerMirror
import Verif.Props.PalmerMono
import Verif.Props.PalmerMonoRecord
import Verif.Props.PalmerPdsi
import Verif.Props.PalmerRules
import Verif.Props.PalmerSpell
import Verif.Props.PalmerZ
import Verif.Props.Parallel
import Verif.Props.Pci
import Verif.Props.PearsonUnfit
import Verif.Props.PearsonUnfit64
import Verif.Props.PearsonUnit
import Verif.Props.Pnp
import Verif.Props.PnpDaily64
import Verif.Props.PnpMore
import Verif.Props.PnpMore64
import Verif.Props.PnpPeriods
import Verif.Props.PnpUnit64
import Verif.Props.PnpUnitRun64
import Verif.Props.Ranges
import Verif.Props.RmseValue
import Verif.Props.ShortRecord
import Verif.Props.ShortRecordRun
import Verif.Props.ShortRecordRuns
import Verif.Props.Spei
import Verif.Props.SpeiMissing
import Verif.Props.SpeiValue
import Verif.Props.SpiBasic
import Verif.Props.SpiCommand
import Verif.Props.SpiDaily64
import Verif.Props.SpiFit
import Verif.Props.SpiMisc
import Verif.Props.SpiMono
import Verif.Props.SpiMore
import Verif.Props.SpiNoYears
import Verif.Props.SpiNoYearsDays
import Verif.Props.SpiTool
import Verif.Props.SpiTool64
import Verif.Props.SpiToolDays
import Verif.Props.SpiToolDays64
import Verif.Props.SpiToolLive
import Verif.Props.SpiToolLoads
import Verif.Props.SpiToolRuns
import Verif.Props.SpiToolYears
import Verif.Props.Stats
import Verif.Props.TwoTools
import Verif.Props.Years
