import Verif.Conformance.Account
import Verif.Conformance.Base
import Verif.Conformance.Eval
import Verif.Conformance.EvalPrelude
import Verif.Conformance.ExponentialMovingAverage
import Verif.Conformance.History
import Verif.Conformance.Indicators
import Verif.Conformance.LastN
import Verif.Conformance.Libm
import Verif.Conformance.Logger
import Verif.Conformance.Macd
import Verif.Conformance.Prelude
import Verif.Conformance.Proto
import Verif.Conformance.Rsi
import Verif.Conformance.SideInput
import Verif.Conformance.SimpleMovingAverage
import Verif.Conformance.Stochastic
import Verif.Conformance.Time
import Verif.Conformance.TimePrelude
import Verif.Conformance.Util
import Verif.Conformance.Volatility
import Verif.Lemmas.Account
import Verif.Lemmas.Aggregate
import Verif.Lemmas.Calendar
import Verif.Lemmas.CommandLine
import Verif.Lemmas.DebugString
import Verif.Lemmas.Evaluate
import Verif.Lemmas.Exec
import Verif.Lemmas.ExecSide
import Verif.Lemmas.ExecTick
import Verif.Lemmas.FlagText
import Verif.Lemmas.FloatEma
import Verif.Lemmas.FloatEvaluate
import Verif.Lemmas.FloatMoney
import Verif.Lemmas.FloatNN
import Verif.Lemmas.FloatScore
import Verif.Lemmas.FloatStop
import Verif.Lemmas.FloatVal
import Verif.Lemmas.FloatWide
import Verif.Lemmas.Fold
import Verif.Lemmas.Gaps
import Verif.Lemmas.Granularity
import Verif.Lemmas.Grid
import Verif.Lemmas.Indicators
import Verif.Lemmas.IndicatorsCounted
import Verif.Lemmas.LastN
import Verif.Lemmas.Locality
import Verif.Lemmas.Outliers
import Verif.Lemmas.Resample
import Verif.Lemmas.Rounded
import Verif.Lemmas.Search
import Verif.Lemmas.Shift
import Verif.Lemmas.SideInput
import Verif.Lemmas.SimpleAtod
import Verif.Lemmas.Simulation
import Verif.Lemmas.SlidingMin
import Verif.Lemmas.Units
import Verif.Lemmas.UnitsEvaluate
import Verif.Lemmas.UnitsRun
import Verif.Lemmas.Volume
import Verif.Lemmas.Window
import Verif.Model.Account
import Verif.Model.Base
import Verif.Model.CommandLine
import Verif.Model.Convert
import Verif.Model.ConvertMain
import Verif.Model.DebugString
import Verif.Model.Device
import Verif.Model.Evaluate
import Verif.Model.Exec
import Verif.Model.Gzip
import Verif.Model.History
import Verif.Model.IndicatorUtil
import Verif.Model.Indicators
import Verif.Model.LastN
import Verif.Model.Logger
import Verif.Model.Machine
import Verif.Model.Proto
import Verif.Model.Run
import Verif.Model.Scanf
import Verif.Model.SideInput
import Verif.Model.SimpleAtod
import Verif.Model.Time
import Verif.Model.TimeText
import Verif.Model.TraderMain
import Verif.Model.Traders
import Verif.Model.Wire
import Verif.Num.Error
import Verif.Num.Exact
import Verif.Num.FloatOps
import Verif.Num.IEEE
import Verif.Num.IEEELemmas
import Verif.Num.Mono
import Verif.Num.Nearest
import Verif.Num.RealMath
import Verif.Num.Repr
import Verif.Props.Account
import Verif.Props.Append
import Verif.Props.Backtest
import Verif.Props.BacktestAccount
import Verif.Props.BaseUnits
import Verif.Props.BaseUnitsEvaluate
import Verif.Props.Batch
import Verif.Props.Bound
import Verif.Props.Calendar
import Verif.Props.CommandLine
import Verif.Props.CommandLineUse
import Verif.Props.Confirm
import Verif.Props.Console
import Verif.Props.ConvertInvariance
import Verif.Props.ConvertMain
import Verif.Props.Costs
import Verif.Props.Csv
import Verif.Props.Deaf
import Verif.Props.DebugRecords
import Verif.Props.DebugString
import Verif.Props.DebugStringUse
import Verif.Props.Defaults
import Verif.Props.Device
import Verif.Props.Evaluate
import Verif.Props.Factory
import Verif.Props.Fill
import Verif.Props.FloatAccuracy
import Verif.Props.FloatAfford
import Verif.Props.FloatAmounts
import Verif.Props.FloatEma
import Verif.Props.FloatEvaluate
import Verif.Props.FloatMoney
import Verif.Props.FloatPipeline
import Verif.Props.FloatPrices
import Verif.Props.FloatQuote
import Verif.Props.FloatRanking
import Verif.Props.FloatRebalancing
import Verif.Props.FloatRobust
import Verif.Props.FloatRobustTraders
import Verif.Props.FloatRobustUse
import Verif.Props.FloatRsi
import Verif.Props.FloatScore
import Verif.Props.FloatSma
import Verif.Props.FloatStochastic
import Verif.Props.FloatStochasticD
import Verif.Props.FloatStop
import Verif.Props.FloatTerms
import Verif.Props.FloatVariance
import Verif.Props.Gaps
import Verif.Props.Granularity
import Verif.Props.GranularityIndicators
import Verif.Props.Gzip
import Verif.Props.HistorySubset
import Verif.Props.Indicators
import Verif.Props.LastN
import Verif.Props.Locality
import Verif.Props.Logger
import Verif.Props.Machine
import Verif.Props.Memory
import Verif.Props.Mirror
import Verif.Props.MovingAverages
import Verif.Props.Names
import Verif.Props.OrderCount
import Verif.Props.Orders
import Verif.Props.Outliers
import Verif.Props.Pieces
import Verif.Props.Pipeline
import Verif.Props.Preconditions
import Verif.Props.Printing
import Verif.Props.Proto
import Verif.Props.Quiet
import Verif.Props.Ranking
import Verif.Props.Rebalancing
import Verif.Props.Report
import Verif.Props.Resample
import Verif.Props.Robust
import Verif.Props.Rsi
import Verif.Props.Scanf
import Verif.Props.ScanfMore
import Verif.Props.Score
import Verif.Props.Settlement
import Verif.Props.Shift
import Verif.Props.SideCsv
import Verif.Props.SideInput
import Verif.Props.SimpleAtod
import Verif.Props.SimpleAtodUse
import Verif.Props.Split
import Verif.Props.Stochastic
import Verif.Props.StopLoss
import Verif.Props.StopTrader
import Verif.Props.Stream
import Verif.Props.Terms
import Verif.Props.TimeText
import Verif.Props.Timestamps
import Verif.Props.TraderBatch
import Verif.Props.TraderClean
import Verif.Props.TraderLog
import Verif.Props.TraderMain
import Verif.Props.TwoRates
import Verif.Props.Units
import Verif.Props.UnitsIndicators
import Verif.Props.Volatility
import Verif.Props.Volume
import Verif.Props.Window
import Verif.Props.Wire
import Verif.Props.WireFormat
import Verif.Spec.Account
import Verif.Spec.Aggregate
import Verif.Spec.BaseUnits
import Verif.Spec.Calendar
import Verif.Spec.CommandLine
import Verif.Spec.Console
import Verif.Spec.Convert
import Verif.Spec.ConvertMain
import Verif.Spec.DebugRecords
import Verif.Spec.DebugString
import Verif.Spec.Evaluate
import Verif.Spec.Events
import Verif.Spec.Exec
import Verif.Spec.Factory
import Verif.Spec.Fill
import Verif.Spec.FloatEvaluate
import Verif.Spec.FloatIndicators
import Verif.Spec.FloatMoney
import Verif.Spec.FloatRobust
import Verif.Spec.FloatScore
import Verif.Spec.FloatStop
import Verif.Spec.Gzip
import Verif.Spec.History
import Verif.Spec.Indicators
import Verif.Spec.Logger
import Verif.Spec.Machine
import Verif.Spec.Outliers
import Verif.Spec.Preconditions
import Verif.Spec.Proto
import Verif.Spec.Report
import Verif.Spec.Robust
import Verif.Spec.Scanf
import Verif.Spec.ScanfMore
import Verif.Spec.Shift
import Verif.Spec.SimpleAtod
import Verif.Spec.StopLoss
import Verif.Spec.Stream
import Verif.Spec.TimeText
import Verif.Spec.TraderMain
import Verif.Spec.Traders
import Verif.Spec.Units
import Verif.Spec.Volatility
import Verif.Spec.Volume
import Verif.Spec.Window
import Verif.Spec.Wire
import Verif.Spec.WireFormat
import Verif.Witness.Account
import Verif.Witness.Backtest
import Verif.Witness.Data
import Verif.Witness.Evaluate
import Verif.Witness.Files
import Verif.Witness.Float
import Verif.Witness.Programs
import Verif.Witness.Traders
import Verif.Witness.Wire
