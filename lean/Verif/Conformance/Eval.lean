import Verif.Conformance.Prelude
import Verif.Conformance.EvalPrelude

/-!
# eval/eval_test.cc, translated

Generated by tools/gen_conformance.py.
-/

namespace Verif.Conformance
open Verif FloatOps
set_option linter.unusedVariables false
set_option linter.style.longLine false

/-- eval/eval_test.cc 174 `ExecuteTraderTest.LimitBuyAndSell`. -/
def ExecuteTraderTest_LimitBuyAndSell : Bool :=
  let ok := true
  let account : AccountConfig F32 := ⟨(p (10)), (p (0)), (p (1 / 10)), (p (1)), newFee, newFee, ⟨(p (1 / 10)), (p (1)), (p (3 / 2))⟩, (p (1 / 2)), (p (1 / 10))⟩
  let history : List (OhlcTick F32) × Bool := ([], true)
  let history := dailyHistory
  let ok := ok && history.2
  let run := executeTrader account history.1 none false (testTrader (f (50)) (f (200))) (testInit (f (50)) (f (200))) true
  let ok := ok && isOk run.out
  let result := okOr run.out noResult
  let log := logged run
  let ok := ok && result.startBase == (p (10))
  let ok := ok && result.startQuote == (p (0))
  let ok := ok && result.endBase == (p (323 / 10))
  let ok := ok && result.endQuote == (p (21))
  let ok := ok && result.startPrice == (p (120))
  let ok := ok && result.endPrice == (p (50))
  let ok := ok && result.startValue == (p (1200))
  let ok := ok && result.endValue == (p (1636))
  let ok := ok && result.totalExecutedOrders == 2
  let ok := ok && result.totalFee == (p (364))
  let ok := ok && result.baseVolatility == (p (163424337 / 25000000))
  let ok := ok && result.traderVolatility == (p (118258643 / 50000000))
  let ok := ok && wrote log.exchange (chars! "1483228800,100.000,150.000,80.000,120.000,1000.000,10.000,0.000,0.000,,,,,\n1483315200,120.000,180.000,100.000,150.000,1000.000,10.000,0.000,0.000,,,,,\n1483401600,150.000,250.000,100.000,140.000,1000.000,10.000,0.000,0.000,,,,,\n1483401600,150.000,250.000,100.000,140.000,1000.000,0.000,1799.000,201.000,LIMIT,SELL,10.000,,200.000\n1483488000,140.000,150.000,80.000,100.000,1000.000,0.000,1799.000,201.000,,,,,\n1483574400,100.000,120.000,20.000,50.000,1000.000,0.000,1799.000,201.000,,,,,\n1483574400,100.000,120.000,20.000,50.000,1000.000,32.300,21.000,364.000,LIMIT,BUY,,1799.000,50.000\n")
  let ok := ok && wrote log.trader (chars! "1483228800,10.000,0.000,120.000,IN_LONG,LIMIT_SELL@200\n1483315200,10.000,0.000,150.000,IN_LONG,LIMIT_SELL@200\n1483401600,0.000,1799.000,140.000,IN_CASH,LIMIT_BUY@50\n1483488000,0.000,1799.000,100.000,IN_CASH,LIMIT_BUY@50\n1483574400,32.300,21.000,50.000,IN_LONG,LIMIT_SELL@200\n")
  ok

example : ExecuteTraderTest_LimitBuyAndSell = true := by decide +kernel

/-- eval/eval_test.cc 247 `ExecuteTraderTest.LimitBuyAndSellFastEval`. -/
def ExecuteTraderTest_LimitBuyAndSellFastEval : Bool :=
  let ok := true
  let account : AccountConfig F32 := ⟨(p (10)), (p (0)), (p (1 / 10)), (p (1)), newFee, newFee, ⟨(p (1 / 10)), (p (1)), (p (3 / 2))⟩, (p (1 / 2)), (p (1 / 10))⟩
  let history : List (OhlcTick F32) × Bool := ([], true)
  let history := dailyHistory
  let ok := ok && history.2
  let run := executeTrader account history.1 none true (testTrader (f (50)) (f (200))) (testInit (f (50)) (f (200))) false
  let ok := ok && isOk run.out
  let result := okOr run.out noResult
  let log := logged run
  let ok := ok && result.startBase == (p (10))
  let ok := ok && result.startQuote == (p (0))
  let ok := ok && result.endBase == (p (323 / 10))
  let ok := ok && result.endQuote == (p (21))
  let ok := ok && result.startPrice == (p (120))
  let ok := ok && result.endPrice == (p (50))
  let ok := ok && result.startValue == (p (1200))
  let ok := ok && result.endValue == (p (1636))
  let ok := ok && result.totalExecutedOrders == 2
  let ok := ok && result.totalFee == (p (364))
  let ok := ok && result.baseVolatility == f 0
  let ok := ok && result.traderVolatility == f 0
  ok

example : ExecuteTraderTest_LimitBuyAndSellFastEval = true := by decide +kernel

/-- eval/eval_test.cc 292 `EvaluateTraderTest.LimitBuyAndSellOnePeriod`. -/
def EvaluateTraderTest_LimitBuyAndSellOnePeriod : Bool :=
  let ok := true
  let account : AccountConfig F32 := ⟨(p (10)), (p (0)), (p (1 / 10)), (p (1)), newFee, newFee, ⟨(p (1 / 10)), (p (1)), (p (3 / 2))⟩, (p (1 / 2)), (p (1 / 10))⟩
  let history : List (OhlcTick F32) × Bool := ([], true)
  let history := monthlyHistory
  let ok := ok && history.2
  let config : EvalConfig := ⟨1483228800, 1514764800, 0, false⟩
  let emitter := testEmitter (f (50)) (f (200))
  let ok := ok && emitter.name == "test-trader[50|200]"
  let run := evaluateTrader ⟨account, config, history.1, none, emitter⟩ true
  let ok := ok && isOk run.out
  let result := okOr run.out noEvaluation
  let log := logged run
  let ok := ok && result.accountConfig == ⟨(p (10)), (p (0)), (p (1 / 10)), (p (1)), newFee, newFee, ⟨(p (1 / 10)), (p (1)), (p (3 / 2))⟩, (p (1 / 2)), (p (1 / 10))⟩
  let ok := ok && result.evalConfig == ⟨1483228800, 1514764800, 0, false⟩
  let ok := ok && result.name == "test-trader[50|200]"
  let ok := ok && result.periods.length == 1
  let ok := ok && (result.periods.getD 0 ⟨0, 0, noResult, f 0, f 0⟩).start == 1483228800
  let ok := ok && (result.periods.getD 0 ⟨0, 0, noResult, f 0, f 0⟩).stop == 1514764800
  let ok := ok && (result.periods.getD 0 ⟨0, 0, noResult, f 0, f 0⟩).finalGain == (p (121541667 / 25000000))
  let ok := ok && (result.periods.getD 0 ⟨0, 0, noResult, f 0, f 0⟩).baseFinalGain == (p (25 / 4))
  let ok := ok && (result.periods.getD 0 ⟨0, 0, noResult, f 0, f 0⟩).result.startBase == (p (10))
  let ok := ok && (result.periods.getD 0 ⟨0, 0, noResult, f 0, f 0⟩).result.startQuote == (p (0))
  let ok := ok && (result.periods.getD 0 ⟨0, 0, noResult, f 0, f 0⟩).result.endBase == (p (0))
  let ok := ok && (result.periods.getD 0 ⟨0, 0, noResult, f 0, f 0⟩).result.endQuote == (p (5834))
  let ok := ok && (result.periods.getD 0 ⟨0, 0, noResult, f 0, f 0⟩).result.startPrice == (p (120))
  let ok := ok && (result.periods.getD 0 ⟨0, 0, noResult, f 0, f 0⟩).result.endPrice == (p (750))
  let ok := ok && (result.periods.getD 0 ⟨0, 0, noResult, f 0, f 0⟩).result.startValue == (p (1200))
  let ok := ok && (result.periods.getD 0 ⟨0, 0, noResult, f 0, f 0⟩).result.endValue == (p (5834))
  let ok := ok && (result.periods.getD 0 ⟨0, 0, noResult, f 0, f 0⟩).result.totalExecutedOrders == 3
  let ok := ok && (result.periods.getD 0 ⟨0, 0, noResult, f 0, f 0⟩).result.totalFee == (p (1011))
  let ok := ok && result.score == (p (388933331 / 500000000))
  let ok := ok && result.avgGain == (p (121541667 / 25000000))
  let ok := ok && result.avgBaseGain == (p (25 / 4))
  let ok := ok && result.avgTotalExecutedOrders == (p (3))
  let ok := ok && result.avgTotalFee == (p (1011))
  let ok := ok && wrote log.exchange (chars! "1483228800,100.000,150.000,80.000,120.000,1000.000,10.000,0.000,0.000,,,,,\n1485907200,120.000,180.000,100.000,150.000,1000.000,10.000,0.000,0.000,,,,,\n1488326400,150.000,250.000,100.000,140.000,1000.000,10.000,0.000,0.000,,,,,\n1488326400,150.000,250.000,100.000,140.000,1000.000,0.000,1799.000,201.000,LIMIT,SELL,10.000,,200.000\n1491004800,140.000,150.000,80.000,100.000,1000.000,0.000,1799.000,201.000,,,,,\n1493596800,100.000,120.000,20.000,50.000,1000.000,0.000,1799.000,201.000,,,,,\n1493596800,100.000,120.000,20.000,50.000,1000.000,32.300,21.000,364.000,LIMIT,BUY,,1799.000,50.000\n1496275200,50.000,100.000,40.000,80.000,1000.000,32.300,21.000,364.000,,,,,\n1498867200,80.000,180.000,50.000,150.000,1000.000,32.300,21.000,364.000,,,,,\n1501545600,150.000,250.000,120.000,240.000,1000.000,32.300,21.000,364.000,,,,,\n1501545600,150.000,250.000,120.000,240.000,1000.000,0.000,5834.000,1011.000,LIMIT,SELL,32.300,,200.000\n1504224000,240.000,450.000,220.000,400.000,1000.000,0.000,5834.000,1011.000,,,,,\n1506816000,400.000,450.000,250.000,300.000,1000.000,0.000,5834.000,1011.000,,,,,\n1509494400,300.000,700.000,220.000,650.000,1000.000,0.000,5834.000,1011.000,,,,,\n1512086400,650.000,800.000,600.000,750.000,1000.000,0.000,5834.000,1011.000,,,,,\n")
  let ok := ok && wrote log.trader (chars! "1483228800,10.000,0.000,120.000,IN_LONG,LIMIT_SELL@200\n1485907200,10.000,0.000,150.000,IN_LONG,LIMIT_SELL@200\n1488326400,0.000,1799.000,140.000,IN_CASH,LIMIT_BUY@50\n1491004800,0.000,1799.000,100.000,IN_CASH,LIMIT_BUY@50\n1493596800,32.300,21.000,50.000,IN_LONG,LIMIT_SELL@200\n1496275200,32.300,21.000,80.000,IN_LONG,LIMIT_SELL@200\n1498867200,32.300,21.000,150.000,IN_LONG,LIMIT_SELL@200\n1501545600,0.000,5834.000,240.000,IN_CASH,LIMIT_BUY@50\n1504224000,0.000,5834.000,400.000,IN_CASH,LIMIT_BUY@50\n1506816000,0.000,5834.000,300.000,IN_CASH,LIMIT_BUY@50\n1509494400,0.000,5834.000,650.000,IN_CASH,LIMIT_BUY@50\n1512086400,0.000,5834.000,750.000,IN_CASH,LIMIT_BUY@50\n")
  ok

example : EvaluateTraderTest_LimitBuyAndSellOnePeriod = true := by decide +kernel

/-- eval/eval_test.cc 433 `EvaluateTraderTest.LimitBuyAndSellOnePeriodFastEval`. -/
def EvaluateTraderTest_LimitBuyAndSellOnePeriodFastEval : Bool :=
  let ok := true
  let account : AccountConfig F32 := ⟨(p (10)), (p (0)), (p (1 / 10)), (p (1)), newFee, newFee, ⟨(p (1 / 10)), (p (1)), (p (3 / 2))⟩, (p (1 / 2)), (p (1 / 10))⟩
  let history : List (OhlcTick F32) × Bool := ([], true)
  let history := monthlyHistory
  let ok := ok && history.2
  let config : EvalConfig := ⟨1483228800, 1514764800, 0, true⟩
  let emitter := testEmitter (f (50)) (f (200))
  let ok := ok && emitter.name == "test-trader[50|200]"
  let run := evaluateTrader ⟨account, config, history.1, none, emitter⟩ false
  let ok := ok && isOk run.out
  let result := okOr run.out noEvaluation
  let log := logged run
  let ok := ok && result.accountConfig == ⟨(p (10)), (p (0)), (p (1 / 10)), (p (1)), newFee, newFee, ⟨(p (1 / 10)), (p (1)), (p (3 / 2))⟩, (p (1 / 2)), (p (1 / 10))⟩
  let ok := ok && result.evalConfig == ⟨1483228800, 1514764800, 0, true⟩
  let ok := ok && result.name == "test-trader[50|200]"
  let ok := ok && result.periods.length == 1
  let ok := ok && (result.periods.getD 0 ⟨0, 0, noResult, f 0, f 0⟩).start == 1483228800
  let ok := ok && (result.periods.getD 0 ⟨0, 0, noResult, f 0, f 0⟩).stop == 1514764800
  let ok := ok && (result.periods.getD 0 ⟨0, 0, noResult, f 0, f 0⟩).finalGain == (p (121541667 / 25000000))
  let ok := ok && (result.periods.getD 0 ⟨0, 0, noResult, f 0, f 0⟩).baseFinalGain == (p (25 / 4))
  let ok := ok && (result.periods.getD 0 ⟨0, 0, noResult, f 0, f 0⟩).result.startBase == (p (10))
  let ok := ok && (result.periods.getD 0 ⟨0, 0, noResult, f 0, f 0⟩).result.startQuote == (p (0))
  let ok := ok && (result.periods.getD 0 ⟨0, 0, noResult, f 0, f 0⟩).result.endBase == (p (0))
  let ok := ok && (result.periods.getD 0 ⟨0, 0, noResult, f 0, f 0⟩).result.endQuote == (p (5834))
  let ok := ok && (result.periods.getD 0 ⟨0, 0, noResult, f 0, f 0⟩).result.startPrice == (p (120))
  let ok := ok && (result.periods.getD 0 ⟨0, 0, noResult, f 0, f 0⟩).result.endPrice == (p (750))
  let ok := ok && (result.periods.getD 0 ⟨0, 0, noResult, f 0, f 0⟩).result.startValue == (p (1200))
  let ok := ok && (result.periods.getD 0 ⟨0, 0, noResult, f 0, f 0⟩).result.endValue == (p (5834))
  let ok := ok && (result.periods.getD 0 ⟨0, 0, noResult, f 0, f 0⟩).result.totalExecutedOrders == 3
  let ok := ok && (result.periods.getD 0 ⟨0, 0, noResult, f 0, f 0⟩).result.totalFee == (p (1011))
  let ok := ok && (result.periods.getD 0 ⟨0, 0, noResult, f 0, f 0⟩).result.baseVolatility == f 0
  let ok := ok && (result.periods.getD 0 ⟨0, 0, noResult, f 0, f 0⟩).result.traderVolatility == f 0
  let ok := ok && result.score == (p (388933331 / 500000000))
  let ok := ok && result.avgGain == (p (121541667 / 25000000))
  let ok := ok && result.avgBaseGain == (p (25 / 4))
  let ok := ok && result.avgTotalExecutedOrders == (p (3))
  let ok := ok && result.avgTotalFee == (p (1011))
  ok

example : EvaluateTraderTest_LimitBuyAndSellOnePeriodFastEval = true := by decide +kernel

/-- eval/eval_test.cc 524 `EvaluateTraderTest.LimitBuyAndSellMultiple6MonthPeriods`. -/
def EvaluateTraderTest_LimitBuyAndSellMultiple6MonthPeriods : Bool :=
  let ok := true
  let account : AccountConfig F32 := ⟨(p (10)), (p (0)), (p (1 / 10)), (p (1)), newFee, newFee, ⟨(p (1 / 10)), (p (1)), (p (3 / 2))⟩, (p (1 / 2)), (p (1 / 10))⟩
  let history : List (OhlcTick F32) × Bool := ([], true)
  let history := monthlyHistory
  let ok := ok && history.2
  let config : EvalConfig := ⟨1483228800, 1514764800, 6, false⟩
  let emitter := testEmitter (f (50)) (f (200))
  let ok := ok && emitter.name == "test-trader[50|200]"
  let run := evaluateTrader ⟨account, config, history.1, none, emitter⟩ false
  let ok := ok && isOk run.out
  let result := okOr run.out noEvaluation
  let log := logged run
  let ok := ok && result.accountConfig == ⟨(p (10)), (p (0)), (p (1 / 10)), (p (1)), newFee, newFee, ⟨(p (1 / 10)), (p (1)), (p (3 / 2))⟩, (p (1 / 2)), (p (1 / 10))⟩
  let ok := ok && result.evalConfig == ⟨1483228800, 1514764800, 6, false⟩
  let ok := ok && result.name == "test-trader[50|200]"
  let ok := ok && result.periods.length == 7
  let ok := ok && (result.periods.getD 0 ⟨0, 0, noResult, f 0, f 0⟩).start == 1483228800
  let ok := ok && (result.periods.getD 0 ⟨0, 0, noResult, f 0, f 0⟩).stop == 1498867200
  let ok := ok && (result.periods.getD 0 ⟨0, 0, noResult, f 0, f 0⟩).finalGain == (p (43416667 / 20000000))
  let ok := ok && (result.periods.getD 0 ⟨0, 0, noResult, f 0, f 0⟩).baseFinalGain == (p (666666687 / 1000000000))
  let ok := ok && (result.periods.getD 0 ⟨0, 0, noResult, f 0, f 0⟩).result.startBase == (p (10))
  let ok := ok && (result.periods.getD 0 ⟨0, 0, noResult, f 0, f 0⟩).result.startQuote == (p (0))
  let ok := ok && (result.periods.getD 0 ⟨0, 0, noResult, f 0, f 0⟩).result.endBase == (p (323 / 10))
  let ok := ok && (result.periods.getD 0 ⟨0, 0, noResult, f 0, f 0⟩).result.endQuote == (p (21))
  let ok := ok && (result.periods.getD 0 ⟨0, 0, noResult, f 0, f 0⟩).result.startPrice == (p (120))
  let ok := ok && (result.periods.getD 0 ⟨0, 0, noResult, f 0, f 0⟩).result.endPrice == (p (80))
  let ok := ok && (result.periods.getD 0 ⟨0, 0, noResult, f 0, f 0⟩).result.startValue == (p (1200))
  let ok := ok && (result.periods.getD 0 ⟨0, 0, noResult, f 0, f 0⟩).result.endValue == (p (2605))
  let ok := ok && (result.periods.getD 0 ⟨0, 0, noResult, f 0, f 0⟩).result.totalExecutedOrders == 2
  let ok := ok && (result.periods.getD 0 ⟨0, 0, noResult, f 0, f 0⟩).result.totalFee == (p (364))
  let ok := ok && (result.periods.getD 1 ⟨0, 0, noResult, f 0, f 0⟩).start == 1485907200
  let ok := ok && (result.periods.getD 1 ⟨0, 0, noResult, f 0, f 0⟩).stop == 1501545600
  let ok := ok && (result.periods.getD 1 ⟨0, 0, noResult, f 0, f 0⟩).finalGain == (p (811 / 250))
  let ok := ok && (result.periods.getD 1 ⟨0, 0, noResult, f 0, f 0⟩).baseFinalGain == (p (1))
  let ok := ok && (result.periods.getD 1 ⟨0, 0, noResult, f 0, f 0⟩).result.startBase == (p (10))
  let ok := ok && (result.periods.getD 1 ⟨0, 0, noResult, f 0, f 0⟩).result.startQuote == (p (0))
  let ok := ok && (result.periods.getD 1 ⟨0, 0, noResult, f 0, f 0⟩).result.endBase == (p (323 / 10))
  let ok := ok && (result.periods.getD 1 ⟨0, 0, noResult, f 0, f 0⟩).result.endQuote == (p (21))
  let ok := ok && (result.periods.getD 1 ⟨0, 0, noResult, f 0, f 0⟩).result.startPrice == (p (150))
  let ok := ok && (result.periods.getD 1 ⟨0, 0, noResult, f 0, f 0⟩).result.endPrice == (p (150))
  let ok := ok && (result.periods.getD 1 ⟨0, 0, noResult, f 0, f 0⟩).result.startValue == (p (1500))
  let ok := ok && (result.periods.getD 1 ⟨0, 0, noResult, f 0, f 0⟩).result.endValue == (p (4866))
  let ok := ok && (result.periods.getD 1 ⟨0, 0, noResult, f 0, f 0⟩).result.totalExecutedOrders == 2
  let ok := ok && (result.periods.getD 1 ⟨0, 0, noResult, f 0, f 0⟩).result.totalFee == (p (364))
  let ok := ok && (result.periods.getD 2 ⟨0, 0, noResult, f 0, f 0⟩).start == 1488326400
  let ok := ok && (result.periods.getD 2 ⟨0, 0, noResult, f 0, f 0⟩).stop == 1504224000
  let ok := ok && (result.periods.getD 2 ⟨0, 0, noResult, f 0, f 0⟩).finalGain == (p (257 / 200))
  let ok := ok && (result.periods.getD 2 ⟨0, 0, noResult, f 0, f 0⟩).baseFinalGain == (p (171428573 / 100000000))
  let ok := ok && (result.periods.getD 2 ⟨0, 0, noResult, f 0, f 0⟩).result.startBase == (p (10))
  let ok := ok && (result.periods.getD 2 ⟨0, 0, noResult, f 0, f 0⟩).result.startQuote == (p (0))
  let ok := ok && (result.periods.getD 2 ⟨0, 0, noResult, f 0, f 0⟩).result.endBase == (p (0))
  let ok := ok && (result.periods.getD 2 ⟨0, 0, noResult, f 0, f 0⟩).result.endQuote == (p (1799))
  let ok := ok && (result.periods.getD 2 ⟨0, 0, noResult, f 0, f 0⟩).result.startPrice == (p (140))
  let ok := ok && (result.periods.getD 2 ⟨0, 0, noResult, f 0, f 0⟩).result.endPrice == (p (240))
  let ok := ok && (result.periods.getD 2 ⟨0, 0, noResult, f 0, f 0⟩).result.startValue == (p (1400))
  let ok := ok && (result.periods.getD 2 ⟨0, 0, noResult, f 0, f 0⟩).result.endValue == (p (1799))
  let ok := ok && (result.periods.getD 2 ⟨0, 0, noResult, f 0, f 0⟩).result.totalExecutedOrders == 1
  let ok := ok && (result.periods.getD 2 ⟨0, 0, noResult, f 0, f 0⟩).result.totalFee == (p (201))
  let ok := ok && (result.periods.getD 3 ⟨0, 0, noResult, f 0, f 0⟩).start == 1491004800
  let ok := ok && (result.periods.getD 3 ⟨0, 0, noResult, f 0, f 0⟩).stop == 1506816000
  let ok := ok && (result.periods.getD 3 ⟨0, 0, noResult, f 0, f 0⟩).finalGain == (p (1799 / 1000))
  let ok := ok && (result.periods.getD 3 ⟨0, 0, noResult, f 0, f 0⟩).baseFinalGain == (p (4))
  let ok := ok && (result.periods.getD 3 ⟨0, 0, noResult, f 0, f 0⟩).result.startBase == (p (10))
  let ok := ok && (result.periods.getD 3 ⟨0, 0, noResult, f 0, f 0⟩).result.startQuote == (p (0))
  let ok := ok && (result.periods.getD 3 ⟨0, 0, noResult, f 0, f 0⟩).result.endBase == (p (0))
  let ok := ok && (result.periods.getD 3 ⟨0, 0, noResult, f 0, f 0⟩).result.endQuote == (p (1799))
  let ok := ok && (result.periods.getD 3 ⟨0, 0, noResult, f 0, f 0⟩).result.startPrice == (p (100))
  let ok := ok && (result.periods.getD 3 ⟨0, 0, noResult, f 0, f 0⟩).result.endPrice == (p (400))
  let ok := ok && (result.periods.getD 3 ⟨0, 0, noResult, f 0, f 0⟩).result.startValue == (p (1000))
  let ok := ok && (result.periods.getD 3 ⟨0, 0, noResult, f 0, f 0⟩).result.endValue == (p (1799))
  let ok := ok && (result.periods.getD 3 ⟨0, 0, noResult, f 0, f 0⟩).result.totalExecutedOrders == 1
  let ok := ok && (result.periods.getD 3 ⟨0, 0, noResult, f 0, f 0⟩).result.totalFee == (p (201))
  let ok := ok && (result.periods.getD 4 ⟨0, 0, noResult, f 0, f 0⟩).start == 1493596800
  let ok := ok && (result.periods.getD 4 ⟨0, 0, noResult, f 0, f 0⟩).stop == 1509494400
  let ok := ok && (result.periods.getD 4 ⟨0, 0, noResult, f 0, f 0⟩).finalGain == (p (1799 / 500))
  let ok := ok && (result.periods.getD 4 ⟨0, 0, noResult, f 0, f 0⟩).baseFinalGain == (p (6))
  let ok := ok && (result.periods.getD 4 ⟨0, 0, noResult, f 0, f 0⟩).result.startBase == (p (10))
  let ok := ok && (result.periods.getD 4 ⟨0, 0, noResult, f 0, f 0⟩).result.startQuote == (p (0))
  let ok := ok && (result.periods.getD 4 ⟨0, 0, noResult, f 0, f 0⟩).result.endBase == (p (0))
  let ok := ok && (result.periods.getD 4 ⟨0, 0, noResult, f 0, f 0⟩).result.endQuote == (p (1799))
  let ok := ok && (result.periods.getD 4 ⟨0, 0, noResult, f 0, f 0⟩).result.startPrice == (p (50))
  let ok := ok && (result.periods.getD 4 ⟨0, 0, noResult, f 0, f 0⟩).result.endPrice == (p (300))
  let ok := ok && (result.periods.getD 4 ⟨0, 0, noResult, f 0, f 0⟩).result.startValue == (p (500))
  let ok := ok && (result.periods.getD 4 ⟨0, 0, noResult, f 0, f 0⟩).result.endValue == (p (1799))
  let ok := ok && (result.periods.getD 4 ⟨0, 0, noResult, f 0, f 0⟩).result.totalExecutedOrders == 1
  let ok := ok && (result.periods.getD 4 ⟨0, 0, noResult, f 0, f 0⟩).result.totalFee == (p (201))
  let ok := ok && (result.periods.getD 5 ⟨0, 0, noResult, f 0, f 0⟩).start == 1496275200
  let ok := ok && (result.periods.getD 5 ⟨0, 0, noResult, f 0, f 0⟩).stop == 1512086400
  let ok := ok && (result.periods.getD 5 ⟨0, 0, noResult, f 0, f 0⟩).finalGain == (p (1799 / 800))
  let ok := ok && (result.periods.getD 5 ⟨0, 0, noResult, f 0, f 0⟩).baseFinalGain == (p (65 / 8))
  let ok := ok && (result.periods.getD 5 ⟨0, 0, noResult, f 0, f 0⟩).result.startBase == (p (10))
  let ok := ok && (result.periods.getD 5 ⟨0, 0, noResult, f 0, f 0⟩).result.startQuote == (p (0))
  let ok := ok && (result.periods.getD 5 ⟨0, 0, noResult, f 0, f 0⟩).result.endBase == (p (0))
  let ok := ok && (result.periods.getD 5 ⟨0, 0, noResult, f 0, f 0⟩).result.endQuote == (p (1799))
  let ok := ok && (result.periods.getD 5 ⟨0, 0, noResult, f 0, f 0⟩).result.startPrice == (p (80))
  let ok := ok && (result.periods.getD 5 ⟨0, 0, noResult, f 0, f 0⟩).result.endPrice == (p (650))
  let ok := ok && (result.periods.getD 5 ⟨0, 0, noResult, f 0, f 0⟩).result.startValue == (p (800))
  let ok := ok && (result.periods.getD 5 ⟨0, 0, noResult, f 0, f 0⟩).result.endValue == (p (1799))
  let ok := ok && (result.periods.getD 5 ⟨0, 0, noResult, f 0, f 0⟩).result.totalExecutedOrders == 1
  let ok := ok && (result.periods.getD 5 ⟨0, 0, noResult, f 0, f 0⟩).result.totalFee == (p (201))
  let ok := ok && (result.periods.getD 6 ⟨0, 0, noResult, f 0, f 0⟩).start == 1498867200
  let ok := ok && (result.periods.getD 6 ⟨0, 0, noResult, f 0, f 0⟩).stop == 1514764800
  let ok := ok && (result.periods.getD 6 ⟨0, 0, noResult, f 0, f 0⟩).finalGain == (p (119933331 / 100000000))
  let ok := ok && (result.periods.getD 6 ⟨0, 0, noResult, f 0, f 0⟩).baseFinalGain == (p (5))
  let ok := ok && (result.periods.getD 6 ⟨0, 0, noResult, f 0, f 0⟩).result.startBase == (p (10))
  let ok := ok && (result.periods.getD 6 ⟨0, 0, noResult, f 0, f 0⟩).result.startQuote == (p (0))
  let ok := ok && (result.periods.getD 6 ⟨0, 0, noResult, f 0, f 0⟩).result.endBase == (p (0))
  let ok := ok && (result.periods.getD 6 ⟨0, 0, noResult, f 0, f 0⟩).result.endQuote == (p (1799))
  let ok := ok && (result.periods.getD 6 ⟨0, 0, noResult, f 0, f 0⟩).result.startPrice == (p (150))
  let ok := ok && (result.periods.getD 6 ⟨0, 0, noResult, f 0, f 0⟩).result.endPrice == (p (750))
  let ok := ok && (result.periods.getD 6 ⟨0, 0, noResult, f 0, f 0⟩).result.startValue == (p (1500))
  let ok := ok && (result.periods.getD 6 ⟨0, 0, noResult, f 0, f 0⟩).result.endValue == (p (1799))
  let ok := ok && (result.periods.getD 6 ⟨0, 0, noResult, f 0, f 0⟩).result.totalExecutedOrders == 1
  let ok := ok && (result.periods.getD 6 ⟨0, 0, noResult, f 0, f 0⟩).result.totalFee == (p (201))
  let ok := ok && result.score == (p (75648129 / 100000000))
  let ok := ok && result.avgGain == (p (222070217 / 100000000))
  let ok := ok && result.avgBaseGain == (p (378656459 / 100000000))
  let ok := ok && result.avgTotalExecutedOrders == (p (128571427 / 100000000))
  let ok := ok && result.avgTotalFee == (p (123785713 / 500000))
  ok

example : EvaluateTraderTest_LimitBuyAndSellMultiple6MonthPeriods = true := by decide +kernel

/-- eval/eval_test.cc 737 `EvaluateBatchOfTradersTest.LimitBuyAndSellMultiple6MonthPeriods`. -/
def EvaluateBatchOfTradersTest_LimitBuyAndSellMultiple6MonthPeriods : Bool :=
  let ok := true
  let account : AccountConfig F32 := ⟨(p (10)), (p (0)), (p (1 / 10)), (p (1)), newFee, newFee, ⟨(p (1 / 10)), (p (1)), (p (3 / 2))⟩, (p (1 / 2)), (p (1 / 10))⟩
  let history : List (OhlcTick F32) × Bool := ([], true)
  let history := monthlyHistory
  let ok := ok && history.2
  let config : EvalConfig := ⟨1483228800, 1514764800, 6, false⟩
  let emitters : List (Emitter F32) := []
  let emitters := emitters ++ [testEmitter (f (50)) (f (200))]
  let emitters := emitters ++ [testEmitter (f (40)) (f (250))]
  let emitters := emitters ++ [testEmitter (f (30)) (f (500))]
  let results := batch (emitters.map (fun e => ⟨account, config, history.1, none, e⟩))
  let ok := ok && results.length == 3
  let result := results.getD 0 noEvaluation
  let ok := ok && result.accountConfig == ⟨(p (10)), (p (0)), (p (1 / 10)), (p (1)), newFee, newFee, ⟨(p (1 / 10)), (p (1)), (p (3 / 2))⟩, (p (1 / 2)), (p (1 / 10))⟩
  let ok := ok && result.evalConfig == ⟨1483228800, 1514764800, 6, false⟩
  let ok := ok && result.name == "test-trader[50|200]"
  let ok := ok && result.periods.length == 7
  let ok := ok && (result.periods.getD 0 ⟨0, 0, noResult, f 0, f 0⟩).start == 1483228800
  let ok := ok && (result.periods.getD 0 ⟨0, 0, noResult, f 0, f 0⟩).stop == 1498867200
  let ok := ok && (result.periods.getD 0 ⟨0, 0, noResult, f 0, f 0⟩).finalGain == (p (43416667 / 20000000))
  let ok := ok && (result.periods.getD 0 ⟨0, 0, noResult, f 0, f 0⟩).baseFinalGain == (p (666666687 / 1000000000))
  let ok := ok && (result.periods.getD 1 ⟨0, 0, noResult, f 0, f 0⟩).start == 1485907200
  let ok := ok && (result.periods.getD 1 ⟨0, 0, noResult, f 0, f 0⟩).stop == 1501545600
  let ok := ok && (result.periods.getD 1 ⟨0, 0, noResult, f 0, f 0⟩).finalGain == (p (811 / 250))
  let ok := ok && (result.periods.getD 1 ⟨0, 0, noResult, f 0, f 0⟩).baseFinalGain == (p (1))
  let ok := ok && (result.periods.getD 2 ⟨0, 0, noResult, f 0, f 0⟩).start == 1488326400
  let ok := ok && (result.periods.getD 2 ⟨0, 0, noResult, f 0, f 0⟩).stop == 1504224000
  let ok := ok && (result.periods.getD 2 ⟨0, 0, noResult, f 0, f 0⟩).finalGain == (p (257 / 200))
  let ok := ok && (result.periods.getD 2 ⟨0, 0, noResult, f 0, f 0⟩).baseFinalGain == (p (171428573 / 100000000))
  let ok := ok && (result.periods.getD 3 ⟨0, 0, noResult, f 0, f 0⟩).start == 1491004800
  let ok := ok && (result.periods.getD 3 ⟨0, 0, noResult, f 0, f 0⟩).stop == 1506816000
  let ok := ok && (result.periods.getD 3 ⟨0, 0, noResult, f 0, f 0⟩).finalGain == (p (1799 / 1000))
  let ok := ok && (result.periods.getD 3 ⟨0, 0, noResult, f 0, f 0⟩).baseFinalGain == (p (4))
  let ok := ok && (result.periods.getD 4 ⟨0, 0, noResult, f 0, f 0⟩).start == 1493596800
  let ok := ok && (result.periods.getD 4 ⟨0, 0, noResult, f 0, f 0⟩).stop == 1509494400
  let ok := ok && (result.periods.getD 4 ⟨0, 0, noResult, f 0, f 0⟩).finalGain == (p (1799 / 500))
  let ok := ok && (result.periods.getD 4 ⟨0, 0, noResult, f 0, f 0⟩).baseFinalGain == (p (6))
  let ok := ok && (result.periods.getD 5 ⟨0, 0, noResult, f 0, f 0⟩).start == 1496275200
  let ok := ok && (result.periods.getD 5 ⟨0, 0, noResult, f 0, f 0⟩).stop == 1512086400
  let ok := ok && (result.periods.getD 5 ⟨0, 0, noResult, f 0, f 0⟩).finalGain == (p (1799 / 800))
  let ok := ok && (result.periods.getD 5 ⟨0, 0, noResult, f 0, f 0⟩).baseFinalGain == (p (65 / 8))
  let ok := ok && (result.periods.getD 6 ⟨0, 0, noResult, f 0, f 0⟩).start == 1498867200
  let ok := ok && (result.periods.getD 6 ⟨0, 0, noResult, f 0, f 0⟩).stop == 1514764800
  let ok := ok && (result.periods.getD 6 ⟨0, 0, noResult, f 0, f 0⟩).finalGain == (p (119933331 / 100000000))
  let ok := ok && (result.periods.getD 6 ⟨0, 0, noResult, f 0, f 0⟩).baseFinalGain == (p (5))
  let ok := ok && result.score == (p (75648129 / 100000000))
  let ok := ok && result.avgGain == (p (222070217 / 100000000))
  let ok := ok && result.avgBaseGain == (p (378656459 / 100000000))
  let ok := ok && result.avgTotalExecutedOrders == (p (128571427 / 100000000))
  let ok := ok && result.avgTotalFee == (p (123785713 / 500000))
  let result := results.getD 1 noEvaluation
  let ok := ok && result.accountConfig == ⟨(p (10)), (p (0)), (p (1 / 10)), (p (1)), newFee, newFee, ⟨(p (1 / 10)), (p (1)), (p (3 / 2))⟩, (p (1 / 2)), (p (1 / 10))⟩
  let ok := ok && result.evalConfig == ⟨1483228800, 1514764800, 6, false⟩
  let ok := ok && result.name == "test-trader[40|250]"
  let ok := ok && result.periods.length == 7
  let ok := ok && (result.periods.getD 0 ⟨0, 0, noResult, f 0, f 0⟩).start == 1483228800
  let ok := ok && (result.periods.getD 0 ⟨0, 0, noResult, f 0, f 0⟩).stop == 1498867200
  let ok := ok && (result.periods.getD 0 ⟨0, 0, noResult, f 0, f 0⟩).finalGain == (p (84708333 / 25000000))
  let ok := ok && (result.periods.getD 0 ⟨0, 0, noResult, f 0, f 0⟩).baseFinalGain == (p (666666687 / 1000000000))
  let ok := ok && (result.periods.getD 1 ⟨0, 0, noResult, f 0, f 0⟩).start == 1485907200
  let ok := ok && (result.periods.getD 1 ⟨0, 0, noResult, f 0, f 0⟩).stop == 1501545600
  let ok := ok && (result.periods.getD 1 ⟨0, 0, noResult, f 0, f 0⟩).finalGain == (p (253366661 / 50000000))
  let ok := ok && (result.periods.getD 1 ⟨0, 0, noResult, f 0, f 0⟩).baseFinalGain == (p (1))
  let ok := ok && (result.periods.getD 2 ⟨0, 0, noResult, f 0, f 0⟩).start == 1488326400
  let ok := ok && (result.periods.getD 2 ⟨0, 0, noResult, f 0, f 0⟩).stop == 1504224000
  let ok := ok && (result.periods.getD 2 ⟨0, 0, noResult, f 0, f 0⟩).finalGain == (p (80321431 / 50000000))
  let ok := ok && (result.periods.getD 2 ⟨0, 0, noResult, f 0, f 0⟩).baseFinalGain == (p (171428573 / 100000000))
  let ok := ok && (result.periods.getD 3 ⟨0, 0, noResult, f 0, f 0⟩).start == 1491004800
  let ok := ok && (result.periods.getD 3 ⟨0, 0, noResult, f 0, f 0⟩).stop == 1506816000
  let ok := ok && (result.periods.getD 3 ⟨0, 0, noResult, f 0, f 0⟩).finalGain == (p (2249 / 1000))
  let ok := ok && (result.periods.getD 3 ⟨0, 0, noResult, f 0, f 0⟩).baseFinalGain == (p (4))
  let ok := ok && (result.periods.getD 4 ⟨0, 0, noResult, f 0, f 0⟩).start == 1493596800
  let ok := ok && (result.periods.getD 4 ⟨0, 0, noResult, f 0, f 0⟩).stop == 1509494400
  let ok := ok && (result.periods.getD 4 ⟨0, 0, noResult, f 0, f 0⟩).finalGain == (p (2249 / 500))
  let ok := ok && (result.periods.getD 4 ⟨0, 0, noResult, f 0, f 0⟩).baseFinalGain == (p (6))
  let ok := ok && (result.periods.getD 5 ⟨0, 0, noResult, f 0, f 0⟩).start == 1496275200
  let ok := ok && (result.periods.getD 5 ⟨0, 0, noResult, f 0, f 0⟩).stop == 1512086400
  let ok := ok && (result.periods.getD 5 ⟨0, 0, noResult, f 0, f 0⟩).finalGain == (p (2249 / 800))
  let ok := ok && (result.periods.getD 5 ⟨0, 0, noResult, f 0, f 0⟩).baseFinalGain == (p (65 / 8))
  let ok := ok && (result.periods.getD 6 ⟨0, 0, noResult, f 0, f 0⟩).start == 1498867200
  let ok := ok && (result.periods.getD 6 ⟨0, 0, noResult, f 0, f 0⟩).stop == 1514764800
  let ok := ok && (result.periods.getD 6 ⟨0, 0, noResult, f 0, f 0⟩).finalGain == (p (74966669 / 50000000))
  let ok := ok && (result.periods.getD 6 ⟨0, 0, noResult, f 0, f 0⟩).baseFinalGain == (p (5))
  let ok := ok && result.score == (p (100773919 / 100000000))
  let ok := ok && result.avgGain == (p (301709747 / 100000000))
  let ok := ok && result.avgBaseGain == (p (378656459 / 100000000))
  let ok := ok && result.avgTotalExecutedOrders == (p (128571427 / 100000000))
  let ok := ok && result.avgTotalFee == (p (309))
  let result := results.getD 2 noEvaluation
  let ok := ok && result.accountConfig == ⟨(p (10)), (p (0)), (p (1 / 10)), (p (1)), newFee, newFee, ⟨(p (1 / 10)), (p (1)), (p (3 / 2))⟩, (p (1 / 2)), (p (1 / 10))⟩
  let ok := ok && result.evalConfig == ⟨1483228800, 1514764800, 6, false⟩
  let ok := ok && result.name == "test-trader[30|500]"
  let ok := ok && result.periods.length == 7
  let ok := ok && (result.periods.getD 0 ⟨0, 0, noResult, f 0, f 0⟩).start == 1483228800
  let ok := ok && (result.periods.getD 0 ⟨0, 0, noResult, f 0, f 0⟩).stop == 1498867200
  let ok := ok && (result.periods.getD 0 ⟨0, 0, noResult, f 0, f 0⟩).finalGain == (p (666666687 / 1000000000))
  let ok := ok && (result.periods.getD 0 ⟨0, 0, noResult, f 0, f 0⟩).baseFinalGain == (p (666666687 / 1000000000))
  let ok := ok && (result.periods.getD 1 ⟨0, 0, noResult, f 0, f 0⟩).start == 1485907200
  let ok := ok && (result.periods.getD 1 ⟨0, 0, noResult, f 0, f 0⟩).stop == 1501545600
  let ok := ok && (result.periods.getD 1 ⟨0, 0, noResult, f 0, f 0⟩).finalGain == (p (1))
  let ok := ok && (result.periods.getD 1 ⟨0, 0, noResult, f 0, f 0⟩).baseFinalGain == (p (1))
  let ok := ok && (result.periods.getD 2 ⟨0, 0, noResult, f 0, f 0⟩).start == 1488326400
  let ok := ok && (result.periods.getD 2 ⟨0, 0, noResult, f 0, f 0⟩).stop == 1504224000
  let ok := ok && (result.periods.getD 2 ⟨0, 0, noResult, f 0, f 0⟩).finalGain == (p (171428573 / 100000000))
  let ok := ok && (result.periods.getD 2 ⟨0, 0, noResult, f 0, f 0⟩).baseFinalGain == (p (171428573 / 100000000))
  let ok := ok && (result.periods.getD 3 ⟨0, 0, noResult, f 0, f 0⟩).start == 1491004800
  let ok := ok && (result.periods.getD 3 ⟨0, 0, noResult, f 0, f 0⟩).stop == 1506816000
  let ok := ok && (result.periods.getD 3 ⟨0, 0, noResult, f 0, f 0⟩).finalGain == (p (4))
  let ok := ok && (result.periods.getD 3 ⟨0, 0, noResult, f 0, f 0⟩).baseFinalGain == (p (4))
  let ok := ok && (result.periods.getD 4 ⟨0, 0, noResult, f 0, f 0⟩).start == 1493596800
  let ok := ok && (result.periods.getD 4 ⟨0, 0, noResult, f 0, f 0⟩).stop == 1509494400
  let ok := ok && (result.periods.getD 4 ⟨0, 0, noResult, f 0, f 0⟩).finalGain == (p (6))
  let ok := ok && (result.periods.getD 4 ⟨0, 0, noResult, f 0, f 0⟩).baseFinalGain == (p (6))
  let ok := ok && (result.periods.getD 5 ⟨0, 0, noResult, f 0, f 0⟩).start == 1496275200
  let ok := ok && (result.periods.getD 5 ⟨0, 0, noResult, f 0, f 0⟩).stop == 1512086400
  let ok := ok && (result.periods.getD 5 ⟨0, 0, noResult, f 0, f 0⟩).finalGain == (p (4499 / 800))
  let ok := ok && (result.periods.getD 5 ⟨0, 0, noResult, f 0, f 0⟩).baseFinalGain == (p (65 / 8))
  let ok := ok && (result.periods.getD 6 ⟨0, 0, noResult, f 0, f 0⟩).start == 1498867200
  let ok := ok && (result.periods.getD 6 ⟨0, 0, noResult, f 0, f 0⟩).stop == 1514764800
  let ok := ok && (result.periods.getD 6 ⟨0, 0, noResult, f 0, f 0⟩).finalGain == (p (149966669 / 50000000))
  let ok := ok && (result.periods.getD 6 ⟨0, 0, noResult, f 0, f 0⟩).baseFinalGain == (p (5))
  let ok := ok && result.score == (p (881993413 / 1000000000))
  let ok := ok && result.avgGain == (p (314343381 / 100000000))
  let ok := ok && result.avgBaseGain == (p (378656459 / 100000000))
  let ok := ok && result.avgTotalExecutedOrders == (p (142857149 / 500000000))
  let ok := ok && result.avgTotalFee == (p (143142853 / 1000000))
  ok

example : EvaluateBatchOfTradersTest_LimitBuyAndSellMultiple6MonthPeriods = true := by decide +kernel

/-- eval/eval_test.cc 1118 `ExecuteTraderWithSideInputTest.MarketBuyAndSell`. -/
def ExecuteTraderWithSideInputTest_MarketBuyAndSell : Bool :=
  let ok := true
  let account : AccountConfig F32 := ⟨(p (10)), (p (0)), (p (1 / 10)), (p (1)), ⟨(p (1 / 10)), (p (1)), (p (3 / 2))⟩, newFee, newFee, (p (4 / 5)), (p (1 / 2))⟩
  let history : List (OhlcTick F32) × Bool := ([], true)
  let history := addDaily (f (100)) (f (150)) (f (80)) (f (120)) history
  let ok := ok && history.2
  let history := addDaily (f (120)) (f (180)) (f (100)) (f (150)) history
  let ok := ok && history.2
  let history := addDaily (f (150)) (f (250)) (f (100)) (f (140)) history
  let ok := ok && history.2
  let history := addDaily (f (140)) (f (150)) (f (80)) (f (100)) history
  let ok := ok && history.2
  let history := addDaily (f (100)) (f (120)) (f (20)) (f (50)) history
  let ok := ok && history.2
  let sideHistory : List (SideInputRecord F32) := []
  let sideHistory := sideHistory ++ [⟨1483311600, [(f 2)]⟩]
  let sideHistory := sideHistory ++ [⟨1483488000, [(f 1)]⟩]
  let sideHistory := sideHistory ++ [⟨1483574400, [(f 0)]⟩]
  let r := SideInput.make sideHistory
  let ok := ok && isOk r
  let side := okOr r ⟨0, [], []⟩
  let run := executeTrader account history.1 (some side) false sideTrader sideInit true
  let ok := ok && isOk run.out
  let result := okOr run.out noResult
  let log := logged run
  let ok := ok && result.startBase == (p (10))
  let ok := ok && result.startQuote == (p (0))
  let ok := ok && result.endBase == (p (54 / 5))
  let ok := ok && result.endQuote == (p (21))
  let ok := ok && result.startPrice == (p (120))
  let ok := ok && result.endPrice == (p (50))
  let ok := ok && result.startValue == (p (1200))
  let ok := ok && result.endValue == (p (561))
  let ok := ok && result.totalExecutedOrders == 2
  let ok := ok && result.totalFee == (p (255))
  let ok := ok && result.baseVolatility == (p (163424337 / 25000000))
  let ok := ok && result.traderVolatility == (p (715005541 / 100000000))
  let ok := ok && wrote log.exchange (chars! "1483228800,100.000,150.000,80.000,120.000,1000.000,10.000,0.000,0.000,,,,,\n1483315200,120.000,180.000,100.000,150.000,1000.000,10.000,0.000,0.000,,,,,\n1483401600,150.000,250.000,100.000,140.000,1000.000,10.000,0.000,0.000,,,,,\n1483401600,150.000,250.000,100.000,140.000,1000.000,0.000,1259.000,141.000,MARKET,SELL,10.000,,\n1483488000,140.000,150.000,80.000,100.000,1000.000,0.000,1259.000,141.000,,,,,\n1483574400,100.000,120.000,20.000,50.000,1000.000,0.000,1259.000,141.000,,,,,\n1483574400,100.000,120.000,20.000,50.000,1000.000,10.800,21.000,255.000,MARKET,BUY,,1259.000,\n")
  let ok := ok && wrote log.trader (chars! "1483228800,10.000,0.000,120.000,UNKNOWN,-1\n1483315200,10.000,0.000,150.000,SHOULD_SELL,3600\n1483401600,0.000,1259.000,140.000,TOO_OLD,90000\n1483488000,0.000,1259.000,100.000,SHOULD_BUY,0\n1483574400,10.800,21.000,50.000,DO_NOTHING,0\n")
  ok

example : ExecuteTraderWithSideInputTest_MarketBuyAndSell = true := by decide +kernel

end Verif.Conformance
