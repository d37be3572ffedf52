import Verif.Conformance.Prelude
import Verif.Conformance.EvalPrelude

/-!
# logging/csv_logger_test.cc, translated

Generated by tools/gen_conformance.py.
-/

namespace Verif.Conformance
open Verif FloatOps
set_option linter.unusedVariables false
set_option linter.style.longLine false

/-- logging/csv_logger_test.cc 43 `CsvLoggerTest.LogExchangeState`. -/
def CsvLoggerTest_LogExchangeState : Bool :=
  let ok := true
  let history := loggerHistory
  let account := loggerAccount
  let log : Logger.CsvLogger := ⟨some [], none⟩
  let log := log.logTick fmt (history.getD 0 newTick) account
  let log := log.logTick fmt (history.getD 1 newTick) account
  let log := log.logTick fmt (history.getD 2 newTick) account
  let ok := ok && wrote log.exchange (chars! "1483228800,100.000,150.000,80.000,120.000,1000.000,2.000,1000.000,50.000,,,,,\n1483315200,120.000,180.000,100.000,150.000,500.000,2.000,1000.000,50.000,,,,,\n1483401600,150.000,250.000,100.000,140.000,800.000,2.000,1000.000,50.000,,,,,\n")
  ok

example : CsvLoggerTest_LogExchangeState = true := by decide +kernel

/-- logging/csv_logger_test.cc 65 `CsvLoggerTest.LogExchangeStateWithOrder`. -/
def CsvLoggerTest_LogExchangeStateWithOrder : Bool :=
  let ok := true
  let history := loggerHistory
  let account := loggerAccount
  let order := newOrder
  let order := { order with type := some .limit }
  let order := { order with side := some .sell }
  let order := { order with amount := .quote (f (1)) }
  let order := { order with price := some (f (500)) }
  let log : Logger.CsvLogger := ⟨some [], none⟩
  let log := log.logTick fmt (history.getD 0 newTick) account
  let log := log.logOrder fmt (history.getD 1 newTick) account order
  let log := log.logTick fmt (history.getD 2 newTick) account
  let ok := ok && wrote log.exchange (chars! "1483228800,100.000,150.000,80.000,120.000,1000.000,2.000,1000.000,50.000,,,,,\n1483315200,120.000,180.000,100.000,150.000,500.000,2.000,1000.000,50.000,LIMIT,SELL,,1.000,500.000\n1483401600,150.000,250.000,100.000,140.000,800.000,2.000,1000.000,50.000,,,,,\n")
  ok

example : CsvLoggerTest_LogExchangeStateWithOrder = true := by decide +kernel

/-- logging/csv_logger_test.cc 93 `CsvLoggerTest.LogTraderState`. -/
def CsvLoggerTest_LogTraderState : Bool :=
  let ok := true
  let log : Logger.CsvLogger := ⟨none, some []⟩
  let log := log.logTrader "state_1"
  let log := log.logTrader "state_2"
  let log := log.logTrader "state_3"
  let ok := ok && wrote log.trader (chars! "state_1\nstate_2\nstate_3\n")
  ok

example : CsvLoggerTest_LogTraderState = true := by decide +kernel

end Verif.Conformance
