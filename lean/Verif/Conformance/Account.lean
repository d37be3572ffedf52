import Verif.Conformance.Prelude

/-!
# base/account_test.cc, translated

Generated by tools/gen_conformance.py.
-/

namespace Verif.Conformance
open Verif FloatOps
set_option linter.unusedVariables false
set_option linter.style.longLine false

/-- base/account_test.cc 18 `InitAccountTest.Basic`. -/
def InitAccountTest_Basic : Bool :=
  let ok := true
  let account := newAccount
  let ok := ok && almost (account.baseBalance) (f (0))
  let ok := ok && almost (account.quoteBalance) (f (0))
  let ok := ok && almost (account.totalFee) (f (0))
  let ok := ok && almost (account.baseUnit) (f (0))
  let ok := ok && almost (account.quoteUnit) (f (0))
  let ok := ok && almost (account.marketLiquidity) (f (1))
  let ok := ok && almost (account.maxVolumeRatio) (f (0))
  let config := newAccountConfig
  let config := { config with startBase := (f (2)) }
  let config := { config with startQuote := (f (1000)) }
  let config := { config with baseUnit := (f (1 / 10000)) }
  let config := { config with quoteUnit := (f (1 / 100)) }
  let config := { config with marketLiquidity := (f (1 / 2)) }
  let config := { config with maxVolumeRatio := (f (9 / 10)) }
  let account := Account.init config
  let ok := ok && almost (account.baseBalance) (f (2))
  let ok := ok && almost (account.quoteBalance) (f (1000))
  let ok := ok && almost (account.totalFee) (f (0))
  let ok := ok && almost (account.baseUnit) (f (1 / 10000))
  let ok := ok && almost (account.quoteUnit) (f (1 / 100))
  let ok := ok && almost (account.marketLiquidity) (f (1 / 2))
  let ok := ok && almost (account.maxVolumeRatio) (f (9 / 10))
  ok

example : InitAccountTest_Basic = true := by decide +kernel

/-- base/account_test.cc 46 `GetFeeTest.RelativeFee`. -/
def GetFeeTest_RelativeFee : Bool :=
  let ok := true
  let account := newAccount
  let fee := newFee
  let fee := { fee with relativeFee := (f (1 / 10)) }
  let account := { account with quoteUnit := (f (0)) }
  let ok := ok && almost (account.getFee fee (f (100))) (f (10))
  let ok := ok && almost (account.getFee fee (f (10))) (f (1))
  let ok := ok && almost (account.getFee fee (f (123456789 / 10000000))) (f (123456789 / 100000000))
  let account := { account with quoteUnit := (f (1 / 100)) }
  let ok := ok && almost (account.getFee fee (f (123456789 / 10000000))) (f (31 / 25))
  let ok := ok && almost (account.getFee fee (f (123456789 / 1000000))) (f (247 / 20))
  let ok := ok && almost (account.getFee fee (f (123456789 / 100000))) (f (6173 / 50))
  let account := { account with quoteUnit := (f (1 / 10)) }
  let ok := ok && almost (account.getFee fee (f (123456789 / 10000000))) (f (13 / 10))
  let ok := ok && almost (account.getFee fee (f (123456789 / 1000000))) (f (62 / 5))
  let ok := ok && almost (account.getFee fee (f (123456789 / 100000))) (f (247 / 2))
  let account := { account with quoteUnit := (f (1)) }
  let ok := ok && almost (account.getFee fee (f (123456789 / 10000000))) (f (2))
  let ok := ok && almost (account.getFee fee (f (123456789 / 1000000))) (f (13))
  let ok := ok && almost (account.getFee fee (f (123456789 / 100000))) (f (124))
  let fee := { fee with relativeFee := (f (1 / 100)) }
  let account := { account with quoteUnit := (f (0)) }
  let ok := ok && almost (account.getFee fee (f (100))) (f (1))
  let ok := ok && almost (account.getFee fee (f (10))) (f (1 / 10))
  let ok := ok && almost (account.getFee fee (f (123456789 / 10000000))) (f (123456789 / 1000000000))
  let account := { account with quoteUnit := (f (1 / 100)) }
  let ok := ok && almost (account.getFee fee (f (123456789 / 10000000))) (f (13 / 100))
  let ok := ok && almost (account.getFee fee (f (123456789 / 1000000))) (f (31 / 25))
  let ok := ok && almost (account.getFee fee (f (123456789 / 100000))) (f (247 / 20))
  let account := { account with quoteUnit := (f (1 / 10)) }
  let ok := ok && almost (account.getFee fee (f (123456789 / 10000000))) (f (1 / 5))
  let ok := ok && almost (account.getFee fee (f (123456789 / 1000000))) (f (13 / 10))
  let ok := ok && almost (account.getFee fee (f (123456789 / 100000))) (f (62 / 5))
  let account := { account with quoteUnit := (f (1)) }
  let ok := ok && almost (account.getFee fee (f (123456789 / 10000000))) (f (1))
  let ok := ok && almost (account.getFee fee (f (123456789 / 1000000))) (f (2))
  let ok := ok && almost (account.getFee fee (f (123456789 / 100000))) (f (13))
  ok

example : GetFeeTest_RelativeFee = true := by decide +kernel

/-- base/account_test.cc 95 `GetFeeTest.FixedFee`. -/
def GetFeeTest_FixedFee : Bool :=
  let ok := true
  let account := newAccount
  let fee := newFee
  let fee := { fee with fixedFee := (f (2469 / 20000)) }
  let account := { account with quoteUnit := (f (0)) }
  let ok := ok && almost (account.getFee fee (f (100))) (f (2469 / 20000))
  let ok := ok && almost (account.getFee fee (f (10))) (f (2469 / 20000))
  let ok := ok && almost (account.getFee fee (f (123456789 / 10000000))) (f (2469 / 20000))
  let account := { account with quoteUnit := (f (1 / 100)) }
  let ok := ok && almost (account.getFee fee (f (123456789 / 10000000))) (f (13 / 100))
  let ok := ok && almost (account.getFee fee (f (123456789 / 1000000))) (f (13 / 100))
  let ok := ok && almost (account.getFee fee (f (123456789 / 100000))) (f (13 / 100))
  let account := { account with quoteUnit := (f (1 / 10)) }
  let ok := ok && almost (account.getFee fee (f (123456789 / 10000000))) (f (1 / 5))
  let ok := ok && almost (account.getFee fee (f (123456789 / 1000000))) (f (1 / 5))
  let ok := ok && almost (account.getFee fee (f (123456789 / 100000))) (f (1 / 5))
  let account := { account with quoteUnit := (f (1)) }
  let ok := ok && almost (account.getFee fee (f (123456789 / 10000000))) (f (1))
  let ok := ok && almost (account.getFee fee (f (123456789 / 1000000))) (f (1))
  let ok := ok && almost (account.getFee fee (f (123456789 / 100000))) (f (1))
  ok

example : GetFeeTest_FixedFee = true := by decide +kernel

/-- base/account_test.cc 122 `GetFeeTest.RelativeAndFixedFee`. -/
def GetFeeTest_RelativeAndFixedFee : Bool :=
  let ok := true
  let account := newAccount
  let fee := newFee
  let fee := { fee with relativeFee := (f (1 / 10)) }
  let fee := { fee with fixedFee := (f (1 / 10)) }
  let account := { account with quoteUnit := (f (0)) }
  let ok := ok && almost (account.getFee fee (f (100))) (f (101 / 10))
  let ok := ok && almost (account.getFee fee (f (10))) (f (11 / 10))
  let ok := ok && almost (account.getFee fee (f (123456789 / 10000000))) (f (133456789 / 100000000))
  let account := { account with quoteUnit := (f (1 / 100)) }
  let ok := ok && almost (account.getFee fee (f (123456789 / 10000000))) (f (67 / 50))
  let ok := ok && almost (account.getFee fee (f (123456789 / 1000000))) (f (249 / 20))
  let ok := ok && almost (account.getFee fee (f (123456789 / 100000))) (f (3089 / 25))
  let account := { account with quoteUnit := (f (1 / 10)) }
  let ok := ok && almost (account.getFee fee (f (123456789 / 10000000))) (f (7 / 5))
  let ok := ok && almost (account.getFee fee (f (123456789 / 1000000))) (f (25 / 2))
  let ok := ok && almost (account.getFee fee (f (123456789 / 100000))) (f (618 / 5))
  let account := { account with quoteUnit := (f (1)) }
  let ok := ok && almost (account.getFee fee (f (123456789 / 10000000))) (f (2))
  let ok := ok && almost (account.getFee fee (f (123456789 / 1000000))) (f (13))
  let ok := ok && almost (account.getFee fee (f (123456789 / 100000))) (f (124))
  let fee := { fee with relativeFee := (f (1 / 100)) }
  let fee := { fee with fixedFee := (f (1)) }
  let account := { account with quoteUnit := (f (0)) }
  let ok := ok && almost (account.getFee fee (f (100))) (f (2))
  let ok := ok && almost (account.getFee fee (f (10))) (f (11 / 10))
  let ok := ok && almost (account.getFee fee (f (123456789 / 10000000))) (f (1123456789 / 1000000000))
  let account := { account with quoteUnit := (f (1 / 100)) }
  let ok := ok && almost (account.getFee fee (f (123456789 / 10000000))) (f (113 / 100))
  let ok := ok && almost (account.getFee fee (f (123456789 / 1000000))) (f (56 / 25))
  let ok := ok && almost (account.getFee fee (f (123456789 / 100000))) (f (267 / 20))
  let account := { account with quoteUnit := (f (1 / 10)) }
  let ok := ok && almost (account.getFee fee (f (123456789 / 10000000))) (f (6 / 5))
  let ok := ok && almost (account.getFee fee (f (123456789 / 1000000))) (f (23 / 10))
  let ok := ok && almost (account.getFee fee (f (123456789 / 100000))) (f (67 / 5))
  let account := { account with quoteUnit := (f (1)) }
  let ok := ok && almost (account.getFee fee (f (123456789 / 10000000))) (f (2))
  let ok := ok && almost (account.getFee fee (f (123456789 / 1000000))) (f (3))
  let ok := ok && almost (account.getFee fee (f (123456789 / 100000))) (f (14))
  ok

example : GetFeeTest_RelativeAndFixedFee = true := by decide +kernel

/-- base/account_test.cc 173 `GetFeeTest.RelativeAndMinimumFee`. -/
def GetFeeTest_RelativeAndMinimumFee : Bool :=
  let ok := true
  let account := newAccount
  let fee := newFee
  let fee := { fee with relativeFee := (f (1 / 10)) }
  let fee := { fee with minimumFee := (f (2)) }
  let account := { account with quoteUnit := (f (0)) }
  let ok := ok && almost (account.getFee fee (f (100))) (f (10))
  let ok := ok && almost (account.getFee fee (f (10))) (f (2))
  let ok := ok && almost (account.getFee fee (f (123456789 / 10000000))) (f (2))
  let account := { account with quoteUnit := (f (1 / 100)) }
  let ok := ok && almost (account.getFee fee (f (123456789 / 10000000))) (f (2))
  let ok := ok && almost (account.getFee fee (f (123456789 / 1000000))) (f (247 / 20))
  let ok := ok && almost (account.getFee fee (f (123456789 / 100000))) (f (6173 / 50))
  let account := { account with quoteUnit := (f (1 / 10)) }
  let ok := ok && almost (account.getFee fee (f (123456789 / 10000000))) (f (2))
  let ok := ok && almost (account.getFee fee (f (123456789 / 1000000))) (f (62 / 5))
  let ok := ok && almost (account.getFee fee (f (123456789 / 100000))) (f (247 / 2))
  let account := { account with quoteUnit := (f (1)) }
  let ok := ok && almost (account.getFee fee (f (123456789 / 10000000))) (f (2))
  let ok := ok && almost (account.getFee fee (f (123456789 / 1000000))) (f (13))
  let ok := ok && almost (account.getFee fee (f (123456789 / 100000))) (f (124))
  let fee := { fee with relativeFee := (f (1 / 100)) }
  let fee := { fee with minimumFee := (f (1 / 2)) }
  let account := { account with quoteUnit := (f (0)) }
  let ok := ok && almost (account.getFee fee (f (100))) (f (1))
  let ok := ok && almost (account.getFee fee (f (10))) (f (1 / 2))
  let ok := ok && almost (account.getFee fee (f (123456789 / 10000000))) (f (1 / 2))
  let account := { account with quoteUnit := (f (1 / 100)) }
  let ok := ok && almost (account.getFee fee (f (123456789 / 10000000))) (f (1 / 2))
  let ok := ok && almost (account.getFee fee (f (123456789 / 1000000))) (f (31 / 25))
  let ok := ok && almost (account.getFee fee (f (123456789 / 100000))) (f (247 / 20))
  let account := { account with quoteUnit := (f (1 / 10)) }
  let ok := ok && almost (account.getFee fee (f (123456789 / 10000000))) (f (1 / 2))
  let ok := ok && almost (account.getFee fee (f (123456789 / 1000000))) (f (13 / 10))
  let ok := ok && almost (account.getFee fee (f (123456789 / 100000))) (f (62 / 5))
  let account := { account with quoteUnit := (f (1)) }
  let ok := ok && almost (account.getFee fee (f (123456789 / 10000000))) (f (1))
  let ok := ok && almost (account.getFee fee (f (123456789 / 1000000))) (f (2))
  let ok := ok && almost (account.getFee fee (f (123456789 / 100000))) (f (13))
  ok

example : GetFeeTest_RelativeAndMinimumFee = true := by decide +kernel

/-- base/account_test.cc 224 `GetFeeTest.RelativeAndFixedAndMinimumFee`. -/
def GetFeeTest_RelativeAndFixedAndMinimumFee : Bool :=
  let ok := true
  let account := newAccount
  let fee := newFee
  let fee := { fee with relativeFee := (f (1 / 10)) }
  let fee := { fee with fixedFee := (f (1 / 10)) }
  let fee := { fee with minimumFee := (f (2)) }
  let account := { account with quoteUnit := (f (0)) }
  let ok := ok && almost (account.getFee fee (f (100))) (f (101 / 10))
  let ok := ok && almost (account.getFee fee (f (10))) (f (2))
  let ok := ok && almost (account.getFee fee (f (123456789 / 10000000))) (f (2))
  let account := { account with quoteUnit := (f (1 / 100)) }
  let ok := ok && almost (account.getFee fee (f (123456789 / 10000000))) (f (2))
  let ok := ok && almost (account.getFee fee (f (123456789 / 1000000))) (f (249 / 20))
  let ok := ok && almost (account.getFee fee (f (123456789 / 100000))) (f (3089 / 25))
  let account := { account with quoteUnit := (f (1 / 10)) }
  let ok := ok && almost (account.getFee fee (f (123456789 / 10000000))) (f (2))
  let ok := ok && almost (account.getFee fee (f (123456789 / 1000000))) (f (25 / 2))
  let ok := ok && almost (account.getFee fee (f (123456789 / 100000))) (f (618 / 5))
  let account := { account with quoteUnit := (f (1)) }
  let ok := ok && almost (account.getFee fee (f (123456789 / 10000000))) (f (2))
  let ok := ok && almost (account.getFee fee (f (123456789 / 1000000))) (f (13))
  let ok := ok && almost (account.getFee fee (f (123456789 / 100000))) (f (124))
  let fee := { fee with relativeFee := (f (1 / 100)) }
  let fee := { fee with fixedFee := (f (1)) }
  let fee := { fee with minimumFee := (f (3 / 2)) }
  let account := { account with quoteUnit := (f (0)) }
  let ok := ok && almost (account.getFee fee (f (100))) (f (2))
  let ok := ok && almost (account.getFee fee (f (10))) (f (3 / 2))
  let ok := ok && almost (account.getFee fee (f (123456789 / 10000000))) (f (3 / 2))
  let account := { account with quoteUnit := (f (1 / 100)) }
  let ok := ok && almost (account.getFee fee (f (123456789 / 10000000))) (f (3 / 2))
  let ok := ok && almost (account.getFee fee (f (123456789 / 1000000))) (f (56 / 25))
  let ok := ok && almost (account.getFee fee (f (123456789 / 100000))) (f (267 / 20))
  let account := { account with quoteUnit := (f (1 / 10)) }
  let ok := ok && almost (account.getFee fee (f (123456789 / 10000000))) (f (3 / 2))
  let ok := ok && almost (account.getFee fee (f (123456789 / 1000000))) (f (23 / 10))
  let ok := ok && almost (account.getFee fee (f (123456789 / 100000))) (f (67 / 5))
  let account := { account with quoteUnit := (f (1)) }
  let ok := ok && almost (account.getFee fee (f (123456789 / 10000000))) (f (2))
  let ok := ok && almost (account.getFee fee (f (123456789 / 1000000))) (f (3))
  let ok := ok && almost (account.getFee fee (f (123456789 / 100000))) (f (14))
  ok

example : GetFeeTest_RelativeAndFixedAndMinimumFee = true := by decide +kernel

/-- base/account_test.cc 277 `GetPriceTest.MarketBuy`. -/
def GetPriceTest_MarketBuy : Bool :=
  let ok := true
  let account := newAccount
  let tick := newTick
  let tick := setupOhlcTick
  let account := { account with marketLiquidity := (f (1)) }
  let ok := ok && almost (account.marketBuyPrice tick) (f (10))
  let account := { account with marketLiquidity := (f (0)) }
  let ok := ok && almost (account.marketBuyPrice tick) (f (20))
  let account := { account with marketLiquidity := (f (1 / 2)) }
  let ok := ok && almost (account.marketBuyPrice tick) (f (15))
  ok

example : GetPriceTest_MarketBuy = true := by decide +kernel

/-- base/account_test.cc 292 `GetPriceTest.MarketSell`. -/
def GetPriceTest_MarketSell : Bool :=
  let ok := true
  let account := newAccount
  let tick := newTick
  let tick := setupOhlcTick
  let account := { account with marketLiquidity := (f (1)) }
  let ok := ok && almost (account.marketSellPrice tick) (f (10))
  let account := { account with marketLiquidity := (f (0)) }
  let ok := ok && almost (account.marketSellPrice tick) (f (2))
  let account := { account with marketLiquidity := (f (1 / 2)) }
  let ok := ok && almost (account.marketSellPrice tick) (f (6))
  ok

example : GetPriceTest_MarketSell = true := by decide +kernel

/-- base/account_test.cc 307 `GetPriceTest.StopBuy`. -/
def GetPriceTest_StopBuy : Bool :=
  let ok := true
  let account := newAccount
  let tick := newTick
  let tick := setupOhlcTick
  let account := { account with marketLiquidity := (f (1)) }
  let ok := ok && almost (account.stopBuyPrice tick (f (5))) (f (10))
  let ok := ok && almost (account.stopBuyPrice tick (f (10))) (f (10))
  let ok := ok && almost (account.stopBuyPrice tick (f (15))) (f (15))
  let account := { account with marketLiquidity := (f (0)) }
  let ok := ok && almost (account.stopBuyPrice tick (f (5))) (f (20))
  let ok := ok && almost (account.stopBuyPrice tick (f (10))) (f (20))
  let ok := ok && almost (account.stopBuyPrice tick (f (15))) (f (20))
  let account := { account with marketLiquidity := (f (1 / 2)) }
  let ok := ok && almost (account.stopBuyPrice tick (f (5))) (f (15))
  let ok := ok && almost (account.stopBuyPrice tick (f (10))) (f (15))
  let ok := ok && almost (account.stopBuyPrice tick (f (15))) (f (35 / 2))
  ok

example : GetPriceTest_StopBuy = true := by decide +kernel

/-- base/account_test.cc 331 `GetPriceTest.StopSell`. -/
def GetPriceTest_StopSell : Bool :=
  let ok := true
  let account := newAccount
  let tick := newTick
  let tick := setupOhlcTick
  let account := { account with marketLiquidity := (f (1)) }
  let ok := ok && almost (account.stopSellPrice tick (f (15))) (f (10))
  let ok := ok && almost (account.stopSellPrice tick (f (10))) (f (10))
  let ok := ok && almost (account.stopSellPrice tick (f (5))) (f (5))
  let account := { account with marketLiquidity := (f (0)) }
  let ok := ok && almost (account.stopSellPrice tick (f (15))) (f (2))
  let ok := ok && almost (account.stopSellPrice tick (f (10))) (f (2))
  let ok := ok && almost (account.stopSellPrice tick (f (5))) (f (2))
  let account := { account with marketLiquidity := (f (1 / 2)) }
  let ok := ok && almost (account.stopSellPrice tick (f (15))) (f (6))
  let ok := ok && almost (account.stopSellPrice tick (f (10))) (f (6))
  let ok := ok && almost (account.stopSellPrice tick (f (5))) (f (7 / 2))
  ok

example : GetPriceTest_StopSell = true := by decide +kernel

/-- base/account_test.cc 355 `GetMaxBaseAmountTest.Basic`. -/
def GetMaxBaseAmountTest_Basic : Bool :=
  let ok := true
  let account := newAccount
  let tick := newTick
  let tick := setupOhlcTick
  let account := { account with maxVolumeRatio := (f (0)) }
  let account := { account with baseUnit := (f (0)) }
  let ok := ok && almost (account.maxBaseAmount tick) FloatOps.maxFinite
  let account := { account with maxVolumeRatio := (f (1 / 10)) }
  let ok := ok && almost (account.maxBaseAmount tick) (f (15432 / 125))
  let account := { account with maxVolumeRatio := (f (1 / 100)) }
  let ok := ok && almost (account.maxBaseAmount tick) (f (7716 / 625))
  let account := { account with maxVolumeRatio := (f (0)) }
  let account := { account with baseUnit := (f (1 / 10)) }
  let ok := ok && almost (account.maxBaseAmount tick) FloatOps.maxFinite
  let account := { account with maxVolumeRatio := (f (1 / 10)) }
  let ok := ok && almost (account.maxBaseAmount tick) (f (617 / 5))
  let account := { account with maxVolumeRatio := (f (1 / 100)) }
  let ok := ok && almost (account.maxBaseAmount tick) (f (123 / 10))
  ok

example : GetMaxBaseAmountTest_Basic = true := by decide +kernel

/-- base/account_test.cc 383 `BuyTest.BuyWithoutFeeAndInfinitePrecision`. -/
def BuyTest_BuyWithoutFeeAndInfinitePrecision : Bool :=
  let ok := true
  let account := newAccount
  let fee := newFee
  let account := { account with baseBalance := (f (10)) }
  let account := { account with quoteBalance := (f (1000)) }
  let r := account.buyBase fee (f (5)) (f (10))
  let ok := ok && returns r true
  let account := after r account
  let ok := ok && almost (account.baseBalance) (f (15))
  let ok := ok && almost (account.quoteBalance) (f (950))
  let ok := ok && almost (account.totalFee) (f (0))
  let account := { account with baseBalance := (f (10)) }
  let account := { account with quoteBalance := (f (100)) }
  let r := account.buyBase fee (f (10)) (f (10))
  let ok := ok && returns r true
  let account := after r account
  let ok := ok && almost (account.baseBalance) (f (20))
  let ok := ok && almost (account.quoteBalance) (f (0))
  let ok := ok && almost (account.totalFee) (f (0))
  let account := { account with baseBalance := (f (2469 / 200)) }
  let account := { account with quoteBalance := (f (15432 / 125)) }
  let r := account.buyBase fee (f (2469 / 200)) (f (11 / 2))
  let ok := ok && returns r true
  let account := after r account
  let ok := ok && almost (account.baseBalance) (f (2469 / 100))
  let ok := ok && almost (account.quoteBalance) (f (111117 / 2000))
  let ok := ok && almost (account.totalFee) (f (0))
  let account := { account with baseBalance := (f (10)) }
  let account := { account with quoteBalance := (f (100)) }
  let r := account.buyBase fee (f (15)) (f (10))
  let ok := ok && returns r false
  let account := after r account
  let ok := ok && almost (account.baseBalance) (f (10))
  let ok := ok && almost (account.quoteBalance) (f (100))
  let ok := ok && almost (account.totalFee) (f (0))
  ok

example : BuyTest_BuyWithoutFeeAndInfinitePrecision = true := by decide +kernel

/-- base/account_test.cc 424 `BuyTest.BuyWithoutFeeAndLimitedPrecision`. -/
def BuyTest_BuyWithoutFeeAndLimitedPrecision : Bool :=
  let ok := true
  let account := newAccount
  let fee := newFee
  let account := { account with baseUnit := (f (1 / 10)) }
  let account := { account with quoteUnit := (f (1)) }
  let account := { account with baseBalance := (f (10)) }
  let account := { account with quoteBalance := (f (1000)) }
  let r := account.buyBase fee (f (5)) (f (10))
  let ok := ok && returns r true
  let account := after r account
  let ok := ok && almost (account.baseBalance) (f (15))
  let ok := ok && almost (account.quoteBalance) (f (950))
  let ok := ok && almost (account.totalFee) (f (0))
  let account := { account with baseBalance := (f (10)) }
  let account := { account with quoteBalance := (f (100)) }
  let r := account.buyBase fee (f (10)) (f (10))
  let ok := ok && returns r true
  let account := after r account
  let ok := ok && almost (account.baseBalance) (f (20))
  let ok := ok && almost (account.quoteBalance) (f (0))
  let ok := ok && almost (account.totalFee) (f (0))
  let account := { account with baseBalance := (f (123 / 10)) }
  let account := { account with quoteBalance := (f (123)) }
  let r := account.buyBase fee (f (2469 / 200)) (f (11 / 2))
  let ok := ok && returns r true
  let account := after r account
  let ok := ok && almost (account.baseBalance) (f (123 / 5))
  let ok := ok && almost (account.quoteBalance) (f (55))
  let ok := ok && almost (account.totalFee) (f (0))
  let account := { account with baseBalance := (f (10)) }
  let account := { account with quoteBalance := (f (100)) }
  let r := account.buyBase fee (f (15)) (f (10))
  let ok := ok && returns r false
  let account := after r account
  let ok := ok && almost (account.baseBalance) (f (10))
  let ok := ok && almost (account.quoteBalance) (f (100))
  let ok := ok && almost (account.totalFee) (f (0))
  ok

example : BuyTest_BuyWithoutFeeAndLimitedPrecision = true := by decide +kernel

/-- base/account_test.cc 468 `BuyTest.BuyWithFeeAndLimitedPrecision`. -/
def BuyTest_BuyWithFeeAndLimitedPrecision : Bool :=
  let ok := true
  let account := newAccount
  let fee := newFee
  let fee := { fee with relativeFee := (f (1 / 10)) }
  let fee := { fee with fixedFee := (f (1)) }
  let fee := { fee with minimumFee := (f (3 / 2)) }
  let account := { account with baseUnit := (f (1 / 10)) }
  let account := { account with quoteUnit := (f (1)) }
  let account := { account with baseBalance := (f (10)) }
  let account := { account with quoteBalance := (f (1000)) }
  let account := { account with totalFee := (f (0)) }
  let r := account.buyBase fee (f (5)) (f (10))
  let ok := ok && returns r true
  let account := after r account
  let ok := ok && almost (account.baseBalance) (f (15))
  let ok := ok && almost (account.quoteBalance) (f (944))
  let ok := ok && almost (account.totalFee) (f (6))
  let account := { account with baseBalance := (f (10)) }
  let account := { account with quoteBalance := (f (111)) }
  let account := { account with totalFee := (f (10)) }
  let r := account.buyBase fee (f (10)) (f (10))
  let ok := ok && returns r true
  let account := after r account
  let ok := ok && almost (account.baseBalance) (f (20))
  let ok := ok && almost (account.quoteBalance) (f (0))
  let ok := ok && almost (account.totalFee) (f (21))
  let account := { account with baseBalance := (f (123 / 10)) }
  let account := { account with quoteBalance := (f (123)) }
  let account := { account with totalFee := (f (0)) }
  let r := account.buyBase fee (f (2469 / 200)) (f (11 / 2))
  let ok := ok && returns r true
  let account := after r account
  let ok := ok && almost (account.baseBalance) (f (123 / 5))
  let ok := ok && almost (account.quoteBalance) (f (47))
  let ok := ok && almost (account.totalFee) (f (8))
  let account := { account with baseBalance := (f (10)) }
  let account := { account with quoteBalance := (f (100)) }
  let account := { account with totalFee := (f (10)) }
  let r := account.buyBase fee (f (15)) (f (10))
  let ok := ok && returns r false
  let account := after r account
  let ok := ok && almost (account.baseBalance) (f (10))
  let ok := ok && almost (account.quoteBalance) (f (100))
  let ok := ok && almost (account.totalFee) (f (10))
  ok

example : BuyTest_BuyWithFeeAndLimitedPrecision = true := by decide +kernel

/-- base/account_test.cc 520 `BuyTest.BuyAtQuoteWithoutFeeAndInfinitePrecision`. -/
def BuyTest_BuyAtQuoteWithoutFeeAndInfinitePrecision : Bool :=
  let ok := true
  let account := newAccount
  let fee := newFee
  let account := { account with baseBalance := (f (10)) }
  let account := { account with quoteBalance := (f (1000)) }
  let r := account.buyAtQuote fee (f (50)) (f (10)) FloatOps.maxFinite
  let ok := ok && returns r true
  let account := after r account
  let ok := ok && almost (account.baseBalance) (f (15))
  let ok := ok && almost (account.quoteBalance) (f (950))
  let ok := ok && almost (account.totalFee) (f (0))
  let account := { account with baseBalance := (f (10)) }
  let account := { account with quoteBalance := (f (1000)) }
  let r := account.buyAtQuote fee (f (50)) (f (10)) (f (2))
  let ok := ok && returns r true
  let account := after r account
  let ok := ok && almost (account.baseBalance) (f (12))
  let ok := ok && almost (account.quoteBalance) (f (980))
  let ok := ok && almost (account.totalFee) (f (0))
  let account := { account with baseBalance := (f (10)) }
  let account := { account with quoteBalance := (f (100)) }
  let r := account.buyAtQuote fee (f (100)) (f (10)) FloatOps.maxFinite
  let ok := ok && returns r true
  let account := after r account
  let ok := ok && almost (account.baseBalance) (f (20))
  let ok := ok && almost (account.quoteBalance) (f (0))
  let ok := ok && almost (account.totalFee) (f (0))
  let account := { account with baseBalance := (f (10)) }
  let account := { account with quoteBalance := (f (100)) }
  let r := account.buyAtQuote fee (f (100)) (f (10)) (f (5))
  let ok := ok && returns r true
  let account := after r account
  let ok := ok && almost (account.baseBalance) (f (15))
  let ok := ok && almost (account.quoteBalance) (f (50))
  let ok := ok && almost (account.totalFee) (f (0))
  let account := { account with baseBalance := (f (2469 / 200)) }
  let account := { account with quoteBalance := (f (15432 / 125)) }
  let r := account.buyAtQuote fee (f (27159 / 400)) (f (11 / 2)) FloatOps.maxFinite
  let ok := ok && returns r true
  let account := after r account
  let ok := ok && almost (account.baseBalance) (f (2469 / 100))
  let ok := ok && almost (account.quoteBalance) (f (111117 / 2000))
  let ok := ok && almost (account.totalFee) (f (0))
  let account := { account with baseBalance := (f (2469 / 200)) }
  let account := { account with quoteBalance := (f (15432 / 125)) }
  let r := account.buyAtQuote fee (f (27159 / 400)) (f (11 / 2)) (f (5))
  let ok := ok && returns r true
  let account := after r account
  let ok := ok && almost (account.baseBalance) (f (3469 / 200))
  let ok := ok && almost (account.quoteBalance) (f (23989 / 250))
  let ok := ok && almost (account.totalFee) (f (0))
  let account := { account with baseBalance := (f (10)) }
  let account := { account with quoteBalance := (f (100)) }
  let r := account.buyAtQuote fee (f (1000)) (f (10)) FloatOps.maxFinite
  let ok := ok && returns r false
  let account := after r account
  let ok := ok && almost (account.baseBalance) (f (10))
  let ok := ok && almost (account.quoteBalance) (f (100))
  let ok := ok && almost (account.totalFee) (f (0))
  let account := { account with baseBalance := (f (10)) }
  let account := { account with quoteBalance := (f (100)) }
  let r := account.buyAtQuote fee (f (1000)) (f (10)) (f (20))
  let ok := ok && returns r false
  let account := after r account
  let ok := ok && almost (account.baseBalance) (f (10))
  let ok := ok && almost (account.quoteBalance) (f (100))
  let ok := ok && almost (account.totalFee) (f (0))
  ok

example : BuyTest_BuyAtQuoteWithoutFeeAndInfinitePrecision = true := by decide +kernel

/-- base/account_test.cc 601 `BuyTest.BuyAtQuoteWithoutFeeAndLimitedPrecision`. -/
def BuyTest_BuyAtQuoteWithoutFeeAndLimitedPrecision : Bool :=
  let ok := true
  let account := newAccount
  let fee := newFee
  let account := { account with baseUnit := (f (1 / 10)) }
  let account := { account with quoteUnit := (f (1)) }
  let account := { account with baseBalance := (f (10)) }
  let account := { account with quoteBalance := (f (1000)) }
  let r := account.buyAtQuote fee (f (50)) (f (10)) FloatOps.maxFinite
  let ok := ok && returns r true
  let account := after r account
  let ok := ok && almost (account.baseBalance) (f (15))
  let ok := ok && almost (account.quoteBalance) (f (950))
  let ok := ok && almost (account.totalFee) (f (0))
  let account := { account with baseBalance := (f (10)) }
  let account := { account with quoteBalance := (f (1000)) }
  let r := account.buyAtQuote fee (f (50)) (f (10)) (f (2))
  let ok := ok && returns r true
  let account := after r account
  let ok := ok && almost (account.baseBalance) (f (12))
  let ok := ok && almost (account.quoteBalance) (f (980))
  let ok := ok && almost (account.totalFee) (f (0))
  let account := { account with baseBalance := (f (10)) }
  let account := { account with quoteBalance := (f (100)) }
  let r := account.buyAtQuote fee (f (100)) (f (10)) FloatOps.maxFinite
  let ok := ok && returns r true
  let account := after r account
  let ok := ok && almost (account.baseBalance) (f (20))
  let ok := ok && almost (account.quoteBalance) (f (0))
  let ok := ok && almost (account.totalFee) (f (0))
  let account := { account with baseBalance := (f (10)) }
  let account := { account with quoteBalance := (f (100)) }
  let r := account.buyAtQuote fee (f (100)) (f (10)) (f (5))
  let ok := ok && returns r true
  let account := after r account
  let ok := ok && almost (account.baseBalance) (f (15))
  let ok := ok && almost (account.quoteBalance) (f (50))
  let ok := ok && almost (account.totalFee) (f (0))
  let account := { account with baseBalance := (f (123 / 10)) }
  let account := { account with quoteBalance := (f (123)) }
  let r := account.buyAtQuote fee (f (27159 / 400)) (f (11 / 2)) FloatOps.maxFinite
  let ok := ok && returns r true
  let account := after r account
  let ok := ok && almost (account.baseBalance) (f (123 / 5))
  let ok := ok && almost (account.quoteBalance) (f (55))
  let ok := ok && almost (account.totalFee) (f (0))
  let account := { account with baseBalance := (f (123 / 10)) }
  let account := { account with quoteBalance := (f (123)) }
  let r := account.buyAtQuote fee (f (27159 / 400)) (f (11 / 2)) (f (5))
  let ok := ok && returns r true
  let account := after r account
  let ok := ok && almost (account.baseBalance) (f (173 / 10))
  let ok := ok && almost (account.quoteBalance) (f (95))
  let ok := ok && almost (account.totalFee) (f (0))
  let account := { account with baseBalance := (f (10)) }
  let account := { account with quoteBalance := (f (100)) }
  let r := account.buyAtQuote fee (f (1000)) (f (10)) FloatOps.maxFinite
  let ok := ok && returns r false
  let account := after r account
  let ok := ok && almost (account.baseBalance) (f (10))
  let ok := ok && almost (account.quoteBalance) (f (100))
  let ok := ok && almost (account.totalFee) (f (0))
  let account := { account with baseBalance := (f (10)) }
  let account := { account with quoteBalance := (f (100)) }
  let r := account.buyAtQuote fee (f (1000)) (f (10)) (f (20))
  let ok := ok && returns r false
  let account := after r account
  let ok := ok && almost (account.baseBalance) (f (10))
  let ok := ok && almost (account.quoteBalance) (f (100))
  let ok := ok && almost (account.totalFee) (f (0))
  ok

example : BuyTest_BuyAtQuoteWithoutFeeAndLimitedPrecision = true := by decide +kernel

/-- base/account_test.cc 685 `BuyTest.BuyAtQuoteWithFeeAndLimitedPrecision`. -/
def BuyTest_BuyAtQuoteWithFeeAndLimitedPrecision : Bool :=
  let ok := true
  let account := newAccount
  let fee := newFee
  let fee := { fee with relativeFee := (f (1 / 10)) }
  let fee := { fee with fixedFee := (f (1)) }
  let fee := { fee with minimumFee := (f (3 / 2)) }
  let account := { account with baseUnit := (f (1 / 10)) }
  let account := { account with quoteUnit := (f (1)) }
  let account := { account with baseBalance := (f (10)) }
  let account := { account with quoteBalance := (f (1000)) }
  let account := { account with totalFee := (f (0)) }
  let r := account.buyAtQuote fee (f (57)) (f (10)) FloatOps.maxFinite
  let ok := ok && returns r true
  let account := after r account
  let ok := ok && almost (account.baseBalance) (f (15))
  let ok := ok && almost (account.quoteBalance) (f (944))
  let ok := ok && almost (account.totalFee) (f (6))
  let account := { account with baseBalance := (f (10)) }
  let account := { account with quoteBalance := (f (1000)) }
  let account := { account with totalFee := (f (0)) }
  let r := account.buyAtQuote fee (f (57)) (f (10)) (f (2))
  let ok := ok && returns r true
  let account := after r account
  let ok := ok && almost (account.baseBalance) (f (12))
  let ok := ok && almost (account.quoteBalance) (f (977))
  let ok := ok && almost (account.totalFee) (f (3))
  let account := { account with baseBalance := (f (10)) }
  let account := { account with quoteBalance := (f (111)) }
  let account := { account with totalFee := (f (10)) }
  let r := account.buyAtQuote fee (f (111)) (f (10)) FloatOps.maxFinite
  let ok := ok && returns r true
  let account := after r account
  let ok := ok && almost (account.baseBalance) (f (99 / 5))
  let ok := ok && almost (account.quoteBalance) (f (2))
  let ok := ok && almost (account.totalFee) (f (21))
  let account := { account with baseBalance := (f (10)) }
  let account := { account with quoteBalance := (f (111)) }
  let account := { account with totalFee := (f (10)) }
  let r := account.buyAtQuote fee (f (111)) (f (10)) (f (5))
  let ok := ok && returns r true
  let account := after r account
  let ok := ok && almost (account.baseBalance) (f (15))
  let ok := ok && almost (account.quoteBalance) (f (55))
  let ok := ok && almost (account.totalFee) (f (16))
  let account := { account with baseBalance := (f (123 / 10)) }
  let account := { account with quoteBalance := (f (123)) }
  let account := { account with totalFee := (f (0)) }
  let r := account.buyAtQuote fee (f (76123 / 1000)) (f (11 / 2)) FloatOps.maxFinite
  let ok := ok && returns r true
  let account := after r account
  let ok := ok && almost (account.baseBalance) (f (122 / 5))
  let ok := ok && almost (account.quoteBalance) (f (48))
  let ok := ok && almost (account.totalFee) (f (8))
  let account := { account with baseBalance := (f (123 / 10)) }
  let account := { account with quoteBalance := (f (123)) }
  let account := { account with totalFee := (f (0)) }
  let r := account.buyAtQuote fee (f (76123 / 1000)) (f (11 / 2)) (f (5))
  let ok := ok && returns r true
  let account := after r account
  let ok := ok && almost (account.baseBalance) (f (173 / 10))
  let ok := ok && almost (account.quoteBalance) (f (91))
  let ok := ok && almost (account.totalFee) (f (4))
  let account := { account with baseBalance := (f (10)) }
  let account := { account with quoteBalance := (f (100)) }
  let account := { account with totalFee := (f (10)) }
  let r := account.buyAtQuote fee (f (1000)) (f (10)) FloatOps.maxFinite
  let ok := ok && returns r false
  let account := after r account
  let ok := ok && almost (account.baseBalance) (f (10))
  let ok := ok && almost (account.quoteBalance) (f (100))
  let ok := ok && almost (account.totalFee) (f (10))
  let account := { account with baseBalance := (f (10)) }
  let account := { account with quoteBalance := (f (100)) }
  let account := { account with totalFee := (f (10)) }
  let r := account.buyAtQuote fee (f (1000)) (f (10)) (f (5))
  let ok := ok && returns r false
  let account := after r account
  let ok := ok && almost (account.baseBalance) (f (10))
  let ok := ok && almost (account.quoteBalance) (f (100))
  let ok := ok && almost (account.totalFee) (f (10))
  ok

example : BuyTest_BuyAtQuoteWithFeeAndLimitedPrecision = true := by decide +kernel

/-- base/account_test.cc 781 `SellTest.SellWithoutFeeAndInfinitePrecision`. -/
def SellTest_SellWithoutFeeAndInfinitePrecision : Bool :=
  let ok := true
  let account := newAccount
  let fee := newFee
  let account := { account with baseBalance := (f (15)) }
  let account := { account with quoteBalance := (f (950)) }
  let r := account.sellBase fee (f (5)) (f (10))
  let ok := ok && returns r true
  let account := after r account
  let ok := ok && almost (account.baseBalance) (f (10))
  let ok := ok && almost (account.quoteBalance) (f (1000))
  let ok := ok && almost (account.totalFee) (f (0))
  let account := { account with baseBalance := (f (20)) }
  let account := { account with quoteBalance := (f (0)) }
  let r := account.sellBase fee (f (10)) (f (10))
  let ok := ok && returns r true
  let account := after r account
  let ok := ok && almost (account.baseBalance) (f (10))
  let ok := ok && almost (account.quoteBalance) (f (100))
  let ok := ok && almost (account.totalFee) (f (0))
  let account := { account with baseBalance := (f (2469 / 100)) }
  let account := { account with quoteBalance := (f (111117 / 2000)) }
  let r := account.sellBase fee (f (2469 / 200)) (f (11 / 2))
  let ok := ok && returns r true
  let account := after r account
  let ok := ok && almost (account.baseBalance) (f (2469 / 200))
  let ok := ok && almost (account.quoteBalance) (f (15432 / 125))
  let ok := ok && almost (account.totalFee) (f (0))
  let account := { account with baseBalance := (f (10)) }
  let account := { account with quoteBalance := (f (100)) }
  let r := account.sellBase fee (f (15)) (f (10))
  let ok := ok && returns r false
  let account := after r account
  let ok := ok && almost (account.baseBalance) (f (10))
  let ok := ok && almost (account.quoteBalance) (f (100))
  let ok := ok && almost (account.totalFee) (f (0))
  ok

example : SellTest_SellWithoutFeeAndInfinitePrecision = true := by decide +kernel

/-- base/account_test.cc 822 `SellTest.SellWithoutFeeAndLimitedPrecision`. -/
def SellTest_SellWithoutFeeAndLimitedPrecision : Bool :=
  let ok := true
  let account := newAccount
  let fee := newFee
  let account := { account with baseUnit := (f (1 / 10)) }
  let account := { account with quoteUnit := (f (1)) }
  let account := { account with baseBalance := (f (15)) }
  let account := { account with quoteBalance := (f (950)) }
  let r := account.sellBase fee (f (5)) (f (10))
  let ok := ok && returns r true
  let account := after r account
  let ok := ok && almost (account.baseBalance) (f (10))
  let ok := ok && almost (account.quoteBalance) (f (1000))
  let ok := ok && almost (account.totalFee) (f (0))
  let account := { account with baseBalance := (f (20)) }
  let account := { account with quoteBalance := (f (0)) }
  let r := account.sellBase fee (f (10)) (f (10))
  let ok := ok && returns r true
  let account := after r account
  let ok := ok && almost (account.baseBalance) (f (10))
  let ok := ok && almost (account.quoteBalance) (f (100))
  let ok := ok && almost (account.totalFee) (f (0))
  let account := { account with baseBalance := (f (123 / 5)) }
  let account := { account with quoteBalance := (f (55)) }
  let r := account.sellBase fee (f (2469 / 200)) (f (11 / 2))
  let ok := ok && returns r true
  let account := after r account
  let ok := ok && almost (account.baseBalance) (f (123 / 10))
  let ok := ok && almost (account.quoteBalance) (f (122))
  let ok := ok && almost (account.totalFee) (f (0))
  let account := { account with baseBalance := (f (10)) }
  let account := { account with quoteBalance := (f (100)) }
  let r := account.sellBase fee (f (15)) (f (10))
  let ok := ok && returns r false
  let account := after r account
  let ok := ok && almost (account.baseBalance) (f (10))
  let ok := ok && almost (account.quoteBalance) (f (100))
  let ok := ok && almost (account.totalFee) (f (0))
  ok

example : SellTest_SellWithoutFeeAndLimitedPrecision = true := by decide +kernel

/-- base/account_test.cc 866 `SellTest.SellWithFeeAndLimitedPrecision`. -/
def SellTest_SellWithFeeAndLimitedPrecision : Bool :=
  let ok := true
  let account := newAccount
  let fee := newFee
  let fee := { fee with relativeFee := (f (1 / 10)) }
  let fee := { fee with fixedFee := (f (1)) }
  let fee := { fee with minimumFee := (f (3 / 2)) }
  let account := { account with baseUnit := (f (1 / 10)) }
  let account := { account with quoteUnit := (f (1)) }
  let account := { account with baseBalance := (f (15)) }
  let account := { account with quoteBalance := (f (950)) }
  let account := { account with totalFee := (f (0)) }
  let r := account.sellBase fee (f (5)) (f (10))
  let ok := ok && returns r true
  let account := after r account
  let ok := ok && almost (account.baseBalance) (f (10))
  let ok := ok && almost (account.quoteBalance) (f (994))
  let ok := ok && almost (account.totalFee) (f (6))
  let account := { account with baseBalance := (f (20)) }
  let account := { account with quoteBalance := (f (0)) }
  let account := { account with totalFee := (f (10)) }
  let r := account.sellBase fee (f (10)) (f (10))
  let ok := ok && returns r true
  let account := after r account
  let ok := ok && almost (account.baseBalance) (f (10))
  let ok := ok && almost (account.quoteBalance) (f (89))
  let ok := ok && almost (account.totalFee) (f (21))
  let account := { account with baseBalance := (f (123 / 5)) }
  let account := { account with quoteBalance := (f (47)) }
  let account := { account with totalFee := (f (0)) }
  let r := account.sellBase fee (f (2469 / 200)) (f (11 / 2))
  let ok := ok && returns r true
  let account := after r account
  let ok := ok && almost (account.baseBalance) (f (123 / 10))
  let ok := ok && almost (account.quoteBalance) (f (106))
  let ok := ok && almost (account.totalFee) (f (8))
  let account := { account with baseBalance := (f (10)) }
  let account := { account with quoteBalance := (f (100)) }
  let account := { account with totalFee := (f (10)) }
  let r := account.sellBase fee (f (15)) (f (10))
  let ok := ok && returns r false
  let account := after r account
  let ok := ok && almost (account.baseBalance) (f (10))
  let ok := ok && almost (account.quoteBalance) (f (100))
  let ok := ok && almost (account.totalFee) (f (10))
  ok

example : SellTest_SellWithFeeAndLimitedPrecision = true := by decide +kernel

/-- base/account_test.cc 918 `SellTest.SellAtQuoteWithoutFeeAndInfinitePrecision`. -/
def SellTest_SellAtQuoteWithoutFeeAndInfinitePrecision : Bool :=
  let ok := true
  let account := newAccount
  let fee := newFee
  let account := { account with baseBalance := (f (15)) }
  let account := { account with quoteBalance := (f (950)) }
  let r := account.sellAtQuote fee (f (50)) (f (10)) FloatOps.maxFinite
  let ok := ok && returns r true
  let account := after r account
  let ok := ok && almost (account.baseBalance) (f (10))
  let ok := ok && almost (account.quoteBalance) (f (1000))
  let ok := ok && almost (account.totalFee) (f (0))
  let account := { account with baseBalance := (f (15)) }
  let account := { account with quoteBalance := (f (950)) }
  let r := account.sellAtQuote fee (f (50)) (f (10)) (f (2))
  let ok := ok && returns r true
  let account := after r account
  let ok := ok && almost (account.baseBalance) (f (13))
  let ok := ok && almost (account.quoteBalance) (f (970))
  let ok := ok && almost (account.totalFee) (f (0))
  let account := { account with baseBalance := (f (20)) }
  let account := { account with quoteBalance := (f (0)) }
  let r := account.sellAtQuote fee (f (100)) (f (10)) FloatOps.maxFinite
  let ok := ok && returns r true
  let account := after r account
  let ok := ok && almost (account.baseBalance) (f (10))
  let ok := ok && almost (account.quoteBalance) (f (100))
  let ok := ok && almost (account.totalFee) (f (0))
  let account := { account with baseBalance := (f (15)) }
  let account := { account with quoteBalance := (f (50)) }
  let r := account.sellAtQuote fee (f (100)) (f (10)) (f (5))
  let ok := ok && returns r true
  let account := after r account
  let ok := ok && almost (account.baseBalance) (f (10))
  let ok := ok && almost (account.quoteBalance) (f (100))
  let ok := ok && almost (account.totalFee) (f (0))
  let account := { account with baseBalance := (f (2469 / 100)) }
  let account := { account with quoteBalance := (f (111117 / 2000)) }
  let r := account.sellAtQuote fee (f (27159 / 400)) (f (11 / 2)) FloatOps.maxFinite
  let ok := ok && returns r true
  let account := after r account
  let ok := ok && almost (account.baseBalance) (f (2469 / 200))
  let ok := ok && almost (account.quoteBalance) (f (15432 / 125))
  let ok := ok && almost (account.totalFee) (f (0))
  let account := { account with baseBalance := (f (3469 / 200)) }
  let account := { account with quoteBalance := (f (23989 / 250)) }
  let r := account.sellAtQuote fee (f (27159 / 400)) (f (11 / 2)) (f (5))
  let ok := ok && returns r true
  let account := after r account
  let ok := ok && almost (account.baseBalance) (f (2469 / 200))
  let ok := ok && almost (account.quoteBalance) (f (15432 / 125))
  let ok := ok && almost (account.totalFee) (f (0))
  let account := { account with baseBalance := (f (10)) }
  let account := { account with quoteBalance := (f (100)) }
  let r := account.sellAtQuote fee (f (1000)) (f (10)) FloatOps.maxFinite
  let ok := ok && returns r false
  let account := after r account
  let ok := ok && almost (account.baseBalance) (f (10))
  let ok := ok && almost (account.quoteBalance) (f (100))
  let ok := ok && almost (account.totalFee) (f (0))
  let account := { account with baseBalance := (f (10)) }
  let account := { account with quoteBalance := (f (100)) }
  let r := account.sellAtQuote fee (f (1000)) (f (10)) (f (20))
  let ok := ok && returns r false
  let account := after r account
  let ok := ok && almost (account.baseBalance) (f (10))
  let ok := ok && almost (account.quoteBalance) (f (100))
  let ok := ok && almost (account.totalFee) (f (0))
  ok

example : SellTest_SellAtQuoteWithoutFeeAndInfinitePrecision = true := by decide +kernel

/-- base/account_test.cc 999 `SellTest.SellAtQuoteWithoutFeeAndLimitedPrecision`. -/
def SellTest_SellAtQuoteWithoutFeeAndLimitedPrecision : Bool :=
  let ok := true
  let account := newAccount
  let fee := newFee
  let account := { account with baseUnit := (f (1 / 10)) }
  let account := { account with quoteUnit := (f (1)) }
  let account := { account with baseBalance := (f (15)) }
  let account := { account with quoteBalance := (f (950)) }
  let r := account.sellAtQuote fee (f (50)) (f (10)) FloatOps.maxFinite
  let ok := ok && returns r true
  let account := after r account
  let ok := ok && almost (account.baseBalance) (f (10))
  let ok := ok && almost (account.quoteBalance) (f (1000))
  let ok := ok && almost (account.totalFee) (f (0))
  let account := { account with baseBalance := (f (12)) }
  let account := { account with quoteBalance := (f (980)) }
  let r := account.sellAtQuote fee (f (50)) (f (10)) (f (2))
  let ok := ok && returns r true
  let account := after r account
  let ok := ok && almost (account.baseBalance) (f (10))
  let ok := ok && almost (account.quoteBalance) (f (1000))
  let ok := ok && almost (account.totalFee) (f (0))
  let account := { account with baseBalance := (f (20)) }
  let account := { account with quoteBalance := (f (0)) }
  let r := account.sellAtQuote fee (f (100)) (f (10)) FloatOps.maxFinite
  let ok := ok && returns r true
  let account := after r account
  let ok := ok && almost (account.baseBalance) (f (10))
  let ok := ok && almost (account.quoteBalance) (f (100))
  let ok := ok && almost (account.totalFee) (f (0))
  let account := { account with baseBalance := (f (15)) }
  let account := { account with quoteBalance := (f (50)) }
  let r := account.sellAtQuote fee (f (100)) (f (10)) (f (5))
  let ok := ok && returns r true
  let account := after r account
  let ok := ok && almost (account.baseBalance) (f (10))
  let ok := ok && almost (account.quoteBalance) (f (100))
  let ok := ok && almost (account.totalFee) (f (0))
  let account := { account with baseBalance := (f (123 / 5)) }
  let account := { account with quoteBalance := (f (55)) }
  let r := account.sellAtQuote fee (f (27159 / 400)) (f (11 / 2)) FloatOps.maxFinite
  let ok := ok && returns r true
  let account := after r account
  let ok := ok && almost (account.baseBalance) (f (123 / 10))
  let ok := ok && almost (account.quoteBalance) (f (122))
  let ok := ok && almost (account.totalFee) (f (0))
  let account := { account with baseBalance := (f (173 / 10)) }
  let account := { account with quoteBalance := (f (95)) }
  let r := account.sellAtQuote fee (f (27159 / 400)) (f (11 / 2)) (f (5))
  let ok := ok && returns r true
  let account := after r account
  let ok := ok && almost (account.baseBalance) (f (123 / 10))
  let ok := ok && almost (account.quoteBalance) (f (122))
  let ok := ok && almost (account.totalFee) (f (0))
  let account := { account with baseBalance := (f (10)) }
  let account := { account with quoteBalance := (f (100)) }
  let r := account.sellAtQuote fee (f (1000)) (f (10)) FloatOps.maxFinite
  let ok := ok && returns r false
  let account := after r account
  let ok := ok && almost (account.baseBalance) (f (10))
  let ok := ok && almost (account.quoteBalance) (f (100))
  let ok := ok && almost (account.totalFee) (f (0))
  let account := { account with baseBalance := (f (10)) }
  let account := { account with quoteBalance := (f (100)) }
  let r := account.sellAtQuote fee (f (1000)) (f (10)) (f (20))
  let ok := ok && returns r false
  let account := after r account
  let ok := ok && almost (account.baseBalance) (f (10))
  let ok := ok && almost (account.quoteBalance) (f (100))
  let ok := ok && almost (account.totalFee) (f (0))
  ok

example : SellTest_SellAtQuoteWithoutFeeAndLimitedPrecision = true := by decide +kernel

/-- base/account_test.cc 1083 `SellTest.SellAtQuoteWithFeeAndLimitedPrecision`. -/
def SellTest_SellAtQuoteWithFeeAndLimitedPrecision : Bool :=
  let ok := true
  let account := newAccount
  let fee := newFee
  let fee := { fee with relativeFee := (f (1 / 10)) }
  let fee := { fee with fixedFee := (f (1)) }
  let fee := { fee with minimumFee := (f (3 / 2)) }
  let account := { account with baseUnit := (f (1 / 10)) }
  let account := { account with quoteUnit := (f (1)) }
  let account := { account with baseBalance := (f (15)) }
  let account := { account with quoteBalance := (f (950)) }
  let account := { account with totalFee := (f (0)) }
  let r := account.sellAtQuote fee (f (50)) (f (10)) FloatOps.maxFinite
  let ok := ok && returns r true
  let account := after r account
  let ok := ok && almost (account.baseBalance) (f (47 / 5))
  let ok := ok && almost (account.quoteBalance) (f (999))
  let ok := ok && almost (account.totalFee) (f (7))
  let account := { account with baseBalance := (f (12)) }
  let account := { account with quoteBalance := (f (980)) }
  let account := { account with totalFee := (f (0)) }
  let r := account.sellAtQuote fee (f (50)) (f (10)) (f (2))
  let ok := ok && returns r true
  let account := after r account
  let ok := ok && almost (account.baseBalance) (f (10))
  let ok := ok && almost (account.quoteBalance) (f (997))
  let ok := ok && almost (account.totalFee) (f (3))
  let account := { account with baseBalance := (f (20)) }
  let account := { account with quoteBalance := (f (0)) }
  let account := { account with totalFee := (f (10)) }
  let r := account.sellAtQuote fee (f (100)) (f (10)) FloatOps.maxFinite
  let ok := ok && returns r true
  let account := after r account
  let ok := ok && almost (account.baseBalance) (f (89 / 10))
  let ok := ok && almost (account.quoteBalance) (f (98))
  let ok := ok && almost (account.totalFee) (f (23))
  let account := { account with baseBalance := (f (15)) }
  let account := { account with quoteBalance := (f (50)) }
  let account := { account with totalFee := (f (10)) }
  let r := account.sellAtQuote fee (f (100)) (f (10)) (f (5))
  let ok := ok && returns r true
  let account := after r account
  let ok := ok && almost (account.baseBalance) (f (10))
  let ok := ok && almost (account.quoteBalance) (f (94))
  let ok := ok && almost (account.totalFee) (f (16))
  let account := { account with baseBalance := (f (123 / 5)) }
  let account := { account with quoteBalance := (f (55)) }
  let account := { account with totalFee := (f (0)) }
  let r := account.sellAtQuote fee (f (27159 / 400)) (f (11 / 2)) FloatOps.maxFinite
  let ok := ok && returns r true
  let account := after r account
  let ok := ok && almost (account.baseBalance) (f (54 / 5))
  let ok := ok && almost (account.quoteBalance) (f (121))
  let ok := ok && almost (account.totalFee) (f (9))
  let account := { account with baseBalance := (f (173 / 10)) }
  let account := { account with quoteBalance := (f (95)) }
  let account := { account with totalFee := (f (0)) }
  let r := account.sellAtQuote fee (f (27159 / 400)) (f (11 / 2)) (f (5))
  let ok := ok && returns r true
  let account := after r account
  let ok := ok && almost (account.baseBalance) (f (123 / 10))
  let ok := ok && almost (account.quoteBalance) (f (118))
  let ok := ok && almost (account.totalFee) (f (4))
  let account := { account with baseBalance := (f (10)) }
  let account := { account with quoteBalance := (f (100)) }
  let account := { account with totalFee := (f (10)) }
  let r := account.sellAtQuote fee (f (1000)) (f (10)) FloatOps.maxFinite
  let ok := ok && returns r false
  let account := after r account
  let ok := ok && almost (account.baseBalance) (f (10))
  let ok := ok && almost (account.quoteBalance) (f (100))
  let ok := ok && almost (account.totalFee) (f (10))
  let account := { account with baseBalance := (f (10)) }
  let account := { account with quoteBalance := (f (100)) }
  let account := { account with totalFee := (f (10)) }
  let r := account.sellAtQuote fee (f (1000)) (f (10)) (f (20))
  let ok := ok && returns r false
  let account := after r account
  let ok := ok && almost (account.baseBalance) (f (10))
  let ok := ok && almost (account.quoteBalance) (f (100))
  let ok := ok && almost (account.totalFee) (f (10))
  ok

example : SellTest_SellAtQuoteWithFeeAndLimitedPrecision = true := by decide +kernel

/-- base/account_test.cc 1179 `BuyTest.MarketBuyWithFeeAndLimitedPrecision`. -/
def BuyTest_MarketBuyWithFeeAndLimitedPrecision : Bool :=
  let ok := true
  let account := newAccount
  let fee := newFee
  let fee := { fee with relativeFee := (f (1 / 10)) }
  let fee := { fee with fixedFee := (f (1)) }
  let fee := { fee with minimumFee := (f (3 / 2)) }
  let tick := newTick
  let tick := setupOhlcTick
  let account := { account with marketLiquidity := (f (1 / 2)) }
  let ok := ok && almost (account.marketBuyPrice tick) (f (15))
  let account := { account with baseUnit := (f (1 / 10)) }
  let account := { account with quoteUnit := (f (1)) }
  let account := { account with baseBalance := (f (10)) }
  let account := { account with quoteBalance := (f (1000)) }
  let account := { account with totalFee := (f (0)) }
  let r := account.marketBuy fee tick (f (10))
  let ok := ok && returns r true
  let account := after r account
  let ok := ok && almost (account.baseBalance) (f (20))
  let ok := ok && almost (account.quoteBalance) (f (834))
  let ok := ok && almost (account.totalFee) (f (16))
  ok

example : BuyTest_MarketBuyWithFeeAndLimitedPrecision = true := by decide +kernel

/-- base/account_test.cc 1208 `BuyTest.MarketBuyAtQuoteWithFeeAndLimitedPrecision`. -/
def BuyTest_MarketBuyAtQuoteWithFeeAndLimitedPrecision : Bool :=
  let ok := true
  let account := newAccount
  let fee := newFee
  let fee := { fee with relativeFee := (f (1 / 10)) }
  let fee := { fee with fixedFee := (f (1)) }
  let fee := { fee with minimumFee := (f (3 / 2)) }
  let tick := newTick
  let tick := setupOhlcTick
  let account := { account with marketLiquidity := (f (1 / 2)) }
  let ok := ok && almost (account.marketBuyPrice tick) (f (15))
  let account := { account with baseUnit := (f (1 / 10)) }
  let account := { account with quoteUnit := (f (1)) }
  let account := { account with baseBalance := (f (10)) }
  let account := { account with quoteBalance := (f (1000)) }
  let account := { account with totalFee := (f (0)) }
  let r := account.marketBuyAtQuote fee tick (f (169))
  let ok := ok && returns r true
  let account := after r account
  let ok := ok && almost (account.baseBalance) (f (20))
  let ok := ok && almost (account.quoteBalance) (f (834))
  let ok := ok && almost (account.totalFee) (f (16))
  ok

example : BuyTest_MarketBuyAtQuoteWithFeeAndLimitedPrecision = true := by decide +kernel

/-- base/account_test.cc 1237 `SellTest.MarketSellWithFeeAndLimitedPrecision`. -/
def SellTest_MarketSellWithFeeAndLimitedPrecision : Bool :=
  let ok := true
  let account := newAccount
  let fee := newFee
  let fee := { fee with relativeFee := (f (1 / 10)) }
  let fee := { fee with fixedFee := (f (1)) }
  let fee := { fee with minimumFee := (f (3 / 2)) }
  let tick := newTick
  let tick := setupOhlcTick
  let account := { account with marketLiquidity := (f (1)) }
  let ok := ok && almost (account.marketSellPrice tick) (f (10))
  let account := { account with baseUnit := (f (1 / 10)) }
  let account := { account with quoteUnit := (f (1)) }
  let account := { account with baseBalance := (f (15)) }
  let account := { account with quoteBalance := (f (950)) }
  let account := { account with totalFee := (f (0)) }
  let r := account.marketSell fee tick (f (5))
  let ok := ok && returns r true
  let account := after r account
  let ok := ok && almost (account.baseBalance) (f (10))
  let ok := ok && almost (account.quoteBalance) (f (994))
  let ok := ok && almost (account.totalFee) (f (6))
  ok

example : SellTest_MarketSellWithFeeAndLimitedPrecision = true := by decide +kernel

/-- base/account_test.cc 1266 `SellTest.MarketSellAtQuoteWithFeeAndLimitedPrecision`. -/
def SellTest_MarketSellAtQuoteWithFeeAndLimitedPrecision : Bool :=
  let ok := true
  let account := newAccount
  let fee := newFee
  let fee := { fee with relativeFee := (f (1 / 10)) }
  let fee := { fee with fixedFee := (f (1)) }
  let fee := { fee with minimumFee := (f (3 / 2)) }
  let tick := newTick
  let tick := setupOhlcTick
  let account := { account with marketLiquidity := (f (1)) }
  let ok := ok && almost (account.marketSellPrice tick) (f (10))
  let account := { account with baseUnit := (f (1 / 10)) }
  let account := { account with quoteUnit := (f (1)) }
  let account := { account with baseBalance := (f (15)) }
  let account := { account with quoteBalance := (f (950)) }
  let account := { account with totalFee := (f (0)) }
  let r := account.marketSellAtQuote fee tick (f (50))
  let ok := ok && returns r true
  let account := after r account
  let ok := ok && almost (account.baseBalance) (f (47 / 5))
  let ok := ok && almost (account.quoteBalance) (f (999))
  let ok := ok && almost (account.totalFee) (f (7))
  ok

example : SellTest_MarketSellAtQuoteWithFeeAndLimitedPrecision = true := by decide +kernel

/-- base/account_test.cc 1295 `BuyTest.StopBuyWithFeeAndLimitedPrecision`. -/
def BuyTest_StopBuyWithFeeAndLimitedPrecision : Bool :=
  let ok := true
  let account := newAccount
  let fee := newFee
  let fee := { fee with relativeFee := (f (1 / 10)) }
  let fee := { fee with fixedFee := (f (1)) }
  let fee := { fee with minimumFee := (f (3 / 2)) }
  let tick := newTick
  let tick := setupOhlcTick
  let account := { account with marketLiquidity := (f (1 / 2)) }
  let ok := ok && almost (account.stopBuyPrice tick (f (15))) (f (35 / 2))
  let account := { account with baseUnit := (f (1 / 10)) }
  let account := { account with quoteUnit := (f (1)) }
  let account := { account with baseBalance := (f (10)) }
  let account := { account with quoteBalance := (f (1000)) }
  let account := { account with totalFee := (f (0)) }
  let r := account.stopBuy fee tick (f (10)) (f (25))
  let ok := ok && returns r false
  let account := after r account
  let r := account.stopBuy fee tick (f (10)) (f (15))
  let ok := ok && returns r true
  let account := after r account
  let ok := ok && almost (account.baseBalance) (f (20))
  let ok := ok && almost (account.quoteBalance) (f (806))
  let ok := ok && almost (account.totalFee) (f (19))
  ok

example : BuyTest_StopBuyWithFeeAndLimitedPrecision = true := by decide +kernel

/-- base/account_test.cc 1331 `BuyTest.StopBuyAtQuoteWithFeeAndLimitedPrecision`. -/
def BuyTest_StopBuyAtQuoteWithFeeAndLimitedPrecision : Bool :=
  let ok := true
  let account := newAccount
  let fee := newFee
  let fee := { fee with relativeFee := (f (1 / 10)) }
  let fee := { fee with fixedFee := (f (1)) }
  let fee := { fee with minimumFee := (f (3 / 2)) }
  let tick := newTick
  let tick := setupOhlcTick
  let account := { account with marketLiquidity := (f (1 / 2)) }
  let ok := ok && almost (account.stopBuyPrice tick (f (15))) (f (35 / 2))
  let account := { account with baseUnit := (f (1 / 10)) }
  let account := { account with quoteUnit := (f (1)) }
  let account := { account with baseBalance := (f (10)) }
  let account := { account with quoteBalance := (f (1000)) }
  let account := { account with totalFee := (f (0)) }
  let r := account.stopBuyAtQuote fee tick (f (197)) (f (25))
  let ok := ok && returns r false
  let account := after r account
  let r := account.stopBuyAtQuote fee tick (f (197)) (f (15))
  let ok := ok && returns r true
  let account := after r account
  let ok := ok && almost (account.baseBalance) (f (20))
  let ok := ok && almost (account.quoteBalance) (f (806))
  let ok := ok && almost (account.totalFee) (f (19))
  ok

example : BuyTest_StopBuyAtQuoteWithFeeAndLimitedPrecision = true := by decide +kernel

/-- base/account_test.cc 1367 `SellTest.StopSellWithFeeAndLimitedPrecision`. -/
def SellTest_StopSellWithFeeAndLimitedPrecision : Bool :=
  let ok := true
  let account := newAccount
  let fee := newFee
  let fee := { fee with relativeFee := (f (1 / 10)) }
  let fee := { fee with fixedFee := (f (1)) }
  let fee := { fee with minimumFee := (f (3 / 2)) }
  let tick := newTick
  let tick := setupOhlcTick
  let account := { account with marketLiquidity := (f (1)) }
  let ok := ok && almost (account.stopSellPrice tick (f (5))) (f (5))
  let account := { account with baseUnit := (f (1 / 10)) }
  let account := { account with quoteUnit := (f (1)) }
  let account := { account with baseBalance := (f (15)) }
  let account := { account with quoteBalance := (f (950)) }
  let account := { account with totalFee := (f (0)) }
  let r := account.stopSell fee tick (f (5)) (f (1))
  let ok := ok && returns r false
  let account := after r account
  let r := account.stopSell fee tick (f (5)) (f (5))
  let ok := ok && returns r true
  let account := after r account
  let ok := ok && almost (account.baseBalance) (f (10))
  let ok := ok && almost (account.quoteBalance) (f (971))
  let ok := ok && almost (account.totalFee) (f (4))
  ok

example : SellTest_StopSellWithFeeAndLimitedPrecision = true := by decide +kernel

/-- base/account_test.cc 1403 `SellTest.StopSellAtQuoteWithFeeAndLimitedPrecision`. -/
def SellTest_StopSellAtQuoteWithFeeAndLimitedPrecision : Bool :=
  let ok := true
  let account := newAccount
  let fee := newFee
  let fee := { fee with relativeFee := (f (1 / 10)) }
  let fee := { fee with fixedFee := (f (1)) }
  let fee := { fee with minimumFee := (f (3 / 2)) }
  let tick := newTick
  let tick := setupOhlcTick
  let account := { account with marketLiquidity := (f (1)) }
  let ok := ok && almost (account.stopSellPrice tick (f (5))) (f (5))
  let account := { account with baseUnit := (f (1 / 10)) }
  let account := { account with quoteUnit := (f (1)) }
  let account := { account with baseBalance := (f (15)) }
  let account := { account with quoteBalance := (f (950)) }
  let account := { account with totalFee := (f (0)) }
  let r := account.stopSellAtQuote fee tick (f (50)) (f (1))
  let ok := ok && returns r false
  let account := after r account
  let r := account.stopSellAtQuote fee tick (f (50)) (f (5))
  let ok := ok && returns r true
  let account := after r account
  let ok := ok && almost (account.baseBalance) (f (19 / 5))
  let ok := ok && almost (account.quoteBalance) (f (999))
  let ok := ok && almost (account.totalFee) (f (7))
  ok

example : SellTest_StopSellAtQuoteWithFeeAndLimitedPrecision = true := by decide +kernel

/-- base/account_test.cc 1439 `BuyTest.LimitBuyWithFeeAndLimitedPrecision`. -/
def BuyTest_LimitBuyWithFeeAndLimitedPrecision : Bool :=
  let ok := true
  let account := newAccount
  let fee := newFee
  let fee := { fee with relativeFee := (f (1 / 10)) }
  let fee := { fee with fixedFee := (f (1)) }
  let fee := { fee with minimumFee := (f (3 / 2)) }
  let tick := newTick
  let tick := setupOhlcTick
  let account := { account with maxVolumeRatio := (f (1 / 10)) }
  let ok := ok && almost (account.maxBaseAmount tick) (f (15432 / 125))
  let account := { account with baseUnit := (f (1 / 10)) }
  let account := { account with quoteUnit := (f (1)) }
  let account := { account with baseBalance := (f (10)) }
  let account := { account with quoteBalance := (f (1000)) }
  let account := { account with totalFee := (f (0)) }
  let r := account.limitBuy fee tick (f (10)) (f (1))
  let ok := ok && returns r false
  let account := after r account
  let r := account.limitBuy fee tick (f (10)) (f (5))
  let ok := ok && returns r true
  let account := after r account
  let ok := ok && almost (account.baseBalance) (f (20))
  let ok := ok && almost (account.quoteBalance) (f (944))
  let ok := ok && almost (account.totalFee) (f (6))
  ok

example : BuyTest_LimitBuyWithFeeAndLimitedPrecision = true := by decide +kernel

/-- base/account_test.cc 1475 `BuyTest.LimitBuyWithFeeAndLimitedPrecisionExceedsMaxAmount`. -/
def BuyTest_LimitBuyWithFeeAndLimitedPrecisionExceedsMaxAmount : Bool :=
  let ok := true
  let account := newAccount
  let fee := newFee
  let fee := { fee with relativeFee := (f (1 / 10)) }
  let fee := { fee with fixedFee := (f (1)) }
  let fee := { fee with minimumFee := (f (3 / 2)) }
  let tick := newTick
  let tick := setupOhlcTick
  let account := { account with maxVolumeRatio := (f (1 / 1000)) }
  let ok := ok && almost (account.maxBaseAmount tick) (f (3858 / 3125))
  let account := { account with baseUnit := (f (1 / 10)) }
  let account := { account with quoteUnit := (f (1)) }
  let account := { account with baseBalance := (f (10)) }
  let account := { account with quoteBalance := (f (1000)) }
  let account := { account with totalFee := (f (0)) }
  let r := account.limitBuy fee tick (f (10)) (f (1))
  let ok := ok && returns r false
  let account := after r account
  let r := account.limitBuy fee tick (f (10)) (f (5))
  let ok := ok && returns r true
  let account := after r account
  let ok := ok && almost (account.baseBalance) (f (56 / 5))
  let ok := ok && almost (account.quoteBalance) (f (992))
  let ok := ok && almost (account.totalFee) (f (2))
  ok

example : BuyTest_LimitBuyWithFeeAndLimitedPrecisionExceedsMaxAmount = true := by decide +kernel

/-- base/account_test.cc 1512 `BuyTest.LimitBuyAtQuoteWithFeeAndLimitedPrecision`. -/
def BuyTest_LimitBuyAtQuoteWithFeeAndLimitedPrecision : Bool :=
  let ok := true
  let account := newAccount
  let fee := newFee
  let fee := { fee with relativeFee := (f (1 / 10)) }
  let fee := { fee with fixedFee := (f (1)) }
  let fee := { fee with minimumFee := (f (3 / 2)) }
  let tick := newTick
  let tick := setupOhlcTick
  let account := { account with maxVolumeRatio := (f (1 / 10)) }
  let ok := ok && almost (account.maxBaseAmount tick) (f (15432 / 125))
  let account := { account with baseUnit := (f (1 / 10)) }
  let account := { account with quoteUnit := (f (1)) }
  let account := { account with baseBalance := (f (10)) }
  let account := { account with quoteBalance := (f (1000)) }
  let account := { account with totalFee := (f (0)) }
  let r := account.limitBuyAtQuote fee tick (f (57)) (f (1))
  let ok := ok && returns r false
  let account := after r account
  let r := account.limitBuyAtQuote fee tick (f (57)) (f (5))
  let ok := ok && returns r true
  let account := after r account
  let ok := ok && almost (account.baseBalance) (f (20))
  let ok := ok && almost (account.quoteBalance) (f (944))
  let ok := ok && almost (account.totalFee) (f (6))
  ok

example : BuyTest_LimitBuyAtQuoteWithFeeAndLimitedPrecision = true := by decide +kernel

/-- base/account_test.cc 1548 `BuyTest.LimitBuyAtQuoteWithFeeAndLimitedPrecisionExceedsMaxAmount`. -/
def BuyTest_LimitBuyAtQuoteWithFeeAndLimitedPrecisionExceedsMaxAmount : Bool :=
  let ok := true
  let account := newAccount
  let fee := newFee
  let fee := { fee with relativeFee := (f (1 / 10)) }
  let fee := { fee with fixedFee := (f (1)) }
  let fee := { fee with minimumFee := (f (3 / 2)) }
  let tick := newTick
  let tick := setupOhlcTick
  let account := { account with maxVolumeRatio := (f (1 / 1000)) }
  let ok := ok && almost (account.maxBaseAmount tick) (f (3858 / 3125))
  let account := { account with baseUnit := (f (1 / 10)) }
  let account := { account with quoteUnit := (f (1)) }
  let account := { account with baseBalance := (f (10)) }
  let account := { account with quoteBalance := (f (1000)) }
  let account := { account with totalFee := (f (0)) }
  let r := account.limitBuyAtQuote fee tick (f (57)) (f (1))
  let ok := ok && returns r false
  let account := after r account
  let r := account.limitBuyAtQuote fee tick (f (57)) (f (5))
  let ok := ok && returns r true
  let account := after r account
  let ok := ok && almost (account.baseBalance) (f (56 / 5))
  let ok := ok && almost (account.quoteBalance) (f (992))
  let ok := ok && almost (account.totalFee) (f (2))
  ok

example : BuyTest_LimitBuyAtQuoteWithFeeAndLimitedPrecisionExceedsMaxAmount = true := by decide +kernel

/-- base/account_test.cc 1585 `SellTest.LimitSellWithFeeAndLimitedPrecision`. -/
def SellTest_LimitSellWithFeeAndLimitedPrecision : Bool :=
  let ok := true
  let account := newAccount
  let fee := newFee
  let fee := { fee with relativeFee := (f (1 / 10)) }
  let fee := { fee with fixedFee := (f (1)) }
  let fee := { fee with minimumFee := (f (3 / 2)) }
  let tick := newTick
  let tick := setupOhlcTick
  let account := { account with maxVolumeRatio := (f (1 / 10)) }
  let ok := ok && almost (account.maxBaseAmount tick) (f (15432 / 125))
  let account := { account with baseUnit := (f (1 / 10)) }
  let account := { account with quoteUnit := (f (1)) }
  let account := { account with baseBalance := (f (15)) }
  let account := { account with quoteBalance := (f (950)) }
  let account := { account with totalFee := (f (0)) }
  let r := account.limitSell fee tick (f (5)) (f (25))
  let ok := ok && returns r false
  let account := after r account
  let r := account.limitSell fee tick (f (5)) (f (10))
  let ok := ok && returns r true
  let account := after r account
  let ok := ok && almost (account.baseBalance) (f (10))
  let ok := ok && almost (account.quoteBalance) (f (994))
  let ok := ok && almost (account.totalFee) (f (6))
  ok

example : SellTest_LimitSellWithFeeAndLimitedPrecision = true := by decide +kernel

/-- base/account_test.cc 1621 `SellTest.LimitSellWithFeeAndLimitedPrecisionExceedsMaxAmount`. -/
def SellTest_LimitSellWithFeeAndLimitedPrecisionExceedsMaxAmount : Bool :=
  let ok := true
  let account := newAccount
  let fee := newFee
  let fee := { fee with relativeFee := (f (1 / 10)) }
  let fee := { fee with fixedFee := (f (1)) }
  let fee := { fee with minimumFee := (f (3 / 2)) }
  let tick := newTick
  let tick := setupOhlcTick
  let account := { account with maxVolumeRatio := (f (1 / 1000)) }
  let ok := ok && almost (account.maxBaseAmount tick) (f (3858 / 3125))
  let account := { account with baseUnit := (f (1 / 10)) }
  let account := { account with quoteUnit := (f (1)) }
  let account := { account with baseBalance := (f (15)) }
  let account := { account with quoteBalance := (f (950)) }
  let account := { account with totalFee := (f (0)) }
  let r := account.limitSell fee tick (f (5)) (f (25))
  let ok := ok && returns r false
  let account := after r account
  let r := account.limitSell fee tick (f (5)) (f (10))
  let ok := ok && returns r true
  let account := after r account
  let ok := ok && almost (account.baseBalance) (f (69 / 5))
  let ok := ok && almost (account.quoteBalance) (f (959))
  let ok := ok && almost (account.totalFee) (f (3))
  ok

example : SellTest_LimitSellWithFeeAndLimitedPrecisionExceedsMaxAmount = true := by decide +kernel

/-- base/account_test.cc 1658 `SellTest.LimitSellAtQuoteWithFeeAndLimitedPrecision`. -/
def SellTest_LimitSellAtQuoteWithFeeAndLimitedPrecision : Bool :=
  let ok := true
  let account := newAccount
  let fee := newFee
  let fee := { fee with relativeFee := (f (1 / 10)) }
  let fee := { fee with fixedFee := (f (1)) }
  let fee := { fee with minimumFee := (f (3 / 2)) }
  let tick := newTick
  let tick := setupOhlcTick
  let account := { account with maxVolumeRatio := (f (1 / 10)) }
  let ok := ok && almost (account.maxBaseAmount tick) (f (15432 / 125))
  let account := { account with baseUnit := (f (1 / 10)) }
  let account := { account with quoteUnit := (f (1)) }
  let account := { account with baseBalance := (f (15)) }
  let account := { account with quoteBalance := (f (950)) }
  let account := { account with totalFee := (f (0)) }
  let r := account.limitSellAtQuote fee tick (f (50)) (f (25))
  let ok := ok && returns r false
  let account := after r account
  let r := account.limitSellAtQuote fee tick (f (50)) (f (10))
  let ok := ok && returns r true
  let account := after r account
  let ok := ok && almost (account.baseBalance) (f (47 / 5))
  let ok := ok && almost (account.quoteBalance) (f (999))
  let ok := ok && almost (account.totalFee) (f (7))
  ok

example : SellTest_LimitSellAtQuoteWithFeeAndLimitedPrecision = true := by decide +kernel

/-- base/account_test.cc 1694 `SellTest.LimitSellAtQuoteWithFeeAndLimitedPrecisionExceedsMaxAmount`. -/
def SellTest_LimitSellAtQuoteWithFeeAndLimitedPrecisionExceedsMaxAmount : Bool :=
  let ok := true
  let account := newAccount
  let fee := newFee
  let fee := { fee with relativeFee := (f (1 / 10)) }
  let fee := { fee with fixedFee := (f (1)) }
  let fee := { fee with minimumFee := (f (3 / 2)) }
  let tick := newTick
  let tick := setupOhlcTick
  let account := { account with maxVolumeRatio := (f (1 / 1000)) }
  let ok := ok && almost (account.maxBaseAmount tick) (f (3858 / 3125))
  let account := { account with baseUnit := (f (1 / 10)) }
  let account := { account with quoteUnit := (f (1)) }
  let account := { account with baseBalance := (f (15)) }
  let account := { account with quoteBalance := (f (950)) }
  let account := { account with totalFee := (f (0)) }
  let r := account.limitSellAtQuote fee tick (f (50)) (f (25))
  let ok := ok && returns r false
  let account := after r account
  let r := account.limitSellAtQuote fee tick (f (50)) (f (10))
  let ok := ok && returns r true
  let account := after r account
  let ok := ok && almost (account.baseBalance) (f (69 / 5))
  let ok := ok && almost (account.quoteBalance) (f (959))
  let ok := ok && almost (account.totalFee) (f (3))
  ok

example : SellTest_LimitSellAtQuoteWithFeeAndLimitedPrecisionExceedsMaxAmount = true := by decide +kernel

/-- base/account_test.cc 1731 `ExecuteOrderTest.MarketBuyWithFeeAndLimitedPrecision`. -/
def ExecuteOrderTest_MarketBuyWithFeeAndLimitedPrecision : Bool :=
  let ok := true
  let config := newAccountConfig
  let config := { config with marketFee := { config.marketFee with relativeFee := (f (1 / 10)) } }
  let config := { config with marketFee := { config.marketFee with fixedFee := (f (1)) } }
  let config := { config with marketFee := { config.marketFee with minimumFee := (f (3 / 2)) } }
  let order := newOrder
  let order := { order with type := some .market }
  let order := { order with side := some .buy }
  let order := { order with amount := .base (f (10)) }
  let tick := newTick
  let tick := setupOhlcTick
  let account := newAccount
  let account := { account with marketLiquidity := (f (1 / 2)) }
  let account := { account with baseUnit := (f (1 / 10)) }
  let account := { account with quoteUnit := (f (1)) }
  let account := { account with baseBalance := (f (10)) }
  let account := { account with quoteBalance := (f (1000)) }
  let account := { account with totalFee := (f (0)) }
  let r := account.executeOrder config order tick
  let ok := ok && returns r true
  let account := after r account
  let ok := ok && almost (account.baseBalance) (f (20))
  let ok := ok && almost (account.quoteBalance) (f (834))
  let ok := ok && almost (account.totalFee) (f (16))
  ok

example : ExecuteOrderTest_MarketBuyWithFeeAndLimitedPrecision = true := by decide +kernel

/-- base/account_test.cc 1761 `ExecuteOrderTest.MarketBuyAtQuoteWithFeeAndLimitedPrecision`. -/
def ExecuteOrderTest_MarketBuyAtQuoteWithFeeAndLimitedPrecision : Bool :=
  let ok := true
  let config := newAccountConfig
  let config := { config with marketFee := { config.marketFee with relativeFee := (f (1 / 10)) } }
  let config := { config with marketFee := { config.marketFee with fixedFee := (f (1)) } }
  let config := { config with marketFee := { config.marketFee with minimumFee := (f (3 / 2)) } }
  let order := newOrder
  let order := { order with type := some .market }
  let order := { order with side := some .buy }
  let order := { order with amount := .quote (f (169)) }
  let tick := newTick
  let tick := setupOhlcTick
  let account := newAccount
  let account := { account with marketLiquidity := (f (1 / 2)) }
  let account := { account with baseUnit := (f (1 / 10)) }
  let account := { account with quoteUnit := (f (1)) }
  let account := { account with baseBalance := (f (10)) }
  let account := { account with quoteBalance := (f (1000)) }
  let account := { account with totalFee := (f (0)) }
  let r := account.executeOrder config order tick
  let ok := ok && returns r true
  let account := after r account
  let ok := ok && almost (account.baseBalance) (f (20))
  let ok := ok && almost (account.quoteBalance) (f (834))
  let ok := ok && almost (account.totalFee) (f (16))
  ok

example : ExecuteOrderTest_MarketBuyAtQuoteWithFeeAndLimitedPrecision = true := by decide +kernel

/-- base/account_test.cc 1791 `ExecuteOrderTest.MarketSellWithFeeAndLimitedPrecision`. -/
def ExecuteOrderTest_MarketSellWithFeeAndLimitedPrecision : Bool :=
  let ok := true
  let config := newAccountConfig
  let config := { config with marketFee := { config.marketFee with relativeFee := (f (1 / 10)) } }
  let config := { config with marketFee := { config.marketFee with fixedFee := (f (1)) } }
  let config := { config with marketFee := { config.marketFee with minimumFee := (f (3 / 2)) } }
  let order := newOrder
  let order := { order with type := some .market }
  let order := { order with side := some .sell }
  let order := { order with amount := .base (f (5)) }
  let tick := newTick
  let tick := setupOhlcTick
  let account := newAccount
  let account := { account with marketLiquidity := (f (1)) }
  let account := { account with baseUnit := (f (1 / 10)) }
  let account := { account with quoteUnit := (f (1)) }
  let account := { account with baseBalance := (f (15)) }
  let account := { account with quoteBalance := (f (950)) }
  let account := { account with totalFee := (f (0)) }
  let r := account.executeOrder config order tick
  let ok := ok && returns r true
  let account := after r account
  let ok := ok && almost (account.baseBalance) (f (10))
  let ok := ok && almost (account.quoteBalance) (f (994))
  let ok := ok && almost (account.totalFee) (f (6))
  ok

example : ExecuteOrderTest_MarketSellWithFeeAndLimitedPrecision = true := by decide +kernel

/-- base/account_test.cc 1821 `ExecuteOrderTest.MarketSellAtQuoteWithFeeAndLimitedPrecision`. -/
def ExecuteOrderTest_MarketSellAtQuoteWithFeeAndLimitedPrecision : Bool :=
  let ok := true
  let config := newAccountConfig
  let config := { config with marketFee := { config.marketFee with relativeFee := (f (1 / 10)) } }
  let config := { config with marketFee := { config.marketFee with fixedFee := (f (1)) } }
  let config := { config with marketFee := { config.marketFee with minimumFee := (f (3 / 2)) } }
  let order := newOrder
  let order := { order with type := some .market }
  let order := { order with side := some .sell }
  let order := { order with amount := .quote (f (50)) }
  let tick := newTick
  let tick := setupOhlcTick
  let account := newAccount
  let account := { account with marketLiquidity := (f (1)) }
  let account := { account with baseUnit := (f (1 / 10)) }
  let account := { account with quoteUnit := (f (1)) }
  let account := { account with baseBalance := (f (15)) }
  let account := { account with quoteBalance := (f (950)) }
  let account := { account with totalFee := (f (0)) }
  let r := account.executeOrder config order tick
  let ok := ok && returns r true
  let account := after r account
  let ok := ok && almost (account.baseBalance) (f (47 / 5))
  let ok := ok && almost (account.quoteBalance) (f (999))
  let ok := ok && almost (account.totalFee) (f (7))
  ok

example : ExecuteOrderTest_MarketSellAtQuoteWithFeeAndLimitedPrecision = true := by decide +kernel

/-- base/account_test.cc 1851 `ExecuteOrderTest.StopBuyWithFeeAndLimitedPrecision`. -/
def ExecuteOrderTest_StopBuyWithFeeAndLimitedPrecision : Bool :=
  let ok := true
  let config := newAccountConfig
  let config := { config with stopFee := { config.stopFee with relativeFee := (f (1 / 10)) } }
  let config := { config with stopFee := { config.stopFee with fixedFee := (f (1)) } }
  let config := { config with stopFee := { config.stopFee with minimumFee := (f (3 / 2)) } }
  let order := newOrder
  let order := { order with type := some .stop }
  let order := { order with side := some .buy }
  let order := { order with amount := .base (f (10)) }
  let tick := newTick
  let tick := setupOhlcTick
  let account := newAccount
  let account := { account with marketLiquidity := (f (1 / 2)) }
  let account := { account with baseUnit := (f (1 / 10)) }
  let account := { account with quoteUnit := (f (1)) }
  let account := { account with baseBalance := (f (10)) }
  let account := { account with quoteBalance := (f (1000)) }
  let account := { account with totalFee := (f (0)) }
  let order := { order with price := some (f (25)) }
  let r := account.executeOrder config order tick
  let ok := ok && returns r false
  let account := after r account
  let order := { order with price := some (f (15)) }
  let r := account.executeOrder config order tick
  let ok := ok && returns r true
  let account := after r account
  let ok := ok && almost (account.baseBalance) (f (20))
  let ok := ok && almost (account.quoteBalance) (f (806))
  let ok := ok && almost (account.totalFee) (f (19))
  ok

example : ExecuteOrderTest_StopBuyWithFeeAndLimitedPrecision = true := by decide +kernel

/-- base/account_test.cc 1887 `ExecuteOrderTest.StopBuyAtQuoteWithFeeAndLimitedPrecision`. -/
def ExecuteOrderTest_StopBuyAtQuoteWithFeeAndLimitedPrecision : Bool :=
  let ok := true
  let config := newAccountConfig
  let config := { config with stopFee := { config.stopFee with relativeFee := (f (1 / 10)) } }
  let config := { config with stopFee := { config.stopFee with fixedFee := (f (1)) } }
  let config := { config with stopFee := { config.stopFee with minimumFee := (f (3 / 2)) } }
  let order := newOrder
  let order := { order with type := some .stop }
  let order := { order with side := some .buy }
  let order := { order with amount := .quote (f (197)) }
  let tick := newTick
  let tick := setupOhlcTick
  let account := newAccount
  let account := { account with marketLiquidity := (f (1 / 2)) }
  let account := { account with baseUnit := (f (1 / 10)) }
  let account := { account with quoteUnit := (f (1)) }
  let account := { account with baseBalance := (f (10)) }
  let account := { account with quoteBalance := (f (1000)) }
  let account := { account with totalFee := (f (0)) }
  let order := { order with price := some (f (25)) }
  let r := account.executeOrder config order tick
  let ok := ok && returns r false
  let account := after r account
  let order := { order with price := some (f (15)) }
  let r := account.executeOrder config order tick
  let ok := ok && returns r true
  let account := after r account
  let ok := ok && almost (account.baseBalance) (f (20))
  let ok := ok && almost (account.quoteBalance) (f (806))
  let ok := ok && almost (account.totalFee) (f (19))
  ok

example : ExecuteOrderTest_StopBuyAtQuoteWithFeeAndLimitedPrecision = true := by decide +kernel

/-- base/account_test.cc 1923 `ExecuteOrderTest.StopSellWithFeeAndLimitedPrecision`. -/
def ExecuteOrderTest_StopSellWithFeeAndLimitedPrecision : Bool :=
  let ok := true
  let config := newAccountConfig
  let config := { config with stopFee := { config.stopFee with relativeFee := (f (1 / 10)) } }
  let config := { config with stopFee := { config.stopFee with fixedFee := (f (1)) } }
  let config := { config with stopFee := { config.stopFee with minimumFee := (f (3 / 2)) } }
  let order := newOrder
  let order := { order with type := some .stop }
  let order := { order with side := some .sell }
  let order := { order with amount := .base (f (5)) }
  let tick := newTick
  let tick := setupOhlcTick
  let account := newAccount
  let account := { account with marketLiquidity := (f (1)) }
  let account := { account with baseUnit := (f (1 / 10)) }
  let account := { account with quoteUnit := (f (1)) }
  let account := { account with baseBalance := (f (15)) }
  let account := { account with quoteBalance := (f (950)) }
  let account := { account with totalFee := (f (0)) }
  let order := { order with price := some (f (1)) }
  let r := account.executeOrder config order tick
  let ok := ok && returns r false
  let account := after r account
  let order := { order with price := some (f (5)) }
  let r := account.executeOrder config order tick
  let ok := ok && returns r true
  let account := after r account
  let ok := ok && almost (account.baseBalance) (f (10))
  let ok := ok && almost (account.quoteBalance) (f (971))
  let ok := ok && almost (account.totalFee) (f (4))
  ok

example : ExecuteOrderTest_StopSellWithFeeAndLimitedPrecision = true := by decide +kernel

/-- base/account_test.cc 1959 `ExecuteOrderTest.StopSellAtQuoteWithFeeAndLimitedPrecision`. -/
def ExecuteOrderTest_StopSellAtQuoteWithFeeAndLimitedPrecision : Bool :=
  let ok := true
  let config := newAccountConfig
  let config := { config with stopFee := { config.stopFee with relativeFee := (f (1 / 10)) } }
  let config := { config with stopFee := { config.stopFee with fixedFee := (f (1)) } }
  let config := { config with stopFee := { config.stopFee with minimumFee := (f (3 / 2)) } }
  let order := newOrder
  let order := { order with type := some .stop }
  let order := { order with side := some .sell }
  let order := { order with amount := .quote (f (50)) }
  let tick := newTick
  let tick := setupOhlcTick
  let account := newAccount
  let account := { account with marketLiquidity := (f (1)) }
  let account := { account with baseUnit := (f (1 / 10)) }
  let account := { account with quoteUnit := (f (1)) }
  let account := { account with baseBalance := (f (15)) }
  let account := { account with quoteBalance := (f (950)) }
  let account := { account with totalFee := (f (0)) }
  let order := { order with price := some (f (1)) }
  let r := account.executeOrder config order tick
  let ok := ok && returns r false
  let account := after r account
  let order := { order with price := some (f (5)) }
  let r := account.executeOrder config order tick
  let ok := ok && returns r true
  let account := after r account
  let ok := ok && almost (account.baseBalance) (f (19 / 5))
  let ok := ok && almost (account.quoteBalance) (f (999))
  let ok := ok && almost (account.totalFee) (f (7))
  ok

example : ExecuteOrderTest_StopSellAtQuoteWithFeeAndLimitedPrecision = true := by decide +kernel

/-- base/account_test.cc 1995 `ExecuteOrderTest.LimitBuyWithFeeAndLimitedPrecision`. -/
def ExecuteOrderTest_LimitBuyWithFeeAndLimitedPrecision : Bool :=
  let ok := true
  let config := newAccountConfig
  let config := { config with limitFee := { config.limitFee with relativeFee := (f (1 / 10)) } }
  let config := { config with limitFee := { config.limitFee with fixedFee := (f (1)) } }
  let config := { config with limitFee := { config.limitFee with minimumFee := (f (3 / 2)) } }
  let order := newOrder
  let order := { order with type := some .limit }
  let order := { order with side := some .buy }
  let order := { order with amount := .base (f (10)) }
  let tick := newTick
  let tick := setupOhlcTick
  let account := newAccount
  let account := { account with maxVolumeRatio := (f (1 / 10)) }
  let account := { account with baseUnit := (f (1 / 10)) }
  let account := { account with quoteUnit := (f (1)) }
  let account := { account with baseBalance := (f (10)) }
  let account := { account with quoteBalance := (f (1000)) }
  let account := { account with totalFee := (f (0)) }
  let order := { order with price := some (f (1)) }
  let r := account.executeOrder config order tick
  let ok := ok && returns r false
  let account := after r account
  let order := { order with price := some (f (5)) }
  let r := account.executeOrder config order tick
  let ok := ok && returns r true
  let account := after r account
  let ok := ok && almost (account.baseBalance) (f (20))
  let ok := ok && almost (account.quoteBalance) (f (944))
  let ok := ok && almost (account.totalFee) (f (6))
  ok

example : ExecuteOrderTest_LimitBuyWithFeeAndLimitedPrecision = true := by decide +kernel

/-- base/account_test.cc 2031 `ExecuteOrderTest.LimitBuyAtQuoteWithFeeAndLimitedPrecision`. -/
def ExecuteOrderTest_LimitBuyAtQuoteWithFeeAndLimitedPrecision : Bool :=
  let ok := true
  let config := newAccountConfig
  let config := { config with limitFee := { config.limitFee with relativeFee := (f (1 / 10)) } }
  let config := { config with limitFee := { config.limitFee with fixedFee := (f (1)) } }
  let config := { config with limitFee := { config.limitFee with minimumFee := (f (3 / 2)) } }
  let order := newOrder
  let order := { order with type := some .limit }
  let order := { order with side := some .buy }
  let order := { order with amount := .quote (f (57)) }
  let tick := newTick
  let tick := setupOhlcTick
  let account := newAccount
  let account := { account with maxVolumeRatio := (f (1 / 10)) }
  let account := { account with baseUnit := (f (1 / 10)) }
  let account := { account with quoteUnit := (f (1)) }
  let account := { account with baseBalance := (f (10)) }
  let account := { account with quoteBalance := (f (1000)) }
  let account := { account with totalFee := (f (0)) }
  let order := { order with price := some (f (1)) }
  let r := account.executeOrder config order tick
  let ok := ok && returns r false
  let account := after r account
  let order := { order with price := some (f (5)) }
  let r := account.executeOrder config order tick
  let ok := ok && returns r true
  let account := after r account
  let ok := ok && almost (account.baseBalance) (f (20))
  let ok := ok && almost (account.quoteBalance) (f (944))
  let ok := ok && almost (account.totalFee) (f (6))
  ok

example : ExecuteOrderTest_LimitBuyAtQuoteWithFeeAndLimitedPrecision = true := by decide +kernel

/-- base/account_test.cc 2067 `ExecuteOrderTest.LimitSellWithFeeAndLimitedPrecision`. -/
def ExecuteOrderTest_LimitSellWithFeeAndLimitedPrecision : Bool :=
  let ok := true
  let config := newAccountConfig
  let config := { config with limitFee := { config.limitFee with relativeFee := (f (1 / 10)) } }
  let config := { config with limitFee := { config.limitFee with fixedFee := (f (1)) } }
  let config := { config with limitFee := { config.limitFee with minimumFee := (f (3 / 2)) } }
  let order := newOrder
  let order := { order with type := some .limit }
  let order := { order with side := some .sell }
  let order := { order with amount := .base (f (5)) }
  let tick := newTick
  let tick := setupOhlcTick
  let account := newAccount
  let account := { account with maxVolumeRatio := (f (1 / 10)) }
  let account := { account with baseUnit := (f (1 / 10)) }
  let account := { account with quoteUnit := (f (1)) }
  let account := { account with baseBalance := (f (15)) }
  let account := { account with quoteBalance := (f (950)) }
  let account := { account with totalFee := (f (0)) }
  let order := { order with price := some (f (25)) }
  let r := account.executeOrder config order tick
  let ok := ok && returns r false
  let account := after r account
  let order := { order with price := some (f (10)) }
  let r := account.executeOrder config order tick
  let ok := ok && returns r true
  let account := after r account
  let ok := ok && almost (account.baseBalance) (f (10))
  let ok := ok && almost (account.quoteBalance) (f (994))
  let ok := ok && almost (account.totalFee) (f (6))
  ok

example : ExecuteOrderTest_LimitSellWithFeeAndLimitedPrecision = true := by decide +kernel

/-- base/account_test.cc 2103 `ExecuteOrderTest.LimitSellAtQuoteWithFeeAndLimitedPrecision`. -/
def ExecuteOrderTest_LimitSellAtQuoteWithFeeAndLimitedPrecision : Bool :=
  let ok := true
  let config := newAccountConfig
  let config := { config with limitFee := { config.limitFee with relativeFee := (f (1 / 10)) } }
  let config := { config with limitFee := { config.limitFee with fixedFee := (f (1)) } }
  let config := { config with limitFee := { config.limitFee with minimumFee := (f (3 / 2)) } }
  let order := newOrder
  let order := { order with type := some .limit }
  let order := { order with side := some .sell }
  let order := { order with amount := .quote (f (50)) }
  let tick := newTick
  let tick := setupOhlcTick
  let account := newAccount
  let account := { account with maxVolumeRatio := (f (1 / 10)) }
  let account := { account with baseUnit := (f (1 / 10)) }
  let account := { account with quoteUnit := (f (1)) }
  let account := { account with baseBalance := (f (15)) }
  let account := { account with quoteBalance := (f (950)) }
  let account := { account with totalFee := (f (0)) }
  let order := { order with price := some (f (25)) }
  let r := account.executeOrder config order tick
  let ok := ok && returns r false
  let account := after r account
  let order := { order with price := some (f (10)) }
  let r := account.executeOrder config order tick
  let ok := ok && returns r true
  let account := after r account
  let ok := ok && almost (account.baseBalance) (f (47 / 5))
  let ok := ok && almost (account.quoteBalance) (f (999))
  let ok := ok && almost (account.totalFee) (f (7))
  ok

example : ExecuteOrderTest_LimitSellAtQuoteWithFeeAndLimitedPrecision = true := by decide +kernel

end Verif.Conformance
