import Verif.Conformance.Prelude
import Verif.Conformance.Indicators

/-!
# indicators/volatility_test.cc, translated

Generated by tools/gen_conformance.py.
-/

namespace Verif.Conformance
open Verif FloatOps
set_option linter.unusedVariables false
set_option linter.style.longLine false

/-- indicators/volatility_test.cc 11 `RelativeStrengthIndexTest.GetVolatilityWhenAdding8HourOhlcTicks`. -/
def RelativeStrengthIndexTest_GetVolatilityWhenAdding8HourOhlcTicks : Bool :=
  let ok := true
  let ok := ok && exampleHistory.2
  let history := exampleHistory.1
  let r := Vol.make (F := F32) (3) (86400)
  let ok := ok && isOk r
  let ind := okOr r defaultVol
  let base_balance_1 : F32 := (f (5))
  let quote_balance_2 : F32 := (f (1000))
  let ok := ok && almost (Vol.get ind) (f (0))
  let ok := ok && ((ind.state.num : ℕ) : ℤ) == 0
  let r := Vol.update ind (tickAt history 0) base_balance_1 quote_balance_2
  let ok := ok && isOk r
  let ind := okOr r ind
  let ok := ok && almost (Vol.get ind) (f (0))
  let ok := ok && ((ind.state.num : ℕ) : ℤ) == 1
  let r := Vol.update ind (tickAt history 1) base_balance_1 quote_balance_2
  let ok := ok && isOk r
  let ind := okOr r ind
  let ok := ok && almost (Vol.get ind) (f (0))
  let ok := ok && ((ind.state.num : ℕ) : ℤ) == 1
  let r := Vol.update ind (tickAt history 2) base_balance_1 quote_balance_2
  let ok := ok && isOk r
  let ind := okOr r ind
  let ok := ok && almost (Vol.get ind) (f (0))
  let ok := ok && ((ind.state.num : ℕ) : ℤ) == 1
  let r := Vol.update ind (tickAt history 3) base_balance_1 quote_balance_2
  let ok := ok && isOk r
  let ind := okOr r ind
  let m_3 : F32 := (((Libm.log (((base_balance_1 *. (f (140))) +. quote_balance_2) /. ((base_balance_1 *. (f (100))) +. quote_balance_2))) +. (Libm.log (((base_balance_1 *. (f (100))) +. quote_balance_2) /. ((base_balance_1 *. (f (140))) +. quote_balance_2)))) /. (f (2)))
  let v_4 : F32 := (Wide.narrow (((Libm.pow (Wide.widen ((Libm.log (((base_balance_1 *. (f (140))) +. quote_balance_2) /. ((base_balance_1 *. (f (100))) +. quote_balance_2))) -. m_3)) (d (2))) +. (Libm.pow (Wide.widen ((Libm.log (((base_balance_1 *. (f (100))) +. quote_balance_2) /. ((base_balance_1 *. (f (140))) +. quote_balance_2))) -. m_3)) (d (2)))) /. (d (2))))
  let ok := ok && almost (Vol.get ind) (Libm.sqrt v_4)
  let ok := ok && ((ind.state.num : ℕ) : ℤ) == 2
  let r := Vol.update ind (tickAt history 4) base_balance_1 quote_balance_2
  let ok := ok && isOk r
  let ind := okOr r ind
  let m_5 : F32 := (((Libm.log (((base_balance_1 *. (f (140))) +. quote_balance_2) /. ((base_balance_1 *. (f (100))) +. quote_balance_2))) +. (Libm.log (((base_balance_1 *. (f (50))) +. quote_balance_2) /. ((base_balance_1 *. (f (140))) +. quote_balance_2)))) /. (f (2)))
  let v_6 : F32 := (Wide.narrow ((((Libm.pow (Wide.widen (Libm.log (((base_balance_1 *. (f (140))) +. quote_balance_2) /. ((base_balance_1 *. (f (100))) +. quote_balance_2)))) (d (2))) +. (Libm.pow (Wide.widen (Libm.log (((base_balance_1 *. (f (50))) +. quote_balance_2) /. ((base_balance_1 *. (f (140))) +. quote_balance_2)))) (d (2)))) /. (d (2))) -. (Libm.pow (Wide.widen m_5) (d (2)))))
  let ok := ok && almost (Vol.get ind) (Libm.sqrt v_6)
  let ok := ok && ((ind.state.num : ℕ) : ℤ) == 2
  let r := Vol.update ind (tickAt history 5) base_balance_1 quote_balance_2
  let ok := ok && isOk r
  let ind := okOr r ind
  let m_7 : F32 := (((Libm.log (((base_balance_1 *. (f (140))) +. quote_balance_2) /. ((base_balance_1 *. (f (100))) +. quote_balance_2))) +. (Libm.log (((base_balance_1 *. (f (80))) +. quote_balance_2) /. ((base_balance_1 *. (f (140))) +. quote_balance_2)))) /. (f (2)))
  let v_8 : F32 := (Wide.narrow ((((Libm.pow (Wide.widen (Libm.log (((base_balance_1 *. (f (140))) +. quote_balance_2) /. ((base_balance_1 *. (f (100))) +. quote_balance_2)))) (d (2))) +. (Libm.pow (Wide.widen (Libm.log (((base_balance_1 *. (f (80))) +. quote_balance_2) /. ((base_balance_1 *. (f (140))) +. quote_balance_2)))) (d (2)))) /. (d (2))) -. (Libm.pow (Wide.widen m_7) (d (2)))))
  let ok := ok && almost (Vol.get ind) (Libm.sqrt v_8)
  let ok := ok && ((ind.state.num : ℕ) : ℤ) == 2
  let r := Vol.update ind (tickAt history 6) base_balance_1 quote_balance_2
  let ok := ok && isOk r
  let ind := okOr r ind
  let m_9 : F32 := ((((Libm.log (((base_balance_1 *. (f (140))) +. quote_balance_2) /. ((base_balance_1 *. (f (100))) +. quote_balance_2))) +. (Libm.log (((base_balance_1 *. (f (80))) +. quote_balance_2) /. ((base_balance_1 *. (f (140))) +. quote_balance_2)))) +. (Libm.log (((base_balance_1 *. (f (150))) +. quote_balance_2) /. ((base_balance_1 *. (f (80))) +. quote_balance_2)))) /. (f (3)))
  let v_10 : F32 := (Wide.narrow (((((Libm.pow (Wide.widen (Libm.log (((base_balance_1 *. (f (140))) +. quote_balance_2) /. ((base_balance_1 *. (f (100))) +. quote_balance_2)))) (d (2))) +. (Libm.pow (Wide.widen (Libm.log (((base_balance_1 *. (f (80))) +. quote_balance_2) /. ((base_balance_1 *. (f (140))) +. quote_balance_2)))) (d (2)))) +. (Libm.pow (Wide.widen (Libm.log (((base_balance_1 *. (f (150))) +. quote_balance_2) /. ((base_balance_1 *. (f (80))) +. quote_balance_2)))) (d (2)))) /. (d (3))) -. (Libm.pow (Wide.widen m_9) (d (2)))))
  let ok := ok && almost (Vol.get ind) (Libm.sqrt v_10)
  let ok := ok && ((ind.state.num : ℕ) : ℤ) == 3
  let base_balance_11 : F32 := (base_balance_1 +. (f (1)))
  let quote_balance_12 : F32 := (quote_balance_2 -. (f (150)))
  let m_13 : F32 := ((((Libm.log (((base_balance_1 *. (f (140))) +. quote_balance_2) /. ((base_balance_1 *. (f (100))) +. quote_balance_2))) +. (Libm.log (((base_balance_1 *. (f (80))) +. quote_balance_2) /. ((base_balance_1 *. (f (140))) +. quote_balance_2)))) +. (Libm.log (((base_balance_11 *. (f (150))) +. quote_balance_12) /. ((base_balance_1 *. (f (80))) +. quote_balance_2)))) /. (f (3)))
  let v_14 : F32 := (Wide.narrow (((((Libm.pow (Wide.widen (Libm.log (((base_balance_1 *. (f (140))) +. quote_balance_2) /. ((base_balance_1 *. (f (100))) +. quote_balance_2)))) (d (2))) +. (Libm.pow (Wide.widen (Libm.log (((base_balance_1 *. (f (80))) +. quote_balance_2) /. ((base_balance_1 *. (f (140))) +. quote_balance_2)))) (d (2)))) +. (Libm.pow (Wide.widen (Libm.log (((base_balance_11 *. (f (150))) +. quote_balance_12) /. ((base_balance_1 *. (f (80))) +. quote_balance_2)))) (d (2)))) /. (d (3))) -. (Libm.pow (Wide.widen m_13) (d (2)))))
  let ok := ok && almost (Vol.get ind) (Libm.sqrt v_14)
  let r := Vol.update ind (tickAt history 7) base_balance_11 quote_balance_12
  let ok := ok && isOk r
  let ind := okOr r ind
  let m_15 : F32 := ((((Libm.log (((base_balance_1 *. (f (140))) +. quote_balance_2) /. ((base_balance_1 *. (f (100))) +. quote_balance_2))) +. (Libm.log (((base_balance_1 *. (f (80))) +. quote_balance_2) /. ((base_balance_1 *. (f (140))) +. quote_balance_2)))) +. (Libm.log (((base_balance_11 *. (f (240))) +. quote_balance_12) /. ((base_balance_1 *. (f (80))) +. quote_balance_2)))) /. (f (3)))
  let v_16 : F32 := (Wide.narrow (((((Libm.pow (Wide.widen (Libm.log (((base_balance_1 *. (f (140))) +. quote_balance_2) /. ((base_balance_1 *. (f (100))) +. quote_balance_2)))) (d (2))) +. (Libm.pow (Wide.widen (Libm.log (((base_balance_1 *. (f (80))) +. quote_balance_2) /. ((base_balance_1 *. (f (140))) +. quote_balance_2)))) (d (2)))) +. (Libm.pow (Wide.widen (Libm.log (((base_balance_11 *. (f (240))) +. quote_balance_12) /. ((base_balance_1 *. (f (80))) +. quote_balance_2)))) (d (2)))) /. (d (3))) -. (Libm.pow (Wide.widen m_15) (d (2)))))
  let ok := ok && almost (Vol.get ind) (Libm.sqrt v_16)
  let ok := ok && ((ind.state.num : ℕ) : ℤ) == 3
  let r := Vol.update ind (tickAt history 8) base_balance_11 quote_balance_12
  let ok := ok && isOk r
  let ind := okOr r ind
  let m_17 : F32 := ((((Libm.log (((base_balance_1 *. (f (140))) +. quote_balance_2) /. ((base_balance_1 *. (f (100))) +. quote_balance_2))) +. (Libm.log (((base_balance_1 *. (f (80))) +. quote_balance_2) /. ((base_balance_1 *. (f (140))) +. quote_balance_2)))) +. (Libm.log (((base_balance_11 *. (f (400))) +. quote_balance_12) /. ((base_balance_1 *. (f (80))) +. quote_balance_2)))) /. (f (3)))
  let v_18 : F32 := (Wide.narrow (((((Libm.pow (Wide.widen (Libm.log (((base_balance_1 *. (f (140))) +. quote_balance_2) /. ((base_balance_1 *. (f (100))) +. quote_balance_2)))) (d (2))) +. (Libm.pow (Wide.widen (Libm.log (((base_balance_1 *. (f (80))) +. quote_balance_2) /. ((base_balance_1 *. (f (140))) +. quote_balance_2)))) (d (2)))) +. (Libm.pow (Wide.widen (Libm.log (((base_balance_11 *. (f (400))) +. quote_balance_12) /. ((base_balance_1 *. (f (80))) +. quote_balance_2)))) (d (2)))) /. (d (3))) -. (Libm.pow (Wide.widen m_17) (d (2)))))
  let ok := ok && almost (Vol.get ind) (Libm.sqrt v_18)
  let ok := ok && ((ind.state.num : ℕ) : ℤ) == 3
  let r := Vol.update ind (tickAt history 9) base_balance_11 quote_balance_12
  let ok := ok && isOk r
  let ind := okOr r ind
  let m_19 : F32 := ((((Libm.log (((base_balance_1 *. (f (80))) +. quote_balance_2) /. ((base_balance_1 *. (f (140))) +. quote_balance_2))) +. (Libm.log (((base_balance_11 *. (f (400))) +. quote_balance_12) /. ((base_balance_1 *. (f (80))) +. quote_balance_2)))) +. (Libm.log (((base_balance_11 *. (f (300))) +. quote_balance_12) /. ((base_balance_11 *. (f (400))) +. quote_balance_12)))) /. (f (3)))
  let v_20 : F32 := (Wide.narrow (((((Libm.pow (Wide.widen (Libm.log (((base_balance_1 *. (f (80))) +. quote_balance_2) /. ((base_balance_1 *. (f (140))) +. quote_balance_2)))) (d (2))) +. (Libm.pow (Wide.widen (Libm.log (((base_balance_11 *. (f (400))) +. quote_balance_12) /. ((base_balance_1 *. (f (80))) +. quote_balance_2)))) (d (2)))) +. (Libm.pow (Wide.widen (Libm.log (((base_balance_11 *. (f (300))) +. quote_balance_12) /. ((base_balance_11 *. (f (400))) +. quote_balance_12)))) (d (2)))) /. (d (3))) -. (Libm.pow (Wide.widen m_19) (d (2)))))
  let ok := ok && almost (Vol.get ind) (Libm.sqrt v_20)
  let ok := ok && ((ind.state.num : ℕ) : ℤ) == 4
  let r := Vol.update ind (tickAt history 10) base_balance_11 quote_balance_12
  let ok := ok && isOk r
  let ind := okOr r ind
  let m_21 : F32 := ((((Libm.log (((base_balance_1 *. (f (80))) +. quote_balance_2) /. ((base_balance_1 *. (f (140))) +. quote_balance_2))) +. (Libm.log (((base_balance_11 *. (f (400))) +. quote_balance_12) /. ((base_balance_1 *. (f (80))) +. quote_balance_2)))) +. (Libm.log (((base_balance_11 *. (f (650))) +. quote_balance_12) /. ((base_balance_11 *. (f (400))) +. quote_balance_12)))) /. (f (3)))
  let v_22 : F32 := (Wide.narrow (((((Libm.pow (Wide.widen (Libm.log (((base_balance_1 *. (f (80))) +. quote_balance_2) /. ((base_balance_1 *. (f (140))) +. quote_balance_2)))) (d (2))) +. (Libm.pow (Wide.widen (Libm.log (((base_balance_11 *. (f (400))) +. quote_balance_12) /. ((base_balance_1 *. (f (80))) +. quote_balance_2)))) (d (2)))) +. (Libm.pow (Wide.widen (Libm.log (((base_balance_11 *. (f (650))) +. quote_balance_12) /. ((base_balance_11 *. (f (400))) +. quote_balance_12)))) (d (2)))) /. (d (3))) -. (Libm.pow (Wide.widen m_21) (d (2)))))
  let ok := ok && almost (Vol.get ind) (Libm.sqrt v_22)
  let ok := ok && ((ind.state.num : ℕ) : ℤ) == 4
  let r := Vol.update ind (tickAt history 11) base_balance_11 quote_balance_12
  let ok := ok && isOk r
  let ind := okOr r ind
  let m_23 : F32 := ((((Libm.log (((base_balance_11 *. (f (650))) +. quote_balance_12) /. ((base_balance_11 *. (f (400))) +. quote_balance_12))) +. (Libm.log (((base_balance_11 *. (f (650))) +. quote_balance_12) /. ((base_balance_11 *. (f (650))) +. quote_balance_12)))) +. (Libm.log (((base_balance_11 *. (f (750))) +. quote_balance_12) /. ((base_balance_11 *. (f (650))) +. quote_balance_12)))) /. (f (3)))
  let v_24 : F32 := (Wide.narrow (((((Libm.pow (Wide.widen (Libm.log (((base_balance_11 *. (f (650))) +. quote_balance_12) /. ((base_balance_11 *. (f (400))) +. quote_balance_12)))) (d (2))) +. (Libm.pow (Wide.widen (Libm.log (((base_balance_11 *. (f (650))) +. quote_balance_12) /. ((base_balance_11 *. (f (650))) +. quote_balance_12)))) (d (2)))) +. (Libm.pow (Wide.widen (Libm.log (((base_balance_11 *. (f (750))) +. quote_balance_12) /. ((base_balance_11 *. (f (650))) +. quote_balance_12)))) (d (2)))) /. (d (3))) -. (Libm.pow (Wide.widen m_23) (d (2)))))
  let ok := ok && almost (Vol.get ind) (Libm.sqrt v_24)
  let ok := ok && ((ind.state.num : ℕ) : ℤ) == 6
  ok

example : RelativeStrengthIndexTest_GetVolatilityWhenAdding8HourOhlcTicks = true := by decide +kernel

end Verif.Conformance
