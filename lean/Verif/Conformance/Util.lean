import Verif.Conformance.Prelude
import Verif.Conformance.Indicators

/-!
# indicators/util_test.cc, translated

Generated by tools/gen_conformance.py.
-/

namespace Verif.Conformance
open Verif FloatOps
set_option linter.unusedVariables false
set_option linter.style.longLine false

/-- indicators/util_test.cc 9 `SlidingWindowMeanAndVarianceTest.GetMeanAndVarianceWithoutWindow`. -/
def SlidingWindowMeanAndVarianceTest_GetMeanAndVarianceWithoutWindow : Bool :=
  let ok := true
  let mv : MeanVar F32 := MeanVar.make 0
  let m_1 : F32 := (f (0))
  let v_2 : F32 := (f (0))
  let ok := ok && almost mv.getMean m_1
  let ok := ok && almost mv.getVariance v_2
  let ok := ok && almost mv.getStdDev (Libm.sqrt v_2)
  let ok := ok && (mv.num : ℤ) == 0
  let ok := ok && (mv.getWindowSize : ℤ) == 0
  let mv := mv.add (f (100))
  let m_3 : F32 := (f (100))
  let v_4 : F32 := (f (0))
  let ok := ok && almost mv.getMean m_3
  let ok := ok && almost mv.getVariance v_4
  let ok := ok && almost mv.getStdDev (Libm.sqrt v_4)
  let ok := ok && (mv.num : ℤ) == 1
  let ok := ok && (mv.getWindowSize : ℤ) == 1
  let r := mv.update (f (200))
  let ok := ok && isOk r
  let mv := okOr r mv
  let m_5 : F32 := (f (200))
  let v_6 : F32 := (f (0))
  let ok := ok && almost mv.getMean m_5
  let ok := ok && almost mv.getVariance v_6
  let ok := ok && almost mv.getStdDev (Libm.sqrt v_6)
  let ok := ok && (mv.num : ℤ) == 1
  let ok := ok && (mv.getWindowSize : ℤ) == 1
  let mv := mv.add (f (100))
  let m_7 : F32 := (((f (200)) +. (f (100))) /. (f (2)))
  let v_8 : F32 := (Wide.narrow (((Libm.pow (Wide.widen ((f (200)) -. m_7)) (d (2))) +. (Libm.pow (Wide.widen ((f (100)) -. m_7)) (d (2)))) /. (d (2))))
  let ok := ok && almost mv.getMean m_7
  let ok := ok && almost mv.getVariance v_8
  let ok := ok && almost mv.getStdDev (Libm.sqrt v_8)
  let ok := ok && (mv.num : ℤ) == 2
  let ok := ok && (mv.getWindowSize : ℤ) == 2
  let r := mv.update (f (400))
  let ok := ok && isOk r
  let mv := okOr r mv
  let m_9 : F32 := (((f (200)) +. (f (400))) /. (f (2)))
  let v_10 : F32 := (Wide.narrow (((Libm.pow (Wide.widen ((f (200)) -. m_9)) (d (2))) +. (Libm.pow (Wide.widen ((f (400)) -. m_9)) (d (2)))) /. (d (2))))
  let ok := ok && almost mv.getMean m_9
  let ok := ok && almost mv.getVariance v_10
  let ok := ok && almost mv.getStdDev (Libm.sqrt v_10)
  let ok := ok && (mv.num : ℤ) == 2
  let ok := ok && (mv.getWindowSize : ℤ) == 2
  let mv := mv.add (f (300))
  let m_11 : F32 := ((((f (200)) +. (f (400))) +. (f (300))) /. (f (3)))
  let v_12 : F32 := (Wide.narrow ((((Libm.pow (Wide.widen ((f (200)) -. m_11)) (d (2))) +. (Libm.pow (Wide.widen ((f (400)) -. m_11)) (d (2)))) +. (Libm.pow (Wide.widen ((f (300)) -. m_11)) (d (2)))) /. (d (3))))
  let ok := ok && almost mv.getMean m_11
  let ok := ok && almost mv.getVariance v_12
  let ok := ok && almost mv.getStdDev (Libm.sqrt v_12)
  let ok := ok && (mv.num : ℤ) == 3
  let ok := ok && (mv.getWindowSize : ℤ) == 3
  let r := mv.update (f (600))
  let ok := ok && isOk r
  let mv := okOr r mv
  let m_13 : F32 := ((((f (200)) +. (f (400))) +. (f (600))) /. (f (3)))
  let v_14 : F32 := (Wide.narrow ((((Libm.pow (Wide.widen ((f (200)) -. m_13)) (d (2))) +. (Libm.pow (Wide.widen ((f (400)) -. m_13)) (d (2)))) +. (Libm.pow (Wide.widen ((f (600)) -. m_13)) (d (2)))) /. (d (3))))
  let ok := ok && almost mv.getMean m_13
  let ok := ok && almost mv.getVariance v_14
  let ok := ok && almost mv.getStdDev (Libm.sqrt v_14)
  let ok := ok && (mv.num : ℤ) == 3
  let ok := ok && (mv.getWindowSize : ℤ) == 3
  let mv := mv.add (f (100))
  let m_15 : F32 := (((((f (200)) +. (f (400))) +. (f (600))) +. (f (100))) /. (f (4)))
  let v_16 : F32 := (Wide.narrow (((((Libm.pow (Wide.widen ((f (200)) -. m_15)) (d (2))) +. (Libm.pow (Wide.widen ((f (400)) -. m_15)) (d (2)))) +. (Libm.pow (Wide.widen ((f (600)) -. m_15)) (d (2)))) +. (Libm.pow (Wide.widen ((f (100)) -. m_15)) (d (2)))) /. (d (4))))
  let ok := ok && almost mv.getMean m_15
  let ok := ok && almost mv.getVariance v_16
  let ok := ok && almost mv.getStdDev (Libm.sqrt v_16)
  let ok := ok && (mv.num : ℤ) == 4
  let ok := ok && (mv.getWindowSize : ℤ) == 4
  let r := mv.update (f (200))
  let ok := ok && isOk r
  let mv := okOr r mv
  let m_17 : F32 := (((((f (200)) +. (f (400))) +. (f (600))) +. (f (200))) /. (f (4)))
  let v_18 : F32 := (Wide.narrow (((((Libm.pow (Wide.widen ((f (200)) -. m_17)) (d (2))) +. (Libm.pow (Wide.widen ((f (400)) -. m_17)) (d (2)))) +. (Libm.pow (Wide.widen ((f (600)) -. m_17)) (d (2)))) +. (Libm.pow (Wide.widen ((f (200)) -. m_17)) (d (2)))) /. (d (4))))
  let ok := ok && almost mv.getMean m_17
  let ok := ok && almost mv.getVariance v_18
  let ok := ok && almost mv.getStdDev (Libm.sqrt v_18)
  let ok := ok && (mv.num : ℤ) == 4
  let ok := ok && (mv.getWindowSize : ℤ) == 4
  let mv := mv.add (f (400))
  let m_19 : F32 := ((((((f (200)) +. (f (400))) +. (f (600))) +. (f (200))) +. (f (400))) /. (f (5)))
  let v_20 : F32 := (Wide.narrow ((((((Libm.pow (Wide.widen ((f (200)) -. m_19)) (d (2))) +. (Libm.pow (Wide.widen ((f (400)) -. m_19)) (d (2)))) +. (Libm.pow (Wide.widen ((f (600)) -. m_19)) (d (2)))) +. (Libm.pow (Wide.widen ((f (200)) -. m_19)) (d (2)))) +. (Libm.pow (Wide.widen ((f (400)) -. m_19)) (d (2)))) /. (d (5))))
  let ok := ok && almost mv.getMean m_19
  let ok := ok && almost mv.getVariance v_20
  let ok := ok && almost mv.getStdDev (Libm.sqrt v_20)
  let ok := ok && (mv.num : ℤ) == 5
  let ok := ok && (mv.getWindowSize : ℤ) == 5
  let r := mv.update (f (100))
  let ok := ok && isOk r
  let mv := okOr r mv
  let m_21 : F32 := ((((((f (200)) +. (f (400))) +. (f (600))) +. (f (200))) +. (f (100))) /. (f (5)))
  let v_22 : F32 := (Wide.narrow ((((((Libm.pow (Wide.widen ((f (200)) -. m_21)) (d (2))) +. (Libm.pow (Wide.widen ((f (400)) -. m_21)) (d (2)))) +. (Libm.pow (Wide.widen ((f (600)) -. m_21)) (d (2)))) +. (Libm.pow (Wide.widen ((f (200)) -. m_21)) (d (2)))) +. (Libm.pow (Wide.widen ((f (100)) -. m_21)) (d (2)))) /. (d (5))))
  let ok := ok && almost mv.getMean m_21
  let ok := ok && almost mv.getVariance v_22
  let ok := ok && almost mv.getStdDev (Libm.sqrt v_22)
  let ok := ok && (mv.num : ℤ) == 5
  let ok := ok && (mv.getWindowSize : ℤ) == 5
  let mv := mv.add (f (500))
  let m_23 : F32 := (((((((f (200)) +. (f (400))) +. (f (600))) +. (f (200))) +. (f (100))) +. (f (500))) /. (f (6)))
  let v_24 : F32 := (Wide.narrow (((((((Libm.pow (Wide.widen ((f (200)) -. m_23)) (d (2))) +. (Libm.pow (Wide.widen ((f (400)) -. m_23)) (d (2)))) +. (Libm.pow (Wide.widen ((f (600)) -. m_23)) (d (2)))) +. (Libm.pow (Wide.widen ((f (200)) -. m_23)) (d (2)))) +. (Libm.pow (Wide.widen ((f (100)) -. m_23)) (d (2)))) +. (Libm.pow (Wide.widen ((f (500)) -. m_23)) (d (2)))) /. (d (6))))
  let ok := ok && almost mv.getMean m_23
  let ok := ok && almost mv.getVariance v_24
  let ok := ok && almost mv.getStdDev (Libm.sqrt v_24)
  let ok := ok && (mv.num : ℤ) == 6
  let ok := ok && (mv.getWindowSize : ℤ) == 6
  let r := mv.update (f (300))
  let ok := ok && isOk r
  let mv := okOr r mv
  let m_25 : F32 := (((((((f (200)) +. (f (400))) +. (f (600))) +. (f (200))) +. (f (100))) +. (f (300))) /. (f (6)))
  let v_26 : F32 := (Wide.narrow (((((((Libm.pow (Wide.widen ((f (200)) -. m_25)) (d (2))) +. (Libm.pow (Wide.widen ((f (400)) -. m_25)) (d (2)))) +. (Libm.pow (Wide.widen ((f (600)) -. m_25)) (d (2)))) +. (Libm.pow (Wide.widen ((f (200)) -. m_25)) (d (2)))) +. (Libm.pow (Wide.widen ((f (100)) -. m_25)) (d (2)))) +. (Libm.pow (Wide.widen ((f (300)) -. m_25)) (d (2)))) /. (d (6))))
  let ok := ok && almost mv.getMean m_25
  let ok := ok && almost mv.getVariance v_26
  let ok := ok && almost mv.getStdDev (Libm.sqrt v_26)
  let ok := ok && (mv.num : ℤ) == 6
  let ok := ok && (mv.getWindowSize : ℤ) == 6
  ok

example : SlidingWindowMeanAndVarianceTest_GetMeanAndVarianceWithoutWindow = true := by decide +kernel

/-- indicators/util_test.cc 148 `SlidingWindowMeanAndVarianceTest.GetMeanAndVarianceWithWindowSize1`. -/
def SlidingWindowMeanAndVarianceTest_GetMeanAndVarianceWithWindowSize1 : Bool :=
  let ok := true
  let mv : MeanVar F32 := MeanVar.make 1
  let ok := ok && almost mv.getMean (f (0))
  let ok := ok && almost mv.getVariance (f (0))
  let ok := ok && almost mv.getStdDev (f (0))
  let ok := ok && (mv.num : ℤ) == 0
  let ok := ok && (mv.getWindowSize : ℤ) == 0
  let mv := mv.add (f (100))
  let ok := ok && almost mv.getMean (f (100))
  let ok := ok && almost mv.getVariance (f (0))
  let ok := ok && almost mv.getStdDev (f (0))
  let ok := ok && (mv.num : ℤ) == 1
  let ok := ok && (mv.getWindowSize : ℤ) == 1
  let r := mv.update (f (200))
  let ok := ok && isOk r
  let mv := okOr r mv
  let ok := ok && almost mv.getMean (f (200))
  let ok := ok && almost mv.getVariance (f (0))
  let ok := ok && almost mv.getStdDev (f (0))
  let ok := ok && (mv.num : ℤ) == 1
  let ok := ok && (mv.getWindowSize : ℤ) == 1
  let mv := mv.add (f (100))
  let ok := ok && almost mv.getMean (f (100))
  let ok := ok && almost mv.getVariance (f (0))
  let ok := ok && almost mv.getStdDev (f (0))
  let ok := ok && (mv.num : ℤ) == 2
  let ok := ok && (mv.getWindowSize : ℤ) == 1
  let r := mv.update (f (400))
  let ok := ok && isOk r
  let mv := okOr r mv
  let ok := ok && almost mv.getMean (f (400))
  let ok := ok && almost mv.getVariance (f (0))
  let ok := ok && almost mv.getStdDev (f (0))
  let ok := ok && (mv.num : ℤ) == 2
  let ok := ok && (mv.getWindowSize : ℤ) == 1
  let mv := mv.add (f (300))
  let ok := ok && almost mv.getMean (f (300))
  let ok := ok && almost mv.getVariance (f (0))
  let ok := ok && almost mv.getStdDev (f (0))
  let ok := ok && (mv.num : ℤ) == 3
  let ok := ok && (mv.getWindowSize : ℤ) == 1
  let r := mv.update (f (600))
  let ok := ok && isOk r
  let mv := okOr r mv
  let ok := ok && almost mv.getMean (f (600))
  let ok := ok && almost mv.getVariance (f (0))
  let ok := ok && almost mv.getStdDev (f (0))
  let ok := ok && (mv.num : ℤ) == 3
  let ok := ok && (mv.getWindowSize : ℤ) == 1
  let mv := mv.add (f (100))
  let ok := ok && almost mv.getMean (f (100))
  let ok := ok && almost mv.getVariance (f (0))
  let ok := ok && almost mv.getStdDev (f (0))
  let ok := ok && (mv.num : ℤ) == 4
  let ok := ok && (mv.getWindowSize : ℤ) == 1
  let r := mv.update (f (200))
  let ok := ok && isOk r
  let mv := okOr r mv
  let ok := ok && almost mv.getMean (f (200))
  let ok := ok && almost mv.getVariance (f (0))
  let ok := ok && almost mv.getStdDev (f (0))
  let ok := ok && (mv.num : ℤ) == 4
  let ok := ok && (mv.getWindowSize : ℤ) == 1
  let mv := mv.add (f (400))
  let ok := ok && almost mv.getMean (f (400))
  let ok := ok && almost mv.getVariance (f (0))
  let ok := ok && almost mv.getStdDev (f (0))
  let ok := ok && (mv.num : ℤ) == 5
  let ok := ok && (mv.getWindowSize : ℤ) == 1
  let r := mv.update (f (100))
  let ok := ok && isOk r
  let mv := okOr r mv
  let ok := ok && almost mv.getMean (f (100))
  let ok := ok && almost mv.getVariance (f (0))
  let ok := ok && almost mv.getStdDev (f (0))
  let ok := ok && (mv.num : ℤ) == 5
  let ok := ok && (mv.getWindowSize : ℤ) == 1
  let mv := mv.add (f (500))
  let ok := ok && almost mv.getMean (f (500))
  let ok := ok && almost mv.getVariance (f (0))
  let ok := ok && almost mv.getStdDev (f (0))
  let ok := ok && (mv.num : ℤ) == 6
  let ok := ok && (mv.getWindowSize : ℤ) == 1
  let r := mv.update (f (300))
  let ok := ok && isOk r
  let mv := okOr r mv
  let ok := ok && almost mv.getMean (f (300))
  let ok := ok && almost mv.getVariance (f (0))
  let ok := ok && almost mv.getStdDev (f (0))
  let ok := ok && (mv.num : ℤ) == 6
  let ok := ok && (mv.getWindowSize : ℤ) == 1
  ok

example : SlidingWindowMeanAndVarianceTest_GetMeanAndVarianceWithWindowSize1 = true := by decide +kernel

/-- indicators/util_test.cc 241 `SlidingWindowMeanAndVarianceTest.GetMeanAndVarianceWithWindowSize4`. -/
def SlidingWindowMeanAndVarianceTest_GetMeanAndVarianceWithWindowSize4 : Bool :=
  let ok := true
  let mv : MeanVar F32 := MeanVar.make 4
  let m_1 : F32 := (f (0))
  let v_2 : F32 := (f (0))
  let ok := ok && almost mv.getMean m_1
  let ok := ok && almost mv.getVariance v_2
  let ok := ok && almost mv.getStdDev (Libm.sqrt v_2)
  let ok := ok && (mv.num : ℤ) == 0
  let ok := ok && (mv.getWindowSize : ℤ) == 0
  let mv := mv.add (f (100))
  let m_3 : F32 := (f (100))
  let v_4 : F32 := (f (0))
  let ok := ok && almost mv.getMean m_3
  let ok := ok && almost mv.getVariance v_4
  let ok := ok && almost mv.getStdDev (Libm.sqrt v_4)
  let ok := ok && (mv.num : ℤ) == 1
  let ok := ok && (mv.getWindowSize : ℤ) == 1
  let r := mv.update (f (200))
  let ok := ok && isOk r
  let mv := okOr r mv
  let m_5 : F32 := (f (200))
  let v_6 : F32 := (f (0))
  let ok := ok && almost mv.getMean m_5
  let ok := ok && almost mv.getVariance v_6
  let ok := ok && almost mv.getStdDev (Libm.sqrt v_6)
  let ok := ok && (mv.num : ℤ) == 1
  let ok := ok && (mv.getWindowSize : ℤ) == 1
  let mv := mv.add (f (100))
  let m_7 : F32 := (((f (200)) +. (f (100))) /. (f (2)))
  let v_8 : F32 := (Wide.narrow (((Libm.pow (Wide.widen ((f (200)) -. m_7)) (d (2))) +. (Libm.pow (Wide.widen ((f (100)) -. m_7)) (d (2)))) /. (d (2))))
  let ok := ok && almost mv.getMean m_7
  let ok := ok && almost mv.getVariance v_8
  let ok := ok && almost mv.getStdDev (Libm.sqrt v_8)
  let ok := ok && (mv.num : ℤ) == 2
  let ok := ok && (mv.getWindowSize : ℤ) == 2
  let r := mv.update (f (400))
  let ok := ok && isOk r
  let mv := okOr r mv
  let m_9 : F32 := (((f (200)) +. (f (400))) /. (f (2)))
  let v_10 : F32 := (Wide.narrow (((Libm.pow (Wide.widen ((f (200)) -. m_9)) (d (2))) +. (Libm.pow (Wide.widen ((f (400)) -. m_9)) (d (2)))) /. (d (2))))
  let ok := ok && almost mv.getMean m_9
  let ok := ok && almost mv.getVariance v_10
  let ok := ok && almost mv.getStdDev (Libm.sqrt v_10)
  let ok := ok && (mv.num : ℤ) == 2
  let ok := ok && (mv.getWindowSize : ℤ) == 2
  let mv := mv.add (f (300))
  let m_11 : F32 := ((((f (200)) +. (f (400))) +. (f (300))) /. (f (3)))
  let v_12 : F32 := (Wide.narrow ((((Libm.pow (Wide.widen ((f (200)) -. m_11)) (d (2))) +. (Libm.pow (Wide.widen ((f (400)) -. m_11)) (d (2)))) +. (Libm.pow (Wide.widen ((f (300)) -. m_11)) (d (2)))) /. (d (3))))
  let ok := ok && almost mv.getMean m_11
  let ok := ok && almost mv.getVariance v_12
  let ok := ok && almost mv.getStdDev (Libm.sqrt v_12)
  let ok := ok && (mv.num : ℤ) == 3
  let ok := ok && (mv.getWindowSize : ℤ) == 3
  let r := mv.update (f (600))
  let ok := ok && isOk r
  let mv := okOr r mv
  let m_13 : F32 := ((((f (200)) +. (f (400))) +. (f (600))) /. (f (3)))
  let v_14 : F32 := (Wide.narrow ((((Libm.pow (Wide.widen ((f (200)) -. m_13)) (d (2))) +. (Libm.pow (Wide.widen ((f (400)) -. m_13)) (d (2)))) +. (Libm.pow (Wide.widen ((f (600)) -. m_13)) (d (2)))) /. (d (3))))
  let ok := ok && almost mv.getMean m_13
  let ok := ok && almost mv.getVariance v_14
  let ok := ok && almost mv.getStdDev (Libm.sqrt v_14)
  let ok := ok && (mv.num : ℤ) == 3
  let ok := ok && (mv.getWindowSize : ℤ) == 3
  let mv := mv.add (f (100))
  let m_15 : F32 := (((((f (200)) +. (f (400))) +. (f (600))) +. (f (100))) /. (f (4)))
  let v_16 : F32 := (Wide.narrow (((((Libm.pow (Wide.widen ((f (200)) -. m_15)) (d (2))) +. (Libm.pow (Wide.widen ((f (400)) -. m_15)) (d (2)))) +. (Libm.pow (Wide.widen ((f (600)) -. m_15)) (d (2)))) +. (Libm.pow (Wide.widen ((f (100)) -. m_15)) (d (2)))) /. (d (4))))
  let ok := ok && almost mv.getMean m_15
  let ok := ok && almost mv.getVariance v_16
  let ok := ok && almost mv.getStdDev (Libm.sqrt v_16)
  let ok := ok && (mv.num : ℤ) == 4
  let ok := ok && (mv.getWindowSize : ℤ) == 4
  let r := mv.update (f (200))
  let ok := ok && isOk r
  let mv := okOr r mv
  let m_17 : F32 := (((((f (200)) +. (f (400))) +. (f (600))) +. (f (200))) /. (f (4)))
  let v_18 : F32 := (Wide.narrow (((((Libm.pow (Wide.widen ((f (200)) -. m_17)) (d (2))) +. (Libm.pow (Wide.widen ((f (400)) -. m_17)) (d (2)))) +. (Libm.pow (Wide.widen ((f (600)) -. m_17)) (d (2)))) +. (Libm.pow (Wide.widen ((f (200)) -. m_17)) (d (2)))) /. (d (4))))
  let ok := ok && almost mv.getMean m_17
  let ok := ok && almost mv.getVariance v_18
  let ok := ok && almost mv.getStdDev (Libm.sqrt v_18)
  let ok := ok && (mv.num : ℤ) == 4
  let ok := ok && (mv.getWindowSize : ℤ) == 4
  let mv := mv.add (f (400))
  let m_19 : F32 := (((((f (400)) +. (f (600))) +. (f (200))) +. (f (400))) /. (f (4)))
  let v_20 : F32 := (Wide.narrow (((((Libm.pow (Wide.widen ((f (400)) -. m_19)) (d (2))) +. (Libm.pow (Wide.widen ((f (600)) -. m_19)) (d (2)))) +. (Libm.pow (Wide.widen ((f (200)) -. m_19)) (d (2)))) +. (Libm.pow (Wide.widen ((f (400)) -. m_19)) (d (2)))) /. (d (4))))
  let ok := ok && almost mv.getMean m_19
  let ok := ok && almost mv.getVariance v_20
  let ok := ok && almost mv.getStdDev (Libm.sqrt v_20)
  let ok := ok && (mv.num : ℤ) == 5
  let ok := ok && (mv.getWindowSize : ℤ) == 4
  let r := mv.update (f (100))
  let ok := ok && isOk r
  let mv := okOr r mv
  let m_21 : F32 := (((((f (400)) +. (f (600))) +. (f (200))) +. (f (100))) /. (f (4)))
  let v_22 : F32 := (Wide.narrow (((((Libm.pow (Wide.widen ((f (400)) -. m_21)) (d (2))) +. (Libm.pow (Wide.widen ((f (600)) -. m_21)) (d (2)))) +. (Libm.pow (Wide.widen ((f (200)) -. m_21)) (d (2)))) +. (Libm.pow (Wide.widen ((f (100)) -. m_21)) (d (2)))) /. (d (4))))
  let ok := ok && almost mv.getMean m_21
  let ok := ok && almost mv.getVariance v_22
  let ok := ok && almost mv.getStdDev (Libm.sqrt v_22)
  let ok := ok && (mv.num : ℤ) == 5
  let ok := ok && (mv.getWindowSize : ℤ) == 4
  let mv := mv.add (f (500))
  let m_23 : F32 := (((((f (600)) +. (f (200))) +. (f (100))) +. (f (500))) /. (f (4)))
  let v_24 : F32 := (Wide.narrow (((((Libm.pow (Wide.widen ((f (600)) -. m_23)) (d (2))) +. (Libm.pow (Wide.widen ((f (200)) -. m_23)) (d (2)))) +. (Libm.pow (Wide.widen ((f (100)) -. m_23)) (d (2)))) +. (Libm.pow (Wide.widen ((f (500)) -. m_23)) (d (2)))) /. (d (4))))
  let ok := ok && almost mv.getMean m_23
  let ok := ok && almost mv.getVariance v_24
  let ok := ok && almost mv.getStdDev (Libm.sqrt v_24)
  let ok := ok && (mv.num : ℤ) == 6
  let ok := ok && (mv.getWindowSize : ℤ) == 4
  let r := mv.update (f (300))
  let ok := ok && isOk r
  let mv := okOr r mv
  let m_25 : F32 := (((((f (600)) +. (f (200))) +. (f (100))) +. (f (300))) /. (f (4)))
  let v_26 : F32 := (Wide.narrow (((((Libm.pow (Wide.widen ((f (600)) -. m_25)) (d (2))) +. (Libm.pow (Wide.widen ((f (200)) -. m_25)) (d (2)))) +. (Libm.pow (Wide.widen ((f (100)) -. m_25)) (d (2)))) +. (Libm.pow (Wide.widen ((f (300)) -. m_25)) (d (2)))) /. (d (4))))
  let ok := ok && almost mv.getMean m_25
  let ok := ok && almost mv.getVariance v_26
  let ok := ok && almost mv.getStdDev (Libm.sqrt v_26)
  let ok := ok && (mv.num : ℤ) == 6
  let ok := ok && (mv.getWindowSize : ℤ) == 4
  ok

example : SlidingWindowMeanAndVarianceTest_GetMeanAndVarianceWithWindowSize4 = true := by decide +kernel

/-- indicators/util_test.cc 376 `ExponentialMovingAverageHelperTest.GetExponentialMovingAverage`. -/
def ExponentialMovingAverageHelperTest_GetExponentialMovingAverage : Bool :=
  let ok := true
  let em : Ema F32 := Ema.make
  let ok := ok && almost em.current (f (0))
  let ok := ok && (em.num : ℤ) == 0
  let r := em.add (f (100)) (f (1 / 10))
  let ok := ok && isOk r
  let em := okOr r em
  let ok := ok && almost em.current (f (100))
  let ok := ok && (em.num : ℤ) == 1
  let r := em.update (f (200)) (f (1 / 10))
  let ok := ok && isOk r
  let em := okOr r em
  let ok := ok && almost em.current (f (200))
  let ok := ok && (em.num : ℤ) == 1
  let r := em.add (f (100)) (f (1 / 10))
  let ok := ok && isOk r
  let em := okOr r em
  let ok := ok && almost em.current (((f (1 / 10)) *. (f (100))) +. ((f (9 / 10)) *. (f (200))))
  let ok := ok && (em.num : ℤ) == 2
  let r := em.update (f (400)) (f (1 / 10))
  let ok := ok && isOk r
  let em := okOr r em
  let ok := ok && almost em.current (((f (1 / 10)) *. (f (400))) +. ((f (9 / 10)) *. (f (200))))
  let ok := ok && (em.num : ℤ) == 2
  let r := em.add (f (100)) (f (1 / 10))
  let ok := ok && isOk r
  let em := okOr r em
  let ok := ok && almost em.current (((f (1 / 10)) *. (f (100))) +. ((f (9 / 10)) *. (((f (1 / 10)) *. (f (400))) +. ((f (9 / 10)) *. (f (200))))))
  let ok := ok && (em.num : ℤ) == 3
  let r := em.update (f (200)) (f (1 / 10))
  let ok := ok && isOk r
  let em := okOr r em
  let ok := ok && almost em.current (((f (1 / 10)) *. (f (200))) +. ((f (9 / 10)) *. (((f (1 / 10)) *. (f (400))) +. ((f (9 / 10)) *. (f (200))))))
  let ok := ok && (em.num : ℤ) == 3
  ok

example : ExponentialMovingAverageHelperTest_GetExponentialMovingAverage = true := by decide +kernel

/-- indicators/util_test.cc 410 `SlidingWindowMinimumTest.GetSlidingWindowMinimum`. -/
def SlidingWindowMinimumTest_GetSlidingWindowMinimum : Bool :=
  let ok := true
  let r : Res (SlidingMin F32) := SlidingMin.make 5
  let ok := ok && isOk r
  let mn := okOr r newMin
  let ok := ok && almost mn.get (f (0))
  let ok := ok && (mn.num : ℤ) == 0
  let ok := ok && (mn.getWindowSize : ℤ) == 0
  let r := mn.add (f (100))
  let ok := ok && isOk r
  let mn := okOr r mn
  let ok := ok && almost mn.get (f (100))
  let ok := ok && (mn.num : ℤ) == 1
  let ok := ok && (mn.getWindowSize : ℤ) == 1
  let r := mn.update (f (50))
  let ok := ok && isOk r
  let mn := okOr r mn
  let ok := ok && almost mn.get (f (50))
  let ok := ok && (mn.num : ℤ) == 1
  let ok := ok && (mn.getWindowSize : ℤ) == 1
  let r := mn.update (f (150))
  let ok := ok && isOk r
  let mn := okOr r mn
  let ok := ok && almost mn.get (f (150))
  let ok := ok && (mn.num : ℤ) == 1
  let ok := ok && (mn.getWindowSize : ℤ) == 1
  let r := mn.add (f (100))
  let ok := ok && isOk r
  let mn := okOr r mn
  let ok := ok && almost mn.get (f (100))
  let ok := ok && (mn.num : ℤ) == 2
  let ok := ok && (mn.getWindowSize : ℤ) == 2
  let r := mn.update (f (50))
  let ok := ok && isOk r
  let mn := okOr r mn
  let ok := ok && almost mn.get (f (50))
  let ok := ok && (mn.num : ℤ) == 2
  let ok := ok && (mn.getWindowSize : ℤ) == 2
  let r := mn.update (f (200))
  let ok := ok && isOk r
  let mn := okOr r mn
  let ok := ok && almost mn.get (f (150))
  let ok := ok && (mn.num : ℤ) == 2
  let ok := ok && (mn.getWindowSize : ℤ) == 2
  let r := mn.add (f (100))
  let ok := ok && isOk r
  let mn := okOr r mn
  let ok := ok && almost mn.get (f (100))
  let ok := ok && (mn.num : ℤ) == 3
  let ok := ok && (mn.getWindowSize : ℤ) == 3
  let r := mn.update (f (300))
  let ok := ok && isOk r
  let mn := okOr r mn
  let ok := ok && almost mn.get (f (150))
  let ok := ok && (mn.num : ℤ) == 3
  let ok := ok && (mn.getWindowSize : ℤ) == 3
  let r := mn.add (f (100))
  let ok := ok && isOk r
  let mn := okOr r mn
  let ok := ok && almost mn.get (f (100))
  let ok := ok && (mn.num : ℤ) == 4
  let ok := ok && (mn.getWindowSize : ℤ) == 4
  let r := mn.update (f (250))
  let ok := ok && isOk r
  let mn := okOr r mn
  let ok := ok && almost mn.get (f (150))
  let ok := ok && (mn.num : ℤ) == 4
  let ok := ok && (mn.getWindowSize : ℤ) == 4
  let r := mn.add (f (400))
  let ok := ok && isOk r
  let mn := okOr r mn
  let ok := ok && almost mn.get (f (150))
  let ok := ok && (mn.num : ℤ) == 5
  let ok := ok && (mn.getWindowSize : ℤ) == 5
  let r := mn.update (f (100))
  let ok := ok && isOk r
  let mn := okOr r mn
  let ok := ok && almost mn.get (f (100))
  let ok := ok && (mn.num : ℤ) == 5
  let ok := ok && (mn.getWindowSize : ℤ) == 5
  let r := mn.update (f (500))
  let ok := ok && isOk r
  let mn := okOr r mn
  let ok := ok && almost mn.get (f (150))
  let ok := ok && (mn.num : ℤ) == 5
  let ok := ok && (mn.getWindowSize : ℤ) == 5
  let r := mn.add (f (100))
  let ok := ok && isOk r
  let mn := okOr r mn
  let ok := ok && almost mn.get (f (100))
  let ok := ok && (mn.num : ℤ) == 6
  let ok := ok && (mn.getWindowSize : ℤ) == 5
  let r := mn.update (f (400))
  let ok := ok && isOk r
  let mn := okOr r mn
  let ok := ok && almost mn.get (f (200))
  let ok := ok && (mn.num : ℤ) == 6
  let ok := ok && (mn.getWindowSize : ℤ) == 5
  let r := mn.add (f (600))
  let ok := ok && isOk r
  let mn := okOr r mn
  let ok := ok && almost mn.get (f (250))
  let ok := ok && (mn.num : ℤ) == 7
  let ok := ok && (mn.getWindowSize : ℤ) == 5
  let r := mn.update (f (200))
  let ok := ok && isOk r
  let mn := okOr r mn
  let ok := ok && almost mn.get (f (200))
  let ok := ok && (mn.num : ℤ) == 7
  let ok := ok && (mn.getWindowSize : ℤ) == 5
  let r := mn.add (f (600))
  let ok := ok && isOk r
  let mn := okOr r mn
  let ok := ok && almost mn.get (f (200))
  let ok := ok && (mn.num : ℤ) == 8
  let ok := ok && (mn.getWindowSize : ℤ) == 5
  let r := mn.update (f (100))
  let ok := ok && isOk r
  let mn := okOr r mn
  let ok := ok && almost mn.get (f (100))
  let ok := ok && (mn.num : ℤ) == 8
  let ok := ok && (mn.getWindowSize : ℤ) == 5
  let r := mn.update (f (500))
  let ok := ok && isOk r
  let mn := okOr r mn
  let ok := ok && almost mn.get (f (200))
  let ok := ok && (mn.num : ℤ) == 8
  let ok := ok && (mn.getWindowSize : ℤ) == 5
  ok

example : SlidingWindowMinimumTest_GetSlidingWindowMinimum = true := by decide +kernel

/-- indicators/util_test.cc 538 `SlidingWindowMaximumTest.GetSlidingWindowMaximum`. -/
def SlidingWindowMaximumTest_GetSlidingWindowMaximum : Bool :=
  let ok := true
  let r : Res (SlidingMax F32) := SlidingMax.make 5
  let ok := ok && isOk r
  let mx := okOr r newMax
  let ok := ok && almost mx.get (f (0))
  let ok := ok && (mx.inner.num : ℤ) == 0
  let ok := ok && (mx.getWindowSize : ℤ) == 0
  let r := mx.add (f (100))
  let ok := ok && isOk r
  let mx := okOr r mx
  let ok := ok && almost mx.get (f (100))
  let ok := ok && (mx.inner.num : ℤ) == 1
  let ok := ok && (mx.getWindowSize : ℤ) == 1
  let r := mx.update (f (50))
  let ok := ok && isOk r
  let mx := okOr r mx
  let ok := ok && almost mx.get (f (50))
  let ok := ok && (mx.inner.num : ℤ) == 1
  let ok := ok && (mx.getWindowSize : ℤ) == 1
  let r := mx.update (f (150))
  let ok := ok && isOk r
  let mx := okOr r mx
  let ok := ok && almost mx.get (f (150))
  let ok := ok && (mx.inner.num : ℤ) == 1
  let ok := ok && (mx.getWindowSize : ℤ) == 1
  let r := mx.add (f (100))
  let ok := ok && isOk r
  let mx := okOr r mx
  let ok := ok && almost mx.get (f (150))
  let ok := ok && (mx.inner.num : ℤ) == 2
  let ok := ok && (mx.getWindowSize : ℤ) == 2
  let r := mx.update (f (50))
  let ok := ok && isOk r
  let mx := okOr r mx
  let ok := ok && almost mx.get (f (150))
  let ok := ok && (mx.inner.num : ℤ) == 2
  let ok := ok && (mx.getWindowSize : ℤ) == 2
  let r := mx.update (f (200))
  let ok := ok && isOk r
  let mx := okOr r mx
  let ok := ok && almost mx.get (f (200))
  let ok := ok && (mx.inner.num : ℤ) == 2
  let ok := ok && (mx.getWindowSize : ℤ) == 2
  let r := mx.add (f (100))
  let ok := ok && isOk r
  let mx := okOr r mx
  let ok := ok && almost mx.get (f (200))
  let ok := ok && (mx.inner.num : ℤ) == 3
  let ok := ok && (mx.getWindowSize : ℤ) == 3
  let r := mx.update (f (300))
  let ok := ok && isOk r
  let mx := okOr r mx
  let ok := ok && almost mx.get (f (300))
  let ok := ok && (mx.inner.num : ℤ) == 3
  let ok := ok && (mx.getWindowSize : ℤ) == 3
  let r := mx.add (f (100))
  let ok := ok && isOk r
  let mx := okOr r mx
  let ok := ok && almost mx.get (f (300))
  let ok := ok && (mx.inner.num : ℤ) == 4
  let ok := ok && (mx.getWindowSize : ℤ) == 4
  let r := mx.update (f (250))
  let ok := ok && isOk r
  let mx := okOr r mx
  let ok := ok && almost mx.get (f (300))
  let ok := ok && (mx.inner.num : ℤ) == 4
  let ok := ok && (mx.getWindowSize : ℤ) == 4
  let r := mx.add (f (400))
  let ok := ok && isOk r
  let mx := okOr r mx
  let ok := ok && almost mx.get (f (400))
  let ok := ok && (mx.inner.num : ℤ) == 5
  let ok := ok && (mx.getWindowSize : ℤ) == 5
  let r := mx.update (f (100))
  let ok := ok && isOk r
  let mx := okOr r mx
  let ok := ok && almost mx.get (f (300))
  let ok := ok && (mx.inner.num : ℤ) == 5
  let ok := ok && (mx.getWindowSize : ℤ) == 5
  let r := mx.update (f (500))
  let ok := ok && isOk r
  let mx := okOr r mx
  let ok := ok && almost mx.get (f (500))
  let ok := ok && (mx.inner.num : ℤ) == 5
  let ok := ok && (mx.getWindowSize : ℤ) == 5
  let r := mx.add (f (100))
  let ok := ok && isOk r
  let mx := okOr r mx
  let ok := ok && almost mx.get (f (500))
  let ok := ok && (mx.inner.num : ℤ) == 6
  let ok := ok && (mx.getWindowSize : ℤ) == 5
  let r := mx.update (f (400))
  let ok := ok && isOk r
  let mx := okOr r mx
  let ok := ok && almost mx.get (f (500))
  let ok := ok && (mx.inner.num : ℤ) == 6
  let ok := ok && (mx.getWindowSize : ℤ) == 5
  let r := mx.add (f (600))
  let ok := ok && isOk r
  let mx := okOr r mx
  let ok := ok && almost mx.get (f (600))
  let ok := ok && (mx.inner.num : ℤ) == 7
  let ok := ok && (mx.getWindowSize : ℤ) == 5
  let r := mx.update (f (200))
  let ok := ok && isOk r
  let mx := okOr r mx
  let ok := ok && almost mx.get (f (500))
  let ok := ok && (mx.inner.num : ℤ) == 7
  let ok := ok && (mx.getWindowSize : ℤ) == 5
  let r := mx.add (f (600))
  let ok := ok && isOk r
  let mx := okOr r mx
  let ok := ok && almost mx.get (f (600))
  let ok := ok && (mx.inner.num : ℤ) == 8
  let ok := ok && (mx.getWindowSize : ℤ) == 5
  let r := mx.update (f (100))
  let ok := ok && isOk r
  let mx := okOr r mx
  let ok := ok && almost mx.get (f (500))
  let ok := ok && (mx.inner.num : ℤ) == 8
  let ok := ok && (mx.getWindowSize : ℤ) == 5
  let r := mx.update (f (500))
  let ok := ok && isOk r
  let mx := okOr r mx
  let ok := ok && almost mx.get (f (500))
  let ok := ok && (mx.inner.num : ℤ) == 8
  let ok := ok && (mx.getWindowSize : ℤ) == 5
  ok

example : SlidingWindowMaximumTest_GetSlidingWindowMaximum = true := by decide +kernel

end Verif.Conformance
