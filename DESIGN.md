# Formal model of trader-backtest: design

## 1. Trusted base

* Lean 4.33.0's kernel; theorems use at most `propext`, `Classical.choice`, `Quot.sound`
  (no axioms of our own, no `native_decide`/`bv_decide`, no unfinished proofs). `AXIOMS.md`
  (made by `tools/gen_axioms.py`) lists the axioms of every theorem in MANIFEST.json.
  `decide +kernel` occurs only in examples, in counterexamples on concrete data, in facts about fixed
  constants and in facts about small finite types (a two-digit field, a calendar month); it is
  evaluated by the kernel.
* Faithfulness of the model: the definitions under `lean/Verif/Model` were transcribed by hand from
  /repo; each cites file and lines. Nothing was extracted or executed.
* The statements: property theorems in `lean/Verif/Props/*`, small independent specifications in
  `lean/Verif/Spec/*`.
* All files also elaborate with `-DautoImplicit=false` (no misspelt name became a variable).

## 2. Arithmetic tiers

C++ `float`/`double` arithmetic is a *parameter* of the model: `class FloatOps F` has operations and no
laws. All code that touches floats is written once over `FloatOps F`. Theorems come in tiers, and the
theorem statement shows which:

* **G** (any `FloatOps F`, no laws): holds literally for IEEE floats, NaN and infinities included, and for
  any compiler's evaluation of the primitive operations.
* **L** (`SignLaws F`): a few order/sign laws. Instances are proved for exact ordered
  fields and for the IEEE-754 model, so these theorems are about real binary32 behaviour.
* **E** (exact): `F := K`, any linear ordered field with a floor function (`ℚ`, `ℝ`). This is the code's
  algorithm without rounding error. English claims that are about amounts are claimed in exact
  arithmetic only and say so; where binary32 falsifies the claim a counterexample in the IEEE model is proved.
* **F** (`Fl` formats): a concrete executable IEEE-754 model (`Verif/Num/IEEE.lean`): round-to-nearest-even,
  signed zeros, subnormals, infinities, NaN, binary32 and binary64; `Fl.Repr` are the representable values.

`double` temporaries of the code are a second type `D` with conversions (`class Wide F D`).
Not modelled: x87 excess precision, FMA contraction, flush-to-zero, non-default rounding modes.
`exp`, `log`, `sqrt`, `pow` are parameters (`class Libm`), instantiated with the real functions on ℝ; C83
assumes of `pow` in binary64 only that it is not NaN for arguments that are not negative (`PowIsNumber`).

## 3. Control flow, memory, faults

* `assert` is modelled as enabled (`bazel build` default, no NDEBUG): failure is an `Except.error`.
  Undefined behaviour the code can reach (front() of an empty deque/vector, inverted iterator range,
  signed overflow of the month counter, `std::sort` with a comparison that is no strict weak order) and
  uncaught exceptions (out-of-range `.at`, negative `reserve`) are distinct error values, never defaults.
* Mutation = returning the new state. Calls whose order is observable (orders executed, updates, logger
  calls) are kept in a trace (`Model/Run.lean`), also for runs that abort.
* Loops = structural recursion or recursion with a proved measure; the one loop without a bound
  (`EvaluateTrader`) runs on `int` fuel, exhaustion = signed overflow UB.
* int64/int/size_t are ℤ/ℕ (no wrap-around) except where said otherwise (month counter, varints, timestamps
  on the wire, `size_t` conversion of flags); `Model/Machine.lean` models the timestamp arithmetic with overflow, C92
  says when it makes no difference.
* `std::vector`/`deque` are `List`; `std::map` an association by index; `priority_queue` a sorted list
  with the same comparator (only its extremal pop is observable).
* `std::lower_bound/upper_bound` are modelled as the actual halving loop; `std::sort` is any function that
  sorts (`SortsByScore`), so ties may come in any order.
* A virtual `Trader` is any state machine (type of states, update that may abort, text of its state); a
  virtual `Logger` is the trace. Theorems about ExecuteTrader hold for every trader.
* absl civil time: days-from-civil with normalisation of out-of-range fields; `absl::ParseTime` for the
  formats used, with time zones `Z`/`±hh:mm`, `infinite-future`/`-past` included.
* `std::async` is an arbitrary interleaving of task steps (`batchRun` over a schedule).
* Text files are lists of characters (`getline` on '\n'); `sscanf` of numbers is a parameter (`Scanner`);
  `Model/Scanf.lean` is the instance that glibc and libstdc++ provide (C105), correctly rounded in binary32; printing of numbers is a parameter (`Format`); `abslFormat` is the
  exact decimal printing of `%d`/`%.nf` (round half to even of the exact binary value).
* Protobuf: the delimited framing (varint length + payload, 64 MB limits as in 3.17.3) is modelled over an
  arbitrary payload codec; `Model/Wire.lean` is the actual wire format of the three messages of base.proto
  (varint and fixed32 fields, packed and unpacked repeated floats, unknown fields skipped, last value wins).
* The programs convert.cc and trader.cc are functions from flags, surroundings (`Env`) and file system to
  file system, printed lines and exit status.

## 4. Not modelled

the algorithm of zlib (both builds of `util/proto.h` are modelled in `Model/Gzip.lean` with zlib as a parameter; nothing in the
repository defines `HAVE_ZLIB`, and everything else, including the two programs, is the build without it, in which `--compress` has no effect); has-bits and preserved
unknown fields of protobuf messages (an unset field reads as its default); command lines about the flags that abseil declares itself (`--help`, `--flagfile`, ...) and the text of usage errors (other command lines: C107); the text of
`DebugString` of a broken record with missing or unknown fields (a parameter; of a complete record: C118; of the two configurations: C109) and the values of elapsed times (a parameter); what a failed assertion
writes to standard error; what a log file holds when both log flags name the same file; I/O errors after a
file was opened, except failing writes to proto files (C106); memory exhaustion; copies and moves of indicator objects (their callbacks hold the address of the object that made them; the repository neither copies nor moves one); the build files of the repository (its tests: section 7).

## 5. Files

| Files | Content |
|---|---|
| `Verif/Num/*` | `FloatOps`, exact instance, IEEE-754 model and its lemmas |
| `Verif/Model/*` | the code, function by function |
| `Verif/Spec/*` | independent specifications |
| `Verif/Lemmas/*` | helper lemmas |
| `Verif/Props/*` | property theorems and non-vacuity examples |
| `Verif/Witness/*` | further non-vacuity examples: the property theorems applied by name to concrete, non-trivial data (orders, trades, files, configurations), one file per area |
| `Verif/Conformance/*` | the unit tests of the repository, run on the model (section 7) |
| `seeded/LOG.jsonl` | wrong programs tried against the theorems |
| `tools/*` | generation of MANIFEST.json, Verif.lean, AXIOMS.md; translation of the unit tests |

| Model file | Code |
|---|---|
| Account | base/account.{h,cc} |
| History | base/history.{h,cc}, convert.cc parts that only use it |
| SideInput | base/side_input.{h,cc} |
| LastN, IndicatorUtil, Indicators | indicators/*.{h,cc} |
| Machine | the functions of base/history.cc, last_n_ohlc_ticks.cc, stop_trader.cc and eval.cc that compute with timestamps, in `int64_t` |
| Run, Exec | eval/eval.cc `ExecuteTrader`, base/trader.h |
| CommandLine, SimpleAtod | ABSL_FLAG declarations and absl::ParseCommandLine calls of convert.cc and trader.cc |
| DebugString | the DebugString calls at trader.cc 159 and 179, convert.cc 262 and 267, util/proto.h 124; base/base.proto, eval/eval.proto |
| Time, TimeText | util/time.{h,cc} and the parts of absl it uses |
| Evaluate | eval/eval.cc `EvaluateTrader`, `EvaluateBatchOfTraders` |
| Traders | traders/*.{h,cc} |
| Logger | logging/csv_logger.cc, number formatting |
| Proto, Gzip, Device, Wire | util/proto.h (Gzip: the builds with and without zlib; Device: writes that fail), base/base.proto |
| Convert, ConvertMain | convert.cc |
| Scanf | `%f` of glibc's `sscanf` and `istream >> float` of libstdc++, as called by convert.cc |
| TraderMain | trader.cc |

## 6. Per property: model and proof

| Id | Modelled as | Proof |
|---|---|---|
| C01 | every Account method, G | case analysis on all return paths |
| C02 | fold of ExecuteOrder over order list, L | invariant `not (balance < 0)` |
| C03 | same, E (+G for the rounded product) | Floor/Ceil/Round are unit multiples |
| C04,C05 | BuyBase/SellBase, E | grid arithmetic, floor/ceil bounds |
| C06,C07 | BuyAtQuote/SellAtQuote, E | fee monotonicity + rounding bounds; F counterexample |
| C08 | GetFee, E; invariant L; monotone F | ceil bounds; rounding is monotone (Num/Mono) |
| C09 | price functions, E, endpoints F, and F up to a relative 2^-22 | convexity; rounding error of the mix |
| C10,C12 | ExecuteOrder, G | case analysis |
| C11,C14 | E; C14 also F | floor monotonicity; C14_buy_float/C14_sell_float: every IEEE operation on the way to the total (round, product, ceil, fee, sum) keeps the order, overflow included |
| C13 | IsValidOrder vs independent spec, G/E | case analysis |
| C15,C16 | binary search loop | partition-point characterisation, loop invariant; step count |
| C17-C19 | Resample as fold | refinement to per-period specification |
| C20-C22 | RemoveOutliers as recursion, G | induction |
| C23 | map as function ℕ → Option Bool | induction |
| C24 | bounded priority queue | selection invariant |
| C25-C27 | SideInput | binary search, flattened index |
| C28-C33 | ExecuteTrader over an arbitrary trader state machine, G | induction over ticks; run-prefix lemma |
| C34,C38 | E/ℝ | algebra |
| C35-C36 | EvaluateTrader with fuel | calendar monotonicity |
| C37 | interleaving semantics | confluence by induction over schedules |
| C39,C40 | LastNOhlcTicks with event trace, G | refinement to batch aggregation |
| C41,C42,C46-C50 | indicators on top of the event trace, E/ℝ | invariants |
| C43,C45 | helpers, G | case analysis, potential function |
| C44 | any linear order | monotone deque invariant |
| C51 | aggregation composed | aggregation is a monoid-like fold |
| C52-C58 | traders, E/G/ℝ | algebra, ratchet invariants |
| C59 | whole run, evaluation, batch, E | composition of C02, C13, C52, C56; duplicates abort (G) |
| C60,C61 | civil-time model | days-from-civil bijection |
| C62-C64 | byte-list framing over any codec; inductive description of the readable streams | varint round trip, induction; exact characterisation of what is read |
| C65-C67 | CSV and proto readers of convert.cc, any scanner, G | induction over lines / bytes |
| C69 | readers + RemoveOutliers + Resample + trader.cc ReadHistory | composition of C15, C17-C20, C59, C62, C65 |
| C70,C75 | CsvLogger over the trace of any run, G | one line per call; columns by splitting |
| C72 | trader factory, G/E/F | loops = products; constants computed |
| C73 | DurationToString | div/mod arithmetic |
| C74 | account in a back-test, G/L | invariant along the trace; carries C02, C03, C08 over |
| C76 | ExecuteOrder, E | iff-characterisation of success and the exact fill |
| C77 | CheckPriceHistoryTimestamps, G | induction |
| C78 | ParseTime/FormatTimeUTC on texts | grammar in Spec/TimeText, calendar bijection |
| C79 | printed reports of convert.cc | lines = map over the selected records |
| C80 | convert.cc main over a file system, G | case analysis + C62, C65, C69 |
| C81 | wire format of base.proto, F | bit-exact round trip of floats, varints, fields |
| C82 | trader.cc main over a file system, G | case analysis + C15, C36, C70, C75 |
| C83 | batch mode with schedule and sort as parameters, G/E/F | C37 + strict weak order of scores |
| C84 | both programs, E | C59, C69, C72, C80, C82, C83 |
| C85,C86 | Account in binary32, F | standard model of rounding error (Num/Error), error propagation through Floor/Ceil/Round |
| C87 | ExecuteTrader with built-in traders in binary32, F | invariant on account and trader states; error analysis of the rebalancing band |
| C88 | parser of the generated messages, F | inductive wire format; parser = format by induction on bytes and group depth |
| C89-C91 | indicators in binary32, F | value of an operation = monotone rounding of the exact result; contraction of the EMA error; counted callbacks for the SMA sum |
| C92 | timestamp arithmetic once more with checked `int64_t` (`Model/Machine.lean`), G | equality with the ℤ model, invariant: all timestamps in the windows stay below 2^62 |
| C93 | evaluation, `trader` and `convert` in binary32 / binary64 | values and gains bounded by powers of two through monotone rounding; product of positive finite ratios is never NaN; composition of C87, C36, C81-C83 |
| C94 | rebalancing trader in binary32 | rounding errors relative to the portfolio value |
| C95 | stop trader's daily rate in binary32, accuracy of expf/logf as hypothesis | error propagation through log, exp and the rounded factor; counted induction along the run |
| C96 | mean/variance helper and volatility in binary32 with binary64 squares | counted induction over the additions (running sums and sums of squares), error of the final expression; NaN case by C33 + C50 and evaluation |
| C97 | stochastic oscillator in binary32 | state invariant naming the %K and fast %D series, aggregated ticks are their own aggregation, C89 for the range of %K, C96 for the running sums |
| C98 | account methods, sliding windows, LastNOhlcTicks, indicators, resampling, side input | case split over the twelve methods; the head of the window is the last period fed (invariant by induction on the ticks); ticks moved to the start of their period give the same run and are sorted; existing totality theorems for the converse |
| C99 | both mains with standard output and standard error as lists of lines; DebugString and elapsed times as parameters | case analysis of every path; exact rewriting of main once everything is read |
| C100 | both mains with the default values of all flags (`defaultFlags`) | instance of C84 and C93 after computing the default period; all ticks of the conversion fall into it |
| C101 | RSI and %K in binary32 against exact arithmetic | contraction of the error of the modified moving average (weights 1/m with relative error 2^-23), then error propagation through the closing formula; %K is a bounded number of operations on exact minima and maxima |
| C102 | amounts of base currency in binary32 | as C85: error of the stored balance; rounding to the unit is monotone in binary32, so the cap (itself near the grid) bounds the rounded amount |
| C103 | accuracy of gains, averages and score in binary32/binary64 | relative errors through value, quotient, running sum (induction) and running product (induction, n-th root keeps the error of a factor; change of exponent via exp/log); `pow` by its accuracy |
| C104 | `Model/Gzip.lean`: both builds of util/proto.h, zlib as a parameter with two laws | reduction to C62 and C63 on the decompressed bytes; a beginning of the stream is the stream cut off at its length |
| C105 | `Model/Scanf.lean`: the characters that `%f` and `>>` collect, `strtof`; `Num/Nearest.lean` | collection by induction over the digits (`Props/ScanfMore.lean` for hexadecimal numbers and incomplete exponents); rounding to nearest from the grid spacing, ties by parity; files through C65 and C67 |
| C106 | `Model/Device.lean`: the buffer between util/proto.h and the file, with a device that can fail at any write | invariant between the bytes sent, the buffer and the file, by induction over bytes and messages; reading through C63 |
| C107 | `Model/CommandLine.lean`: `absl::ParseCommandLine` for the flags of both programs, reading of int and bool texts; a separate grammar of command lines (`Spec/CommandLine.lean`) | the parser equals a run over the spelled settings (inversion of every argument form), induction over the arguments; frames from C80, C82 |
| C108 | `Model/SimpleAtod.lean`: `absl::SimpleAtod` in binary64; a separate grammar of numbers and the nearest-value specification of C105 | inversion of the reader (takeWhile/dropWhile normal form), uniqueness of the rounded value (between two even neighbours lies another value) |
| C109 | `Model/DebugString.lean`: `%g`, protobuf's `FloatToBuffer` and the lines of both configurations; the reader of C105 as the specification | the text of `%.Pg` is a numeral within half a unit of its last digit; different floats are more than 2^-25 apart (relatively), so nine digits single one out; then injectivity line by line and congruence of `main` |
| C110 | `Spec/Units.lean`: conversion of ticks, accounts, configurations, orders and results by a factor c; accounts, evaluation and both traders of the model | every operation of the account commutes with the conversion; a simulation relation between the two back-tests (`Lemmas/Simulation.lean`), the volatility by ratios of prices; reachable accounts for the bound of the rebalancing trader; two counterexamples; the conversion of price histories in `Props/ConvertInvariance.lean`, by induction over records; orders and the stop trader in another unit of the base currency (`Spec/BaseUnits.lean`, `Props/BaseUnits.lean`) in the same way, evaluations (`Props/BaseUnitsEvaluate.lean`) by the same simulation with the volatility indicators in step up to the volume |
| C111 | `Spec/Shift.lean`: ticks, side inputs, windows and results moved by d seconds; the evaluation of the model, for every arithmetic | the simulation of `Lemmas/Simulation.lean` again: orders, side inputs and both traders see only differences of times, the volatility only days; a counterexample for half a day; the conversion of price histories in `Props/ConvertInvariance.lean`, with a counterexample for a part of a sampling period |
| C112 | the evaluation of the model on two histories or two side inputs; `Spec.windowTicks`, `Spec.signalsAt` | round by round equality of the evaluation loops (`evalLoop_congr`); back-tests equal up to the position in the side input (`Lemmas/Locality.lean`); C35 and C36 for the periods alone; counterexample before 1970 |
| C113 | `resample`, `removeOutliers`, `convertPriceHistory` on a history and on an extension of it; `Spec/Outliers.lean` | the loop of `Resample` only ever touches the last tick (induction on the new records); the decision about a record from C21 (its look-ahead is monotone, and settled once 10 usable records follow); both together for the conversion |
| C114 | `Props/Terms.lean`: pairs of fee schedules and liquidities on the account of the model; `Props/FloatTerms.lean` the same schedules in binary32 | monotonicity of fee, execution price, rounding to units and net proceeds (a relative fee of at most 1 takes no more than it is charged on), through each of the four trades; in binary32 the monotone rounding of `Num/Mono.lean`; three counterexamples |
| C115 | `Props/Bound.lean`: the trace of the whole back-test of the model | one order: bought at no less than the low or sold at no more than the high, and no money created at that price (C05); valued at M a sale gains nothing, a purchase at most M/m; induction over the trace (C32), final figures by C33/C74; `C115_attained` shows the bound is met with equality |
| C116 | `Props/Split.lean`: sequences of calls of ExecuteOrder of the model | subadditivity of ceil and fee, superadditivity of floor, monotone net proceeds (C114); two orders into one, then induction over the list; the limits by concrete accounts (the volume cap for every number of orders, by induction) |
| C117 | `Props/Quiet.lean`: executeTrader with the two built-in traders | a loop invariant (standing orders out of reach, account unchanged) for any trader that only places orders out of reach; the invariant of the stop price: below m when long, above M when in cash; the first two ticks of the rebalancing trader by C53, the rest by the same invariant; limits by concrete runs |
| C118 | `Model/DebugString.lean`: the lines of the three records; read back with the reader of C105 | C109 for one number; filter of the repeated field; C65 and C99 for which record is shown, C62 for what was written before |
| C119 | the existing model of ExecuteTrader, the account and the stop trader; spec: the first order of the trace whose price the tick reaches, ticks that never open lower, no pause | Props/StopLoss.lean: induction over the ticks with the invariant "one standing order, at a price between the first stop price and the last close" (generic lemma `phase`), the ratchet of the stop price, then the account lemmas; binary32: monotonicity of rounding |
| C120 | `rebalancingEmitter`, `stopEmitter` (`Model/Traders.lean`), `abslFormat` (`Model/Logger.lean`) | the separators do not occur in a printed number, so a name splits in one way; a decimal text has one value; default batches by evaluation in the kernel; results through C35 and C37 |
| C121 | the existing model of ExecuteTrader and of the traders | `Props/OrderCount.lean`: induction over the ticks, at most k orders stand and none does before the first update; C35 and C36 for evaluations, C115 for the gain |
| C122 | the existing models of the indicators | `Props/Memory.lean`: from the meanings C41, C42, C48, C49, C50 and C47 (closed formulas of the aggregated history); suffix lemmas for windows of series, contraction of the averaging fold |
| C123 | the existing models of account, stop trader and loop | `Props/Costs.lean`: simulation of the two executions (inductive invariant `Joint`: both in money, or both in coins with a related stop), with the value of the first dominating coin by coin and cent by cent up to the reserved fee |
| C124 | the existing models of the indicators | `Props/Mirror.lean`: aggregation commutes with the change of prices (`aggregate_acts`, `below_aggregate`), then the meanings C41, C42, C47, C48, C49 |
| C125 | the existing model of `EvaluateTrader` | `Props/Ranking.lean`: the two loops run in lockstep (`round_same`, `loop_same`), as their control flow does not look at the trader; then C33, C38, C74; `Props/FloatRanking.lean`: C103 on both evaluations, the exact benchmark product cancels |
| C126 | the existing model of `ExecuteTrader` and `EvaluateTrader` | `Props/Deaf.lean`: the two runs in lockstep with equal traces up to the signals (`Same`); looking up the side input never aborts in forward time (`sideStep_forward`, C112) |
| C127 | the existing model | `Spec/Volume.lean` (`OtherVolume`); `Lemmas/Volume.lean`: the tick window and the volatility indicator in step; `Props/Volume.lean`: orders case by case, then the simulation of C110 with a relation instead of a map |
| C128 | the existing model of `Resample` | the records of a coarse period are those of its fine periods one after the other (`records_split`); then C18 on both sides; closes by the lemma of C51 |
| C129 | the existing model of the evaluation | `Props/Confirm.lean`: the windows of the earlier evaluation are the first ones of the later (C35), the same ticks (C112) and signals (`executeTrader_signals`) give the same back-tests; completion by C36 |
| C130 | the existing model of the conversion | `Props/Pieces.lean`: a step of the resampling touches only the newest tick (frame lemma over the reversed output), the first record of a later period fills the gap (closed form) and starts as if alone; clean data by C22 |

(C68 and C71 of the first plan were merged into C67 and C70.)

## 7. Is the model the program?

The sandbox cannot run the C++ code, but its authors left 110 unit tests that say what it does. All sixteen `*_test.cc` files of the repository
are translated, statement by statement, into Boolean functions over the model in binary32 (`Verif/Conformance/*`; 15 files by
`tools/gen_conformance.py`, which stops at a statement it does not understand; util/proto_test.cc by hand), and the kernel evaluates each of them to
`true`. These examples are tests, not proofs, and no claim rests on them; they are evidence that the definitions about which the claims are proved
are the program, down to the last bit of the numbers that the tests spell out.

| Test file | Tests | Checks |
|---|---|---|
| base/account_test.cc | 51 | 588 |
| base/base_test.cc | 2 | 42 |
| base/history_test.cc | 23 | 275 |
| base/side_input_test.cc | 4 | 488 |
| eval/eval_test.cc | 7 | 330 |
| indicators/*_test.cc (8 files) | 13 | 909 |
| logging/csv_logger_test.cc | 3 | 3 |
| util/time_test.cc | 4 | 55 |
| util/proto_test.cc (build without zlib) | 3 | 10 |

Not checked in the kernel: 16 volatilities in two tests of eval_test.cc (monthly ticks pass through hundreds of updates of the indicator, too large a
term; `#eval` of the tests with these checks gives true). `std::sqrt`, `std::log`, `std::exp` and `std::pow`, which the claims leave
open, are computed to 120 binary digits here and rounded once (`Verif/Conformance/Libm.lean`); loops of the tests are unrolled.
Changing an expected value makes the build fail.
