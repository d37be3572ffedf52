{
 "C02": {
  "note": "For every order sequence; laws instantiated for exact arithmetic and for the IEEE binary32 model."
 },
 "C03": {
  "note": "Exact arithmetic; C03_float states the rounded-product form for every FloatOps."
 },
 "C06": {
  "note": "Exact arithmetic, non-negative fees; C06_fails_in_binary32 proves the claim false for binary32 rounding; C86 bounds by how much."
 },
 "C09": {
  "note": "Exact arithmetic; endpoints also in binary32; C09_bounds_fail_in_binary32 proves the exact bound false for binary32 in general, C09_binary32 bounds how far it can fail."
 },
 "C13": {
  "note": "Exact arithmetic for the price positivity; binary32 underflow can still abort (C13_binary32_underflow_abort)."
 },
 "C24": {
  "note": "Ties go to the earlier gap; top_n = 0 handled separately (C24_zero)."
 },
 "C46": {
  "note": "Exact arithmetic; C46_negative_in_binary32 proves the variance can be negative in binary32."
 },
 "C51": {
  "note": "Closes always agree; whole ticks only without empty fine periods (C51_fails_with_gaps is the counterexample)."
 },
 "C81": {
  "note": "IEEE binary32 model; protobuf wire format modelled byte by byte."
 },
 "C83": {
  "note": "C83_score_f32 assumes only that pow is not NaN on non-negative arguments."
 },
 "C84": {
  "note": "Exact arithmetic; schedules give each task at least 2^31+1 steps (fairness)."
 },
 "C59": {
  "note": "Exact arithmetic; zero-volume ticks may repeat timestamps; C59_duplicate_aborts holds for every FloatOps; C59_zero_unit_aborts shows positive units are needed."
 },
 "C78": {
  "note": "absl::ParseTime for the formats of util/time.cc."
 },
 "C37": {
  "note": "Any interleaving; completion for every schedule that gives each task enough steps."
 },
 "C07": {
  "note": "Exact arithmetic; C86 is the binary32 version."
 },
 "C08": {
  "note": "C08_fee_mono_float: monotone in every IEEE format."
 },
 "C85": {
  "note": "IEEE binary32 model; balances are added up exactly as rational numbers."
 },
 "C86": {
  "note": "IEEE binary32 model."
 },
 "C87": {
  "note": "IEEE binary32 model. exp, log and pow are arbitrary functions. C87_any_safe_trader holds for every trader with a safety invariant; C87_execution instantiates it with both built-in traders. The overflow escape (a balance above 2^80) is visible in the trace."
 },
 "C88": {
  "note": "The wire format is specified as an inductive relation between bytes and fields (Spec/WireFormat.lean), independent of the parser, which is a model of the generated protobuf 3.17 code. UTF-8 does not occur (no string fields)."
 },
 "C89": {
  "note": "IEEE binary32 model. %D in binary32 is C97; how accurate the index and %K are is C101."
 },
 "C90": {
  "note": "IEEE binary32 model. The exact averages use the rounded weight; C90_weight bounds its distance from 2/(1+length)."
 },
 "C91": {
  "note": "IEEE binary32 model. The linear bound and the witness of persistent error bracket the behaviour of the running sum."
 },
 "C92": {
  "note": "Holds for every float type. The time zone arithmetic of absl and int counters (fewer than 2^31 orders and ticks) are not included."
 },
 "C93": {
  "note": "IEEE binary32 / binary64 model; sqrt, exp, log arbitrary; the batch theorem assumes that pow of non-negative numbers is not NaN."
 },
 "C94": {
  "note": "IEEE binary32 model."
 },
 "C95": {
  "note": "IEEE binary32 model; accuracy (rate) resp. usual rounding (stall) of expf and logf near 0 and 1 is a hypothesis."
 },
 "C96": {
  "note": "IEEE binary32/binary64 model. The NaN case assumes logf(0.5) correctly rounded and sqrtf of a negative number NaN; the accuracy theorems assume nothing about logf and sqrtf."
 },
 "C97": {
  "note": "IEEE binary32 model. The values of GetK and GetFastD at the end of the aggregated ticks are those of the same indicator fed the aggregated ticks so far."
 },
 "C98": {
  "note": "Assertions are modelled as enabled (the README builds without -c opt). Aborting is the error result of the model."
 },
 "C99": {
  "note": "What DebugString prints and how elapsed times are printed are parameters of the model. Messages of failed assertions are not among the lines of standard error."
 },
 "C100": {
  "note": "The defaults of the flags of both programs (convert.cc 14-48, trader.cc 20-44) are modelled. The float version assumes that std::pow returns a number on the two calls made by the evaluation (PowIsNumber) and prices in [2^-40, 2^40]."
 },
 "C101": {
  "note": "IEEE binary32 model. The exact averages are those of C47 computed in exact arithmetic from the exact values of the prices. The bound on the averages is worst case (it allows for every rounding to go the same way)."
 },
 "C102": {
  "note": "IEEE binary32 model, assumptions on the account as in C85 (kept along every order history by C85_reachable). That the amounts stay whole numbers of units is C03_float."
 },
 "C103": {
  "note": "binary32 (and binary64 inside the geometric mean) with every rounding modelled; pow is any function with relative error 2^-40 on [2^-1000, 2^1000] x (0, 2] (non-vacuous); exact quantities are computed from the reported balances and prices, which C85-C102 relate to exact settlement."
 },
 "C104": {
  "note": "zlib is a parameter with two laws (non-vacuous: markZlib). Nothing in the repository defines HAVE_ZLIB; convert and trader (C80, C82, ...) are modelled in the build without it."
 },
 "C105": {
  "note": "sscanf %f as in glibc and istream >> float as in libstdc++ are modelled (C locale, rounding to nearest); they are library code, so this model is part of the trusted base of this claim only. C65-C67, C80 and C81 hold for every scanner."
 },
 "C106": {
  "note": "The buffer between the messages and std::ostream::write (protobuf's CopyingOutputStreamAdaptor) is library code, so its model is part of the trusted base of this claim only; the theorems hold for every buffer size and for both moments at which a buffer may be asked for. The own buffer of std::filebuf is left out."
 },
 "C14": {
  "note": "C14_buy and C14_sell in exact arithmetic; C14_buy_float in binary32 and C14_sell_float in every IEEE format, with rounding, overflow and NaN counted."
 },
 "C107": {
  "note": "absl::ParseCommandLine of abseil 20211102.0, written down from its documentation and source as known to the author (the library is not in the sandbox). Left open: command lines about the flags that abseil declares itself (help texts, --flagfile, --fromenv, --undefok; `NamesBuiltin`), and the text of usage errors. How a double is read is a parameter of these theorems; C108 provides absl::SimpleAtod."
 },
 "C108": {
  "note": "absl::SimpleAtod and absl::from_chars of abseil 20211102.0, with correct rounding taken as the meaning of from_chars (its algorithm is not modelled). from_chars gives up at 50 million digits; arguments of that length cannot be passed."
 },
 "C109": {
  "note": "DebugString and FloatToBuffer of protobuf 3.17.3 (six significant digits if they read back as the same value, otherwise nine; %g and strtof of glibc), for the messages that trader.cc builds, in which all fields but fast_eval are set. Whether strtof sets errno for very small numbers is a parameter (erange): the theorems hold in either case. DebugString as it is called for broken input records (C99) remains a parameter."
 },
 "C110": {
  "note": "Exact arithmetic (any ordered field with floor): in binary32 rounding depends on the unit. The comparison of the volatilities assumes nothing of log and sqrt, since ratios of prices are the same in both units. C110_base_order/_orders/_stop: the base currency; C110_base_evaluate_any: evaluations of traders that state amounts in base currency. The hypothesis Moderate of the orders keeps amounts below FLT_MAX, the cap of orders without any other. C110_threshold and C110_base_currency_matters show what is not invariant."
 },
 "C111": {
  "note": "Times and bounds are positive before and after the shift (0 means \"unbounded\" for the bounds and \"never updated\" for the traders; negative times are rounded the other way). Evaluations with a period length in months depend on the calendar and are not covered; nor are the logs, which print the times."
 },
 "C112": {
  "note": "Full equality of the runs (result or fault, and every call) for a period length > 0; for a period length of 0 the evaluations that return are compared (one that finds no tick in the window never returns, C36). C112_side asks for equal signals at all ticks of the history; with C112_history only those in the window count. C112_periods_alone: a single period can abort in the assertion on its score where the whole does not (two negative scores), hence the side condition."
 },
 "C113": {
  "note": "For every arithmetic; nothing is assumed of the order of the records. C113_conversion compares the ticks produced from the kept records before position m without the last of these ticks (its period may go on)."
 },
 "C114": {
  "note": "The float part compares fees only (at the same liquidity, hence the same price) and orders for base amounts: in binary32 orders for quote amounts are only bounded up to rounding (C86). C114_cheaper_but_refused, C114_more_volume_but_refused and C114_back_test_may_gain show what better terms do not guarantee."
 },
 "C115": {
  "note": "Exact arithmetic. The hypotheses on the configuration are those of C05 (an account off the currency grid can gain by rounding)."
 },
 "C116": {
  "note": "Exact arithmetic. C116_volume_is_per_order is a finding about the program: max_volume_ratio does not limit what is traded on a tick, only each order."
 },
 "C117": {
  "note": "C117_rebalancing_in_band holds in any arithmetic; C117_rebalancing_once and C117_stop_margin in exact arithmetic, C117_stop_margin_f32 in binary32. C117_rebalancing_zero_volume is a finding: a standing market order executes on every tick until the next update."
 },
 "C118": {
  "note": "Messages with missing fields (proto2 has-bits) and unknown fields, which DebugString prints differently, are not modelled; the programs themselves always set every field."
 },
 "C119": {
  "note": "C119_sell/C119_buy: the first reached order and the run without one, exact arithmetic; C119_floor/C119_ceiling: what the account holds afterwards; C119_sell_f32/C119_buy_f32: the same in binary32, the sale with liquidity 1 exactly at the stop price; C119_gap_breaks: the two conditions are needed."
 },
 "C120": {
  "note": "Rests on abseil's %.3f (library code, modelled: C70)."
 },
 "C121": {
  "note": "C121_bound is attained (example beside it)."
 },
 "C122": {
  "note": "Exact arithmetic; the 1/10000 covers the branch that reports 100 when the downward average is negligible. The value of the average over seven periods of two histories that agree on the last six differs (example beside the theorems)."
 },
 "C123": {
  "note": "Exact arithmetic, without rounding units, fixed or minimum fees; C114 has one order under any fees, and its theorem C114_back_test_may_gain shows that for the rebalancing trader the statement is false. C123_collapse shows the limit for large shares."
 },
 "C124": {
  "note": "Exact arithmetic. The prices may be of any sign, as the indicators do not check them; the scaling of prices is C110. C124_not_every_indicator shows the limit of the order statement."
 },
 "C125": {
  "note": "The first part holds for every FloatOps, also binary32; the exact ranking in the reals; in binary32 (C125_float_ranking) rounding may exchange traders whose gains differ by less than a factor 1 + 2^-18 per period."
 },
 "C126": {
  "note": "Holds for every FloatOps, also binary32. The side input is one that its constructor accepts; what the program trader prints while loading side files is not part of the claim. C126_listener: a trader that listens is evaluated differently."
 },
 "C127": {
  "note": "Holds for every FloatOps, also binary32. It concerns results; the exchange log shows the volumes. C127_cap_matters: with a cap, limit orders notice."
 },
 "C128": {
  "note": "Total volumes are summed in another order, so in binary32 they may differ by rounding; C128_volume is for exact arithmetic. C128_gaps_matter shows that the ticks which fill a gap have to be left out for open, high and low."
 },
 "C129": {
  "note": "C129_confirms asks only that histories agree on the earlier window and side inputs at its ticks; C129_append is the case of appended records. C129_converted puts C113's settled prefix of a conversion in front (no side input). C129_looking_back has the size limits of C36 (fewer than 2^31 rounds)."
 },
 "C130": {
  "note": "The records need not be in order: what one piece refuses, the whole refuses. C130_not_with_outliers is a counterexample in exact arithmetic and in binary32."
 }
}