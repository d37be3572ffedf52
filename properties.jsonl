{"id": "C01", "title": "A rejected order changes nothing", "statement": "Whenever Account::ExecuteOrder (or any of the Buy*/Sell*/Market*/Stop*/Limit* methods) returns false, the account - both balances, total fee, units, liquidity and volume ratio - is exactly what it was before the call; and whatever it returns, only the two balances and total_fee can change.", "quantifier": "every account, fee configuration, order and OHLC tick, and every float value (NaN, infinities, negative, denormal) in any field", "why_tests_cant": "A test samples a few rejections; a partial update on one of the dozen early-return paths for an unusual float shows only on that input.", "anchors": ["base/account.cc: Account::ExecuteOrder, BuyBase, BuyAtQuote, SellBase, SellAtQuote, Market*/Stop*/Limit*"]}
{"id": "C02", "title": "No order history can make a balance negative", "statement": "Start from balances that are not below zero and currency units that are not below zero. After any sequence of orders executed over any ticks with any fee configuration (even negative fees), neither the base nor the quote balance compares below zero.", "quantifier": "every IEEE-754 float account/config/order/tick, every finite order sequence", "why_tests_cant": "It is an invariant over unbounded histories and over float rounding: a single sequence whose rounding dips below zero falsifies it.", "anchors": ["base/account.cc: BuyBase, SellBase, ExecuteOrder"]}
{"id": "C03", "title": "Balances stay on the currency grid", "statement": "With positive units, after any successful order the base balance is an integer multiple of base_unit and the quote balance and accumulated fee are integer multiples of quote_unit (exact arithmetic; in binary32 the stored value is the correctly rounded product unit*k for an integer k).", "quantifier": "every account, fee config, order and tick; every order sequence", "why_tests_cant": "The rounding helpers are applied at several places; omission at one shows only for off-grid inputs.", "anchors": ["base/account.cc: Floor, Ceil, Round, BuyBase, SellBase"]}
{"id": "C04", "title": "Settlement identity: every unit of currency is accounted for", "statement": "For grid-aligned accounts, in exact arithmetic, an executed buy of b at price p lowers quote by exactly ceil_unit(b*p)+fee, raises base by exactly the unit-rounded b, and raises total_fee by exactly the fee; an executed sell of b lowers base by exactly b, raises quote by floor_unit(b*p)-fee and total_fee by the fee. Nothing else moves.", "quantifier": "every grid-aligned account, fee config, amount and price, in exact (real-number) arithmetic", "why_tests_cant": "The identity quantifies over all amounts and fee schedules; an off-by-one-unit in one rounding direction passes most examples.", "anchors": ["base/account.cc: BuyBase, SellBase, GetFee"]}
{"id": "C05", "title": "Trading cannot create money", "statement": "Valuing the account at the execution price, no executed order increases base*price + quote when fees are non-negative; the value lost is at least the fee charged (exact arithmetic, grid-aligned account).", "quantifier": "every grid-aligned account, non-negative fee config, order and price, in exact arithmetic", "why_tests_cant": "An arbitrage bug is a rare combination of rounding directions and units; only a proof excludes all of them.", "anchors": ["base/account.cc: BuyBase, SellBase"]}
{"id": "C06", "title": "Buying at quote never spends more than asked for", "statement": "A successful buy for quote amount q (any order type) spends, fee included, at most q rounded to the quote unit, hence at most q plus half a unit and at most q itself when q is a multiple of the unit; exact arithmetic, non-negative fees (relative_fee >= 0, so the schedule is monotone); C86 bounds the rounding error of the float program.", "quantifier": "every account with unit>=0, monotone fee config, q, price and max base amount, in exact arithmetic", "why_tests_cant": "Depends on fee monotonicity composed with three roundings; examples cannot cover the composition.", "anchors": ["base/account.cc: BuyAtQuote, BuyBase, GetFee"]}
{"id": "C07", "title": "Selling at quote never receives more than asked for", "statement": "A successful sell for quote amount q credits (net of fee) at most q rounded to the quote unit; exact arithmetic, non-negative monotone fees. This is the claim of the code comment at account.cc 151-154; C86 bounds the rounding error of the float program.", "quantifier": "every account, non-negative monotone fee config, q, price and max base amount, in exact arithmetic", "why_tests_cant": "The source justifies it by a comment about GetFee monotonicity, which only a proof over all fee configs can settle.", "anchors": ["base/account.cc: SellAtQuote, SellBase, GetFee"]}
{"id": "C08", "title": "Fees are never undercharged and total_fee never decreases", "statement": "GetFee is at least minimum_fee and at least fixed_fee+relative_fee*q, exceeds their maximum by less than one quote unit, is a unit multiple and is monotone in q when relative_fee >= 0 (exact arithmetic; the monotonicity holds in every IEEE format too). With a non-negative minimum fee, total_fee never compares below zero along any order sequence, for all floats, and never decreases in exact arithmetic.", "quantifier": "every fee config and quote amount; every order sequence", "why_tests_cant": "Bounds over a real-valued schedule and an invariant over histories.", "anchors": ["base/account.cc: GetFee"]}
{"id": "C09", "title": "Market and stop execution prices lie between best and worst price", "statement": "For liquidity in [0,1] the market buy price lies in [open, high] and the market sell price in [low, open]; a triggered stop buy executes between max(stop,open) and high, a stop sell between low and min(stop,open); liquidity 1 gives exactly the best price, 0 exactly the worst; the price moves monotonically with liquidity (exact arithmetic; endpoints also in binary32). In binary32, for prices between 2^-40 and 2^40, the executed price stays within a relative 2^-22 of that interval, and can leave it.", "quantifier": "every well-formed tick, liquidity in [0,1] and stop price", "why_tests_cant": "Convex-combination property over a continuum of inputs.", "anchors": ["base/account.cc: GetMarketBuyPrice, GetMarketSellPrice, GetStopBuyPrice, GetStopSellPrice"]}
{"id": "C10", "title": "Stop and limit orders fire only when the tick reaches their price, and limits fill at exactly the limit price", "statement": "A stop buy or limit sell changes the account only if high is not below its price; a stop sell or limit buy only if low is not above its price; an untriggered order returns false with no effect. A triggered limit order settles at exactly its limit price.", "quantifier": "every account, fee config, order, tick; every float including NaN", "why_tests_cant": "Boundary (equality and NaN) behaviour must hold at every price.", "anchors": ["base/account.cc: StopBuy*, StopSell*, LimitBuy*, LimitSell*"]}
{"id": "C11", "title": "A limit order never fills more than the allowed share of volume", "statement": "With max_volume_ratio>0 an executed limit order trades at most floor_unit(ratio*volume) base currency and at most the requested amount rounded to the unit; with ratio = 0 there is no volume cap (exact arithmetic).", "quantifier": "every account, limit order and tick, in exact arithmetic", "why_tests_cant": "Cap must survive the later re-rounding of the amount inside BuyBase/SellBase for all values.", "anchors": ["base/account.cc: GetMaxBaseAmount, LimitBuy, LimitBuyAtQuote, LimitSell, LimitSellAtQuote"]}
{"id": "C12", "title": "Each order type pays its own fee schedule and depends on nothing else", "statement": "ExecuteOrder of a MARKET (STOP, LIMIT) order depends on the account configuration only through market_ (stop_, limit_) order_fee_config, market orders ignore price, and the trade is the same as calling the primitive buy/sell with that fee config at the price of C09/C10.", "quantifier": "every account config, order, tick, float", "why_tests_cant": "A swapped fee config is invisible whenever a test uses equal configs (as all of trader.cc does).", "anchors": ["base/account.cc: ExecuteOrder"]}
{"id": "C13", "title": "Valid orders never abort, invalid orders always do", "statement": "An order is accepted (no assertion failure) on a tick with positive prices and a volume that is not negative, with liquidity in [0,1] and a base unit that is not negative, exactly when type and side are present, the price is positive for STOP/LIMIT, and exactly one strictly positive amount is given; otherwise ExecuteOrder aborts before touching the account.", "quantifier": "every account, order, tick (exact arithmetic for non-abort; every float for abort)", "why_tests_cant": "Requires showing all nested asserts unreachable on all inputs.", "anchors": ["base/account.cc: IsValidOrder, ExecuteOrder"]}
{"id": "C14", "title": "Affordability is monotone", "statement": "If buying amount b at price p succeeds, buying any smaller unit multiple at any price p2<=p succeeds, and so does the same buy with any larger quote balance; likewise a sell that succeeds still succeeds with a larger base balance (exact arithmetic, relative fee>=0). The same holds in binary32 with every rounding error counted (the smaller amount need not be a unit multiple, it only has to round to at least one unit): for finite prices, units and balances, a finite fixed fee, a relative fee>=0 and a minimum fee that is not negative.", "quantifier": "all amounts, prices, balances, in exact arithmetic and in binary32", "why_tests_cant": "Universally quantified monotonicity over two continuous parameters.", "anchors": ["base/account.cc: BuyBase, SellBase"]}
{"id": "C15", "title": "HistorySubset returns exactly the records in [start, end)", "statement": "On a history sorted by timestamp, HistorySubset/HistorySubsetCopy returns, in order, exactly the records with start <= t < end, where a non-positive bound means unbounded; the binary search inspects O(log n) records. A subset of a subset holds exactly the records in both windows.", "quantifier": "every sorted history, every pair of int64 bounds with start<=end or a non-positive bound", "why_tests_cant": "Binary-search boundary bugs depend on length, duplicates and position.", "anchors": ["base/base.h: HistorySubset, HistorySubsetCopy"]}
{"id": "C16", "title": "An inverted window is never silently truncated", "statement": "If 0 < end < start and some record lies between, HistorySubset returns an inverted iterator range (begin after end), so HistorySubsetCopy does not return a result (it requests a negative reserve); otherwise the range is well formed.", "quantifier": "every sorted history and pair of bounds", "why_tests_cant": "Characterises precisely which inputs break the iterator contract.", "anchors": ["base/base.h: HistorySubset, HistorySubsetCopy"]}
{"id": "C17", "title": "Resample produces a gap-free aligned grid", "statement": "The output timestamps of Resample are consecutive multiples of the sampling rate, from the period of the first record to the period of the last, with no duplicates and no holes, for every sorted price history with non-negative timestamps.", "quantifier": "every sorted price history, every positive sampling rate", "why_tests_cant": "Holds for unboundedly long histories with gaps of any size.", "anchors": ["base/history.cc: Resample"]}
{"id": "C18", "title": "Resampled ticks have the OHLC meaning", "statement": "Each output tick whose period contains records has open/close equal to the first/last record price of that period, high/low equal to the max/min price, volume equal to the sum of volumes in order; each empty period is a flat zero-volume tick at the previous close.", "quantifier": "every sorted price history, every positive sampling rate, exact arithmetic and every NaN-free float", "why_tests_cant": "Must hold for every grouping of records to periods.", "anchors": ["base/history.cc: Resample", "README.md"]}
{"id": "C19", "title": "Resampling preserves well-formedness and volume", "statement": "From records with positive prices every output tick satisfies 0<low<=open,close<=high and volume>=0, in exact arithmetic and in every binary floating-point format (with numbers, not NaN, as input); no price is invented: open, high, low and close are prices of input records not later than the period; total volume is conserved in exact arithmetic.", "quantifier": "every sorted history of valid records", "why_tests_cant": "Global sum/ordering invariants over unbounded input.", "anchors": ["base/history.cc: Resample"]}
{"id": "C20", "title": "RemoveOutliers partitions the history", "statement": "The output is a subsequence of the input in the original order; the reported indices are strictly increasing, in range, and are exactly the positions of the dropped records.", "quantifier": "every price history, deviation and float", "why_tests_cant": "Index bookkeeping across interleaved skip branches.", "anchors": ["base/history.cc: RemoveOutliers"]}
{"id": "C21", "title": "Every kept record is valid and every dropped one has a reason", "statement": "Kept records have price not<=0 and volume not<0. A valid record is dropped exactly when some record is already kept, its price leaves the allowed band around the last kept price and fewer than 3 of the next 10 valid records persist on the same side beyond the 80/20 middle price.", "quantifier": "every price history, deviation and float", "why_tests_cant": "Decision rule with unbounded look-ahead over invalid records.", "anchors": ["base/history.cc: RemoveOutliers"]}
{"id": "C22", "title": "Clean data is left untouched", "statement": "If every record is valid and every record stays within the allowed band relative to its predecessor, RemoveOutliers returns the history unchanged and reports no index; hence it is idempotent on such data. On other data it need not be idempotent: a jump that persists only because of records that are themselves outliers is kept by the first pass and removed by the second. But every pass that changes anything removes records, so at most as many passes as there are records lead to a history that is left untouched.", "quantifier": "every clean price history; for the last sentence every price history", "why_tests_cant": "Inductive over the whole history.", "anchors": ["base/history.cc: RemoveOutliers"]}
{"id": "C23", "title": "Outlier context covers exactly the requested neighbourhoods", "statement": "GetOutlierIndicesWithContext maps exactly the indices within left/right distance of one of the last last_n outliers (clipped to the history), true exactly for those outliers; last_n = 0 means all.", "quantifier": "every increasing index list within range, every context size", "why_tests_cant": "Overlapping windows interact; overwriting true with false is the classic bug.", "anchors": ["base/history.cc: GetOutlierIndicesWithContext"]}
{"id": "C24", "title": "GetPriceHistoryGaps returns the top-N largest gaps in chronological order", "statement": "For top_n>=1 the result is the multiset of the top_n largest gaps between consecutive records (plus the leading/trailing gap when a positive start/end bound is given), ties broken towards earlier gaps, sorted chronologically; top_n = 0 behaves like top_n = 1 when a positive start bound is given and returns nothing otherwise.", "quantifier": "every price history, bounds and top_n", "why_tests_cant": "A priority-queue selection argument over unbounded input.", "anchors": ["base/history.cc: GetPriceHistoryGaps"]}
{"id": "C25", "title": "Side input lookup returns the latest record not after the timestamp", "statement": "GetSideInputIndex(t) returns the largest index whose timestamp <= t, or -1 if all are later.", "quantifier": "every side history accepted by the constructor and every timestamp", "why_tests_cant": "Binary search correctness at all positions.", "anchors": ["base/side_input.cc: GetSideInputIndex"]}
{"id": "C26", "title": "The hint never changes the answer", "statement": "For every previous index that is valid for an earlier-or-equal time, the hinted lookup returns the same index as the unhinted one; a hint of -1 is ignored; a hint from the future aborts.", "quantifier": "every side history, timestamp and hint", "why_tests_cant": "Three fast paths with boundary conditions.", "anchors": ["base/side_input.cc: GetSideInputIndex (hinted)"]}
{"id": "C27", "title": "SideInput returns exactly the stored signals", "statement": "After construction from a non-empty side history with increasing positive timestamps and equal signal counts, GetSideInputSignals(i) yields exactly record i's signals, GetSideInputSignal(i,j) its j-th signal and GetSideInputTimestamp(i) its timestamp; otherwise construction aborts (empty: undefined behaviour).", "quantifier": "every side history, index", "why_tests_cant": "Flattened index arithmetic for all shapes.", "anchors": ["base/side_input.cc: SideInput, GetSideInputSignal(s)"]}
{"id": "C28", "title": "No look-ahead", "statement": "The sequence of trader Updates, emitted orders, executed orders, logged rows and balances up to tick i is a function of ticks 0..i (and of side-input records not later than tick i) only: changing the future never changes the past.", "quantifier": "every trader (arbitrary deterministic state machine), history, side input, prefix", "why_tests_cant": "A non-interference property: compares pairs of runs over all futures.", "anchors": ["eval/eval.cc: ExecuteTrader", "base/trader.h"]}
{"id": "C29", "title": "Zero-volume ticks: the trader sleeps, its orders stay live", "statement": "On a zero-volume tick the trader is not updated and the standing orders are executed and kept; the trader sees exactly the subsequence of non-zero-volume ticks; orders are first executed on the tick after the one on which they were emitted.", "quantifier": "every trader, history", "why_tests_cant": "Contradicts the documented one-shot order semantics in base/trader.h; needs all histories with gaps.", "anchors": ["eval/eval.cc: ExecuteTrader", "base/trader.h"]}
{"id": "C30", "title": "Side-input signals are never from the future and carry their age", "statement": "At each update the trader receives the signals of the latest side record not after the tick, followed by the age in seconds, or an empty vector if there is none yet.", "quantifier": "every side history, sorted OHLC history, trader", "why_tests_cant": "Composition of a cached index over the whole run.", "anchors": ["eval/eval.cc: ExecuteTrader", "base/side_input.cc"]}
{"id": "C31", "title": "Logging and fast_eval are observational", "statement": "The result, balances and trader behaviour do not depend on whether a logger is attached; fast_eval affects only the two volatility fields.", "quantifier": "every trader, history, config", "why_tests_cant": "A relational property over pairs of runs.", "anchors": ["eval/eval.cc: ExecuteTrader"]}
{"id": "C32", "title": "The log tells the full story", "statement": "The exchange log has exactly one row per tick plus one per executed order, in order, and the account in each row is the account at that moment; trader log rows equal the number of non-zero-volume ticks; total_executed_orders equals the number of executed orders logged.", "quantifier": "every trader, history", "why_tests_cant": "Counting invariant over unbounded runs.", "anchors": ["eval/eval.cc: ExecuteTrader"]}
{"id": "C33", "title": "ExecutionResult reports start and end state faithfully", "statement": "On a non-empty history the result has the configured start balances, the final account balances and fee, the first and last close as prices and value = quote + price*base; an empty history yields the default result.", "quantifier": "every trader, history, config", "why_tests_cant": "Field-by-field contract for all runs.", "anchors": ["eval/eval.cc: ExecuteTrader"]}
{"id": "C34", "title": "Doing nothing is a score of exactly one", "statement": "A trader that never emits orders ends with its starting balances, zero fees and zero executed orders; if it holds only base currency its final gain equals the baseline gain in every period and its score is 1 in exact arithmetic, provided there is at least one period.", "quantifier": "every history with positive prices, every idle trader", "why_tests_cant": "Calibrates the score definition for all histories.", "anchors": ["eval/eval.cc: ExecuteTrader, EvaluateTrader"]}
{"id": "C35", "title": "Periods tile the evaluation window by calendar months", "statement": "With evaluation_period_months=m>0 period k covers [start+k months, that+m months), only windows ending no later than end are used, windows without ticks are skipped, and each period uses a fresh trader and account, so its result depends only on ticks inside it.", "quantifier": "every config, history, emitter", "why_tests_cant": "Unbounded loop over calendar arithmetic.", "anchors": ["eval/eval.cc: EvaluateTrader"]}
{"id": "C36", "title": "Evaluation terminates - except in one case", "statement": "For evaluation_period_months>0 (and an interval short enough for the month counter) EvaluateTrader terminates; for months=0 it terminates after one window if the window contains a tick; if it contains none, or if months<0, it never returns normally (the month counter runs until undefined behaviour).", "quantifier": "every config, history, emitter", "why_tests_cant": "Termination/divergence cannot be observed by testing.", "anchors": ["eval/eval.cc: EvaluateTrader"]}
{"id": "C37", "title": "Batch evaluation equals sequential evaluation", "statement": "EvaluateBatchOfTraders returns, in emitter order, exactly what EvaluateTrader returns for each emitter alone without logger, whatever the interleaving of the asynchronous tasks; an abort in any task aborts the batch.", "quantifier": "every batch, every schedule of the tasks", "why_tests_cant": "Schedules cannot be enumerated by tests.", "anchors": ["eval/eval.cc: EvaluateBatchOfTraders"]}
{"id": "C38", "title": "Score and averages are the documented means", "statement": "score is the geometric mean over periods of final_gain/base_final_gain; the avg_ fields are arithmetic means; with no period they are 0; they lie between min and max of the period values.", "quantifier": "every list of periods", "why_tests_cant": "Holds for all lists, over reals.", "anchors": ["eval/eval.cc: GetAverage, GetGeometricAverage, EvaluateTrader"]}
{"id": "C39", "title": "LastNOhlcTicks holds the last N periods of the aggregated history", "statement": "After any sequence of updates with non-decreasing non-negative timestamps the deque is the last N ticks of the aggregation of the whole history into periods (gaps filled with flat zero-volume ticks).", "quantifier": "every update sequence, N>0, period>0", "why_tests_cant": "Refinement of a streaming algorithm to a batch specification.", "anchors": ["indicators/last_n_ohlc_ticks.cc: Update"]}
{"id": "C40", "title": "Callbacks describe the deque exactly", "statement": "Replaying the callback events (added, added+removed, updated) on a mirror list reproduces the deque after every update: the old/removed ticks passed are the mirror's back/front; indicators therefore see each aggregated tick exactly once plus its updates.", "quantifier": "every update sequence", "why_tests_cant": "Event-stream faithfulness over unbounded histories.", "anchors": ["indicators/last_n_ohlc_ticks.cc: Update, NewOhlcTickAdded, LastOhlcTickUpdated"]}
{"id": "C41", "title": "SMA is the mean of the last N closes", "statement": "GetSimpleMovingAverage equals the arithmetic mean of the closes of the last min(N, seen) aggregated ticks, 0 before any (exact arithmetic).", "quantifier": "every update sequence, N, period", "why_tests_cant": "Incremental sum must never drift.", "anchors": ["indicators/simple_moving_average.cc"]}
{"id": "C42", "title": "EMA follows its recurrence and stays within the observed closes", "statement": "EMA after ticks with closes c1..cn is c1 for n=1 and w*cn+(1-w)*EMA(n-1), w=smoothing/(1+length); for 0<=w<=1 it lies between min and max close (exact arithmetic).", "quantifier": "every update sequence, smoothing, length", "why_tests_cant": "Recurrence over unbounded history with in-place updates.", "anchors": ["indicators/exponential_moving_average.cc", "indicators/util.cc: ExponentialMovingAverageHelper"]}
{"id": "C43", "title": "Updating the current value equals having added it in the first place", "statement": "For every sliding-window/EMA helper, AddNewValue(a) followed by any UpdateCurrentValue calls ending in b leaves exactly the state AddNewValue(b) would have left.", "quantifier": "every helper state, all floats bit-for-bit", "why_tests_cant": "Equality of states over all values and histories.", "anchors": ["indicators/util.cc"]}
{"id": "C44", "title": "Sliding window min/max are the true min/max", "statement": "GetSlidingWindowMinimum/Maximum equal the min/max of the last window_size values for every sequence of Add/Update operations; GetWindowSize is the number of values in the window (never more than window_size), GetNumValues the number of values added so far (an Update replaces the newest one and adds none).", "quantifier": "every operation sequence, window size, NaN-free float values (any linear order)", "why_tests_cant": "Monotone-deque algorithm correctness over unbounded sequences.", "anchors": ["indicators/util.cc: SlidingWindowMinimum", "indicators/util.h: SlidingWindowMaximum"]}
{"id": "C45", "title": "Sliding window minimum is memory-safe and amortized O(1)", "statement": "No operation sequence accesses an empty deque; deque size < window_size; the total number of loop iterations over n additions is at most n - for all float values including NaN.", "quantifier": "every operation sequence, all floats", "why_tests_cant": "UB on an empty deque depends on rare index/NaN combinations.", "anchors": ["indicators/util.cc: SlidingWindowMinimum::AddNewValue"]}
{"id": "C46", "title": "Sliding mean/variance are the population mean/variance of the window", "statement": "GetMean/GetVariance equal the mean and population variance (hence >=0) of the last window_size values (all values if 0), in exact arithmetic; in binary32 the variance can be negative, so the standard deviation can be NaN.", "quantifier": "every operation sequence, window size", "why_tests_cant": "Running-sum correctness; and float cancellation.", "anchors": ["indicators/util.cc: SlidingWindowMeanAndVariance"]}
{"id": "C47", "title": "RSI lies in [0,100] and is the documented formula", "statement": "GetRelativeStrengthIndex is in [0,100] for every update sequence; equals 100-100/(1+U/D) of the modified moving averages of up/down moves, which are non-negative.", "quantifier": "every update sequence, N>=1, period (exact arithmetic)", "why_tests_cant": "Range invariant over unbounded histories.", "anchors": ["indicators/relative_strength_index.cc"]}
{"id": "C48", "title": "Stochastic oscillator: low/high are window extrema and %K lies in [0,100]", "statement": "GetLow/GetHigh are the min low / max high over the last N aggregated ticks; %K=100*(close-low)/(high-low) (50 if the span is tiny) lies in [0,100]; %D fast/slow are 3-period means, hence also in [0,100].", "quantifier": "every sequence of well-formed ticks, exact arithmetic", "why_tests_cant": "Composition of aggregation, sliding extrema and means.", "anchors": ["indicators/stochastic_oscillator.cc"]}
{"id": "C49", "title": "MACD equals difference of EMAs; divergence = series - signal", "statement": "Series = EMA_fast - EMA_slow of the aggregated closes, signal = EMA of the per-tick final series values, divergence = series - signal, num ticks = number of aggregated ticks.", "quantifier": "every update sequence, lengths", "why_tests_cant": "Nested recurrence with in-place updates.", "anchors": ["indicators/moving_average_convergence_divergence.cc"]}
{"id": "C50", "title": "Volatility is the standard deviation of log returns", "statement": "GetVolatility squared is the population variance of the logarithmic returns between the portfolio values of consecutive aggregated ticks, the first one relative to the value at the first open (the sign convention log(prev/cur) used by the code does not matter); the balances of a period are those given with its last tick.", "quantifier": "every update sequence with positive portfolio values, reals", "why_tests_cant": "Streaming refinement, over reals.", "anchors": ["indicators/volatility.cc"]}
{"id": "C51", "title": "Indicators do not depend on the input granularity", "statement": "Feeding an indicator fine ticks, or the same history pre-aggregated to a coarser period dividing the indicator period, yields the same aggregated closes, hence the same SMA, EMA, MACD and RSI; whole aggregated ticks (and stochastic oscillators) agree when no fine period is empty, and differ in general otherwise.", "quantifier": "every history, every pair of periods p | q", "why_tests_cant": "Relational, over all histories.", "anchors": ["indicators/last_n_ohlc_ticks.cc"]}
{"id": "C52", "title": "Rebalancing trader emits only valid orders", "statement": "For alpha>=0, 0<epsilon<1, positive price and non-negative balances not both zero, every emitted order is valid per C13: at most one market order or at most one limit sell plus one limit buy, never both kinds (exact arithmetic).", "quantifier": "every config, balances, price", "why_tests_cant": "Positivity over the parameter space.", "anchors": ["traders/rebalancing_trader.cc: Update"]}
{"id": "C53", "title": "The market order restores the target allocation exactly", "statement": "Executing the emitted market amount at the observed price without fees makes base value = alpha * portfolio value (exact arithmetic).", "quantifier": "every config, balances, price out of band", "why_tests_cant": "Algebraic identity over all reals.", "anchors": ["traders/rebalancing_trader.cc: Update"]}
{"id": "C54", "title": "No market order inside the tolerance band", "statement": "If the allocation lies within [alpha(1-eps), alpha(1+eps)] no market order is emitted, any limit sell is above and any limit buy below the current price, within factor 100.", "quantifier": "every config, balances, price, all floats", "why_tests_cant": "Band boundary behaviour.", "anchors": ["traders/rebalancing_trader.cc: Update"]}
{"id": "C55", "title": "Limit prices sit on the band edge - only if base_balance = 1", "statement": "The limit sell/buy price is where the allocation would reach alpha(1+-eps) - false in general: the code omits the division by base_balance; it holds exactly when base_balance = 1.", "quantifier": "every config, balances", "why_tests_cant": "Shows an actual modelling bug for all other balances.", "anchors": ["traders/rebalancing_trader.cc: Update"]}
{"id": "C56", "title": "Stop trader emits exactly one valid stop order for the full balance", "statement": "Every Update emits exactly one STOP order: SELL of the whole base balance when base value >= quote value, else BUY for the whole quote balance, priced at the current stop price; it is a valid order (margin in (0,1), exact arithmetic).", "quantifier": "every config, tick, balances, state", "why_tests_cant": "Shape over all states.", "anchors": ["traders/stop_trader.cc: Update, EmitStopOrder"]}
{"id": "C57", "title": "The stop price only ratchets in the favourable direction", "statement": "Without mode change or gap >= 1h the sell stop never decreases and never exceeds the move threshold unless already above; the buy stop never increases symmetrically; on mode change or gap it is reset to (1 -/+ margin)*price.", "quantifier": "every state, tick, float", "why_tests_cant": "Ratchet invariant over all update sequences.", "anchors": ["traders/stop_trader.cc: UpdateStopOrderPrice"]}
{"id": "C58", "title": "The stop price moves at most at the configured daily rate", "statement": "Over any run of updates without reset the sell stop grows by at most (1+rate)^(elapsed days), the buy stop shrinks by at most (1-rate)^(elapsed days), independent of the sampling (reals).", "quantifier": "every update sequence, sampling pattern", "why_tests_cant": "Frequency-independence claim over all tick patterns.", "anchors": ["traders/stop_trader.cc: UpdateStopOrderPrice"]}
{"id": "C59", "title": "Back-tests on clean data never abort", "statement": "ExecuteTrader, EvaluateTrader and EvaluateBatchOfTraders with either built-in trader over a history of well-formed ticks in order of time, whose ticks with volume have strictly increasing positive timestamps, never hit an assertion (exact arithmetic, positive start value, positive units); with a duplicated timestamp among ticks with volume the back-test always aborts, whatever the arithmetic.", "quantifier": "every history, config", "why_tests_cant": "End-to-end reachability of any assert.", "anchors": ["eval/eval.cc: ExecuteTrader", "traders/*.cc"]}
{"id": "C60", "title": "Adding months is calendar arithmetic", "statement": "AddMonthsToTimestampSec(t,0)=t, preserves the time of day, is strictly increasing in months (UTC), agrees with calendar arithmetic (surplus days run into the next month), and is additive while the day of month <= 28, but not in general; it is defined exactly when the month number plus the added months fits an int.", "quantifier": "every timestamp, every month count for which month + months does not overflow int", "why_tests_cant": "All dates/leap years.", "anchors": ["util/time.cc: AddMonthsToTime, AddMonthsToTimestampSec"]}
{"id": "C61", "title": "Civil time conversion is a bijection", "statement": "Converting a timestamp to civil UTC time and back is the identity, and civil fields are in range.", "quantifier": "every timestamp", "why_tests_cant": "All days of the proleptic Gregorian calendar.", "anchors": ["util/time.cc (absl::ToCivilSecond/FromCivil)"]}
{"id": "C62", "title": "Delimited files round-trip", "statement": "WriteDelimitedMessages writes, for every message in order, its size as the shortest varint (at most 5 bytes) followed by its bytes, and nothing else; it stops with an error at the first message longer than INT_MAX bytes. Reading what it wrote returns exactly the written messages, in order, with OK status, for any list of messages.", "quantifier": "every list of messages and every prefix-safe codec", "why_tests_cant": "Varint framing for all sizes.", "anchors": ["util/proto.h"]}
{"id": "C63", "title": "A crash while writing never corrupts what was already written", "statement": "If the file is truncated at any byte, the reader either returns OK with a prefix of the messages (exactly at record boundaries) or an error after delivering a prefix; it never delivers a wrong message.", "quantifier": "every message list, every truncation point (uncompressed stream)", "why_tests_cant": "Every crash point.", "anchors": ["util/proto.h"]}
{"id": "C64", "title": "Reader control flow, and exactly which files are read", "statement": "The reader callback is called on messages in order until it breaks (OK), errors (Aborted) or the stream ends/corrupts. Reading succeeds with messages m1..mn if and only if the file is a concatenation of n frames, each a varint (at most 10 bytes, low 32 bits) with a size of at most INT_MAX followed by exactly that many bytes that parse as the message; otherwise the status is InvalidArgument and exactly the messages of the longest such beginning are delivered.", "quantifier": "every byte sequence, message type, callback", "why_tests_cant": "All callback behaviours.", "anchors": ["util/proto.h: ReadDelimitedMessagesFromIStream"]}
{"id": "C65", "title": "A CSV/proto history that loads is sorted, in range and valid", "statement": "Whenever a reader succeeds every returned record has timestamp>0 within [start,end), prices >0 with low<=open,close<=high (up to NaN), volume not <0, and timestamps are non-decreasing. When a reader fails, the error says whether the file could not be opened or parsed, or names the first record of the period that violates these conditions and which condition it violates; the records before it are fine.", "quantifier": "every file content, bounds", "why_tests_cant": "All file contents.", "anchors": ["convert.cc: ReadPriceHistoryFromCsvFile, ReadOhlcHistoryFromCsvFile, ReadHistoryFromDelimitedProtoFile"]}
{"id": "C66", "title": "A malformed line is not detected", "statement": "The CSV readers ignore the sscanf result: an unparsable line re-inserts the previous record's values as a duplicate record instead of failing.", "quantifier": "every file, every malformed line position after a valid one", "why_tests_cant": "Exhibits the negative for all such inputs.", "anchors": ["convert.cc: ReadPriceHistoryFromCsvFile, ReadOhlcHistoryFromCsvFile"]}
{"id": "C67", "title": "Side histories that load satisfy the SideInput constructor", "statement": "A non-empty result of ReadSideHistoryFromCsvFile has strictly increasing positive timestamps and a constant positive number of signals, so constructing a SideInput from it never aborts. When reading fails, the error names the first line without a timestamp, or the first record of the period whose timestamp does not increase or whose number of signals differs, and says which.", "quantifier": "every file content", "why_tests_cant": "Cross-module contract.", "anchors": ["convert.cc: ReadSideHistoryFromCsvFile", "base/side_input.cc"]}
{"id": "C69", "title": "The conversion pipeline delivers back-testable data", "statement": "Price history loaded by a reader, cleaned by RemoveOutliers and resampled gives well-formed ticks with strictly increasing, non-negative timestamps that are multiples of the sampling rate; if no price is older than one sampling period after 1970 this is a clean history (also in float arithmetic, for prices between 2^-40 and 2^40), trader.cc reads exactly the ticks of its window back from the written file, and evaluating a built-in trader on them returns; prices within the first period give a tick at time 0, on which every built-in trader aborts.", "quantifier": "every file content", "why_tests_cant": "End-to-end composition.", "anchors": ["convert.cc: ConvertPriceHistoryToOhlcHistory"]}
{"id": "C70", "title": "The exchange log has one 14-column line per tick and per executed order", "statement": "Whatever is logged, CsvLogger appends exactly one line per logging call to the exchange stream, in order; each line has exactly 14 comma-separated columns: timestamp, open, high, low, close, volume, base balance, quote balance, total fee, and order type, side, base amount, quote amount, price (the order columns are empty on tick rows; the amount columns show the amount that is set; the price only if positive). A completed back-test writes (number of ticks + number of executed orders) lines. A null stream receives nothing and does not affect the other stream. Finite numbers are printed with three decimals, at most 0.0005 off, so each line is readable as an OHLC tick by convert.", "quantifier": "every sequence of logging calls, every tick, account and order, every back-test with any trader; every finite float", "why_tests_cant": "The existing tests log a handful of rows; the claim is about every tick, account, order and back-test.", "anchors": ["logging/csv_logger.cc"]}
{"id": "C72", "title": "Factory batches are full parameter grids", "statement": "The batch emitters are the cross product of their parameter lists in lexicographic order; default batches have 20 and 144 distinct traders, exactly those of the grids alpha 10,30,50,70,90 % x epsilon 1,5,10,20 % and margin, move margin 5,10,15,20 % x increase, decrease 1,5,10 % (each float nearest to its percentage), all with parameters satisfying the preconditions of C52/C56, and contain the default trader.", "quantifier": "every list of parameters; the two shipped grids", "why_tests_cant": "Cross product order for all lists.", "anchors": ["traders/trader_factory.cc", "traders/*_trader.cc: GetBatchOfTraders"]}
{"id": "C73", "title": "Durations print as h:mm:ss without loss", "statement": "For every non-negative duration d, DurationToString prints h:mm:ss with two-digit mm, ss below 60 and 3600h+60m+s = d; different durations print differently.", "quantifier": "every non-negative int64", "why_tests_cant": "All durations.", "anchors": ["convert.cc: DurationToString"]}
{"id": "C74", "title": "The account of a back-test is an order history", "statement": "At every moment of a back-test the account equals the configured account after executing, one after the other, the orders attempted so far on their ticks; hence all account invariants carry over: no back-test of any trader ends with a negative balance, end values and gains of evaluation periods are non-negative, and an evaluation whose back-tests go well returns.", "quantifier": "every trader, history, side input, configuration, moment of the run", "why_tests_cant": "Quantifies over all traders and all prefixes of all runs.", "anchors": ["eval/eval.cc: ExecuteTrader, EvaluateTrader", "base/account.cc: ExecuteOrder"]}
{"id": "C75", "title": "Trader log rows match the updates and have a fixed number of columns", "statement": "In any back-test, every row of the trader log directly follows an Update call; for the rebalancing trader it has exactly 4 columns (timestamp, base and quote balance given to Update, close), for the stop trader exactly 6 (the same four, LONG or CASH according to whether the emitted stop order sells or buys, and that order's stop price). A completed back-test writes one line per active tick.", "quantifier": "every history, account configuration, side input, trader configuration and number format without commas and newlines", "why_tests_cant": "Rows depend on the whole history and on the trader's evolving state.", "anchors": ["logging/csv_logger.cc: LogTraderState", "traders/rebalancing_trader.cc: GetInternalState", "traders/stop_trader.cc: GetInternalState", "eval/eval.cc: ExecuteTrader"]}
{"id": "C76", "title": "An order is refused only for a documented reason, and filled as far as possible", "statement": "In exact arithmetic a valid order on a positive tick executes exactly when the tick reaches its price, the base amount it wants (requested amount rounded to the unit, limited by the volume cap for limit orders; for quote amounts what remains after the fee divided by the price, rounded down) is at least one base unit, and the balances cover the trade with its fee; it then trades exactly that amount. Otherwise the call returns false and the account is unchanged. With non-negative fees a triggered buy for a quote amount never fails for lack of funds once it wants one unit, and it leaves less than one base unit unbought.", "quantifier": "every account on its unit grid, configuration, valid order and tick with positive prices", "why_tests_cant": "The boundary between refusal and execution depends jointly on balances, units, fees, price and volume.", "anchors": ["base/account.cc: ExecuteOrder, BuyBase, BuyAtQuote, SellBase, SellAtQuote"]}
{"id": "C77", "title": "The timestamp check recognises exactly the ordered price histories", "statement": "CheckPriceHistoryTimestamps accepts a price history if and only if no record is older than any record before it (equal timestamps pass); it rejects exactly when some record is older than its direct predecessor; and every history that convert loads, from CSV or proto, passes.", "quantifier": "every price history; every CSV text and proto file", "why_tests_cant": "Ranges over all histories of all lengths.", "anchors": ["base/history.cc: CheckPriceHistoryTimestamps", "convert.cc: ReadPriceHistoryFromCsvFile, ReadHistory"]}
{"id": "C78", "title": "Times on the command line mean what they say", "statement": "A text is accepted as a time exactly when it spells, in one of the documented notations (with surrounding blanks), an existing calendar date, optionally with a clock time and a UTC offset, and its value is the number of seconds since 1970 of that instant; a date alone means midnight UTC; the local clock at the offset then shows exactly what was written; every time printed by FormatTimeUTC is read back as the same time; \"infinite-future\" and \"infinite-past\" (surrounded by blanks or not) are the two infinities.", "quantifier": "every text; every 64-bit time", "why_tests_cant": "Every text and every 64-bit instant; tests sample dates.", "anchors": ["util/time.cc: ParseTime, FormatTimeUTC"]}
{"id": "C79", "title": "The reports of convert list exactly what they announce", "statement": "The outlier report has one line for each of the last N outliers (all if N is 0) and for each record within the given distance of one of them, in order, each once, outliers and only they marked, with left-out stretches shown by dots; it never reads outside the history. The gap report has one line per gap for the N largest gaps, in chronological order, with the duration in hours, minutes and seconds. A negative value of --top_n_gaps or --last_n_outliers means all of them; zero gaps prints none.", "quantifier": "every price history, list of outlier positions, context sizes and N", "why_tests_cant": "Depends on all positions and their overlaps.", "anchors": ["convert.cc: PrintOutliersWithContext, PrintPriceHistoryGaps, DurationToString", "base/history.cc: GetOutlierIndicesWithContext, GetPriceHistoryGaps"]}
{"id": "C80", "title": "The program convert writes what it read, or fails without harm", "statement": "convert ends with EXIT_FAILURE and leaves all files unchanged unless both times are valid, exactly one input is given and it loads; it never changes a file other than the outputs belonging to the kind of input; an empty selection succeeds and writes nothing; otherwise, with a positive sampling rate, it succeeds exactly if the named outputs can be opened, and these then hold the messages read (and, for prices, their conversion); its report is printed; prices written by one run are read back by the next run over the same period unchanged.", "quantifier": "every combination of flags, every file system, every content of the input files", "why_tests_cant": "Quantifies over all flag combinations and file contents.", "anchors": ["convert.cc: main, ConvertPriceHistoryToOhlcHistory, WriteHistory, ReadHistory"]}
{"id": "C81", "title": "Stored histories survive bit by bit", "statement": "On the protobuf wire every float (including -0, infinities, subnormals) and every 64-bit timestamp is read back exactly as written; every price, tick or side record the program can hold is stored without loss in at most 21, 36, or 11+5n bytes; every record loaded from any CSV or any proto bytes, and every tick converted from them, is such a record; so convert with protobuf encoding succeeds and its output files hold exactly the prices read and their conversion.", "quantifier": "every float and int64, every sequence of bytes, every input file", "why_tests_cant": "2^32 floats, 2^64 timestamps and all byte strings.", "anchors": ["base/base.proto: PriceRecord, OhlcTick, SideInputRecord", "util/proto.h: WriteDelimitedMessagesToStream, ReadDelimitedMessagesFromStream", "convert.cc: main"]}
{"id": "C82", "title": "The program trader evaluates exactly what its flags select, or fails without harm", "statement": "trader ends with EXIT_FAILURE, all files unchanged, if a time flag is invalid or an input file cannot be read; it never changes a file other than the two logs asked for; logs that cannot be opened (or are asked for together with monthly windows) are refused with EXIT_FAILURE; unusable side inputs abort it before any file is touched; otherwise it succeeds exactly if EvaluateTrader returns for the ticks and side inputs inside [start, end) with the named trader, prints one line per evaluation period (window, gains, ratio, volatilities), and the log files hold exactly what the logger was told (a beginning of it after an abort). With evaluation_period_months=0 the exchange log has one line per tick and executed order and the trader log one line per active tick. An empty selection with months=0, or a negative number of months, never ends successfully The account is that of the flags, with base unit 0.00001, quote unit 0.01 and, for every type of order, a fee of 0.5% of the traded quote amount rounded up to whole cents.", "quantifier": "every combination of flags, every file system, every content of the input files, every buffer state at an abort", "why_tests_cant": "Quantifies over all flag combinations, file contents and abort points.", "anchors": ["trader.cc: main, GetAccountConfig, ReadHistory, OpenLogFile, PrintTraderEvalResult", "logging/csv_logger.cc: CsvLogger", "eval/eval.cc: EvaluateTrader"]}
{"id": "C83", "title": "A batch run of trader prints the 20 best traders, independently of thread scheduling", "statement": "In batch mode trader changes no files; if it succeeds, every trader of the batch was evaluated exactly as alone and the (up to) 20 best results are printed, best first, each with name and score; what is printed does not depend on the schedule; it aborts only if the batch name is unknown, an evaluation aborts, or the scores cannot be ranked (std::sort needs a strict weak order); under a fair schedule it succeeds exactly if all evaluations return and their scores can be ranked; in float arithmetic scores can be ranked exactly if none is NaN or no two others differ, and evaluations that return never have a NaN score.", "quantifier": "every batch, every interleaving of the worker tasks, every sort implementation allowed by std::sort, every float score", "why_tests_cant": "All interleavings and all score vectors.", "anchors": ["trader.cc: main, PrintBatchEvalResults", "eval/eval.cc: EvaluateBatchOfTraders, GetGeometricAverage", "traders/trader_factory.cc: GetBatchOfTraders"]}
{"id": "C84", "title": "On clean data both programs run through", "statement": "In exact arithmetic: with reasonable flags, a clean history (positive prices, strictly increasing positive timestamps of active ticks), valid side inputs and something to evaluate, trader succeeds in both modes, i.e. no assertion fails and no undefined behaviour occurs; a price file converted by convert is loaded by trader as exactly the ticks of the conversion inside the requested period, and both programs succeed.", "quantifier": "every clean history, every input file of convert, all flags meeting the stated ranges, every fair schedule", "why_tests_cant": "Quantifies over all clean histories and the composition of two programs through the file system.", "anchors": ["convert.cc: main", "trader.cc: main, GetAccountConfig", "eval/eval.cc: EvaluateTrader, EvaluateBatchOfTraders"]}
{"id": "C85", "title": "In float arithmetic a trade creates money only by rounding", "statement": "With non-negative units and minimum fee, finite non-negative balances on (or within rounding of) the unit grid: valued exactly at its execution price, an account after an executed order of any kind is worth at most a 2^-17 part more than before (plus an underflow term of order 2^-140), and still so when the fee booked by the order is added to what is left. The assumptions hold along every order history that starts from balances that are whole numbers of decimal or binary units, as long as balances stay finite.", "quantifier": "every binary32 account, configuration, order and tick; every order history", "why_tests_cant": "Bounds the accumulated rounding error of about ten float operations for all inputs.", "anchors": ["base/account.cc: BuyBase, SellBase, Floor, Ceil, Round, ExecuteOrder"]}
{"id": "C86", "title": "In float arithmetic orders given as a quote amount keep to the amount up to rounding", "statement": "Under the assumptions of C85, with a relative fee between 0 and 1 and a finite non-negative fixed fee: an executed buy for quote amount x costs, fee included, at most x plus 4 quote units plus a 2^-17 part of the quote balance (plus underflow); an executed sell for x credits, after the fee, at most x plus 33/64 of a quote unit plus a 2^-17 part of the account's worth (plus underflow), provided x can be expressed in quote units without overflow.", "quantifier": "every binary32 account, configuration, order given as quote amount, and tick", "why_tests_cant": "The exact bound C06 is false in binary32; only an error analysis over all inputs tells how far it can fail.", "anchors": ["base/account.cc: BuyAtQuote, SellAtQuote, GetFee, GetMaxBaseAmount"]}
{"id": "C87", "title": "In float arithmetic a back-test on clean data aborts only after an overflow", "statement": "With prices between 2^-40 and 2^40, volumes that are not negative, increasing timestamps, units between 2^-60 and 2^60, minimum fees that are not negative, a liquidity between 0 and 1, a start balance that is not empty, and sensible trader parameters (those of the default traders and default batches are): a back-test of either built-in trader in binary32 returns a result, with an account that is not empty at the end, unless an executed order left a balance above 2^80 or an infinite one. More generally ExecuteOrder in binary32 returns for exactly the valid orders (with finite limit price) on such ticks, whatever the balances, fees and amounts, NaN and infinities included. With alpha = 0 a rebalancing back-test on clean data can abort.", "quantifier": "every binary32 account configuration, tick list, side input, trader parameters, exp/log implementation, fast or full evaluation, logged or not", "why_tests_cant": "The assertions guard against amounts of 0, NaN or less that appear only for particular rounding errors; the claim is about all inputs.", "anchors": ["eval/eval.cc: ExecuteTrader", "base/account.cc: ExecuteOrder, BuyBase, SellBase, BuyAtQuote, SellAtQuote", "traders/rebalancing_trader.cc: Update", "traders/stop_trader.cc: Update"]}
{"id": "C88", "title": "Which bytes are records, and what they mean", "statement": "A message parses as a price record, tick or side record if and only if its bytes are a sequence of well-formed fields of the protobuf wire format (tags of at most 5 bytes with field numbers above 0, varints of at most 10 bytes, lengths within the message, groups nested at most 100 deep and closed by their own end tags; for side records packed signals of whole floats). The record is then determined by these fields: of a repeated scalar field the last value counts, signals add up in order whether packed or not, missing fields are 0, and unknown fields, or known ones with another wire type, are ignored. So records written by later versions of the format with further fields are read as before, and bytes appended to a message add their fields to it.", "quantifier": "every byte sequence, and every machine record followed by any sequence of fields with higher numbers", "why_tests_cant": "All byte sequences of any length, with nested groups of any content.", "anchors": ["base/base.proto: PriceRecord, OhlcTick, SideInputRecord", "util/proto.h: ReadDelimitedMessagesFromIStream"]}
{"id": "C89", "title": "RSI and %K stay in range in float arithmetic", "statement": "In binary32: with 1 to 2^18 periods and finite opens and closes of absolute value up to 2^97, GetRelativeStrengthIndex is finite and in [0,100] exactly, whatever the rounding errors and the length of the history, and neither average is negative. With finite prices up to 2^100 and the close between low and high, GetLow and GetHigh are attained bounds of the lows and highs of the last N aggregated ticks and GetK is finite and in [0, 100+2^-17]; the upper bound is attained, so %K can exceed 100.", "quantifier": "every sorted binary32 tick history of any length, number of periods, period size", "why_tests_cant": "Rounding errors depend on the values; histories are unbounded.", "anchors": ["indicators/relative_strength_index.cc", "indicators/stochastic_oscillator.cc"]}
{"id": "C90", "title": "EMA and MACD do not drift in float arithmetic", "statement": "In binary32, with weights between 2^-19 and 1 (2/(1+length) is for lengths 1..2^19) and finite closes of absolute value at most M, GetExponentialMovingAverage is finite and within (M/2^20+2^-130)/weight of the exact exponential average, hence between min and max close up to that error; MACD series, signal and divergence are finite and within similar bounds of their exact values. The bounds do not depend on the number of ticks.", "quantifier": "every sorted binary32 tick history of any length, smoothing, lengths, period size", "why_tests_cant": "Accumulation of rounding errors over unbounded histories.", "anchors": ["indicators/exponential_moving_average.cc", "indicators/moving_average_convergence_divergence.cc", "indicators/util.cc: ExponentialMovingAverageHelper"]}
{"id": "C91", "title": "SMA drifts at most linearly in float arithmetic, and need not recover", "statement": "In binary32, with closes of absolute value at most M <= 2^79 and a history and aggregated history of together at most 2^20 ticks, GetSimpleMovingAverage is finite and within (M/2^21+2^-140) times the number of ticks seen (plus one) of the mean of the last N closes. The error can persist for ever: after one close of 2^25, closes of 1 give an average of 0 for every longer history.", "quantifier": "every sorted binary32 tick history within the stated bounds; every length for the drift", "why_tests_cant": "Accumulation of rounding errors of the running sum over long histories.", "anchors": ["indicators/simple_moving_average.cc"]}
{"id": "C92", "title": "Sane dates never overflow the 64-bit timestamp arithmetic", "statement": "If all timestamps lie between 1970 and the year 146 billion (0 <= t < 2^62) and periods and sampling rates are positive ints, no signed 64-bit operation on timestamps overflows: comparing and measuring gaps, RemoveOutliers, Resample with its gap filling, the tick windows of all indicators, the stop trader, and ExecuteTrader with side inputs; trace and result are those of unbounded integers. Every history that convert or trader loads with an end time in that range satisfies this. Near 2^63 Resample does overflow.", "quantifier": "every price, tick and side history with such timestamps, every rate, trader and configuration", "why_tests_cant": "Overflow is undefined behaviour at values no test uses; gap filling iterates unboundedly often.", "anchors": ["base/history.cc", "indicators/last_n_ohlc_ticks.cc", "traders/stop_trader.cc: Update, UpdateStopOrderPrice", "eval/eval.cc: ExecuteTrader"]}
{"id": "C93", "title": "In float arithmetic evaluations and the programs on clean data fail only through overflow", "statement": "With clean data, account and parameters as in C87: every evaluation window with ticks yields a period whose start and end values, prices and base gain are positive finite floats and whose gain ratio is not NaN; EvaluateTrader returns a result, unless in some window an executed order left a balance above 2^80, or (several windows) a ratio of gains is infinite or 0; the trader program succeeds for a single trader, and for a batch under every fair schedule, with the same two excuses; and so do convert followed by trader on a file of prices between 2^-40 and 2^40 in the protobuf format. A ratio that is infinite in one window and 0 in another does abort.", "quantifier": "every binary32 configuration, tick history, side input, window length, schedule and file system", "why_tests_cant": "The assertions on values and on the product of the ratios depend on rounding, underflow and overflow for particular inputs; the claim is about all of them.", "anchors": ["eval/eval.cc: EvaluateTrader, GetGeometricAverage", "trader.cc: main, GetAccountConfig", "convert.cc: main"]}
{"id": "C94", "title": "The rebalancing trader keeps to its band in float arithmetic", "statement": "In binary32, with alpha and epsilon in [0,1], a close between 2^-40 and 2^40 and balances that are 0 or between 2^-61 and 2^80: the trader issues a market sell whenever the exact share of base in the portfolio exceeds alpha(1+epsilon) by 2^-20, a market buy whenever it is below alpha(1-epsilon) by 2^-20, and no market order when it is inside the band by 2^-20; the amount it asks for would bring the share, at the close price and without fees, to within 2^-20 of alpha, and a sale never asks for more than is held if alpha >= 2^-20.", "quantifier": "every binary32 configuration, tick, pair of balances and trader state within the stated ranges", "why_tests_cant": "Rounding in the share and in the amount depends on the values; the band must hold for all of them.", "anchors": ["traders/rebalancing_trader.cc: RebalancingTrader::Update"]}
{"id": "C95", "title": "The daily rate of the stop price in float arithmetic: accurate per update, but small rates stall", "statement": "In binary32 with expf/logf accurate to about one unit in the last place, over any run of updates less than an hour apart without a change of side the sell stop price grows at most by (1+rate)^(elapsed days) up to a relative 2^-21 per update, and by that much up to the same error if the last stop price is below the move threshold of every tick; the buy stop price falls likewise. But if the rate times the days between two updates is at most 2^-26 (2^-27 when buying), e.g. 0.1% per day with ticks every second, the per-tick factor rounds to 1 and the stop price never moves.", "quantifier": "every binary32 configuration with rates in [0,1] (buying: [0,1/2]), every steady run of updates with closes between 2^-40 and 2^40, every sampling", "why_tests_cant": "Accumulated rounding over arbitrarily many updates and arbitrary samplings.", "anchors": ["traders/stop_trader.cc: UpdateStopOrderPrice"]}
{"id": "C96", "title": "Mean, variance and volatility in float arithmetic: accurate to a counted bound, but NaN for steady growth", "statement": "In binary32 (squares in binary64), after any sequence of additions and corrections, with fewer than 2^20 values of absolute value at most M (2^-40 <= M <= 2^40), GetMean and GetVariance of the sliding-window helper are finite, the mean is within (N+1)*M/2^21 of the mean and the variance within (N+1)*M^2/2^18 of the population variance of the values in the window, N being the number of values added; hence the variance is positive whenever the true variance exceeds that bound, and GetVolatility is the square root of a number that close to the variance of the daily log returns. But the bound matters: on a history whose price doubles on two consecutive days the reported variance of the returns is negative, so every run of ExecuteTrader with volatilities reports NaN as the base volatility.", "quantifier": "every window size, every sequence of additions and corrections of fewer than 2^20 bounded values; every series of ticks and balances; for the NaN case every account configuration, trader and side input", "why_tests_cant": "Accumulated rounding error over arbitrary sequences and window sizes; unit tests compare a handful of values with a tolerance.", "anchors": ["indicators/util.cc: SlidingWindowMeanAndVariance", "indicators/volatility.cc: Volatility", "eval/eval.cc: ExecuteTrader"]}
{"id": "C97", "title": "Stochastic oscillator %D in float arithmetic", "statement": "In binary32, for ticks with finite prices of absolute value at most 2^100 and the close between low and high, and fewer than 2^20 aggregated ticks: GetFastD is finite and within (N+1)*101/2^21 of the mean of the last three values that GetK returned at the end of an aggregated tick, and GetSlowD is finite and within (N+1)*152/2^21 of the mean of the last three values that GetFastD returned at the end of an aggregated tick, N being the number of aggregated ticks.", "quantifier": "every window size, every period length, every sorted sequence of ticks (with gaps and several ticks per period) with finite bounded prices", "why_tests_cant": "The three-value averages are kept as running sums, whose rounding error accumulates over the whole history; tests feed a few ticks.", "anchors": ["indicators/stochastic_oscillator.cc: StochasticOscillator", "indicators/util.cc: SlidingWindowMeanAndVariance"]}
{"id": "C98", "title": "Calls outside the preconditions abort, all others return", "statement": "The order-specific Account methods (market, stop, limit; buy, sell; base or quote amount) abort when the amount is not >= 0 or when a stop or limit price is not > 0, in every number format; over an ordered field, for an account with liquidity in [0,1], a non-negative base unit and a tick with positive prices and non-negative volume, they return for every other argument. SlidingWindowMinimum and SlidingWindowMaximum can be constructed exactly for positive sizes; LastNOhlcTicks with n ticks of a period can be fed a tick sequence without aborting exactly if n and the period are positive and the period number of a tick never decreases (ticks may be unordered inside a period). For non-negative timestamps the same holds for the simple moving average and the stochastic oscillator; for the exponential moving average, MACD, RSI and the volatility indicator, whatever their lengths, exactly if the period is positive and the period number never decreases. Resample at a positive rate returns exactly if the period number of the records never decreases. The accessors of a SideInput return exactly for indices in range.", "quantifier": "every argument of the trading methods on every account and tick, every window size, period length and sequence of ticks or records (ordered or not), every side input and index", "why_tests_cant": "Each clause is an equivalence over all arguments and all feeding orders; tests never call the code outside its preconditions, because it aborts.", "anchors": ["base/account.cc: Account::MarketBuy, MarketSell, StopBuy, StopSell, LimitBuy, LimitSell (and AtQuote)", "indicators/util.h: SlidingWindowMinimum", "indicators/last_n_ohlc_ticks.cc: LastNOhlcTicks::Update", "base/history.cc: Resample", "base/side_input.h: SideInput"]}
{"id": "C99", "title": "What the programs print: complete transcripts, and exactly one message per failure", "statement": "Both programs write to standard error if and only if they end with EXIT_FAILURE. convert: an invalid time is named; a wrong combination of input files is described; an unreadable CSV file is reported by the number and text of the offending line and the reason (for side inputs with blanks for commas), an unreadable proto file as unopenable, unparsable, or with the number and contents of the offending record; a failure after reading names the output file that cannot be opened or shows a record that cannot be serialised. When it succeeds, standard output is exactly: the period, the file read, the number of records loaded, (for prices) the gaps and the report of the conversion, and for each file written its name and number of records. trader: an invalid time is named; a history that cannot be opened or parsed is reported after a line naming it; refused logs are reported ('Logging disabled when evaluating multiple periods' or the file that cannot be opened). When it succeeds, standard output is exactly: the account, the period, the evaluation configuration, the numbers of records loaded and selected for each history, and then the name of the trader and one line per evaluated period, or the names and scores of the 20 best traders of the batch in order, and the time taken.", "quantifier": "every combination of flags, file contents, number format, clock and thread schedule", "why_tests_cant": "The mains have no tests; the claim covers every failure path and every input.", "anchors": ["convert.cc: main, CheckOk, ReadPriceHistoryFromCsvFile, ReadOhlcHistoryFromCsvFile, ReadSideHistoryFromCsvFile, ReadHistoryFromDelimitedProtoFile, WriteHistoryToDelimitedProtoFile", "trader.cc: main, ReadHistory, OpenLogFile, PrintTraderEvalResult, PrintBatchEvalResults", "util/proto.h", "util/time.cc: ParseTime"]}
{"id": "C100", "title": "With default flags the two programs work together", "statement": "The default period of both programs is from 2017-01-01 00:00:00 to 2021-01-01 00:00:00 UTC. Take any CSV file of prices that convert loads and that has at least one price in that period, and run convert with only the input and the OHLC output given, then trader with only that file as input and the name of the trader (rebalancing or stop), as a single evaluation or as the batch: convert converts the prices to five-minute ticks (outlier threshold 5%), trader loads exactly these ticks, and both programs end with success. Over an ordered field this holds for all prices; in float with protobuf's encoding, for prices between 2^-40 and 2^40, trader succeeds unless an executed order left a balance above 2^80.", "quantifier": "every price CSV file accepted by convert, every file name, both traders, single and batch evaluation (every fair thread schedule)", "why_tests_cant": "It is a statement about the composition of the two programs on every possible input file; neither main has a test.", "anchors": ["convert.cc: ABSL_FLAG defaults, main", "trader.cc: ABSL_FLAG defaults, main", "util/time.cc: ParseTime, FormatTimeUTC"]}
{"id": "C101", "title": "RSI and %K are accurate in float arithmetic", "statement": "In the float arithmetic the program uses: both averages of the relative strength index over N periods (1 to 2^17) are within N*(B/2^19 + 2^-129) of the exact modified moving averages of the upward and downward moves, where B bounds the moves and prices are up to 2^97 - however long the history, so rounding errors do not accumulate. If the exact averages U and D satisfy U + D >= 2^-18 + 2E, where E is that bound, then the reported index is within 100 E/(U + D - 2E) + 2^-12 of 100 U/(U + D). The %K of the stochastic oscillator is within 2^-14 of 100 (close - low)/(high - low) for the smallest low and the largest high of the window, whenever high - low >= 2^-19.", "quantifier": "all histories of aggregated or raw ticks with prices up to 2^97 (2^100 for %K), of any length, all periods and numbers of periods", "why_tests_cant": "tests compare a few values with a tolerance on short histories; drift over arbitrarily long histories and the worst-case rounding need a proof", "anchors": ["indicators/relative_strength_index.cc: RelativeStrengthIndex", "indicators/stochastic_oscillator.cc: StochasticOscillator::GetK", "indicators/util.cc: ExponentialMovingAverageHelper"]}
{"id": "C102", "title": "In float arithmetic an order moves the requested base amount, and a limit order no more than its share of the volume", "statement": "Under the assumptions of C85 on the account: an executed market or stop order for x base currency changes the base balance by x, up to 17/32 of a base unit plus a 2^-17 part of balance and amount (plus underflow of order 2^-140); a limit order for x moves at most that much. With max_volume_ratio > 0, a base unit that is 0 or between 2^-60 and 2^60 and ratio*volume <= 2^40, an executed limit order of either side, for a base or a quote amount, moves at most ratio*volume, up to a 2^-17 part of that and of the base balance (plus underflow).", "quantifier": "all accounts meeting C85's assumptions (all reachable ones), all orders, ticks, fee schedules", "why_tests_cant": "the rounding of floats depends on every operand; tests sample a few amounts with exactly representable values", "anchors": ["base/account.cc: Account::ExecuteOrder, GetMaxBaseAmount, BuyBase, SellBase, BuyAtQuote, SellAtQuote"]}
{"id": "C103", "title": "Reported gains, averages and the score are accurate in float arithmetic", "statement": "For every period of a returned evaluation whose prices are between 2^-40 and 2^40, whose balances are at most 2^80, whose start and end worth (quote + price*base, exactly) are at least 2^-110 and whose gain is between 2^-100 and 2^100: final_gain is within a relative 2^-21 of the exact ratio of end and start worth, and base_final_gain within 2^-23 of the exact ratio of the prices. Over n <= 2^20 such periods avg_gain and avg_base_gain are within a relative (n+2)*2^-22 and (n+1)*2^-22 of the exact means, and avg_total_fee and avg_total_executed_orders within n*2^-22 of the means of the reported values (plus 2^-148). If the exact ratios of account growth to price growth are between 2^-m and 2^m, m <= 100, n*m <= 900, and pow is accurate to 2^-40, the score is within a relative 2^-20 of the geometric mean of the exact ratios.", "quantifier": "all evaluations that return: all histories, traders, accounts, windows and numbers of periods within the stated ranges", "why_tests_cant": "rounding errors depend on every operand and on the number of periods; tests compare a few scores with a tolerance", "anchors": ["eval/eval.cc: EvaluateTrader, ExecuteTrader, GetAverage, GetGeometricAverage"]}
{"id": "C104", "title": "Compression is transparent, and a damaged compressed file never yields wrong data", "statement": "Whether the library is built with or without zlib, and with or without --compress, reading what WriteDelimitedMessages wrote gives back exactly the written messages, in order, with status OK, and a callback sees the same as with an uncompressed file; a message that is too long makes writing fail with the messages before it readable. If only the first k bytes of a compressed file are left, what is read is a beginning of the messages, and the status is OK exactly if the part that can be decompressed ends at a message boundary. A file of which nothing can be decompressed (such as an uncompressed one) is read by a build with zlib as an empty one, with status OK. Without zlib the flag changes nothing.", "quantifier": "every compressor whose decompressor inverts it and works from beginnings of the data, both builds, both values of the flag, every list of messages, every truncation point", "why_tests_cant": "All messages, all crash points, all compressors.", "anchors": ["util/proto.h: ReadDelimitedMessagesFromIStream, WriteDelimitedMessagesToOStream (HAVE_ZLIB branches)"]}
{"id": "C105", "title": "Numbers in CSV files are read correctly rounded", "statement": "A decimal number in a price or OHLC CSV file (sign, digits, point, exponent, in any combination with at least one digit), after blanks if any and followed by a comma, a blank, a carriage return or the end of the line, is read as the float nearest to it (ties to even), with its sign, and nothing after it is consumed; it becomes infinite exactly from (2^24-1/2)*2^104 on, and zero exactly up to 2^-150. A number that is the exact value of a float, or nearer to it than to any other, is read as that float. Hence a file of such lines loads as exactly the records with the rounded numbers of the period, if these may be loaded; a written price passes the check iff it has no minus and exceeds 2^-150, a volume iff it has no minus or is at most 2^-150. The words nan, inf and infinity (any case) are read as such in these files. In a side input file numbers are read in the same way, but one that is too large is refused. A hexadecimal number (0x, hexadecimal digits, a point, a binary exponent) is read in price and OHLC files likewise, while in a side input file only its first zero is read; after 0x with neither digit nor point none is read. A decimal number with the letter of an exponent (and perhaps a sign) but no digit after it is read in price and OHLC files without that exponent, and the letter is consumed; in a side input file it is refused. Where no number begins, none is read. Whatever the text, what is read is a float.", "quantifier": "every decimal or hexadecimal number, every following text, every file of such lines, every period", "why_tests_cant": "Infinitely many texts and values; rounding boundaries.", "anchors": ["convert.cc: ReadPriceHistoryFromCsvFile, ReadOhlcHistoryFromCsvFile, ReadSideHistoryFromCsvFile"]}
{"id": "C106", "title": "A full disk never corrupts what was written, but it can go unnoticed", "statement": "If writing to the file fails at any point (for example because the disk is full), the file holds a beginning of what should have been written, so that reading it delivers the first so many of the messages, unchanged. If every write succeeds, file and status are those of C62. An error status (for messages that can be written) means that a write failed and the file is incomplete. An OK status does not mean that the file is complete: the buffer of 8192 bytes is written out after the status has been decided, so for files that fit into it the status does not depend on the device at all, and a full disk can silently cost all messages from any point on (writing and reading back both report OK). But if the status is OK, at most the last 16384 bytes are missing (8192 with versions of protobuf that ask for a buffer only when they need it).", "quantifier": "every list of messages and message type, every device (any number of bytes stored at any write), every buffer size", "why_tests_cant": "Ranges over every point at which writing can fail; tests write to string streams or to disks with room.", "anchors": ["util/proto.h: WriteDelimitedMessagesToOStream, WriteDelimitedMessagesToFile"]}
{"id": "C107", "title": "Command lines mean what they say", "statement": "Running trader or convert with a command line sets each flag to what its last mention says and leaves the others at their defaults: --name=value and --name value set a flag, --name and --noname a switch, one dash or two; arguments without a dash, and everything after --, have no effect. A command line has at most one such reading. The text of an int flag is accepted exactly if it is a decimal (or 0x hexadecimal) integer between -2^31 and 2^31-1 with blanks around it, that of a switch exactly if it is one of 1/t/true/y/yes/0/f/false/n/no in any case. Any other command line - unknown names, texts that are no values (also where a later mention overrides them), missing values - ends the program with failure before it prints anything or touches a file. Whatever the command line, no file changes but those it names as outputs. A switch never takes its value from the next argument: --evaluate_batch false switches the batch on.", "quantifier": "all command lines (lists of arguments of any length and content, except those about abseil's own flags such as --help), all file systems, all ways of reading doubles", "why_tests_cant": "there are infinitely many command lines: spellings, orders, repetitions and malformed texts; a test checks single ones", "anchors": ["convert.cc:14-47,427 (ABSL_FLAG, main)", "trader.cc:20-44,155 (ABSL_FLAG, main)"]}
{"id": "C108", "title": "Numbers on the command line are read exactly or rounded correctly", "statement": "The text of a flag of type double (balances, liquidity, volume ratio, maximal deviation) is accepted exactly if, with blanks around it and an optional sign, it is a decimal number with an optional point and exponent, a hexadecimal number with a binary exponent, inf, infinity or nan in any case. A number means the nearest double: ties go to the even one, a number that is a double means exactly this double, one beyond the largest double means infinity, and -0 is a negative zero. No text means two doubles. So the last number given on the command line of trader or convert is the one the program runs with.", "quantifier": "all texts of any length; all command lines that spell out settings (C107)", "why_tests_cant": "there are infinitely many texts, and correct rounding is a statement about all doubles in the neighbourhood of a number", "anchors": ["trader.cc:37-43 (ABSL_FLAG(double, ...))", "convert.cc:38-39 (max_price_deviation_per_min)"]}
{"id": "C109", "title": "The configuration that trader prints identifies the run", "statement": "A float in a printed configuration is written with so many digits that reading it back (sscanf %f) gives exactly the same float, including negative zero, infinities and nan; under the name of each field of the account configuration and of the evaluation configuration stands its value. Two configurations that print the same are the same. So whoever gets the same lines from trader before anything is read (account, period, evaluation), with the same trader and the same files, gets the same results, logs and exit status, however the flags were written.", "quantifier": "all floats; all configurations of accounts and evaluations; all pairs of flags of trader and all contents of the files", "why_tests_cant": "there are 2^32 floats and unboundedly many flags and files; that six or nine digits suffice is a statement about all neighbouring floats", "anchors": ["trader.cc:157-179 (account_config.DebugString(), eval_config.DebugString())", "trader.cc:58-77 (GetAccountConfig)", "base/base.proto:44-85 (FeeConfig, AccountConfig)", "eval/eval.proto:42-53 (EvaluationConfig)"]}
{"id": "C110", "title": "The unit of the quote currency does not matter", "statement": "Counting the quote currency in another unit (cents instead of dollars: all prices, balances, units, fixed and minimum fees times c > 0) changes nothing but the unit: every order gets the same answer (executed, not executed, abort) and leaves the same account, converted; so does every sequence of orders. Evaluating a trader that decides the same in both units gives the same periods, gains, volatilities, numbers of orders and score, all amounts converted; the stop trader does so for every configuration and history; the rebalancing trader does so if a quote unit is worth more than a millionth on both scales (it ignores smaller balances, and there it does decide differently). The moving averages and the MACD are converted, volatility stays, and so do RSI and the stochastic oscillator unless their absolute bound 1e-6 binds in exactly one of the units. Counting the base currency in another unit (amounts times d, prices divided by d) changes neither the answers to orders and order sequences, as long as no amount reaches the largest floating-point number, nor the decisions of the stop trader, nor the evaluation of any trader that decides the same in both units and states its amounts in base currency; but it does change the orders of the rebalancing trader. A price history with prices and volumes in other units (two factors) loses the same records as outliers and is converted to the same ticks in these units, or to the same abort.", "quantifier": "all factors c > 0, accounts, configurations, orders, ticks, order sequences; all histories, evaluation configurations and side inputs", "why_tests_cant": "a relation between two runs for every history, configuration and factor; a forgotten conversion (a fee, a threshold, a bound) shows only for the amounts where it binds", "anchors": ["base/account.cc:34-365 (Account)", "eval/eval.cc:12-206 (ExecuteTrader, Evaluate)", "traders/stop_trader.cc:10-90 (StopTrader::Update)", "traders/rebalancing_trader.cc:10-71 (RebalancingTrader::Update)", "indicators/relative_strength_index.cc, indicators/stochastic_oscillator.cc, indicators/volatility.cc", "base/history.cc:60-185 (RemoveOutliers, Resample)"]}
{"id": "C111", "title": "When a history happened does not matter", "statement": "Moving the whole history, the side input and the evaluated window by d seconds leaves every figure of the evaluation of a single period unchanged (balances, prices, gains, fees, numbers of orders, score, and the abort if there is one), for the stop trader, the rebalancing trader and every trader that looks only at differences of times: for every d in a fast evaluation, and for whole days if volatilities are computed (these are volatilities of daily returns: moved by half a day, a history can have another volatility). In binary32 bit for bit. A price history moved by any d loses the same records as outliers; moved by a multiple of the sampling rate it is converted to the same ticks, moved (by less than a sampling period it can be converted to other ticks).", "quantifier": "all histories with positive times, side inputs, accounts, trader configurations and shifts d; exact and IEEE arithmetic", "why_tests_cant": "a relation between two runs for every history and every shift; an absolute time that leaks into a decision shows only for the times where it matters", "anchors": ["eval/eval.cc:37-206 (ExecuteTrader, EvaluateTrader)", "indicators/last_n_ohlc_ticks.cc:28-62 (LastNOhlcTicks::Update)", "base/side_input.cc:39-63 (GetSideInputIndex)", "traders/stop_trader.cc:10-89", "traders/rebalancing_trader.cc:10-71", "base/history.cc:60-185 (RemoveOutliers, Resample)"]}
{"id": "C112", "title": "An evaluation depends only on what lies in its window", "statement": "Ticks outside the configured window [start, end) never influence an evaluation: two sorted histories with the same ticks in the window give the same result, errors, calls and log rows, so evaluating the selected ticks is evaluating the whole history. Of the side input only the signals at the ticks matter: records superseded before the first tick or between two ticks, or later than the last tick, change nothing. An evaluation in periods is the sequence of the evaluations of its periods alone. Two exceptions: a side input cut to the window (as the trader program does) loses the record that would be the latest one at the start, so the trader gets no signals until the first record of the window; and a window ending at or before the first second of 1970 has no bounds.", "quantifier": "all sorted histories, side inputs, traders, accounts, period lengths and windows starting at or after 1970; every arithmetic", "why_tests_cant": "a relation between two runs on arbitrary histories, which differ in arbitrarily many places", "anchors": ["eval/eval.cc: EvaluateTrader, ExecuteTrader", "base/base.h: HistorySubset", "base/side_input.cc: GetSideInputIndex", "trader.cc: ReadHistory"]}
{"id": "C113", "title": "New data only extends what was converted", "statement": "Convert a price history, later convert the same history with more records appended. Resampling: all ticks but the last one are the same; the last one keeps its time and opening price, and is the same too if the first new record lies in a later period (for histories in any order: if the longer one can be resampled, so can the shorter). Outliers: nothing changes for a record that 10 usable records follow; if anything changes later on, then the first record decided differently was dropped and is now kept, its jump being confirmed by the new records. Together: the ticks agree up to the last kept record that 10 usable records follow.", "quantifier": "all price histories, appended records, deviations and sampling rates; every arithmetic", "why_tests_cant": "a relation between two runs on inputs of arbitrary length", "anchors": ["base/history.cc: Resample, RemoveOutliers", "convert.cc: main"]}
{"id": "C114", "title": "Better terms never make an order worse", "statement": "Compare two exchanges holding the same account: the better one has fees that are nowhere higher (relative, fixed and minimum) and at least the market liquidity. Every order for an amount of base currency that the worse exchange executes, the better one executes too: the same amount changes hands, at least as much quote currency is left, and for a buy (or at the same liquidity) no more fees are paid; selling needs a relative fee of at most 1. Every order to spend an amount of quote currency is executed too, and buys at least as much. An order to raise an amount of quote currency never sells more. In binary32 lower fees never hurt an order for a base amount: same amount bit for bit, not less money, not more fees. The limits: on better terms an order to raise a quote amount can be refused (less than the smallest tradable amount is needed), a limit order can be refused if more of the volume is tradable, and a whole back-test can end with more money where fees are higher.", "quantifier": "all accounts, pairs of fee schedules, liquidities, ticks with low <= open <= high and orders of every type, in exact arithmetic; all finite accounts and fee schedules in binary32", "why_tests_cant": "a comparison of two executions for every account, schedule and amount; a rounding in the wrong direction or a swapped fee shows only where the roundings differ", "anchors": ["base/account.cc:44-75 (GetFee, GetMarketBuyPrice, GetStopBuyPrice, GetMarketSellPrice, GetStopSellPrice)", "base/account.cc:77-156 (BuyBase, BuyAtQuote, SellBase, SellAtQuote)", "base/account.cc:290-363 (ExecuteOrder)"]}
{"id": "C115", "title": "The range of prices bounds every gain", "statement": "No trader can gain more in a back-test than the prices allow. If all prices of the history lie between m and M, the final value is at most the starting balances valued at M times (M/m) to the number of executed purchases; in reported figures: at most the starting value times (M/m) to the number of executed orders plus one. On a history of single-price ticks whose prices never rise (in particular on a flat market) no trader ends with more than its starting value. The bound is attained.", "quantifier": "all traders (any state, any orders), histories with low <= open, close <= high, side inputs and configurations with non-negative balances, units and minimum fees, starting balances on the currency grid and liquidity between 0 and 1; exact arithmetic", "why_tests_cant": "ranges over every trader and every history; money created by one order in a thousand (a rounding or a fee in the wrong direction, a price outside the tick) shows only in the accumulated value", "anchors": ["eval/eval.cc:38-141 (ExecuteTrader)", "base/account.cc:77-363 (BuyBase ... ExecuteOrder)"]}
{"id": "C116", "title": "Splitting an order never pays", "statement": "If several orders of the same type and side for amounts of base currency (whole units) are all executed one after another on the same tick, then one order for the sum of the amounts is executed too: it leaves the same base balance and at least as much quote currency, and a purchase pays no more fees. Fee schedules without rebates; sales need a relative fee of at most 1; for limit orders the sum has to be within the tradable volume. Limits, each with a proof: the tradable volume of a tick limits every limit order by itself, so any number of orders for the whole of it are executed on the same tick; one sale can pay more fees than two (it sells for more); amounts that are not whole units are rounded one by one; orders to spend a quote amount cannot be merged, the merged order can be refused.", "quantifier": "all accounts on the currency grid, configurations, ticks, order types, sides, prices and lists of amounts of any length; exact arithmetic", "why_tests_cant": "compares one execution with sequences of executions of any length; subadditivity of the roundings and the fee schedule fails for a wrong rounding direction only at particular amounts", "anchors": ["base/account.cc:7-17 (Floor, Ceil, Round)", "base/account.cc:44-49 (GetFee)", "base/account.cc:71-95 (GetMaxBaseAmount, BuyBase)", "base/account.cc:117-135 (SellBase)", "base/account.cc:290-363 (ExecuteOrder)"]}
{"id": "C117", "title": "The built-in traders leave a quiet market alone", "statement": "If all prices of the history lie between m and M and both margins of the stop trader are wider than this range ((1-x)M < m where it can be long, M < (1+x)m where it can be in cash), it never executes an order and ends with the starting balances: with any daily rates, fees, units, volumes, gaps in time and side input, and in float arithmetic too, whatever exp and log return. A margin equal to the range is not enough. On a flat market a rebalancing trader that finds its starting allocation within the band never executes an order (in any arithmetic, with any fees); one that starts out of the band executes exactly one order if every tick has volume and there are no market fees and units, and holds alpha of the unchanged value ever after. With one tick without volume it executes the order twice and leaves its target.", "quantifier": "all histories of any length within the range (or flat), all configurations, side inputs, fast or full, logged or not, runs that abort included; exact arithmetic and binary32", "why_tests_cant": "an invariant of the stop price over histories of any length, with ratchets and resets at any times; a wrong clamp of the stop price shows only when the prices come back", "anchors": ["traders/stop_trader.cc:10-89", "traders/rebalancing_trader.cc:10-71", "eval/eval.cc:63-123", "base/account.cc:137-288 (StopBuy ... LimitSellAtQuote)"]}
{"id": "C118", "title": "A message about a record shows the record", "statement": "When convert cannot load a delimited proto file with complete records (every field set, as the programs write them), or cannot serialise a record, the record printed on standard error has every field of the offending record under its name, with enough digits that it can be read back exactly (timestamp, prices, volume; every signal of a side record, in order), and two different records are never printed alike. The record shown is the first one of the selected period that is wrong, with its number in the period and the reason; for a record too large to be serialised it is the first such record, and the output file holds exactly the records before it.", "quantifier": "every list of complete records written to the file, every period, flags, file system, integer format and errno behaviour of strtof on tiny numbers; every float including infinities, zeros of both signs and NaN", "why_tests_cant": "A test compares the text of a few records; that the text determines all of 2^64 timestamps and 2^32 values per field, and that the record shown is the first bad one of any file, needs a proof", "anchors": ["convert.cc: ReadHistoryFromDelimitedProtoFile (259-269)", "util/proto.h: WriteDelimitedMessagesToOStream (118-125)", "base/base.proto: PriceRecord, OhlcTick, SideInputRecord"]}
{"id": "C119", "title": "A stop order limits the loss", "statement": "A backtest of the built-in stop trader that starts long (its base currency worth no less than its quote currency even at the first stop price (1 - margin) * first close), on ticks that never open below the last close, with no pause of an hour between ticks with a volume: the first order of the run that the market reaches sells the whole base balance at a stop price of at least (1 - margin) * first close, and executes between that price and the low of the tick as the liquidity says; with liquidity 1, no fees and no units the account then holds no base currency and at least start quote + (1 - margin) * start base * first close. If no order is ever reached nothing is executed and the last close is above the first stop price. Mirror image for a start in cash: the first order reached spends the whole quote balance at a price of at most (1 + margin) * first close. On a tick that opens below the stop price, and after a pause of an hour, the floor does not hold.", "quantifier": "every tick history with those two conditions (of any length, with any volumes), every account configuration, margins and daily rates, side input, log and fast mode, runs that abort included; in exact arithmetic and in binary32 with any exp and log", "why_tests_cant": "Tests run a handful of histories; the floor is an invariant of the stop price over all updates, about every path of prices until the first order that is reached", "anchors": ["traders/stop_trader.cc: StopTrader::Update (10-39), UpdateStopOrderPrice (41-74), EmitStopOrder (76-89)", "base/account.cc: Account::GetStopBuyPrice, GetStopSellPrice, StopSell, StopBuyAtQuote, ExecuteOrder", "eval/eval.cc: ExecuteTrader"]}
{"id": "C120", "title": "The name of a trader tells its configuration", "statement": "The name of a rebalancing trader shows alpha and epsilon, and that of a stop trader the margin, the margin for moving, the increase and the decrease per day, in this order, each as a decimal number with three decimals that differs from the parameter by at most 0.0005. Hence traders of one kind with the same name have parameters that differ by at most 0.001 each, and a rebalancing trader never has the name of a stop trader. No two traders of a default batch have the same name, and the results of evaluating such a batch carry these names in the order of the batch, whatever the schedule, so that every printed score can be attributed to one trader.", "quantifier": "every configuration, every pair of configurations, every schedule of the batch", "why_tests_cant": "Infinitely many pairs of configurations.", "anchors": ["traders/rebalancing_trader.cc: RebalancingTraderEmitter::GetName", "traders/stop_trader.cc: StopTraderEmitter::GetName", "traders/trader_factory.cc: GetBatchOfTraders", "eval/eval.cc: EvaluateTrader, EvaluateBatchOfTraders"]}
{"id": "C121", "title": "How many orders a backtest can execute", "statement": "A trader that emits at most k orders per update: a backtest on n ticks submits at most k (n - 1) orders to the exchange, even if it aborts, and reports at most k (n - 1) executed orders (although an order stays in force over ticks without volume and may be executed again on each of them). Hence the stop trader executes at most n - 1 orders and the rebalancing trader at most 2 (n - 1), the counter of a built-in trader fits in an int for up to 2^30 ticks, no period of an evaluation reports more than k orders per tick of its window but the first, and with prices between m and M the gain is at most (M / m)^(k (n - 1) + 1).", "quantifier": "every trader with that limit, every tick history of any length, every account configuration, side input, fast and log mode; all number types (the bound on the gain: exact arithmetic)", "why_tests_cant": "Histories of every length and every pattern of ticks without volume.", "anchors": ["eval/eval.cc: ExecuteTrader, EvaluateTrader", "traders/stop_trader.cc: StopTrader::Update", "traders/rebalancing_trader.cc: RebalancingTrader::Update"]}
{"id": "C122", "title": "How long the indicators remember", "statement": "An indicator forgets the history before its window. The simple moving average over N periods depends only on the closes of the last N aggregated ticks; %K and the fast and slow %D of the stochastic oscillator over N periods depend only on the last N + 4 aggregated ticks; the volatility with a window of w > 0 periods depends only on the last w + 1 period-end values of the portfolio. So two histories that end alike give equal values whatever came before. The exponential averages forget geometrically: with weight w, two histories whose closes lie between lo and hi and whose last k closes agree have averages at most (1 - w)^k (hi - lo) apart; the MACD series are at most (hi - lo)((1 - wf)^k + (1 - ws)^k) apart, and the signals, after a + b common closes, at most (hi - lo)((1 - wf)^a + (1 - ws)^a) + 2 (hi - lo)(1 - wg)^b. For the relative strength index over N periods, with at least N periods before k common ones and no move above B, the upward and the downward averages differ by at most e = (1 - 1/N)^k B, and the indices, if neither market stands still, by at most 100 e / (U + D) + 1/10000, U and D being the averages of one of them.", "quantifier": "all pairs of tick histories with sorted non-negative timestamps that end alike, of any lengths and with any gaps, all window lengths, weights and periods; exact arithmetic (the volatility: real numbers)", "why_tests_cant": "It speaks about every pair of pasts of every length.", "anchors": ["indicators/simple_moving_average.cc: SimpleMovingAverage", "indicators/exponential_moving_average.cc: ExponentialMovingAverage", "indicators/moving_average_convergence_divergence.cc: MovingAverageConvergenceDivergence", "indicators/stochastic_oscillator.cc: StochasticOscillator", "indicators/volatility.cc: Volatility"]}
{"id": "C123", "title": "Lower costs never leave the stop trader with less", "statement": "If amounts are not rounded, a stop order costs a share of its value and nothing else, and all prices lie between m and M, then for the stop trader cheaper is better: of two executions on the same ticks with the same start and the same thresholds, of which the first has at most the share and at least the liquidity of the second, and 2 * share * M <= m for the larger share, both have the same start value and execute equally many orders, and the first one ends with a portfolio worth at least as much. The bound on the share is needed: BuyAtQuote reserves the fee for the whole amount, so a part of the money stays behind, and if the price collapses after the purchase the dearer execution ends with more.", "quantifier": "all numbers and values of ticks with prices in [m, M], all stop trader thresholds, starting balances, fee shares, liquidities and side inputs, such that no amount exceeds the range of a float; exact arithmetic", "why_tests_cant": "It compares two whole executions for every market and every pair of terms; for other traders and larger shares it is false.", "anchors": ["traders/stop_trader.cc: StopTrader::Update", "base/account.cc: BuyAtQuote, SellBase, GetFee, ExecuteOrder", "eval/eval.cc: ExecuteTrader"]}
{"id": "C124", "title": "The indicators in a shifted, an upside-down and a higher market", "statement": "If all prices of a history are b higher, the simple and the exponential moving average are b higher, and the MACD series, its signal and divergence, the relative strength index, %K and both %D are the same. If the market is turned upside down (a price p becomes b - p, highs and lows are exchanged), the averages are reflected in the same way, MACD series, signal and divergence change their sign, %K and both %D become 100 minus themselves, the upward and downward averages of the relative strength index are exchanged, and the two indices add up to exactly 100 if neither average is below a millionth of the other one, and always to between 100 and 100.0001. If one market is nowhere lower than another one at the same times, its simple average, its exponential average (weight in [0, 1]), its lowest low and its highest high are not lower; the relative strength index and %K need not follow.", "quantifier": "all non-empty histories with sorted non-negative timestamps, with any gaps, all shifts, window lengths, weights and periods; exact arithmetic", "why_tests_cant": "It relates the values for two different histories of every length.", "anchors": ["indicators/simple_moving_average.cc: SimpleMovingAverage", "indicators/exponential_moving_average.cc: ExponentialMovingAverage", "indicators/moving_average_convergence_divergence.cc: MovingAverageConvergenceDivergence", "indicators/stochastic_oscillator.cc: StochasticOscillator", "indicators/relative_strength_index.cc: RelativeStrengthIndex", "indicators/last_n_ohlc_ticks.cc: LastNOhlcTicks"]}
{"id": "C125", "title": "The score ranks traders by their compounded gain", "statement": "Evaluations over the same history with the same evaluation configuration, of any two traders with any two accounts and side inputs, report the same periods in the same order, and in each of them the same first and last price and the same benchmark gain; so their average benchmark gains agree. Therefore the score of one is lower than the score of the other if and only if the product of its period gains is lower, whatever the benchmark did, and the quotient of the scores is the geometric mean of the quotients of the gains. A trader that gains at least as much as another one in every period has at least its score and its average gain. In float arithmetic, within the range of C103, the trader whose account compounds (computed exactly from the reported prices and balances) by at least a factor 1 + 2^-18 per period better has the higher score, and a trader whose score is not lower has compounded at most by that factor per period worse.", "quantifier": "all histories, evaluation configurations, pairs of traders, accounts and side inputs whose evaluations return; the first part for every arithmetic, the ranking for exact arithmetic and non-negative units and starting balances, and for binary32 in the range of C103", "why_tests_cant": "It relates two evaluations for every history, number of periods and pair of traders.", "anchors": ["eval/eval.cc: EvaluateTrader, GetGeometricAverage, GetAverage"]}
{"id": "C126", "title": "A side input reaches a trader only through its signals", "statement": "A trader whose orders and state do not depend on the signals it is passed is evaluated alike with any two well-formed side inputs, or with none: the same result or the same abort, the same interface calls apart from the signals, and byte for byte the same exchange and trader logs. Neither built-in trader looks at the signals, so a side input never changes their evaluation or logs.", "quantifier": "all traders that ignore signals, side histories, sorted price histories, accounts, evaluation configurations and loggers; both built-in traders with every configuration; every arithmetic", "why_tests_cant": "It relates evaluations with different side inputs, for every side input, history and trader.", "anchors": ["eval/eval.cc: ExecuteTrader, EvaluateTrader", "base/side_input.cc: SideInput", "traders/rebalancing_trader.cc", "traders/stop_trader.cc"]}
{"id": "C127", "title": "Without a volume cap only the zero of the volume counts", "statement": "Replace the volumes of a history by any others that are zero exactly where the old ones were (for example another unit, or volumes of another source). Market and stop orders, and limit orders on an account without max_volume_ratio, are executed exactly as before; a trader that does not look at the volume, and that places no limit orders or trades on an account without max_volume_ratio, gets exactly the same evaluation or the same abort. So does the stop trader always, and the rebalancing trader without max_volume_ratio. With max_volume_ratio limit orders do notice.", "quantifier": "all histories and replacement volumes, orders, accounts, traders that ignore the volume, side inputs, evaluation configurations; every configuration of the built-in traders; every arithmetic", "why_tests_cant": "It relates evaluations of two histories, for every pair of histories that differ only in the volume.", "anchors": ["base/account.cc: GetMaxBaseAmount, LimitBuy, LimitSell, ExecuteOrder", "eval/eval.cc: ExecuteTrader, EvaluateTrader", "indicators/last_n_ohlc_ticks.cc: Update", "indicators/volatility.cc"]}
{"id": "C128", "title": "A coarser conversion says the same as a finer one", "statement": "Convert the same prices at two sampling rates, the finer dividing the coarser. Every coarse tick summarises the fine ticks in its period: it closes where the last of them closes and has their total volume (exact arithmetic); leaving out the fine ticks that merely fill a gap, it opens where the first opens and reaches exactly up to the highest high and down to the lowest low. A coarse period without records is the same flat tick as all the fine ticks in it. If all recorded volumes are positive, the ticks that fill a gap are the ones without volume, so that the coarse file can be made from the fine one. With the gap-filling ticks counted in, open and range can differ. Exponential averages, MACD and RSI (and in exact arithmetic simple averages) whose period is a multiple of both rates have the same value whichever of the two files they are computed from, whatever the gaps.", "quantifier": "all sorted price histories, for the indicators all pairs of rates, otherwise all pairs of sampling rates one of which divides the other, every tick; open and close in every arithmetic, high and low in exact arithmetic and in every binary format, volumes in exact arithmetic", "why_tests_cant": "Relates two runs on arbitrary records with arbitrary gaps, for all pairs of rates", "anchors": ["base/history.cc: Resample", "convert.cc: ConvertPriceHistory", "indicators/last_n_ohlc_ticks.cc: Update"]}
{"id": "C129", "title": "A later evaluation confirms an earlier one", "statement": "Evaluate a trader in periods of months, and once more later: with a later end, on a history and a side input to which records have been added, none of them before the earlier end. If both evaluations succeed, the later one begins with exactly the periods of the earlier one - the same windows, balances, fees, volatilities and gains - and with exactly the same calls of the trader and the same log rows; every period it adds ends after the earlier end. Looking back: if the later evaluation succeeds, the earlier one reports exactly those of its periods that end in time, and nothing can go wrong with it but the final score (a negative product). In particular, converting the price records again with more appended, and evaluating again, confirms every evaluation that ends no later than the last settled tick of the first conversion (C113).", "quantifier": "all traders, accounts, sorted histories, side inputs, added records, period lengths in months and ends, starting in 1970 or later; every arithmetic", "why_tests_cant": "Relates two evaluations of an arbitrary trader, for all histories and all later additions", "anchors": ["eval/eval.cc: EvaluateTrader, ExecuteTrader", "base/history.cc: HistorySubset", "base/side_input.cc", "base/history.cc: Resample, RemoveOutliers"]}
{"id": "C130", "title": "A conversion can be done in pieces", "statement": "Cut a price history in two where a later period begins. The ticks of the whole are then those of the first piece, one flat tick without volume at the last closing price for each period in between, and those of the second piece; the whole can be resampled exactly if both pieces can, and fails in the same way. The same holds for any number of pieces, and on clean data for the program's conversion with its removal of outliers. With outliers it does not: the first usable record of a piece is always kept, so a price that the conversion of the whole removes stays when a piece begins with it.", "quantifier": "all price histories, all cuts between periods, all positive rates; every arithmetic", "why_tests_cant": "Relates the conversion of an arbitrary history to those of its pieces, for all cuts", "anchors": ["base/history.cc: Resample, RemoveOutliers", "convert.cc: ConvertPriceHistory"]}
