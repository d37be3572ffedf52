{
 "claims": [
  {
   "property": "C01",
   "status": "proved",
   "theorems": [
    "Verif.Props.C01_methods",
    "Verif.Props.C01_executeOrder"
   ],
   "note": ""
  },
  {
   "property": "C02",
   "status": "proved",
   "theorems": [
    "Verif.Props.C02_balances_never_negative",
    "Verif.Props.C02_binary32",
    "Verif.Props.C02_exact"
   ],
   "note": "For every order sequence; laws instantiated for exact arithmetic and for the IEEE binary32 model."
  },
  {
   "property": "C03",
   "status": "proved",
   "theorems": [
    "Verif.Props.C03_grid",
    "Verif.Props.C03_onGrid_step",
    "Verif.Props.C03_onGrid_run",
    "Verif.Props.C03_float"
   ],
   "note": "Exact arithmetic; C03_float states the rounded-product form for every FloatOps."
  },
  {
   "property": "C04",
   "status": "proved",
   "theorems": [
    "Verif.Props.C04_buy",
    "Verif.Props.C04_sell"
   ],
   "note": ""
  },
  {
   "property": "C05",
   "status": "proved",
   "theorems": [
    "Verif.Props.C05_no_free_money"
   ],
   "note": ""
  },
  {
   "property": "C06",
   "status": "proved",
   "theorems": [
    "Verif.Props.C06_buy_at_quote_bound",
    "Verif.Props.C06_fails_in_binary32"
   ],
   "note": "Exact arithmetic, non-negative fees; C06_fails_in_binary32 proves the claim false for binary32 rounding; C86 bounds by how much."
  },
  {
   "property": "C07",
   "status": "proved",
   "theorems": [
    "Verif.Props.C07_sell_at_quote_bound"
   ],
   "note": "Exact arithmetic; C86 is the binary32 version."
  },
  {
   "property": "C08",
   "status": "proved",
   "theorems": [
    "Verif.Props.C08_fee_mono_float",
    "Verif.Props.C08_fee",
    "Verif.Props.C08_total_fee_never_negative",
    "Verif.Props.C08_total_fee_mono"
   ],
   "note": "C08_fee_mono_float: monotone in every IEEE format."
  },
  {
   "property": "C09",
   "status": "proved",
   "theorems": [
    "Verif.Props.C09_binary32",
    "Verif.Props.C09_price_bounds",
    "Verif.Props.C09_liquidity",
    "Verif.Props.C09_endpoints_binary32",
    "Verif.Props.C09_bounds_fail_in_binary32"
   ],
   "note": "Exact arithmetic; endpoints also in binary32; C09_bounds_fail_in_binary32 proves the exact bound false for binary32 in general, C09_binary32 bounds how far it can fail."
  },
  {
   "property": "C10",
   "status": "proved",
   "theorems": [
    "Verif.Props.C10_trigger",
    "Verif.Props.C10_untriggered",
    "Verif.Props.C10_limit_fills_at_limit"
   ],
   "note": ""
  },
  {
   "property": "C11",
   "status": "proved",
   "theorems": [
    "Verif.Props.C11_volume_cap",
    "Verif.Props.C11_no_cap"
   ],
   "note": ""
  },
  {
   "property": "C12",
   "status": "proved",
   "theorems": [
    "Verif.Props.C12_fee_schedule",
    "Verif.Props.C12_market_ignores_price",
    "Verif.Props.C12_trade_table"
   ],
   "note": ""
  },
  {
   "property": "C13",
   "status": "proved",
   "theorems": [
    "Verif.Props.C13_invalid_aborts",
    "Verif.Props.C13_accepts_iff_valid",
    "Verif.Props.C13_binary32_underflow_abort"
   ],
   "note": "Exact arithmetic for the price positivity; binary32 underflow can still abort (C13_binary32_underflow_abort)."
  },
  {
   "property": "C14",
   "status": "proved",
   "theorems": [
    "Verif.Props.C14_buy_float",
    "Verif.Props.C14_sell_float",
    "Verif.Props.C14_buy",
    "Verif.Props.C14_sell"
   ],
   "note": "C14_buy and C14_sell in exact arithmetic; C14_buy_float in binary32 and C14_sell_float in every IEEE format, with rounding, overflow and NaN counted."
  },
  {
   "property": "C15",
   "status": "proved",
   "theorems": [
    "Verif.Props.C15_subset_copy",
    "Verif.Props.C15_subset_range",
    "Verif.Props.C15_probes",
    "Verif.Props.C15_compose"
   ],
   "note": ""
  },
  {
   "property": "C16",
   "status": "proved",
   "theorems": [
    "Verif.Props.C16_inverted_window"
   ],
   "note": ""
  },
  {
   "property": "C17",
   "status": "proved",
   "theorems": [
    "Verif.Props.C17_grid",
    "Verif.Props.C17_empty"
   ],
   "note": ""
  },
  {
   "property": "C18",
   "status": "proved",
   "theorems": [
    "Verif.Props.C18_float",
    "Verif.Props.C18_meaning",
    "Verif.Props.C18_exact"
   ],
   "note": ""
  },
  {
   "property": "C19",
   "status": "proved",
   "theorems": [
    "Verif.Props.C19_no_invented_prices",
    "Verif.Props.C19_well_formed_float",
    "Verif.Props.C19_well_formed",
    "Verif.Props.C19_volume"
   ],
   "note": ""
  },
  {
   "property": "C20",
   "status": "proved",
   "theorems": [
    "Verif.Props.C20_partition"
   ],
   "note": ""
  },
  {
   "property": "C21",
   "status": "proved",
   "theorems": [
    "Verif.Props.C21_reason",
    "Verif.Props.C21_kept_usable",
    "Verif.Props.C21_first_kept"
   ],
   "note": ""
  },
  {
   "property": "C22",
   "status": "proved",
   "theorems": [
    "Verif.Props.C22_clean",
    "Verif.Props.C22_idempotent",
    "Verif.Props.C22_stabilises",
    "Verif.Props.C22_not_idempotent"
   ],
   "note": ""
  },
  {
   "property": "C23",
   "status": "proved",
   "theorems": [
    "Verif.Props.C23_context"
   ],
   "note": ""
  },
  {
   "property": "C24",
   "status": "proved",
   "theorems": [
    "Verif.Props.C24_top_n",
    "Verif.Props.C24_zero",
    "Verif.Props.C24_empty"
   ],
   "note": "Ties go to the earlier gap; top_n = 0 handled separately (C24_zero)."
  },
  {
   "property": "C25",
   "status": "proved",
   "theorems": [
    "Verif.Props.C25_index"
   ],
   "note": ""
  },
  {
   "property": "C26",
   "status": "proved",
   "theorems": [
    "Verif.Props.C26_hint"
   ],
   "note": ""
  },
  {
   "property": "C27",
   "status": "proved",
   "theorems": [
    "Verif.Props.C27_construct",
    "Verif.Props.C27_access"
   ],
   "note": ""
  },
  {
   "property": "C28",
   "status": "proved",
   "theorems": [
    "Verif.Props.C28_no_lookahead"
   ],
   "note": ""
  },
  {
   "property": "C29",
   "status": "proved",
   "theorems": [
    "Verif.Props.C29_rounds",
    "Verif.Props.C29_active_ticks",
    "Verif.Props.C29_repeated_execution"
   ],
   "note": ""
  },
  {
   "property": "C30",
   "status": "proved",
   "theorems": [
    "Verif.Props.C30_signals"
   ],
   "note": ""
  },
  {
   "property": "C31",
   "status": "proved",
   "theorems": [
    "Verif.Props.C31_logger",
    "Verif.Props.C31_fast_eval",
    "Verif.Props.C31_volatility_never_aborts",
    "Verif.Props.C31_same_calls"
   ],
   "note": ""
  },
  {
   "property": "C32",
   "status": "proved",
   "theorems": [
    "Verif.Props.C32_story",
    "Verif.Props.C32_rows"
   ],
   "note": ""
  },
  {
   "property": "C33",
   "status": "proved",
   "theorems": [
    "Verif.Props.C33_result",
    "Verif.Props.C33_empty"
   ],
   "note": ""
  },
  {
   "property": "C34",
   "status": "proved",
   "theorems": [
    "Verif.Props.C34_idle",
    "Verif.Props.C34_score"
   ],
   "note": ""
  },
  {
   "property": "C35",
   "status": "proved",
   "theorems": [
    "Verif.Props.C35_periods",
    "Verif.Props.C35_windows",
    "Verif.Props.C35_echo",
    "Verif.Props.C35_local"
   ],
   "note": ""
  },
  {
   "property": "C36",
   "status": "proved",
   "theorems": [
    "Verif.Props.C36_terminates",
    "Verif.Props.C36_completes",
    "Verif.Props.C36_summary",
    "Verif.Props.C36_summary_exact",
    "Verif.Props.C36_single",
    "Verif.Props.C36_never_returns"
   ],
   "note": ""
  },
  {
   "property": "C37",
   "status": "proved",
   "theorems": [
    "Verif.Props.C37_batch",
    "Verif.Props.C37_abort",
    "Verif.Props.C37_completes",
    "Verif.Props.C37_deterministic"
   ],
   "note": "Any interleaving; completion for every schedule that gives each task enough steps."
  },
  {
   "property": "C38",
   "status": "proved",
   "theorems": [
    "Verif.Props.C38_empty",
    "Verif.Props.C38_means",
    "Verif.Props.C38_bounds"
   ],
   "note": ""
  },
  {
   "property": "C39",
   "status": "proved",
   "theorems": [
    "Verif.Props.C39_last_n_periods",
    "Verif.Props.C39_bounded"
   ],
   "note": ""
  },
  {
   "property": "C40",
   "status": "proved",
   "theorems": [
    "Verif.Props.C40_callbacks"
   ],
   "note": ""
  },
  {
   "property": "C41",
   "status": "proved",
   "theorems": [
    "Verif.Props.C41_sma"
   ],
   "note": ""
  },
  {
   "property": "C42",
   "status": "proved",
   "theorems": [
    "Verif.Props.C42_ema",
    "Verif.Props.C42_bounds"
   ],
   "note": ""
  },
  {
   "property": "C43",
   "status": "proved",
   "theorems": [
    "Verif.Props.C43_mean_variance",
    "Verif.Props.C43_ema",
    "Verif.Props.C43_minimum",
    "Verif.Props.C43_maximum",
    "Verif.Props.C43_add_then_updates"
   ],
   "note": ""
  },
  {
   "property": "C44",
   "status": "proved",
   "theorems": [
    "Verif.Props.C44_window_size",
    "Verif.Props.C44_extrema",
    "Verif.Props.C44_extrema_ieee"
   ],
   "note": ""
  },
  {
   "property": "C45",
   "status": "proved",
   "theorems": [
    "Verif.Props.C45_memory_safe",
    "Verif.Props.C45_amortized"
   ],
   "note": ""
  },
  {
   "property": "C46",
   "status": "proved",
   "theorems": [
    "Verif.Props.C46_mean_variance",
    "Verif.Props.C46_variance_nonneg",
    "Verif.Props.C46_negative_in_binary32"
   ],
   "note": "Exact arithmetic; C46_negative_in_binary32 proves the variance can be negative in binary32."
  },
  {
   "property": "C47",
   "status": "proved",
   "theorems": [
    "Verif.Props.C47_formula",
    "Verif.Props.C47_range"
   ],
   "note": ""
  },
  {
   "property": "C48",
   "status": "proved",
   "theorems": [
    "Verif.Props.C48_meaning",
    "Verif.Props.C48_range"
   ],
   "note": ""
  },
  {
   "property": "C49",
   "status": "proved",
   "theorems": [
    "Verif.Props.C49_macd"
   ],
   "note": ""
  },
  {
   "property": "C50",
   "status": "proved",
   "theorems": [
    "Verif.Props.C50_returns",
    "Verif.Props.C50_volatility"
   ],
   "note": ""
  },
  {
   "property": "C51",
   "status": "proved",
   "theorems": [
    "Verif.Props.C51_closes",
    "Verif.Props.C51_ticks",
    "Verif.Props.C51_fails_with_gaps",
    "Verif.Props.C51_close_based",
    "Verif.Props.C51_sma",
    "Verif.Props.C51_stochastic"
   ],
   "note": "Closes always agree; whole ticks only without empty fine periods (C51_fails_with_gaps is the counterexample)."
  },
  {
   "property": "C52",
   "status": "proved",
   "theorems": [
    "Verif.Props.C52_returns_iff",
    "Verif.Props.C52_shape",
    "Verif.Props.C52_orders_valid"
   ],
   "note": ""
  },
  {
   "property": "C53",
   "status": "proved",
   "theorems": [
    "Verif.Props.C53_restores_alpha",
    "Verif.Props.C53_execution"
   ],
   "note": ""
  },
  {
   "property": "C54",
   "status": "proved",
   "theorems": [
    "Verif.Props.C54_limit_prices",
    "Verif.Props.C54_no_market_order_in_band",
    "Verif.Props.C54_market_order_iff"
   ],
   "note": ""
  },
  {
   "property": "C55",
   "status": "proved",
   "theorems": [
    "Verif.Props.C55_limit_price_on_edge_iff",
    "Verif.Props.C55_limit_amount_restores_alpha"
   ],
   "note": ""
  },
  {
   "property": "C56",
   "status": "proved",
   "theorems": [
    "Verif.Props.C56_returns_iff",
    "Verif.Props.C56_one_stop_order",
    "Verif.Props.C56_orders_valid"
   ],
   "note": ""
  },
  {
   "property": "C57",
   "status": "proved",
   "theorems": [
    "Verif.Props.C57_ratchet",
    "Verif.Props.C57_no_move_beyond_threshold",
    "Verif.Props.C57_reset",
    "Verif.Props.C57_first",
    "Verif.Props.C57_exact"
   ],
   "note": ""
  },
  {
   "property": "C58",
   "status": "proved",
   "theorems": [
    "Verif.Props.C58_rate_bound",
    "Verif.Props.C58_rate_attained"
   ],
   "note": ""
  },
  {
   "property": "C59",
   "status": "proved",
   "theorems": [
    "Verif.Props.C59_any_safe_trader",
    "Verif.Props.C59_execution_never_aborts",
    "Verif.Props.C59_evaluation_never_aborts",
    "Verif.Props.C59_batch_never_aborts",
    "Verif.Props.C59_duplicate_aborts",
    "Verif.Props.C59_returns_iff",
    "Verif.Props.C59_zero_unit_aborts"
   ],
   "note": "Exact arithmetic; zero-volume ticks may repeat timestamps; C59_duplicate_aborts holds for every FloatOps; C59_zero_unit_aborts shows positive units are needed."
  },
  {
   "property": "C60",
   "status": "proved",
   "theorems": [
    "Verif.Props.C60_basic",
    "Verif.Props.C60_defined_iff",
    "Verif.Props.C60_calendar",
    "Verif.Props.C60_additive",
    "Verif.Props.C60_not_additive"
   ],
   "note": ""
  },
  {
   "property": "C61",
   "status": "proved",
   "theorems": [
    "Verif.Props.C61_fields",
    "Verif.Props.C61_round_trip",
    "Verif.Props.C61_round_trip'",
    "Verif.Props.C61_gregorian"
   ],
   "note": ""
  },
  {
   "property": "C62",
   "status": "proved",
   "theorems": [
    "Verif.Props.C62_write",
    "Verif.Props.C62_round_trip",
    "Verif.Props.C62_concatenation",
    "Verif.Props.C62_callback",
    "Verif.Props.C62_file"
   ],
   "note": ""
  },
  {
   "property": "C63",
   "status": "proved",
   "theorems": [
    "Verif.Props.C63_truncated",
    "Verif.Props.C63_prefix"
   ],
   "note": ""
  },
  {
   "property": "C64",
   "status": "proved",
   "theorems": [
    "Verif.Props.C64_callback",
    "Verif.Props.C64_appends",
    "Verif.Props.C64_stream",
    "Verif.Props.C64_refused"
   ],
   "note": ""
  },
  {
   "property": "C65",
   "status": "proved",
   "theorems": [
    "Verif.Props.C65_price_csv",
    "Verif.Props.C65_ohlc_csv",
    "Verif.Props.C65_price_csv_exact",
    "Verif.Props.C65_ohlc_csv_exact",
    "Verif.Props.C65_price_csv_error",
    "Verif.Props.C65_ohlc_csv_error",
    "Verif.Props.C65_sorted_file",
    "Verif.Props.C65_price_proto",
    "Verif.Props.C65_ohlc_proto",
    "Verif.Props.C65_price_proto_exact",
    "Verif.Props.C65_ohlc_proto_exact",
    "Verif.Props.C65_price_proto_error",
    "Verif.Props.C65_ohlc_proto_error",
    "Verif.Props.C65_nan_accepted"
   ],
   "note": ""
  },
  {
   "property": "C66",
   "status": "proved",
   "theorems": [
    "Verif.Props.C66_price_unreadable_line",
    "Verif.Props.C66_ohlc_unreadable_line",
    "Verif.Props.C66_price_incomplete_line",
    "Verif.Props.C66_price_duplicate",
    "Verif.Props.C66_price_header",
    "Verif.Props.C66_ohlc_header"
   ],
   "note": ""
  },
  {
   "property": "C67",
   "status": "proved",
   "theorems": [
    "Verif.Props.C67_loads",
    "Verif.Props.C67_exact",
    "Verif.Props.C67_header",
    "Verif.Props.C67_error",
    "Verif.Props.C67_unparsable"
   ],
   "note": ""
  },
  {
   "property": "C69",
   "status": "proved",
   "theorems": [
    "Verif.Props.C69_clean_f32",
    "Verif.Props.C69_conversion",
    "Verif.Props.C69_clean",
    "Verif.Props.C69_end_to_end",
    "Verif.Props.C69_zero_timestamp"
   ],
   "note": ""
  },
  {
   "property": "C70",
   "status": "proved",
   "theorems": [
    "Verif.Props.C70_exchange_log",
    "Verif.Props.C70_missing_stream",
    "Verif.Props.C70_number_of_lines",
    "Verif.Props.C70_numbers",
    "Verif.Props.C70_row_shows_tick"
   ],
   "note": ""
  },
  {
   "property": "C72",
   "status": "proved",
   "theorems": [
    "Verif.Props.C72_rebalancing_grid",
    "Verif.Props.C72_stop_grid",
    "Verif.Props.C72_names",
    "Verif.Props.C72_parameters_clean",
    "Verif.Props.C72_default_grid",
    "Verif.Props.C72_default_in_batch",
    "Verif.Props.C72_default_in_batch_f32",
    "Verif.Props.C72_default_grid_f32",
    "Verif.Props.C72_default_batch_completes",
    "Verif.Props.C72_parameters_binary32"
   ],
   "note": ""
  },
  {
   "property": "C73",
   "status": "proved",
   "theorems": [
    "Verif.Props.C73_duration",
    "Verif.Props.C73_injective"
   ],
   "note": ""
  },
  {
   "property": "C74",
   "status": "proved",
   "theorems": [
    "Verif.Props.C74_account_is_order_history",
    "Verif.Props.C74_final",
    "Verif.Props.C74_balances_never_negative",
    "Verif.Props.C74_evaluation_returns"
   ],
   "note": ""
  },
  {
   "property": "C75",
   "status": "proved",
   "theorems": [
    "Verif.Props.C75_rebalancing_rows",
    "Verif.Props.C75_stop_rows",
    "Verif.Props.C75_number_of_lines"
   ],
   "note": ""
  },
  {
   "property": "C76",
   "status": "proved",
   "theorems": [
    "Verif.Props.C76_executed_iff",
    "Verif.Props.C76_refused_otherwise",
    "Verif.Props.C76_buy_at_quote_affordable",
    "Verif.Props.C76_buy_at_quote_maximal"
   ],
   "note": ""
  },
  {
   "property": "C77",
   "status": "proved",
   "theorems": [
    "Verif.Props.C77_check",
    "Verif.Props.C77_rejects",
    "Verif.Props.C77_loaded"
   ],
   "note": ""
  },
  {
   "property": "C78",
   "status": "proved",
   "theorems": [
    "Verif.Props.C78_infinite",
    "Verif.Props.C78_parse_iff",
    "Verif.Props.C78_local_time",
    "Verif.Props.C78_format_parse",
    "Verif.Props.C78_date"
   ],
   "note": "absl::ParseTime for the formats of util/time.cc."
  },
  {
   "property": "C79",
   "status": "proved",
   "theorems": [
    "Verif.Props.C79_outliers",
    "Verif.Props.C79_gaps",
    "Verif.Props.C79_flags"
   ],
   "note": ""
  },
  {
   "property": "C80",
   "status": "proved",
   "theorems": [
    "Verif.Props.C80_failure",
    "Verif.Props.C80_frame",
    "Verif.Props.C80_empty",
    "Verif.Props.C80_prices",
    "Verif.Props.C80_ticks",
    "Verif.Props.C80_side",
    "Verif.Props.C80_again"
   ],
   "note": ""
  },
  {
   "property": "C81",
   "status": "proved",
   "theorems": [
    "Verif.Props.C81_float",
    "Verif.Props.C81_bits",
    "Verif.Props.C81_int64",
    "Verif.Props.C81_price",
    "Verif.Props.C81_tick",
    "Verif.Props.C81_side",
    "Verif.Props.C81_any_price",
    "Verif.Props.C81_any_tick",
    "Verif.Props.C81_loaded_prices",
    "Verif.Props.C81_loaded_ticks",
    "Verif.Props.C81_converted",
    "Verif.Props.C81_program"
   ],
   "note": "IEEE binary32 model; protobuf wire format modelled byte by byte."
  },
  {
   "property": "C82",
   "status": "proved",
   "theorems": [
    "Verif.Props.C82_account",
    "Verif.Props.C82_account_f32",
    "Verif.Props.C82_failure",
    "Verif.Props.C82_side_refused",
    "Verif.Props.C82_frame",
    "Verif.Props.C82_single",
    "Verif.Props.C82_logs_refused",
    "Verif.Props.C82_single_whole",
    "Verif.Props.C82_nothing_selected"
   ],
   "note": ""
  },
  {
   "property": "C83",
   "status": "proved",
   "theorems": [
    "Verif.Props.C83_success",
    "Verif.Props.C83_fault",
    "Verif.Props.C83_completes",
    "Verif.Props.C83_deterministic",
    "Verif.Props.C83_rankable_exact",
    "Verif.Props.C83_rankable_f32",
    "Verif.Props.C83_score_f32",
    "Verif.Props.C83_completes_f32"
   ],
   "note": "C83_score_f32 assumes only that pow is not NaN on non-negative arguments."
  },
  {
   "property": "C84",
   "status": "proved",
   "theorems": [
    "Verif.Props.C84_account",
    "Verif.Props.C84_single",
    "Verif.Props.C84_batch",
    "Verif.Props.C84_both_programs"
   ],
   "note": "Exact arithmetic; schedules give each task at least 2^31+1 steps (fairness)."
  },
  {
   "property": "C85",
   "status": "proved",
   "theorems": [
    "Verif.Props.C85_grid_kept",
    "Verif.Props.C85_no_free_money",
    "Verif.Props.C85_decimal_start",
    "Verif.Props.C85_reachable"
   ],
   "note": "IEEE binary32 model; balances are added up exactly as rational numbers."
  },
  {
   "property": "C86",
   "status": "proved",
   "theorems": [
    "Verif.Props.C86_buy_at_quote_float",
    "Verif.Props.C86_sell_at_quote_float"
   ],
   "note": "IEEE binary32 model."
  },
  {
   "property": "C87",
   "status": "proved",
   "theorems": [
    "Verif.Props.C87_orders_never_abort",
    "Verif.Props.C87_any_safe_trader",
    "Verif.Props.C87_execution",
    "Verif.Props.C87_default_traders",
    "Verif.Props.C87_default_batches",
    "Verif.Props.C87_empty_band_aborts",
    "Verif.Props.C87_overflow_aborts"
   ],
   "note": "IEEE binary32 model. exp, log and pow are arbitrary functions. C87_any_safe_trader holds for every trader with a safety invariant; C87_execution instantiates it with both built-in traders. The overflow escape (a balance above 2^80) is visible in the trace."
  },
  {
   "property": "C88",
   "status": "proved",
   "theorems": [
    "Verif.Props.C88_price",
    "Verif.Props.C88_tick",
    "Verif.Props.C88_side",
    "Verif.Props.C88_append_price",
    "Verif.Props.C88_append_tick",
    "Verif.Props.C88_append_side",
    "Verif.Props.C88_newer_price",
    "Verif.Props.C88_newer_tick",
    "Verif.Props.C88_newer_side"
   ],
   "note": "The wire format is specified as an inductive relation between bytes and fields (Spec/WireFormat.lean), independent of the parser, which is a model of the generated protobuf 3.17 code. UTF-8 does not occur (no string fields)."
  },
  {
   "property": "C89",
   "status": "proved",
   "theorems": [
    "Verif.Props.C89_rsi",
    "Verif.Props.C89_stochastic",
    "Verif.Props.C89_stochastic_over"
   ],
   "note": "IEEE binary32 model. %D in binary32 is C97; how accurate the index and %K are is C101."
  },
  {
   "property": "C90",
   "status": "proved",
   "theorems": [
    "Verif.Props.C90_ema",
    "Verif.Props.C90_ema_range",
    "Verif.Props.C90_weight",
    "Verif.Props.C90_macd"
   ],
   "note": "IEEE binary32 model. The exact averages use the rounded weight; C90_weight bounds its distance from 2/(1+length)."
  },
  {
   "property": "C91",
   "status": "proved",
   "theorems": [
    "Verif.Props.C91_sma",
    "Verif.Props.C91_never_recovers"
   ],
   "note": "IEEE binary32 model. The linear bound and the witness of persistent error bracket the behaviour of the running sum."
  },
  {
   "property": "C92",
   "status": "proved",
   "theorems": [
    "Verif.Props.C92_gaps",
    "Verif.Props.C92_outliers",
    "Verif.Props.C92_resample",
    "Verif.Props.C92_window",
    "Verif.Props.C92_indicator",
    "Verif.Props.C92_stop",
    "Verif.Props.C92_execute",
    "Verif.Props.C92_execute_stop",
    "Verif.Props.C92_loaded",
    "Verif.Props.C92_overflow_possible"
   ],
   "note": "Holds for every float type. The time zone arithmetic of absl and int counters (fewer than 2^31 orders and ticks) are not included."
  },
  {
   "property": "C93",
   "status": "proved",
   "theorems": [
    "Verif.Props.C93_window",
    "Verif.Props.C93_evaluation",
    "Verif.Props.C93_account",
    "Verif.Props.C93_single",
    "Verif.Props.C93_batch",
    "Verif.Props.C93_extreme_aborts",
    "Verif.Props.C93_both_programs"
   ],
   "note": "IEEE binary32 / binary64 model; sqrt, exp, log arbitrary; the batch theorem assumes that pow of non-negative numbers is not NaN."
  },
  {
   "property": "C94",
   "status": "proved",
   "theorems": [
    "Verif.Props.C94_when",
    "Verif.Props.C94_target"
   ],
   "note": "IEEE binary32 model."
  },
  {
   "property": "C95",
   "status": "proved",
   "theorems": [
    "Verif.Props.C95_rate",
    "Verif.Props.C95_stall"
   ],
   "note": "IEEE binary32 model; accuracy (rate) resp. usual rounding (stall) of expf and logf near 0 and 1 is a hypothesis."
  },
  {
   "property": "C96",
   "status": "proved",
   "theorems": [
    "Verif.Props.C96_mean_variance",
    "Verif.Props.C96_positive",
    "Verif.Props.C96_volatility",
    "Verif.Props.C96_nan_volatility"
   ],
   "note": "IEEE binary32/binary64 model. The NaN case assumes logf(0.5) correctly rounded and sqrtf of a negative number NaN; the accuracy theorems assume nothing about logf and sqrtf."
  },
  {
   "property": "C97",
   "status": "proved",
   "theorems": [
    "Verif.Props.C97_stochastic_d"
   ],
   "note": "IEEE binary32 model. The values of GetK and GetFastD at the end of the aggregated ticks are those of the same indicator fed the aggregated ticks so far."
  },
  {
   "property": "C98",
   "status": "proved",
   "theorems": [
    "Verif.Props.C98_trading_aborts",
    "Verif.Props.C98_window_size",
    "Verif.Props.C98_last_n",
    "Verif.Props.C98_indicators",
    "Verif.Props.C98_volatility",
    "Verif.Props.C98_resample",
    "Verif.Props.C98_side_input",
    "Verif.Props.C98_trading_returns_iff"
   ],
   "note": "Assertions are modelled as enabled (the README builds without -c opt). Aborting is the error result of the model."
  },
  {
   "property": "C99",
   "status": "proved",
   "theorems": [
    "Verif.Props.C99_convert_times",
    "Verif.Props.C99_convert_flags",
    "Verif.Props.C99_price_csv_error",
    "Verif.Props.C99_ohlc_csv_error",
    "Verif.Props.C99_side_csv_error",
    "Verif.Props.C99_convert_messages",
    "Verif.Props.C99_price_proto_error",
    "Verif.Props.C99_ohlc_proto_error",
    "Verif.Props.C99_convert_prices",
    "Verif.Props.C99_conversion",
    "Verif.Props.C99_convert_ticks",
    "Verif.Props.C99_convert_side",
    "Verif.Props.C99_convert_unwritten",
    "Verif.Props.C99_trader_times",
    "Verif.Props.C99_trader_unreadable",
    "Verif.Props.C99_trader_messages",
    "Verif.Props.C99_trader_logs",
    "Verif.Props.C99_trader_single",
    "Verif.Props.C99_trader_batch"
   ],
   "note": "What DebugString prints and how elapsed times are printed are parameters of the model. Messages of failed assertions are not among the lines of standard error."
  },
  {
   "property": "C100",
   "status": "proved",
   "theorems": [
    "Verif.Props.C100_period",
    "Verif.Props.C100_defaults",
    "Verif.Props.C100_defaults_f32"
   ],
   "note": "The defaults of the flags of both programs (convert.cc 14-48, trader.cc 20-44) are modelled. The float version assumes that std::pow returns a number on the two calls made by the evaluation (PowIsNumber) and prices in [2^-40, 2^40]."
  },
  {
   "property": "C101",
   "status": "proved",
   "theorems": [
    "Verif.Props.C101_averages",
    "Verif.Props.C101_rsi",
    "Verif.Props.C101_k"
   ],
   "note": "IEEE binary32 model. The exact averages are those of C47 computed in exact arithmetic from the exact values of the prices. The bound on the averages is worst case (it allows for every rounding to go the same way)."
  },
  {
   "property": "C102",
   "status": "proved",
   "theorems": [
    "Verif.Props.C102_base_amount",
    "Verif.Props.C102_volume_cap"
   ],
   "note": "IEEE binary32 model, assumptions on the account as in C85 (kept along every order history by C85_reachable). That the amounts stay whole numbers of units is C03_float."
  },
  {
   "property": "C103",
   "status": "proved",
   "theorems": [
    "Verif.Props.C103_gains",
    "Verif.Props.C103_averages",
    "Verif.Props.C103_score"
   ],
   "note": "binary32 (and binary64 inside the geometric mean) with every rounding modelled; pow is any function with relative error 2^-40 on [2^-1000, 2^1000] x (0, 2] (non-vacuous); exact quantities are computed from the reported balances and prices, which C85-C102 relate to exact settlement."
  },
  {
   "property": "C104",
   "status": "proved",
   "theorems": [
    "Verif.Props.C104_round_trip",
    "Verif.Props.C104_unwritable",
    "Verif.Props.C104_truncated",
    "Verif.Props.C104_not_compressed",
    "Verif.Props.C104_without_zlib"
   ],
   "note": "zlib is a parameter with two laws (non-vacuous: markZlib). Nothing in the repository defines HAVE_ZLIB; convert and trader (C80, C82, ...) are modelled in the build without it."
  },
  {
   "property": "C105",
   "status": "proved",
   "theorems": [
    "Verif.Props.C105_scan",
    "Verif.Props.C105_stream",
    "Verif.Props.C105_round_trip",
    "Verif.Props.C105_exact",
    "Verif.Props.C105_checks",
    "Verif.Props.C105_nan",
    "Verif.Props.C105_inf",
    "Verif.Props.C105_no_number",
    "Verif.Props.C105_price_csv",
    "Verif.Props.C105_ohlc_csv",
    "Verif.Props.C105_side_csv",
    "Verif.Props.C105_float",
    "Verif.Props.ScanfMore.C105_incomplete",
    "Verif.Props.ScanfMore.C105_hex",
    "Verif.Props.ScanfMore.C105_bare_hex"
   ],
   "note": "sscanf %f as in glibc and istream >> float as in libstdc++ are modelled (C locale, rounding to nearest); they are library code, so this model is part of the trusted base of this claim only. C65-C67, C80 and C81 hold for every scanner."
  },
  {
   "property": "C106",
   "status": "proved",
   "theorems": [
    "Verif.Props.C106_prefix",
    "Verif.Props.C106_success",
    "Verif.Props.C106_error",
    "Verif.Props.C106_ok_loss",
    "Verif.Props.C106_small",
    "Verif.Props.C106_read",
    "Verif.Props.C106_silent_loss"
   ],
   "note": "The buffer between the messages and std::ostream::write (protobuf's CopyingOutputStreamAdaptor) is library code, so its model is part of the trusted base of this claim only; the theorems hold for every buffer size and for both moments at which a buffer may be asked for. The own buffer of std::filebuf is left out."
  },
  {
   "property": "C107",
   "status": "proved",
   "theorems": [
    "Verif.Props.C107_unambiguous",
    "Verif.Props.C107_int",
    "Verif.Props.C107_bool",
    "Verif.Props.C107_trader",
    "Verif.Props.C107_trader_mistake",
    "Verif.Props.C107_convert",
    "Verif.Props.C107_convert_mistake",
    "Verif.Props.C107_trader_outcomes",
    "Verif.Props.C107_convert_outcomes",
    "Verif.Props.C107_trader_files",
    "Verif.Props.C107_convert_files",
    "Verif.Props.C107_switch_trap"
   ],
   "note": "absl::ParseCommandLine of abseil 20211102.0, written down from its documentation and source as known to the author (the library is not in the sandbox). Left open: command lines about the flags that abseil declares itself (help texts, --flagfile, --fromenv, --undefok; `NamesBuiltin`), and the text of usage errors. How a double is read is a parameter of these theorems; C108 provides absl::SimpleAtod."
  },
  {
   "property": "C108",
   "status": "proved",
   "theorems": [
    "Verif.Props.C108_double",
    "Verif.Props.C108_unique",
    "Verif.Props.C108_exact",
    "Verif.Props.C108_trader",
    "Verif.Props.C108_convert"
   ],
   "note": "absl::SimpleAtod and absl::from_chars of abseil 20211102.0, with correct rounding taken as the meaning of from_chars (its algorithm is not modelled). from_chars gives up at 50 million digits; arguments of that length cannot be passed."
  },
  {
   "property": "C109",
   "status": "proved",
   "theorems": [
    "Verif.Props.C109_number",
    "Verif.Props.C109_words",
    "Verif.Props.C109_read_back",
    "Verif.Props.C109_fields",
    "Verif.Props.C109_account",
    "Verif.Props.C109_evaluation",
    "Verif.Props.C109_evaluation_fields",
    "Verif.Props.C109_floats",
    "Verif.Props.C109_trader",
    "Verif.Props.C109_same_run"
   ],
   "note": "DebugString and FloatToBuffer of protobuf 3.17.3 (six significant digits if they read back as the same value, otherwise nine; %g and strtof of glibc), for the messages that trader.cc builds, in which all fields but fast_eval are set. Whether strtof sets errno for very small numbers is a parameter (erange): the theorems hold in either case. DebugString as it is called for broken input records (C99) remains a parameter."
  },
  {
   "property": "C110",
   "status": "proved",
   "theorems": [
    "Verif.Props.BaseUnits.C110_base_order",
    "Verif.Props.BaseUnits.C110_base_orders",
    "Verif.Props.BaseUnits.C110_base_stop",
    "Verif.Props.BaseUnits.C110_base_evaluate_any",
    "Verif.Props.ConvertInvariance.C110_outliers",
    "Verif.Props.ConvertInvariance.C110_conversion",
    "Verif.Props.Units.C110_order",
    "Verif.Props.Units.C110_orders",
    "Verif.Props.Units.C110_evaluate_any",
    "Verif.Props.Units.C110_stop",
    "Verif.Props.Units.C110_rebalancing",
    "Verif.Props.Units.C110_threshold",
    "Verif.Props.Units.C110_base_currency_matters",
    "Verif.Props.Units.C110_moving_averages",
    "Verif.Props.Units.C110_rsi",
    "Verif.Props.Units.C110_volatility",
    "Verif.Props.Units.C110_stochastic",
    "Verif.Props.Units.C110_rsi_threshold"
   ],
   "note": "Exact arithmetic (any ordered field with floor): in binary32 rounding depends on the unit. The comparison of the volatilities assumes nothing of log and sqrt, since ratios of prices are the same in both units. C110_base_order/_orders/_stop: the base currency; C110_base_evaluate_any: evaluations of traders that state amounts in base currency. The hypothesis Moderate of the orders keeps amounts below FLT_MAX, the cap of orders without any other. C110_threshold and C110_base_currency_matters show what is not invariant."
  },
  {
   "property": "C111",
   "status": "proved",
   "theorems": [
    "Verif.Props.ConvertInvariance.C111_outliers",
    "Verif.Props.ConvertInvariance.C111_conversion",
    "Verif.Props.ConvertInvariance.C111_needs_alignment",
    "Verif.Props.Shift.C111_any",
    "Verif.Props.Shift.C111_traders",
    "Verif.Props.Shift.C111_needs_whole_days"
   ],
   "note": "Times and bounds are positive before and after the shift (0 means \"unbounded\" for the bounds and \"never updated\" for the traders; negative times are rounded the other way). Evaluations with a period length in months depend on the calendar and are not covered; nor are the logs, which print the times."
  },
  {
   "property": "C112",
   "status": "proved",
   "theorems": [
    "Verif.Props.C112_history",
    "Verif.Props.C112_side",
    "Verif.Props.C112_preselected",
    "Verif.Props.C112_side_cut",
    "Verif.Props.C112_periods_alone",
    "Verif.Props.C112_before_epoch"
   ],
   "note": "Full equality of the runs (result or fault, and every call) for a period length > 0; for a period length of 0 the evaluations that return are compared (one that finds no tick in the window never returns, C36). C112_side asks for equal signals at all ticks of the history; with C112_history only those in the window count. C112_periods_alone: a single period can abort in the assertion on its score where the whole does not (two negative scores), hence the side condition."
  },
  {
   "property": "C113",
   "status": "proved",
   "theorems": [
    "Verif.Props.Append.C113_resample",
    "Verif.Props.Append.C113_outliers",
    "Verif.Props.Append.C113_late_confirmation",
    "Verif.Props.Append.C113_conversion"
   ],
   "note": "For every arithmetic; nothing is assumed of the order of the records. C113_conversion compares the ticks produced from the kept records before position m without the last of these ticks (its period may go on)."
  },
  {
   "property": "C114",
   "status": "proved",
   "theorems": [
    "Verif.Props.FloatTerms.C114_buy_float",
    "Verif.Props.FloatTerms.C114_sell_float",
    "Verif.Props.Terms.C114_buy",
    "Verif.Props.Terms.C114_sell",
    "Verif.Props.Terms.C114_buy_at_quote",
    "Verif.Props.Terms.C114_sell_at_quote",
    "Verif.Props.Terms.C114_cheaper_but_refused",
    "Verif.Props.Terms.C114_more_volume_but_refused",
    "Verif.Props.Terms.C114_back_test_may_gain"
   ],
   "note": "The float part compares fees only (at the same liquidity, hence the same price) and orders for base amounts: in binary32 orders for quote amounts are only bounded up to rounding (C86). C114_cheaper_but_refused, C114_more_volume_but_refused and C114_back_test_may_gain show what better terms do not guarantee."
  },
  {
   "property": "C115",
   "status": "proved",
   "theorems": [
    "Verif.Props.Bound.C115_bound",
    "Verif.Props.Bound.C115_gain",
    "Verif.Props.Bound.C115_falling",
    "Verif.Props.Bound.C115_attained"
   ],
   "note": "Exact arithmetic. The hypotheses on the configuration are those of C05 (an account off the currency grid can gain by rounding)."
  },
  {
   "property": "C116",
   "status": "proved",
   "theorems": [
    "Verif.Props.Split.C116_merge",
    "Verif.Props.Split.C116_volume_is_per_order",
    "Verif.Props.Split.C116_sale_fee",
    "Verif.Props.Split.C116_needs_whole_units",
    "Verif.Props.Split.C116_quote_amounts"
   ],
   "note": "Exact arithmetic. C116_volume_is_per_order is a finding about the program: max_volume_ratio does not limit what is traded on a tick, only each order."
  },
  {
   "property": "C117",
   "status": "proved",
   "theorems": [
    "Verif.Props.Quiet.C117_rebalancing_in_band",
    "Verif.Props.Quiet.C117_stop_margin",
    "Verif.Props.Quiet.C117_rebalancing_once",
    "Verif.Props.Quiet.C117_stop_margin_f32",
    "Verif.Props.Quiet.C117_stop_margin_sharp",
    "Verif.Props.Quiet.C117_rebalancing_zero_volume"
   ],
   "note": "C117_rebalancing_in_band holds in any arithmetic; C117_rebalancing_once and C117_stop_margin in exact arithmetic, C117_stop_margin_f32 in binary32. C117_rebalancing_zero_volume is a finding: a standing market order executes on every tick until the next update."
  },
  {
   "property": "C118",
   "status": "proved",
   "theorems": [
    "Verif.Props.C118_price",
    "Verif.Props.C118_tick",
    "Verif.Props.C118_side",
    "Verif.Props.C118_price_file",
    "Verif.Props.C118_tick_file",
    "Verif.Props.C118_unwritten"
   ],
   "note": "Messages with missing fields (proto2 has-bits) and unknown fields, which DebugString prints differently, are not modelled; the programs themselves always set every field."
  },
  {
   "property": "C119",
   "status": "proved",
   "theorems": [
    "Verif.Props.StopLoss.C119_sell",
    "Verif.Props.StopLoss.C119_buy",
    "Verif.Props.StopLoss.C119_floor",
    "Verif.Props.StopLoss.C119_ceiling",
    "Verif.Props.StopLoss.C119_sell_f32",
    "Verif.Props.StopLoss.C119_buy_f32",
    "Verif.Props.StopLoss.C119_gap_breaks"
   ],
   "note": "C119_sell/C119_buy: the first reached order and the run without one, exact arithmetic; C119_floor/C119_ceiling: what the account holds afterwards; C119_sell_f32/C119_buy_f32: the same in binary32, the sale with liquidity 1 exactly at the stop price; C119_gap_breaks: the two conditions are needed."
  },
  {
   "property": "C120",
   "status": "proved",
   "theorems": [
    "Verif.Props.Names.C120_rebalancing",
    "Verif.Props.Names.C120_stop",
    "Verif.Props.Names.C120_same_name",
    "Verif.Props.Names.C120_default_batch",
    "Verif.Props.Names.C120_results"
   ],
   "note": "Rests on abseil's %.3f (library code, modelled: C70)."
  },
  {
   "property": "C121",
   "status": "proved",
   "theorems": [
    "Verif.Props.OrderCount.C121_bound",
    "Verif.Props.OrderCount.C121_built_in",
    "Verif.Props.OrderCount.C121_evaluation",
    "Verif.Props.OrderCount.C121_counter",
    "Verif.Props.OrderCount.C121_gain"
   ],
   "note": "C121_bound is attained (example beside it)."
  },
  {
   "property": "C122",
   "status": "proved",
   "theorems": [
    "Verif.Props.Memory.C122_sma",
    "Verif.Props.Memory.C122_ema",
    "Verif.Props.Memory.C122_macd",
    "Verif.Props.Memory.C122_stochastic",
    "Verif.Props.Memory.C122_rsi",
    "Verif.Props.Memory.C122_volatility"
   ],
   "note": "Exact arithmetic; the 1/10000 covers the branch that reports 100 when the downward average is negligible. The value of the average over seven periods of two histories that agree on the last six differs (example beside the theorems)."
  },
  {
   "property": "C123",
   "status": "proved",
   "theorems": [
    "Verif.Props.Costs.C123_costs",
    "Verif.Props.Costs.C123_collapse"
   ],
   "note": "Exact arithmetic, without rounding units, fixed or minimum fees; C114 has one order under any fees, and its theorem C114_back_test_may_gain shows that for the rebalancing trader the statement is false. C123_collapse shows the limit for large shares."
  },
  {
   "property": "C124",
   "status": "proved",
   "theorems": [
    "Verif.Props.Mirror.C124_rsi_shift",
    "Verif.Props.Mirror.C124_rsi_mirror",
    "Verif.Props.Mirror.C124_stochastic_shift",
    "Verif.Props.Mirror.C124_stochastic_mirror",
    "Verif.Props.Mirror.C124_averages_shift",
    "Verif.Props.Mirror.C124_averages_mirror",
    "Verif.Props.Mirror.C124_dominance",
    "Verif.Props.Mirror.C124_not_every_indicator"
   ],
   "note": "Exact arithmetic. The prices may be of any sign, as the indicators do not check them; the scaling of prices is C110. C124_not_every_indicator shows the limit of the order statement."
  },
  {
   "property": "C125",
   "status": "proved",
   "theorems": [
    "Verif.Props.Ranking.C125_float_ranking",
    "Verif.Props.Ranking.C125_same_periods",
    "Verif.Props.Ranking.C125_ranking",
    "Verif.Props.Ranking.C125_dominance"
   ],
   "note": "The first part holds for every FloatOps, also binary32; the exact ranking in the reals; in binary32 (C125_float_ranking) rounding may exchange traders whose gains differ by less than a factor 1 + 2^-18 per period."
  },
  {
   "property": "C126",
   "status": "proved",
   "theorems": [
    "Verif.Props.Deaf.C126_indifferent",
    "Verif.Props.Deaf.C126_built_in",
    "Verif.Props.Deaf.C126_listener"
   ],
   "note": "Holds for every FloatOps, also binary32. The side input is one that its constructor accepts; what the program trader prints while loading side files is not part of the claim. C126_listener: a trader that listens is evaluated differently."
  },
  {
   "property": "C127",
   "status": "proved",
   "theorems": [
    "Verif.Props.Volume.C127_order",
    "Verif.Props.Volume.C127_evaluate_any",
    "Verif.Props.Volume.C127_stop",
    "Verif.Props.Volume.C127_rebalancing",
    "Verif.Props.Volume.C127_cap_matters"
   ],
   "note": "Holds for every FloatOps, also binary32. It concerns results; the exchange log shows the volumes. C127_cap_matters: with a cap, limit orders notice."
  },
  {
   "property": "C128",
   "status": "proved",
   "theorems": [
    "Verif.Props.TwoRates.C128_open_close",
    "Verif.Props.TwoRates.C128_empty",
    "Verif.Props.TwoRates.C128_close",
    "Verif.Props.TwoRates.C128_indicators",
    "Verif.Props.TwoRates.C128_range",
    "Verif.Props.TwoRates.C128_volume",
    "Verif.Props.TwoRates.C128_real_iff_volume",
    "Verif.Props.TwoRates.C128_sma",
    "Verif.Props.TwoRates.C128_range_float",
    "Verif.Props.TwoRates.C128_conversion",
    "Verif.Props.TwoRates.C128_gaps_matter"
   ],
   "note": "Total volumes are summed in another order, so in binary32 they may differ by rounding; C128_volume is for exact arithmetic. C128_gaps_matter shows that the ticks which fill a gap have to be left out for open, high and low."
  },
  {
   "property": "C129",
   "status": "proved",
   "theorems": [
    "Verif.Props.Confirm.C129_confirms",
    "Verif.Props.Confirm.C129_looking_back",
    "Verif.Props.Confirm.C129_append",
    "Verif.Props.Confirm.C129_converted"
   ],
   "note": "C129_confirms asks only that histories agree on the earlier window and side inputs at its ticks; C129_append is the case of appended records. C129_converted puts C113's settled prefix of a conversion in front (no side input). C129_looking_back has the size limits of C36 (fewer than 2^31 rounds)."
  },
  {
   "property": "C130",
   "status": "proved",
   "theorems": [
    "Verif.Props.Pieces.C130_resample",
    "Verif.Props.Pieces.C130_many",
    "Verif.Props.Pieces.C130_conversion",
    "Verif.Props.Pieces.C130_not_with_outliers"
   ],
   "note": "The records need not be in order: what one piece refuses, the whole refuses. C130_not_with_outliers is a counterexample in exact arithmetic and in binary32."
  }
 ]
}
