# Axioms of the theorems in MANIFEST.json

| Property | Theorem | Axioms |
|---|---|---|
| C01 | Verif.Props.C01_methods | propext, Quot.sound |
| C01 | Verif.Props.C01_executeOrder | propext, Quot.sound |
| C02 | Verif.Props.C02_balances_never_negative | propext, Classical.choice, Quot.sound |
| C02 | Verif.Props.C02_binary32 | propext, Classical.choice, Quot.sound |
| C02 | Verif.Props.C02_exact | propext, Classical.choice, Quot.sound |
| C03 | Verif.Props.C03_grid | propext, Classical.choice, Quot.sound |
| C03 | Verif.Props.C03_onGrid_step | propext, Classical.choice, Quot.sound |
| C03 | Verif.Props.C03_onGrid_run | propext, Classical.choice, Quot.sound |
| C03 | Verif.Props.C03_float | propext, Classical.choice, Quot.sound |
| C04 | Verif.Props.C04_buy | propext, Classical.choice, Quot.sound |
| C04 | Verif.Props.C04_sell | propext, Classical.choice, Quot.sound |
| C05 | Verif.Props.C05_no_free_money | propext, Classical.choice, Quot.sound |
| C06 | Verif.Props.C06_buy_at_quote_bound | propext, Classical.choice, Quot.sound |
| C06 | Verif.Props.C06_fails_in_binary32 | propext, Classical.choice, Quot.sound |
| C07 | Verif.Props.C07_sell_at_quote_bound | propext, Classical.choice, Quot.sound |
| C08 | Verif.Props.C08_fee_mono_float | propext, Classical.choice, Quot.sound |
| C08 | Verif.Props.C08_fee | propext, Classical.choice, Quot.sound |
| C08 | Verif.Props.C08_total_fee_never_negative | propext, Classical.choice, Quot.sound |
| C08 | Verif.Props.C08_total_fee_mono | propext, Classical.choice, Quot.sound |
| C09 | Verif.Props.C09_binary32 | propext, Classical.choice, Quot.sound |
| C09 | Verif.Props.C09_price_bounds | propext, Classical.choice, Quot.sound |
| C09 | Verif.Props.C09_liquidity | propext, Classical.choice, Quot.sound |
| C09 | Verif.Props.C09_endpoints_binary32 | propext, Classical.choice, Quot.sound |
| C09 | Verif.Props.C09_bounds_fail_in_binary32 | propext, Classical.choice, Quot.sound |
| C10 | Verif.Props.C10_trigger | propext, Classical.choice, Quot.sound |
| C10 | Verif.Props.C10_untriggered | propext, Quot.sound |
| C10 | Verif.Props.C10_limit_fills_at_limit | propext, Classical.choice, Quot.sound |
| C11 | Verif.Props.C11_volume_cap | propext, Classical.choice, Quot.sound |
| C11 | Verif.Props.C11_no_cap | propext, Classical.choice, Quot.sound |
| C12 | Verif.Props.C12_fee_schedule | propext, Quot.sound |
| C12 | Verif.Props.C12_market_ignores_price | propext, Quot.sound |
| C12 | Verif.Props.C12_trade_table | propext, Quot.sound |
| C13 | Verif.Props.C13_invalid_aborts | propext, Quot.sound |
| C13 | Verif.Props.C13_accepts_iff_valid | propext, Classical.choice, Quot.sound |
| C13 | Verif.Props.C13_binary32_underflow_abort | propext, Classical.choice, Quot.sound |
| C14 | Verif.Props.C14_buy_float | propext, Classical.choice, Quot.sound |
| C14 | Verif.Props.C14_sell_float | propext, Classical.choice, Quot.sound |
| C14 | Verif.Props.C14_buy | propext, Classical.choice, Quot.sound |
| C14 | Verif.Props.C14_sell | propext, Classical.choice, Quot.sound |
| C15 | Verif.Props.C15_subset_copy | propext, Classical.choice, Quot.sound |
| C15 | Verif.Props.C15_subset_range | propext, Quot.sound |
| C15 | Verif.Props.C15_probes | propext, Classical.choice, Quot.sound |
| C15 | Verif.Props.C15_compose | propext, Classical.choice, Quot.sound |
| C16 | Verif.Props.C16_inverted_window | propext, Quot.sound |
| C17 | Verif.Props.C17_grid | propext, Classical.choice, Quot.sound |
| C17 | Verif.Props.C17_empty | propext, Quot.sound |
| C18 | Verif.Props.C18_float | propext, Classical.choice, Quot.sound |
| C18 | Verif.Props.C18_meaning | propext, Classical.choice, Quot.sound |
| C18 | Verif.Props.C18_exact | propext, Classical.choice, Quot.sound |
| C19 | Verif.Props.C19_no_invented_prices | propext, Classical.choice, Quot.sound |
| C19 | Verif.Props.C19_well_formed_float | propext, Classical.choice, Quot.sound |
| C19 | Verif.Props.C19_well_formed | propext, Classical.choice, Quot.sound |
| C19 | Verif.Props.C19_volume | propext, Classical.choice, Quot.sound |
| C20 | Verif.Props.C20_partition | propext, Classical.choice, Quot.sound |
| C21 | Verif.Props.C21_reason | propext, Classical.choice, Quot.sound |
| C21 | Verif.Props.C21_kept_usable | propext, Classical.choice, Quot.sound |
| C21 | Verif.Props.C21_first_kept | propext, Classical.choice, Quot.sound |
| C22 | Verif.Props.C22_clean | propext, Classical.choice, Quot.sound |
| C22 | Verif.Props.C22_idempotent | propext, Classical.choice, Quot.sound |
| C22 | Verif.Props.C22_stabilises | propext, Classical.choice, Quot.sound |
| C22 | Verif.Props.C22_not_idempotent | propext, Classical.choice, Quot.sound |
| C23 | Verif.Props.C23_context | propext, Classical.choice, Quot.sound |
| C24 | Verif.Props.C24_top_n | propext, Classical.choice, Quot.sound |
| C24 | Verif.Props.C24_zero | propext, Classical.choice, Quot.sound |
| C24 | Verif.Props.C24_empty | none |
| C25 | Verif.Props.C25_index | propext, Classical.choice, Quot.sound |
| C26 | Verif.Props.C26_hint | propext, Classical.choice, Quot.sound |
| C27 | Verif.Props.C27_construct | propext, Classical.choice, Quot.sound |
| C27 | Verif.Props.C27_access | propext, Classical.choice, Quot.sound |
| C28 | Verif.Props.C28_no_lookahead | propext, Classical.choice, Quot.sound |
| C29 | Verif.Props.C29_rounds | propext, Classical.choice, Quot.sound |
| C29 | Verif.Props.C29_active_ticks | propext, Classical.choice, Quot.sound |
| C29 | Verif.Props.C29_repeated_execution | propext, Classical.choice, Quot.sound |
| C30 | Verif.Props.C30_signals | propext, Classical.choice, Quot.sound |
| C31 | Verif.Props.C31_logger | propext, Classical.choice, Quot.sound |
| C31 | Verif.Props.C31_fast_eval | propext, Classical.choice, Quot.sound |
| C31 | Verif.Props.C31_volatility_never_aborts | propext, Classical.choice, Quot.sound |
| C31 | Verif.Props.C31_same_calls | propext, Classical.choice, Quot.sound |
| C32 | Verif.Props.C32_story | propext, Classical.choice, Quot.sound |
| C32 | Verif.Props.C32_rows | propext, Classical.choice, Quot.sound |
| C33 | Verif.Props.C33_result | propext, Classical.choice, Quot.sound |
| C33 | Verif.Props.C33_empty | propext, Quot.sound |
| C34 | Verif.Props.C34_idle | propext, Classical.choice, Quot.sound |
| C34 | Verif.Props.C34_score | propext, Classical.choice, Quot.sound |
| C35 | Verif.Props.C35_periods | propext, Classical.choice, Quot.sound |
| C35 | Verif.Props.C35_windows | propext, Classical.choice, Quot.sound |
| C35 | Verif.Props.C35_echo | propext, Quot.sound |
| C35 | Verif.Props.C35_local | propext, Quot.sound |
| C36 | Verif.Props.C36_terminates | propext, Classical.choice, Quot.sound |
| C36 | Verif.Props.C36_completes | propext, Classical.choice, Quot.sound |
| C36 | Verif.Props.C36_summary | propext, Quot.sound |
| C36 | Verif.Props.C36_summary_exact | propext, Classical.choice, Quot.sound |
| C36 | Verif.Props.C36_single | propext, Classical.choice, Quot.sound |
| C36 | Verif.Props.C36_never_returns | propext, Classical.choice, Quot.sound |
| C37 | Verif.Props.C37_batch | propext, Classical.choice, Quot.sound |
| C37 | Verif.Props.C37_abort | propext, Classical.choice, Quot.sound |
| C37 | Verif.Props.C37_completes | propext, Classical.choice, Quot.sound |
| C37 | Verif.Props.C37_deterministic | propext, Classical.choice, Quot.sound |
| C38 | Verif.Props.C38_empty | propext, Quot.sound |
| C38 | Verif.Props.C38_means | propext, Classical.choice, Quot.sound |
| C38 | Verif.Props.C38_bounds | propext, Classical.choice, Quot.sound |
| C39 | Verif.Props.C39_last_n_periods | propext, Classical.choice, Quot.sound |
| C39 | Verif.Props.C39_bounded | propext, Classical.choice, Quot.sound |
| C40 | Verif.Props.C40_callbacks | propext, Classical.choice, Quot.sound |
| C41 | Verif.Props.C41_sma | propext, Classical.choice, Quot.sound |
| C42 | Verif.Props.C42_ema | propext, Classical.choice, Quot.sound |
| C42 | Verif.Props.C42_bounds | propext, Classical.choice, Quot.sound |
| C43 | Verif.Props.C43_mean_variance | propext, Quot.sound |
| C43 | Verif.Props.C43_ema | propext, Classical.choice, Quot.sound |
| C43 | Verif.Props.C43_minimum | propext, Classical.choice, Quot.sound |
| C43 | Verif.Props.C43_maximum | propext, Classical.choice, Quot.sound |
| C43 | Verif.Props.C43_add_then_updates | propext, Quot.sound |
| C44 | Verif.Props.C44_window_size | propext, Classical.choice, Quot.sound |
| C44 | Verif.Props.C44_extrema | propext, Classical.choice, Quot.sound |
| C44 | Verif.Props.C44_extrema_ieee | propext, Classical.choice, Quot.sound |
| C45 | Verif.Props.C45_memory_safe | propext, Classical.choice, Quot.sound |
| C45 | Verif.Props.C45_amortized | propext, Classical.choice, Quot.sound |
| C46 | Verif.Props.C46_mean_variance | propext, Classical.choice, Quot.sound |
| C46 | Verif.Props.C46_variance_nonneg | propext, Classical.choice, Quot.sound |
| C46 | Verif.Props.C46_negative_in_binary32 | propext, Classical.choice, Quot.sound |
| C47 | Verif.Props.C47_formula | propext, Classical.choice, Quot.sound |
| C47 | Verif.Props.C47_range | propext, Classical.choice, Quot.sound |
| C48 | Verif.Props.C48_meaning | propext, Classical.choice, Quot.sound |
| C48 | Verif.Props.C48_range | propext, Classical.choice, Quot.sound |
| C49 | Verif.Props.C49_macd | propext, Classical.choice, Quot.sound |
| C50 | Verif.Props.C50_returns | propext, Classical.choice, Quot.sound |
| C50 | Verif.Props.C50_volatility | propext, Classical.choice, Quot.sound |
| C51 | Verif.Props.C51_closes | propext, Classical.choice, Quot.sound |
| C51 | Verif.Props.C51_ticks | propext, Classical.choice, Quot.sound |
| C51 | Verif.Props.C51_fails_with_gaps | propext, Classical.choice, Quot.sound |
| C51 | Verif.Props.C51_close_based | propext, Classical.choice, Quot.sound |
| C51 | Verif.Props.C51_sma | propext, Classical.choice, Quot.sound |
| C51 | Verif.Props.C51_stochastic | propext, Classical.choice, Quot.sound |
| C52 | Verif.Props.C52_returns_iff | propext, Classical.choice, Quot.sound |
| C52 | Verif.Props.C52_shape | propext, Classical.choice, Quot.sound |
| C52 | Verif.Props.C52_orders_valid | propext, Classical.choice, Quot.sound |
| C53 | Verif.Props.C53_restores_alpha | propext, Classical.choice, Quot.sound |
| C53 | Verif.Props.C53_execution | propext, Classical.choice, Quot.sound |
| C54 | Verif.Props.C54_limit_prices | propext, Classical.choice, Quot.sound |
| C54 | Verif.Props.C54_no_market_order_in_band | propext, Classical.choice, Quot.sound |
| C54 | Verif.Props.C54_market_order_iff | propext, Classical.choice, Quot.sound |
| C55 | Verif.Props.C55_limit_price_on_edge_iff | propext, Classical.choice, Quot.sound |
| C55 | Verif.Props.C55_limit_amount_restores_alpha | propext, Classical.choice, Quot.sound |
| C56 | Verif.Props.C56_returns_iff | propext, Quot.sound |
| C56 | Verif.Props.C56_one_stop_order | propext, Quot.sound |
| C56 | Verif.Props.C56_orders_valid | propext, Classical.choice, Quot.sound |
| C57 | Verif.Props.C57_ratchet | propext, Classical.choice, Quot.sound |
| C57 | Verif.Props.C57_no_move_beyond_threshold | propext, Classical.choice, Quot.sound |
| C57 | Verif.Props.C57_reset | propext, Quot.sound |
| C57 | Verif.Props.C57_first | propext, Quot.sound |
| C57 | Verif.Props.C57_exact | propext, Classical.choice, Quot.sound |
| C58 | Verif.Props.C58_rate_bound | propext, Classical.choice, Quot.sound |
| C58 | Verif.Props.C58_rate_attained | propext, Classical.choice, Quot.sound |
| C59 | Verif.Props.C59_any_safe_trader | propext, Classical.choice, Quot.sound |
| C59 | Verif.Props.C59_execution_never_aborts | propext, Classical.choice, Quot.sound |
| C59 | Verif.Props.C59_evaluation_never_aborts | propext, Classical.choice, Quot.sound |
| C59 | Verif.Props.C59_batch_never_aborts | propext, Classical.choice, Quot.sound |
| C59 | Verif.Props.C59_duplicate_aborts | propext, Classical.choice, Quot.sound |
| C59 | Verif.Props.C59_returns_iff | propext, Classical.choice, Quot.sound |
| C59 | Verif.Props.C59_zero_unit_aborts | propext, Classical.choice, Quot.sound |
| C60 | Verif.Props.C60_basic | propext, Classical.choice, Quot.sound |
| C60 | Verif.Props.C60_defined_iff | propext, Quot.sound |
| C60 | Verif.Props.C60_calendar | propext, Classical.choice, Quot.sound |
| C60 | Verif.Props.C60_additive | propext, Classical.choice, Quot.sound |
| C60 | Verif.Props.C60_not_additive | none |
| C61 | Verif.Props.C61_fields | propext, Classical.choice, Quot.sound |
| C61 | Verif.Props.C61_round_trip | propext, Quot.sound |
| C61 | Verif.Props.C61_round_trip' | propext, Classical.choice, Quot.sound |
| C61 | Verif.Props.C61_gregorian | propext, Classical.choice, Quot.sound |
| C62 | Verif.Props.C62_write | propext, Quot.sound |
| C62 | Verif.Props.C62_round_trip | propext, Classical.choice, Quot.sound |
| C62 | Verif.Props.C62_concatenation | propext, Classical.choice, Quot.sound |
| C62 | Verif.Props.C62_callback | propext, Classical.choice, Quot.sound |
| C62 | Verif.Props.C62_file | propext, Classical.choice, Quot.sound |
| C63 | Verif.Props.C63_truncated | propext, Classical.choice, Quot.sound |
| C63 | Verif.Props.C63_prefix | propext, Classical.choice, Quot.sound |
| C64 | Verif.Props.C64_callback | propext, Classical.choice, Quot.sound |
| C64 | Verif.Props.C64_appends | propext, Classical.choice, Quot.sound |
| C64 | Verif.Props.C64_stream | propext, Classical.choice, Quot.sound |
| C64 | Verif.Props.C64_refused | propext, Classical.choice, Quot.sound |
| C65 | Verif.Props.C65_price_csv | propext, Classical.choice, Quot.sound |
| C65 | Verif.Props.C65_ohlc_csv | propext, Classical.choice, Quot.sound |
| C65 | Verif.Props.C65_price_csv_exact | propext, Classical.choice, Quot.sound |
| C65 | Verif.Props.C65_ohlc_csv_exact | propext, Classical.choice, Quot.sound |
| C65 | Verif.Props.C65_price_csv_error | propext, Classical.choice, Quot.sound |
| C65 | Verif.Props.C65_ohlc_csv_error | propext, Classical.choice, Quot.sound |
| C65 | Verif.Props.C65_sorted_file | propext, Classical.choice, Quot.sound |
| C65 | Verif.Props.C65_price_proto | propext, Classical.choice, Quot.sound |
| C65 | Verif.Props.C65_ohlc_proto | propext, Classical.choice, Quot.sound |
| C65 | Verif.Props.C65_price_proto_exact | propext, Classical.choice, Quot.sound |
| C65 | Verif.Props.C65_ohlc_proto_exact | propext, Classical.choice, Quot.sound |
| C65 | Verif.Props.C65_price_proto_error | propext, Classical.choice, Quot.sound |
| C65 | Verif.Props.C65_ohlc_proto_error | propext, Classical.choice, Quot.sound |
| C65 | Verif.Props.C65_nan_accepted | propext, Classical.choice, Quot.sound |
| C66 | Verif.Props.C66_price_unreadable_line | propext, Classical.choice, Quot.sound |
| C66 | Verif.Props.C66_ohlc_unreadable_line | propext, Classical.choice, Quot.sound |
| C66 | Verif.Props.C66_price_incomplete_line | propext, Classical.choice, Quot.sound |
| C66 | Verif.Props.C66_price_duplicate | propext, Classical.choice, Quot.sound |
| C66 | Verif.Props.C66_price_header | propext, Classical.choice, Quot.sound |
| C66 | Verif.Props.C66_ohlc_header | propext, Classical.choice, Quot.sound |
| C67 | Verif.Props.C67_loads | propext, Classical.choice, Quot.sound |
| C67 | Verif.Props.C67_exact | propext, Classical.choice, Quot.sound |
| C67 | Verif.Props.C67_header | propext |
| C67 | Verif.Props.C67_error | propext, Classical.choice, Quot.sound |
| C67 | Verif.Props.C67_unparsable | propext, Classical.choice, Quot.sound |
| C69 | Verif.Props.C69_clean_f32 | propext, Classical.choice, Quot.sound |
| C69 | Verif.Props.C69_conversion | propext, Classical.choice, Quot.sound |
| C69 | Verif.Props.C69_clean | propext, Classical.choice, Quot.sound |
| C69 | Verif.Props.C69_end_to_end | propext, Classical.choice, Quot.sound |
| C69 | Verif.Props.C69_zero_timestamp | propext, Classical.choice, Quot.sound |
| C70 | Verif.Props.C70_exchange_log | propext, Classical.choice, Quot.sound |
| C70 | Verif.Props.C70_missing_stream | propext, Classical.choice, Quot.sound |
| C70 | Verif.Props.C70_number_of_lines | propext, Classical.choice, Quot.sound |
| C70 | Verif.Props.C70_numbers | propext, Classical.choice, Quot.sound |
| C70 | Verif.Props.C70_row_shows_tick | propext, Classical.choice, Quot.sound |
| C72 | Verif.Props.C72_rebalancing_grid | propext, Classical.choice, Quot.sound |
| C72 | Verif.Props.C72_stop_grid | propext, Classical.choice, Quot.sound |
| C72 | Verif.Props.C72_names | propext, Classical.choice, Quot.sound |
| C72 | Verif.Props.C72_parameters_clean | propext, Classical.choice, Quot.sound |
| C72 | Verif.Props.C72_default_grid | propext, Classical.choice, Quot.sound |
| C72 | Verif.Props.C72_default_in_batch | propext, Classical.choice, Quot.sound |
| C72 | Verif.Props.C72_default_in_batch_f32 | propext, Classical.choice, Quot.sound |
| C72 | Verif.Props.C72_default_grid_f32 | propext, Classical.choice, Quot.sound |
| C72 | Verif.Props.C72_default_batch_completes | propext, Classical.choice, Quot.sound |
| C72 | Verif.Props.C72_parameters_binary32 | propext, Classical.choice, Quot.sound |
| C73 | Verif.Props.C73_duration | propext, Quot.sound |
| C73 | Verif.Props.C73_injective | propext, Classical.choice, Quot.sound |
| C74 | Verif.Props.C74_account_is_order_history | propext, Classical.choice, Quot.sound |
| C74 | Verif.Props.C74_final | propext, Classical.choice, Quot.sound |
| C74 | Verif.Props.C74_balances_never_negative | propext, Classical.choice, Quot.sound |
| C74 | Verif.Props.C74_evaluation_returns | propext, Classical.choice, Quot.sound |
| C75 | Verif.Props.C75_rebalancing_rows | propext, Classical.choice, Quot.sound |
| C75 | Verif.Props.C75_stop_rows | propext, Classical.choice, Quot.sound |
| C75 | Verif.Props.C75_number_of_lines | propext, Classical.choice, Quot.sound |
| C76 | Verif.Props.C76_executed_iff | propext, Classical.choice, Quot.sound |
| C76 | Verif.Props.C76_refused_otherwise | propext, Classical.choice, Quot.sound |
| C76 | Verif.Props.C76_buy_at_quote_affordable | propext, Classical.choice, Quot.sound |
| C76 | Verif.Props.C76_buy_at_quote_maximal | propext, Classical.choice, Quot.sound |
| C77 | Verif.Props.C77_check | propext, Quot.sound |
| C77 | Verif.Props.C77_rejects | propext, Classical.choice, Quot.sound |
| C77 | Verif.Props.C77_loaded | propext, Classical.choice, Quot.sound |
| C78 | Verif.Props.C78_infinite | propext, Classical.choice, Quot.sound |
| C78 | Verif.Props.C78_parse_iff | propext, Classical.choice, Quot.sound |
| C78 | Verif.Props.C78_local_time | propext, Classical.choice, Quot.sound |
| C78 | Verif.Props.C78_format_parse | propext, Classical.choice, Quot.sound |
| C78 | Verif.Props.C78_date | propext, Classical.choice, Quot.sound |
| C79 | Verif.Props.C79_outliers | propext, Classical.choice, Quot.sound |
| C79 | Verif.Props.C79_gaps | propext, Classical.choice, Quot.sound |
| C79 | Verif.Props.C79_flags | propext, Classical.choice, Quot.sound |
| C80 | Verif.Props.C80_failure | propext, Classical.choice, Quot.sound |
| C80 | Verif.Props.C80_frame | propext, Classical.choice, Quot.sound |
| C80 | Verif.Props.C80_empty | propext, Classical.choice, Quot.sound |
| C80 | Verif.Props.C80_prices | propext, Classical.choice, Quot.sound |
| C80 | Verif.Props.C80_ticks | propext, Classical.choice, Quot.sound |
| C80 | Verif.Props.C80_side | propext, Classical.choice, Quot.sound |
| C80 | Verif.Props.C80_again | propext, Classical.choice, Quot.sound |
| C81 | Verif.Props.C81_float | propext, Classical.choice, Quot.sound |
| C81 | Verif.Props.C81_bits | propext, Classical.choice, Quot.sound |
| C81 | Verif.Props.C81_int64 | propext, Classical.choice, Quot.sound |
| C81 | Verif.Props.C81_price | propext, Classical.choice, Quot.sound |
| C81 | Verif.Props.C81_tick | propext, Classical.choice, Quot.sound |
| C81 | Verif.Props.C81_side | propext, Classical.choice, Quot.sound |
| C81 | Verif.Props.C81_any_price | propext, Classical.choice, Quot.sound |
| C81 | Verif.Props.C81_any_tick | propext, Classical.choice, Quot.sound |
| C81 | Verif.Props.C81_loaded_prices | propext, Classical.choice, Quot.sound |
| C81 | Verif.Props.C81_loaded_ticks | propext, Classical.choice, Quot.sound |
| C81 | Verif.Props.C81_converted | propext, Classical.choice, Quot.sound |
| C81 | Verif.Props.C81_program | propext, Classical.choice, Quot.sound |
| C82 | Verif.Props.C82_account | propext, Classical.choice, Quot.sound |
| C82 | Verif.Props.C82_account_f32 | propext, Classical.choice, Quot.sound |
| C82 | Verif.Props.C82_failure | propext, Classical.choice, Quot.sound |
| C82 | Verif.Props.C82_side_refused | propext, Classical.choice, Quot.sound |
| C82 | Verif.Props.C82_frame | propext, Classical.choice, Quot.sound |
| C82 | Verif.Props.C82_single | propext, Classical.choice, Quot.sound |
| C82 | Verif.Props.C82_logs_refused | propext, Classical.choice, Quot.sound |
| C82 | Verif.Props.C82_single_whole | propext, Classical.choice, Quot.sound |
| C82 | Verif.Props.C82_nothing_selected | propext, Classical.choice, Quot.sound |
| C83 | Verif.Props.C83_success | propext, Classical.choice, Quot.sound |
| C83 | Verif.Props.C83_fault | propext, Classical.choice, Quot.sound |
| C83 | Verif.Props.C83_completes | propext, Classical.choice, Quot.sound |
| C83 | Verif.Props.C83_deterministic | propext, Classical.choice, Quot.sound |
| C83 | Verif.Props.C83_rankable_exact | propext, Classical.choice, Quot.sound |
| C83 | Verif.Props.C83_rankable_f32 | propext, Classical.choice, Quot.sound |
| C83 | Verif.Props.C83_score_f32 | propext, Classical.choice, Quot.sound |
| C83 | Verif.Props.C83_completes_f32 | propext, Classical.choice, Quot.sound |
| C84 | Verif.Props.C84_account | propext, Classical.choice, Quot.sound |
| C84 | Verif.Props.C84_single | propext, Classical.choice, Quot.sound |
| C84 | Verif.Props.C84_batch | propext, Classical.choice, Quot.sound |
| C84 | Verif.Props.C84_both_programs | propext, Classical.choice, Quot.sound |
| C85 | Verif.Props.C85_grid_kept | propext, Classical.choice, Quot.sound |
| C85 | Verif.Props.C85_no_free_money | propext, Classical.choice, Quot.sound |
| C85 | Verif.Props.C85_decimal_start | propext, Classical.choice, Quot.sound |
| C85 | Verif.Props.C85_reachable | propext, Classical.choice, Quot.sound |
| C86 | Verif.Props.C86_buy_at_quote_float | propext, Classical.choice, Quot.sound |
| C86 | Verif.Props.C86_sell_at_quote_float | propext, Classical.choice, Quot.sound |
| C87 | Verif.Props.C87_orders_never_abort | propext, Classical.choice, Quot.sound |
| C87 | Verif.Props.C87_any_safe_trader | propext, Classical.choice, Quot.sound |
| C87 | Verif.Props.C87_execution | propext, Classical.choice, Quot.sound |
| C87 | Verif.Props.C87_default_traders | propext, Classical.choice, Quot.sound |
| C87 | Verif.Props.C87_default_batches | propext, Classical.choice, Quot.sound |
| C87 | Verif.Props.C87_empty_band_aborts | propext, Classical.choice, Quot.sound |
| C87 | Verif.Props.C87_overflow_aborts | propext, Classical.choice, Quot.sound |
| C88 | Verif.Props.C88_price | propext, Classical.choice, Quot.sound |
| C88 | Verif.Props.C88_tick | propext, Classical.choice, Quot.sound |
| C88 | Verif.Props.C88_side | propext, Classical.choice, Quot.sound |
| C88 | Verif.Props.C88_append_price | propext, Classical.choice, Quot.sound |
| C88 | Verif.Props.C88_append_tick | propext, Classical.choice, Quot.sound |
| C88 | Verif.Props.C88_append_side | propext, Classical.choice, Quot.sound |
| C88 | Verif.Props.C88_newer_price | propext, Classical.choice, Quot.sound |
| C88 | Verif.Props.C88_newer_tick | propext, Classical.choice, Quot.sound |
| C88 | Verif.Props.C88_newer_side | propext, Classical.choice, Quot.sound |
| C89 | Verif.Props.C89_rsi | propext, Classical.choice, Quot.sound |
| C89 | Verif.Props.C89_stochastic | propext, Classical.choice, Quot.sound |
| C89 | Verif.Props.C89_stochastic_over | propext, Classical.choice, Quot.sound |
| C90 | Verif.Props.C90_ema | propext, Classical.choice, Quot.sound |
| C90 | Verif.Props.C90_ema_range | propext, Classical.choice, Quot.sound |
| C90 | Verif.Props.C90_weight | propext, Classical.choice, Quot.sound |
| C90 | Verif.Props.C90_macd | propext, Classical.choice, Quot.sound |
| C91 | Verif.Props.C91_sma | propext, Classical.choice, Quot.sound |
| C91 | Verif.Props.C91_never_recovers | propext, Classical.choice, Quot.sound |
| C92 | Verif.Props.C92_gaps | propext, Quot.sound |
| C92 | Verif.Props.C92_outliers | propext, Classical.choice, Quot.sound |
| C92 | Verif.Props.C92_resample | propext, Classical.choice, Quot.sound |
| C92 | Verif.Props.C92_window | propext, Classical.choice, Quot.sound |
| C92 | Verif.Props.C92_indicator | propext, Classical.choice, Quot.sound |
| C92 | Verif.Props.C92_stop | propext, Quot.sound |
| C92 | Verif.Props.C92_execute | propext, Classical.choice, Quot.sound |
| C92 | Verif.Props.C92_execute_stop | propext, Classical.choice, Quot.sound |
| C92 | Verif.Props.C92_loaded | propext, Classical.choice, Quot.sound |
| C92 | Verif.Props.C92_overflow_possible | propext, Classical.choice, Quot.sound |
| C93 | Verif.Props.C93_window | propext, Classical.choice, Quot.sound |
| C93 | Verif.Props.C93_evaluation | propext, Classical.choice, Quot.sound |
| C93 | Verif.Props.C93_account | propext, Classical.choice, Quot.sound |
| C93 | Verif.Props.C93_single | propext, Classical.choice, Quot.sound |
| C93 | Verif.Props.C93_batch | propext, Classical.choice, Quot.sound |
| C93 | Verif.Props.C93_extreme_aborts | propext, Classical.choice, Quot.sound |
| C93 | Verif.Props.C93_both_programs | propext, Classical.choice, Quot.sound |
| C94 | Verif.Props.C94_when | propext, Classical.choice, Quot.sound |
| C94 | Verif.Props.C94_target | propext, Classical.choice, Quot.sound |
| C95 | Verif.Props.C95_rate | propext, Classical.choice, Quot.sound |
| C95 | Verif.Props.C95_stall | propext, Classical.choice, Quot.sound |
| C96 | Verif.Props.C96_mean_variance | propext, Classical.choice, Quot.sound |
| C96 | Verif.Props.C96_positive | propext, Classical.choice, Quot.sound |
| C96 | Verif.Props.C96_volatility | propext, Classical.choice, Quot.sound |
| C96 | Verif.Props.C96_nan_volatility | propext, Classical.choice, Quot.sound |
| C97 | Verif.Props.C97_stochastic_d | propext, Classical.choice, Quot.sound |
| C98 | Verif.Props.C98_trading_aborts | propext, Quot.sound |
| C98 | Verif.Props.C98_window_size | propext, Quot.sound |
| C98 | Verif.Props.C98_last_n | propext, Classical.choice, Quot.sound |
| C98 | Verif.Props.C98_indicators | propext, Classical.choice, Quot.sound |
| C98 | Verif.Props.C98_volatility | propext, Classical.choice, Quot.sound |
| C98 | Verif.Props.C98_resample | propext, Classical.choice, Quot.sound |
| C98 | Verif.Props.C98_side_input | propext, Classical.choice, Quot.sound |
| C98 | Verif.Props.C98_trading_returns_iff | propext, Classical.choice, Quot.sound |
| C99 | Verif.Props.C99_convert_times | propext, Classical.choice, Quot.sound |
| C99 | Verif.Props.C99_convert_flags | propext, Classical.choice, Quot.sound |
| C99 | Verif.Props.C99_price_csv_error | propext, Classical.choice, Quot.sound |
| C99 | Verif.Props.C99_ohlc_csv_error | propext, Classical.choice, Quot.sound |
| C99 | Verif.Props.C99_side_csv_error | propext, Classical.choice, Quot.sound |
| C99 | Verif.Props.C99_convert_messages | propext, Classical.choice, Quot.sound |
| C99 | Verif.Props.C99_price_proto_error | propext, Classical.choice, Quot.sound |
| C99 | Verif.Props.C99_ohlc_proto_error | propext, Classical.choice, Quot.sound |
| C99 | Verif.Props.C99_convert_prices | propext, Classical.choice, Quot.sound |
| C99 | Verif.Props.C99_conversion | propext, Classical.choice, Quot.sound |
| C99 | Verif.Props.C99_convert_ticks | propext, Classical.choice, Quot.sound |
| C99 | Verif.Props.C99_convert_side | propext, Classical.choice, Quot.sound |
| C99 | Verif.Props.C99_convert_unwritten | propext, Classical.choice, Quot.sound |
| C99 | Verif.Props.C99_trader_times | propext, Classical.choice, Quot.sound |
| C99 | Verif.Props.C99_trader_unreadable | propext, Classical.choice, Quot.sound |
| C99 | Verif.Props.C99_trader_messages | propext, Classical.choice, Quot.sound |
| C99 | Verif.Props.C99_trader_logs | propext, Classical.choice, Quot.sound |
| C99 | Verif.Props.C99_trader_single | propext, Classical.choice, Quot.sound |
| C99 | Verif.Props.C99_trader_batch | propext, Classical.choice, Quot.sound |
| C100 | Verif.Props.C100_period | propext, Classical.choice, Quot.sound |
| C100 | Verif.Props.C100_defaults | propext, Classical.choice, Quot.sound |
| C100 | Verif.Props.C100_defaults_f32 | propext, Classical.choice, Quot.sound |
| C101 | Verif.Props.C101_averages | propext, Classical.choice, Quot.sound |
| C101 | Verif.Props.C101_rsi | propext, Classical.choice, Quot.sound |
| C101 | Verif.Props.C101_k | propext, Classical.choice, Quot.sound |
| C102 | Verif.Props.C102_base_amount | propext, Classical.choice, Quot.sound |
| C102 | Verif.Props.C102_volume_cap | propext, Classical.choice, Quot.sound |
| C103 | Verif.Props.C103_gains | propext, Classical.choice, Quot.sound |
| C103 | Verif.Props.C103_averages | propext, Classical.choice, Quot.sound |
| C103 | Verif.Props.C103_score | propext, Classical.choice, Quot.sound |
| C104 | Verif.Props.C104_round_trip | propext, Classical.choice, Quot.sound |
| C104 | Verif.Props.C104_unwritable | propext, Classical.choice, Quot.sound |
| C104 | Verif.Props.C104_truncated | propext, Classical.choice, Quot.sound |
| C104 | Verif.Props.C104_not_compressed | none |
| C104 | Verif.Props.C104_without_zlib | none |
| C105 | Verif.Props.C105_scan | propext, Classical.choice, Quot.sound |
| C105 | Verif.Props.C105_stream | propext, Classical.choice, Quot.sound |
| C105 | Verif.Props.C105_round_trip | propext, Classical.choice, Quot.sound |
| C105 | Verif.Props.C105_exact | propext, Classical.choice, Quot.sound |
| C105 | Verif.Props.C105_checks | propext, Classical.choice, Quot.sound |
| C105 | Verif.Props.C105_nan | propext, Classical.choice, Quot.sound |
| C105 | Verif.Props.C105_inf | propext, Classical.choice, Quot.sound |
| C105 | Verif.Props.C105_no_number | propext, Classical.choice, Quot.sound |
| C105 | Verif.Props.C105_price_csv | propext, Classical.choice, Quot.sound |
| C105 | Verif.Props.C105_ohlc_csv | propext, Classical.choice, Quot.sound |
| C105 | Verif.Props.C105_side_csv | propext, Classical.choice, Quot.sound |
| C105 | Verif.Props.C105_float | propext, Classical.choice, Quot.sound |
| C105 | Verif.Props.ScanfMore.C105_incomplete | propext, Classical.choice, Quot.sound |
| C105 | Verif.Props.ScanfMore.C105_hex | propext, Classical.choice, Quot.sound |
| C105 | Verif.Props.ScanfMore.C105_bare_hex | propext, Classical.choice, Quot.sound |
| C106 | Verif.Props.C106_prefix | propext, Classical.choice, Quot.sound |
| C106 | Verif.Props.C106_success | propext, Classical.choice, Quot.sound |
| C106 | Verif.Props.C106_error | propext, Classical.choice, Quot.sound |
| C106 | Verif.Props.C106_ok_loss | propext, Classical.choice, Quot.sound |
| C106 | Verif.Props.C106_small | propext, Classical.choice, Quot.sound |
| C106 | Verif.Props.C106_read | propext, Classical.choice, Quot.sound |
| C106 | Verif.Props.C106_silent_loss | propext, Classical.choice, Quot.sound |
| C107 | Verif.Props.C107_unambiguous | propext, Classical.choice, Quot.sound |
| C107 | Verif.Props.C107_int | propext, Classical.choice, Quot.sound |
| C107 | Verif.Props.C107_bool | propext, Classical.choice, Quot.sound |
| C107 | Verif.Props.C107_trader | propext, Classical.choice, Quot.sound |
| C107 | Verif.Props.C107_trader_mistake | propext, Classical.choice, Quot.sound |
| C107 | Verif.Props.C107_convert | propext, Classical.choice, Quot.sound |
| C107 | Verif.Props.C107_convert_mistake | propext, Classical.choice, Quot.sound |
| C107 | Verif.Props.C107_trader_outcomes | propext, Classical.choice, Quot.sound |
| C107 | Verif.Props.C107_convert_outcomes | propext, Classical.choice, Quot.sound |
| C107 | Verif.Props.C107_trader_files | propext, Classical.choice, Quot.sound |
| C107 | Verif.Props.C107_convert_files | propext, Classical.choice, Quot.sound |
| C107 | Verif.Props.C107_switch_trap | propext, Classical.choice, Quot.sound |
| C108 | Verif.Props.C108_double | propext, Classical.choice, Quot.sound |
| C108 | Verif.Props.C108_unique | propext, Classical.choice, Quot.sound |
| C108 | Verif.Props.C108_exact | propext, Classical.choice, Quot.sound |
| C108 | Verif.Props.C108_trader | propext, Classical.choice, Quot.sound |
| C108 | Verif.Props.C108_convert | propext, Classical.choice, Quot.sound |
| C109 | Verif.Props.C109_number | propext, Classical.choice, Quot.sound |
| C109 | Verif.Props.C109_words | propext, Classical.choice, Quot.sound |
| C109 | Verif.Props.C109_read_back | propext, Classical.choice, Quot.sound |
| C109 | Verif.Props.C109_fields | propext, Classical.choice, Quot.sound |
| C109 | Verif.Props.C109_account | propext, Classical.choice, Quot.sound |
| C109 | Verif.Props.C109_evaluation | propext, Classical.choice, Quot.sound |
| C109 | Verif.Props.C109_evaluation_fields | propext, Classical.choice, Quot.sound |
| C109 | Verif.Props.C109_floats | propext, Classical.choice, Quot.sound |
| C109 | Verif.Props.C109_trader | propext, Classical.choice, Quot.sound |
| C109 | Verif.Props.C109_same_run | propext, Classical.choice, Quot.sound |
| C110 | Verif.Props.BaseUnits.C110_base_order | propext, Classical.choice, Quot.sound |
| C110 | Verif.Props.BaseUnits.C110_base_orders | propext, Classical.choice, Quot.sound |
| C110 | Verif.Props.BaseUnits.C110_base_stop | propext, Classical.choice, Quot.sound |
| C110 | Verif.Props.BaseUnits.C110_base_evaluate_any | propext, Classical.choice, Quot.sound |
| C110 | Verif.Props.ConvertInvariance.C110_outliers | propext, Classical.choice, Quot.sound |
| C110 | Verif.Props.ConvertInvariance.C110_conversion | propext, Classical.choice, Quot.sound |
| C110 | Verif.Props.Units.C110_order | propext, Classical.choice, Quot.sound |
| C110 | Verif.Props.Units.C110_orders | propext, Classical.choice, Quot.sound |
| C110 | Verif.Props.Units.C110_evaluate_any | propext, Classical.choice, Quot.sound |
| C110 | Verif.Props.Units.C110_stop | propext, Classical.choice, Quot.sound |
| C110 | Verif.Props.Units.C110_rebalancing | propext, Classical.choice, Quot.sound |
| C110 | Verif.Props.Units.C110_threshold | propext, Classical.choice, Quot.sound |
| C110 | Verif.Props.Units.C110_base_currency_matters | propext, Classical.choice, Quot.sound |
| C110 | Verif.Props.Units.C110_moving_averages | propext, Classical.choice, Quot.sound |
| C110 | Verif.Props.Units.C110_rsi | propext, Classical.choice, Quot.sound |
| C110 | Verif.Props.Units.C110_volatility | propext, Classical.choice, Quot.sound |
| C110 | Verif.Props.Units.C110_stochastic | propext, Classical.choice, Quot.sound |
| C110 | Verif.Props.Units.C110_rsi_threshold | propext, Classical.choice, Quot.sound |
| C111 | Verif.Props.ConvertInvariance.C111_outliers | propext, Classical.choice, Quot.sound |
| C111 | Verif.Props.ConvertInvariance.C111_conversion | propext, Classical.choice, Quot.sound |
| C111 | Verif.Props.ConvertInvariance.C111_needs_alignment | propext, Classical.choice, Quot.sound |
| C111 | Verif.Props.Shift.C111_any | propext, Classical.choice, Quot.sound |
| C111 | Verif.Props.Shift.C111_traders | propext, Classical.choice, Quot.sound |
| C111 | Verif.Props.Shift.C111_needs_whole_days | propext, Classical.choice, Quot.sound |
| C112 | Verif.Props.C112_history | propext, Classical.choice, Quot.sound |
| C112 | Verif.Props.C112_side | propext, Classical.choice, Quot.sound |
| C112 | Verif.Props.C112_preselected | propext, Classical.choice, Quot.sound |
| C112 | Verif.Props.C112_side_cut | propext, Classical.choice, Quot.sound |
| C112 | Verif.Props.C112_periods_alone | propext, Classical.choice, Quot.sound |
| C112 | Verif.Props.C112_before_epoch | propext, Classical.choice, Quot.sound |
| C113 | Verif.Props.Append.C113_resample | propext, Classical.choice, Quot.sound |
| C113 | Verif.Props.Append.C113_outliers | propext, Classical.choice, Quot.sound |
| C113 | Verif.Props.Append.C113_late_confirmation | propext, Classical.choice, Quot.sound |
| C113 | Verif.Props.Append.C113_conversion | propext, Classical.choice, Quot.sound |
| C114 | Verif.Props.FloatTerms.C114_buy_float | propext, Classical.choice, Quot.sound |
| C114 | Verif.Props.FloatTerms.C114_sell_float | propext, Classical.choice, Quot.sound |
| C114 | Verif.Props.Terms.C114_buy | propext, Classical.choice, Quot.sound |
| C114 | Verif.Props.Terms.C114_sell | propext, Classical.choice, Quot.sound |
| C114 | Verif.Props.Terms.C114_buy_at_quote | propext, Classical.choice, Quot.sound |
| C114 | Verif.Props.Terms.C114_sell_at_quote | propext, Classical.choice, Quot.sound |
| C114 | Verif.Props.Terms.C114_cheaper_but_refused | propext, Classical.choice, Quot.sound |
| C114 | Verif.Props.Terms.C114_more_volume_but_refused | propext, Classical.choice, Quot.sound |
| C114 | Verif.Props.Terms.C114_back_test_may_gain | propext, Classical.choice, Quot.sound |
| C115 | Verif.Props.Bound.C115_bound | propext, Classical.choice, Quot.sound |
| C115 | Verif.Props.Bound.C115_gain | propext, Classical.choice, Quot.sound |
| C115 | Verif.Props.Bound.C115_falling | propext, Classical.choice, Quot.sound |
| C115 | Verif.Props.Bound.C115_attained | propext, Classical.choice, Quot.sound |
| C116 | Verif.Props.Split.C116_merge | propext, Classical.choice, Quot.sound |
| C116 | Verif.Props.Split.C116_volume_is_per_order | propext, Classical.choice, Quot.sound |
| C116 | Verif.Props.Split.C116_sale_fee | propext, Classical.choice, Quot.sound |
| C116 | Verif.Props.Split.C116_needs_whole_units | propext, Classical.choice, Quot.sound |
| C116 | Verif.Props.Split.C116_quote_amounts | propext, Classical.choice, Quot.sound |
| C117 | Verif.Props.Quiet.C117_rebalancing_in_band | propext, Classical.choice, Quot.sound |
| C117 | Verif.Props.Quiet.C117_stop_margin | propext, Classical.choice, Quot.sound |
| C117 | Verif.Props.Quiet.C117_rebalancing_once | propext, Classical.choice, Quot.sound |
| C117 | Verif.Props.Quiet.C117_stop_margin_f32 | propext, Classical.choice, Quot.sound |
| C117 | Verif.Props.Quiet.C117_stop_margin_sharp | propext, Classical.choice, Quot.sound |
| C117 | Verif.Props.Quiet.C117_rebalancing_zero_volume | propext, Classical.choice, Quot.sound |
| C118 | Verif.Props.C118_price | propext, Classical.choice, Quot.sound |
| C118 | Verif.Props.C118_tick | propext, Classical.choice, Quot.sound |
| C118 | Verif.Props.C118_side | propext, Classical.choice, Quot.sound |
| C118 | Verif.Props.C118_price_file | propext, Classical.choice, Quot.sound |
| C118 | Verif.Props.C118_tick_file | propext, Classical.choice, Quot.sound |
| C118 | Verif.Props.C118_unwritten | propext, Classical.choice, Quot.sound |
| C119 | Verif.Props.StopLoss.C119_sell | propext, Classical.choice, Quot.sound |
| C119 | Verif.Props.StopLoss.C119_buy | propext, Classical.choice, Quot.sound |
| C119 | Verif.Props.StopLoss.C119_floor | propext, Classical.choice, Quot.sound |
| C119 | Verif.Props.StopLoss.C119_ceiling | propext, Classical.choice, Quot.sound |
| C119 | Verif.Props.StopLoss.C119_sell_f32 | propext, Classical.choice, Quot.sound |
| C119 | Verif.Props.StopLoss.C119_buy_f32 | propext, Classical.choice, Quot.sound |
| C119 | Verif.Props.StopLoss.C119_gap_breaks | propext, Classical.choice, Quot.sound |
| C120 | Verif.Props.Names.C120_rebalancing | propext, Classical.choice, Quot.sound |
| C120 | Verif.Props.Names.C120_stop | propext, Classical.choice, Quot.sound |
| C120 | Verif.Props.Names.C120_same_name | propext, Classical.choice, Quot.sound |
| C120 | Verif.Props.Names.C120_default_batch | propext, Classical.choice, Quot.sound |
| C120 | Verif.Props.Names.C120_results | propext, Classical.choice, Quot.sound |
| C121 | Verif.Props.OrderCount.C121_bound | propext, Classical.choice, Quot.sound |
| C121 | Verif.Props.OrderCount.C121_built_in | propext, Classical.choice, Quot.sound |
| C121 | Verif.Props.OrderCount.C121_evaluation | propext, Classical.choice, Quot.sound |
| C121 | Verif.Props.OrderCount.C121_counter | propext, Classical.choice, Quot.sound |
| C121 | Verif.Props.OrderCount.C121_gain | propext, Classical.choice, Quot.sound |
| C122 | Verif.Props.Memory.C122_sma | propext, Classical.choice, Quot.sound |
| C122 | Verif.Props.Memory.C122_ema | propext, Classical.choice, Quot.sound |
| C122 | Verif.Props.Memory.C122_macd | propext, Classical.choice, Quot.sound |
| C122 | Verif.Props.Memory.C122_stochastic | propext, Classical.choice, Quot.sound |
| C122 | Verif.Props.Memory.C122_rsi | propext, Classical.choice, Quot.sound |
| C122 | Verif.Props.Memory.C122_volatility | propext, Classical.choice, Quot.sound |
| C123 | Verif.Props.Costs.C123_costs | propext, Classical.choice, Quot.sound |
| C123 | Verif.Props.Costs.C123_collapse | propext, Classical.choice, Quot.sound |
| C124 | Verif.Props.Mirror.C124_rsi_shift | propext, Classical.choice, Quot.sound |
| C124 | Verif.Props.Mirror.C124_rsi_mirror | propext, Classical.choice, Quot.sound |
| C124 | Verif.Props.Mirror.C124_stochastic_shift | propext, Classical.choice, Quot.sound |
| C124 | Verif.Props.Mirror.C124_stochastic_mirror | propext, Classical.choice, Quot.sound |
| C124 | Verif.Props.Mirror.C124_averages_shift | propext, Classical.choice, Quot.sound |
| C124 | Verif.Props.Mirror.C124_averages_mirror | propext, Classical.choice, Quot.sound |
| C124 | Verif.Props.Mirror.C124_dominance | propext, Classical.choice, Quot.sound |
| C124 | Verif.Props.Mirror.C124_not_every_indicator | propext, Classical.choice, Quot.sound |
| C125 | Verif.Props.Ranking.C125_float_ranking | propext, Classical.choice, Quot.sound |
| C125 | Verif.Props.Ranking.C125_same_periods | propext, Classical.choice, Quot.sound |
| C125 | Verif.Props.Ranking.C125_ranking | propext, Classical.choice, Quot.sound |
| C125 | Verif.Props.Ranking.C125_dominance | propext, Classical.choice, Quot.sound |
| C126 | Verif.Props.Deaf.C126_indifferent | propext, Classical.choice, Quot.sound |
| C126 | Verif.Props.Deaf.C126_built_in | propext, Classical.choice, Quot.sound |
| C126 | Verif.Props.Deaf.C126_listener | propext, Classical.choice, Quot.sound |
| C127 | Verif.Props.Volume.C127_order | propext, Quot.sound |
| C127 | Verif.Props.Volume.C127_evaluate_any | propext, Classical.choice, Quot.sound |
| C127 | Verif.Props.Volume.C127_stop | propext, Classical.choice, Quot.sound |
| C127 | Verif.Props.Volume.C127_rebalancing | propext, Classical.choice, Quot.sound |
| C127 | Verif.Props.Volume.C127_cap_matters | propext, Classical.choice, Quot.sound |
| C128 | Verif.Props.TwoRates.C128_open_close | propext, Classical.choice, Quot.sound |
| C128 | Verif.Props.TwoRates.C128_empty | propext, Classical.choice, Quot.sound |
| C128 | Verif.Props.TwoRates.C128_close | propext, Classical.choice, Quot.sound |
| C128 | Verif.Props.TwoRates.C128_indicators | propext, Classical.choice, Quot.sound |
| C128 | Verif.Props.TwoRates.C128_range | propext, Classical.choice, Quot.sound |
| C128 | Verif.Props.TwoRates.C128_volume | propext, Classical.choice, Quot.sound |
| C128 | Verif.Props.TwoRates.C128_real_iff_volume | propext, Classical.choice, Quot.sound |
| C128 | Verif.Props.TwoRates.C128_sma | propext, Classical.choice, Quot.sound |
| C128 | Verif.Props.TwoRates.C128_range_float | propext, Classical.choice, Quot.sound |
| C128 | Verif.Props.TwoRates.C128_conversion | propext, Classical.choice, Quot.sound |
| C128 | Verif.Props.TwoRates.C128_gaps_matter | propext, Classical.choice, Quot.sound |
| C129 | Verif.Props.Confirm.C129_confirms | propext, Classical.choice, Quot.sound |
| C129 | Verif.Props.Confirm.C129_looking_back | propext, Classical.choice, Quot.sound |
| C129 | Verif.Props.Confirm.C129_append | propext, Classical.choice, Quot.sound |
| C129 | Verif.Props.Confirm.C129_converted | propext, Classical.choice, Quot.sound |
| C130 | Verif.Props.Pieces.C130_resample | propext, Classical.choice, Quot.sound |
| C130 | Verif.Props.Pieces.C130_many | propext, Classical.choice, Quot.sound |
| C130 | Verif.Props.Pieces.C130_conversion | propext, Classical.choice, Quot.sound |
| C130 | Verif.Props.Pieces.C130_not_with_outliers | propext, Classical.choice, Quot.sound |
