# Axioms of the theorems in MANIFEST.json (output of `#print axioms`)

| theorem | axioms |
|---|---|
| `CI.Props.C01_roundtrip` | propext, Classical.choice, Quot.sound |
| `CI.Props.C02_layout` | propext, Classical.choice, Quot.sound |
| `CI.Props.C02_slots_cover` | propext, Quot.sound |
| `CI.Props.C02_rejects_nd` | propext, Quot.sound |
| `CI.Props.C03_announced` | propext, Classical.choice, Quot.sound |
| `CI.Props.C03_all_lengths` | propext, Classical.choice, Quot.sound |
| `CI.Props.C03_length_partial` | propext, Classical.choice, Quot.sound |
| `CI.Props.C03_converted_length` | propext, Quot.sound |
| `CI.Props.C03_fails` | propext, Classical.choice, Quot.sound |
| `CI.Props.C04_partial_year_partial` | propext, Classical.choice, Quot.sound |
| `CI.Props.C04_fails_leap` | propext, Classical.choice, Quot.sound |
| `CI.Props.C04_fails_leap_one` | propext, Classical.choice, Quot.sound |
| `CI.Props.C04_fails_short` | propext, Classical.choice, Quot.sound |
| `CI.Props.C04_fails_59` | propext, Classical.choice, Quot.sound |
| `CI.Props.C05_exact` | propext, Classical.choice, Quot.sound |
| `CI.Props.C05_increasing` | propext, Classical.choice, Quot.sound |
| `CI.Props.C05_bad_units` | propext, Quot.sound |
| `CI.Props.C06_layout` | propext, Quot.sound |
| `CI.Props.C06_two_d` | propext |
| `CI.Props.C06_rejects` | propext |
| `CI.Props.C07_windows_partial` | propext, Classical.choice, Quot.sound |
| `CI.Props.C07_exact_partial` | propext, Classical.choice, Quot.sound |
| `CI.Props.C07_fails` | propext, Quot.sound |
| `CI.Props.C07_bad_scale` | propext, Quot.sound |
| `CI.Props.C08_counts` | propext, Quot.sound |
| `CI.Props.C08_ordered` | propext, Classical.choice, Quot.sound |
| `CI.Props.C08_perm` | propext, Quot.sound |
| `CI.Props.C09_spi` | propext, Classical.choice, Quot.sound |
| `CI.Props.C09_spei` | propext, Classical.choice, Quot.sound |
| `CI.Props.C10_pearson_exact` | propext, Classical.choice, Quot.sound |
| `CI.Props.C10_bad_shape` | propext, Classical.choice, Quot.sound |
| `CI.Props.C10_all_missing` | propext, Classical.choice, Quot.sound |
| `CI.Props.C10_bad_args` | propext, Classical.choice, Quot.sound |
| `CI.Props.C10_gamma` | propext, Classical.choice, Quot.sound |
| `CI.Props.C10_pearson_partial` | propext, Classical.choice, Quot.sound |
| `CI.Props.C10_fails_pearson` | propext, Classical.choice, Quot.sound |
| `CI.Props.C10_size` | propext, Classical.choice, Quot.sound |
| `CI.Props.C11_spei` | propext, Classical.choice, Quot.sound |
| `CI.Props.C11_spei_no_pet` | propext, Classical.choice, Quot.sound |
| `CI.Props.C11_missing` | propext, Classical.choice, Quot.sound |
| `CI.Props.C12_columns` | propext, Classical.choice, Quot.sound |
| `CI.Props.C12_spi` | propext, Classical.choice, Quot.sound |
| `CI.Props.C13_every_fails` | propext, Classical.choice, Quot.sound |
| `CI.Props.C13_pearson_params` | propext, Classical.choice, Quot.sound |
| `CI.Props.C13_pearson_index` | propext, Classical.choice, Quot.sound |
| `CI.Props.C13_pearson_spi` | propext, Classical.choice, Quot.sound |
| `CI.Props.C13_gamma_partial` | propext, Classical.choice, Quot.sound |
| `CI.Props.C13_fails` | propext, Classical.choice, Quot.sound |
| `CI.Props.C14_gamma_within` | propext, Classical.choice, Quot.sound |
| `CI.Props.C14_pearson_within` | propext, Classical.choice, Quot.sound |
| `CI.Props.C14_outside_partial` | propext, Classical.choice, Quot.sound |
| `CI.Props.C14_one_after` | propext, Classical.choice, Quot.sound |
| `CI.Props.C14_before` | propext, Classical.choice, Quot.sound |
| `CI.Props.C14_fails_one_after` | propext, Classical.choice, Quot.sound |
| `CI.Props.C14_fails_before` | propext, Classical.choice, Quot.sound |
| `CI.Props.C15_gamma` | propext, Classical.choice, Quot.sound |
| `CI.Props.C15_pearson_partial` | propext, Classical.choice, Quot.sound |
| `CI.Props.C15_fails_pearson` | propext, Classical.choice, Quot.sound |
| `CI.Props.C15_fails_pearson_general` | propext, Classical.choice, Quot.sound |
| `CI.Props.C16_fails_gamma` | propext, Classical.choice, Quot.sound |
| `CI.Props.C16_pearson` | propext, Classical.choice, Quot.sound |
| `CI.Props.C17_kept_fails` | propext, Classical.choice, Quot.sound |
| `CI.Props.C17_spei_kept_fails` | propext, Classical.choice, Quot.sound |
| `CI.Props.C17_pdsi_partial` | propext, Classical.choice, Quot.sound |
| `CI.Props.C17_spi_partial` | propext, Classical.choice, Quot.sound |
| `CI.Props.C17_spei_partial` | propext, Classical.choice, Quot.sound |
| `CI.Props.C17_fails` | propext, Classical.choice, Quot.sound |
| `CI.Props.C18_given` | propext, Quot.sound |
| `CI.Props.C18_gamma` | propext, Classical.choice, Quot.sound |
| `CI.Props.C18_pearson` | propext, Classical.choice, Quot.sound |
| `CI.Props.C19_spi_partial` | propext, Classical.choice, Quot.sound |
| `CI.Props.C19_fit_partial` | propext, Classical.choice, Quot.sound |
| `CI.Props.C19_eto_partial` | propext, Classical.choice, Quot.sound |
| `CI.Props.C19_pet_partial` | propext, Classical.choice, Quot.sound |
| `CI.Props.C19_sequence_partial` | propext, Classical.choice, Quot.sound |
| `CI.Props.C19_pet_answers` | propext, Classical.choice, Quot.sound |
| `CI.Props.C19_spi_fails` | propext, Classical.choice, Quot.sound |
| `CI.Props.C19_eto_fails` | propext, Classical.choice, Quot.sound |
| `CI.Props.C19_answers_fails` | propext, Classical.choice, Quot.sound |
| `CI.Props.C20_difference` | propext, Classical.choice, Quot.sound |
| `CI.Props.C20_size` | propext, Classical.choice, Quot.sound |
| `CI.Props.C20_missing` | propext, Classical.choice, Quot.sound |
| `CI.Props.C21_old_keys` | propext, Classical.choice, Quot.sound |
| `CI.Props.C21_new_wins` | propext, Classical.choice, Quot.sound |
| `CI.Props.C21_lookup` | propext, Classical.choice, Quot.sound |
| `CI.Props.C21_fails_none` | propext, Classical.choice, Quot.sound |
| `CI.Props.C21_fails_spi` | propext, Classical.choice, Quot.sound |
| `CI.Props.C21_idempotent` | propext, Classical.choice, Quot.sound |
| `CI.Props.C22_parameters` | propext, Classical.choice, Quot.sound |
| `CI.Props.C22_spi` | propext, Classical.choice, Quot.sound |
| `CI.Props.C23_parameters` | propext, Classical.choice, Quot.sound |
| `CI.Props.C23_equal_index` | propext, Classical.choice, Quot.sound |
| `CI.Props.C24_lmoments` | propext, Classical.choice, Quot.sound |
| `CI.Props.C24_fit` | propext, Classical.choice, Quot.sound |
| `CI.Props.C24_few` | propext, Classical.choice, Quot.sound |
| `CI.Props.C24_loc` | propext, Classical.choice, Quot.sound |
| `CI.Props.C24_scale` | propext, Classical.choice, Quot.sound |
| `CI.Props.C25_order` | propext, Classical.choice, Quot.sound |
| `CI.Props.C25_affine` | propext, Classical.choice, Quot.sound |
| `CI.Props.C26_partial` | propext, Classical.choice, Quot.sound |
| `CI.Props.C26_fails` | propext, Classical.choice, Quot.sound |
| `CI.Props.C27_some` | propext, Classical.choice, Quot.sound |
| `CI.Props.C27_none` | propext, Classical.choice, Quot.sound |
| `CI.Props.C27_all` | propext, Classical.choice, Quot.sound |
| `CI.Props.C28_ratio` | propext, Classical.choice, Quot.sound |
| `CI.Props.C28_average` | propext, Classical.choice, Quot.sound |
| `CI.Props.C28_unit` | propext, Classical.choice, Quot.sound |
| `CI.Props.C29_rejects` | propext, Quot.sound |
| `CI.Props.C29_span_partial` | propext, Quot.sound |
| `CI.Props.C29_fails_daily` | propext, Classical.choice, Quot.sound |
| `CI.Props.C29_fails_reversed` | propext, Classical.choice, Quot.sound |
| `CI.Props.C29_exact` | propext, Classical.choice, Quot.sound |
| `CI.Props.C29_after_fails` | propext, Classical.choice, Quot.sound |
| `CI.Props.C29_reversed_fails` | propext, Classical.choice, Quot.sound |
| `CI.Props.C30_formula` | propext, Classical.choice, Quot.sound |
| `CI.Props.C30_partial` | propext, Classical.choice, Quot.sound |
| `CI.Props.C30_frozen_fails` | propext, Classical.choice, Quot.sound |
| `CI.Props.C30_gap_fails` | propext, Classical.choice, Quot.sound |
| `CI.Props.C31_partial` | propext, Classical.choice, Quot.sound |
| `CI.Props.C31_fails` | propext, Classical.choice, Quot.sound |
| `CI.Props.C32_range` | propext, Classical.choice, Quot.sound |
| `CI.Props.C32_equator` | propext, Classical.choice, Quot.sound |
| `CI.Props.C32_hemispheres` | propext, Classical.choice, Quot.sound |
| `CI.Props.C33_rejects` | propext, Classical.choice, Quot.sound |
| `CI.Props.C33_partial` | propext, Classical.choice, Quot.sound |
| `CI.Props.C33_dry_february` | propext, Classical.choice, Quot.sound |
| `CI.Props.C33_fails` | propext, Classical.choice, Quot.sound |
| `CI.Props.C34_partial` | propext, Classical.choice, Quot.sound |
| `CI.Props.C34_fails` | propext, Classical.choice, Quot.sound |
| `CI.Props.C34_single_fails` | propext, Classical.choice, Quot.sound |
| `CI.Props.C34_never` | propext, Classical.choice, Quot.sound |
| `CI.Props.C35_conserves` | propext, Classical.choice, Quot.sound |
| `CI.Props.C36_capacity` | propext, Classical.choice, Quot.sound |
| `CI.Props.C37_terms` | propext, Classical.choice, Quot.sound |
| `CI.Props.C37_coefficients` | propext, Classical.choice, Quot.sound |
| `CI.Props.C38_partial` | propext, Classical.choice, Quot.sound |
| `CI.Props.C38_zindex_partial` | propext, Classical.choice, Quot.sound |
| `CI.Props.C38_fails` | propext, Classical.choice, Quot.sound |
| `CI.Props.C39_fails_float64` | propext, Classical.choice, Quot.sound |
| `CI.Props.C39_signs` | propext, Classical.choice, Quot.sound |
| `CI.Props.C39_partial` | propext, Classical.choice, Quot.sound |
| `CI.Props.C39_fails` | propext, Classical.choice, Quot.sound |
| `CI.Props.C40_lengths` | propext, Classical.choice, Quot.sound |
| `CI.Props.C40_assigned` | propext, Classical.choice, Quot.sound |
| `CI.Props.C40_finite` | propext, Classical.choice, Quot.sound |
| `CI.Props.C41_fails_float64` | propext, Classical.choice, Quot.sound |
| `CI.Props.C41_pdsi_fails` | propext, Classical.choice, Quot.sound |
| `CI.Props.C41_partial` | propext, Classical.choice, Quot.sound |
| `CI.Props.C41_short` | propext, Classical.choice, Quot.sound |
| `CI.Props.C41_fails` | propext, Classical.choice, Quot.sound |
| `CI.Props.C42_fails_float64` | propext, Classical.choice, Quot.sound |
| `CI.Props.C42_partial` | propext, Classical.choice, Quot.sound |
| `CI.Props.C42_fails` | propext, Classical.choice, Quot.sound |
| `CI.Props.C43_during_spell` | propext, Classical.choice, Quot.sound |
| `CI.Props.C43_during_spell_error` | propext, Classical.choice, Quot.sound |
| `CI.Props.C43_outside_spell` | propext, Classical.choice, Quot.sound |
| `CI.Props.C43_collapse` | propext, Classical.choice, Quot.sound |
| `CI.Props.C43_zindex_partial` | propext, Classical.choice, Quot.sound |
| `CI.Props.C43_before` | propext, Classical.choice, Quot.sound |
| `CI.Props.C43_fails` | propext, Classical.choice, Quot.sound |
| `CI.Props.C44_reuse` | propext, Classical.choice, Quot.sound |
| `CI.Props.C44_incomplete` | propext, Classical.choice, Quot.sound |
| `CI.Props.C44_used` | propext, Classical.choice, Quot.sound |
| `CI.Props.C45_fails_float64` | propext, Classical.choice, Quot.sound |
| `CI.Props.C45_case` | propext, Classical.choice, Quot.sound |
| `CI.Props.C45_partial` | propext, Classical.choice, Quot.sound |
| `CI.Props.C45_fails` | propext, Classical.choice, Quot.sound |
| `CI.Props.C46_main` | propext, Classical.choice, Quot.sound |
| `CI.Props.C46_spi` | propext, Classical.choice, Quot.sound |
| `CI.Props.C47_single` | propext, Classical.choice, Quot.sound |
| `CI.Props.C47_double` | propext, Classical.choice, Quot.sound |
| `CI.Props.C47_spei` | propext, Classical.choice, Quot.sound |
| `CI.Props.C47_pet` | propext, Classical.choice, Quot.sound |
| `CI.Props.C47_fit` | propext, Classical.choice, Quot.sound |
| `CI.Props.C47_terminates` | propext, Classical.choice, Quot.sound |
| `CI.Props.C48_partial` | propext, Classical.choice, Quot.sound |
| `CI.Props.C48_double_partial` | propext, Classical.choice, Quot.sound |
| `CI.Props.C48_fails` | propext, Classical.choice, Quot.sound |
| `CI.Props.C48_blocks_partial` | propext, Classical.choice, Quot.sound |
| `CI.Props.C48_pointwise_partial` | propext, Classical.choice, Quot.sound |
| `CI.Props.C49_fails` | propext, Quot.sound |
| `CI.Props.C49_partial` | propext, Classical.choice, Quot.sound |
| `CI.Props.C50_inputs_partial` | propext, Classical.choice, Quot.sound |
| `CI.Props.C50_fails` | propext, Classical.choice, Quot.sound |
| `CI.Props.C50_all_fails` | propext, Classical.choice, Quot.sound |
| `CI.Props.C50_timeseries_fails` | propext, Classical.choice, Quot.sound |
| `CI.Props.C50_zero_scale_fails` | propext, Classical.choice, Quot.sound |
| `CI.Props.C51_outputs` | propext, Classical.choice, Quot.sound |
| `CI.Props.C51_distinct` | propext, Classical.choice, Quot.sound |
| `CI.Props.C51_kept` | propext, Classical.choice, Quot.sound |
| `CI.Props.C52_precip` | propext, Classical.choice, Quot.sound |
| `CI.Props.C52_pet` | propext, Classical.choice, Quot.sound |
| `CI.Props.C52_temp` | propext, Classical.choice, Quot.sound |
| `CI.Props.C53_partial` | propext |
| `CI.Props.C53_fails` | propext, Classical.choice, Quot.sound |
| `CI.Props.C54_partial` | propext, Classical.choice, Quot.sound |
| `CI.Props.C54_independent_partial` | propext, Classical.choice, Quot.sound |
| `CI.Props.C54_fails` | propext, Classical.choice, Quot.sound |
| `CI.Props.C55_partial` | propext, Classical.choice, Quot.sound |
| `CI.Props.C55_fails` | propext, Classical.choice, Quot.sound |
| `CI.Props.C55_daily_partial` | propext, Classical.choice, Quot.sound |
| `CI.Props.C56` | propext, Classical.choice, Quot.sound |
| `CI.Props.C57_partial` | propext, Classical.choice, Quot.sound |
| `CI.Props.C57_fails` | propext, Classical.choice, Quot.sound |
| `CI.Props.C58_marks` | propext, Classical.choice, Quot.sound |
| `CI.Props.C58_symm` | propext, Classical.choice, Quot.sound |
| `CI.Props.C58_rejects` | propext, Quot.sound |
| `CI.Props.C59_symmetric64` | propext, Classical.choice, Quot.sound |
| `CI.Props.C59_accurate64` | propext, Classical.choice, Quot.sound |
| `CI.Props.C59_small_fails` | propext, Classical.choice, Quot.sound |
| `CI.Props.C59_value` | propext, Classical.choice, Quot.sound |
| `CI.Props.C59_distance` | propext, Classical.choice, Quot.sound |
| `CI.Props.C59_size` | propext, Quot.sound |
| `CI.Props.C60_fails` | propext |
| `CI.Props.C60_one_year_partial` | propext, Classical.choice, Quot.sound |
| `CI.Props.C60_three_d` | propext |
| `CI.Props.C61_fails` | propext, Classical.choice, Quot.sound |
| `CI.Props.C62_fails` | propext, Classical.choice, Quot.sound |
| `CI.Props.C63_partial` | propext, Classical.choice, Quot.sound |
| `CI.Props.C63_after_record` | propext, Classical.choice, Quot.sound |
| `CI.Props.C63_fails` | propext, Classical.choice, Quot.sound |
| `CI.Props.C64_monotone` | propext, Classical.choice, Quot.sound |
| `CI.Props.C64_float64` | propext, Classical.choice, Quot.sound |
| `CI.Props.C65_fails` | propext, Classical.choice, Quot.sound |
| `CI.Props.C65_partial` | propext, Classical.choice, Quot.sound |
| `CI.Props.C66_spi` | propext, Classical.choice, Quot.sound |
| `CI.Props.C66_pnp` | propext, Classical.choice, Quot.sound |
| `CI.Props.C66_pet` | propext, Classical.choice, Quot.sound |
| `CI.Props.C66_spei_given` | propext, Classical.choice, Quot.sound |
| `CI.Props.C66_spei_computed` | propext, Classical.choice, Quot.sound |
| `CI.Props.C67_fails` | propext, Classical.choice, Quot.sound |
| `CI.Props.C68_monthly_partial` | propext, Classical.choice, Quot.sound |
| `CI.Props.C68_plain_partial` | propext, Classical.choice, Quot.sound |
| `CI.Props.C68_daily_partial` | propext, Classical.choice, Quot.sound |
| `CI.Props.C68_fails` | propext, Classical.choice, Quot.sound |
| `CI.Props.C68_scales_fails` | propext, Classical.choice, Quot.sound |
| `CI.Props.C69_loading` | propext, Classical.choice, Quot.sound |
| `CI.Props.C69_partial` | propext, Classical.choice, Quot.sound |
| `CI.Props.C69_fails` | propext, Classical.choice, Quot.sound |
| `CI.Props.C70_fails` | propext, Classical.choice, Quot.sound |
| `CI.Props.C70_output_fails` | propext, Quot.sound |
| `CI.Props.C71_fails` | propext, Classical.choice, Quot.sound |
| `CI.Props.C71_loading_fails` | propext, Classical.choice, Quot.sound |
| `CI.Props.C72_position` | propext, Classical.choice, Quot.sound |
| `CI.Props.C72_fails` | propext, Classical.choice, Quot.sound |
| `CI.Props.C73_partial` | propext, Classical.choice, Quot.sound |
| `CI.Props.C73_fails` | propext, Classical.choice, Quot.sound |
| `CI.Props.C74_fails` | propext, Classical.choice, Quot.sound |
| `CI.Props.C74_spei_fails` | propext, Classical.choice, Quot.sound |
| `CI.Props.C74_partial` | propext, Classical.choice, Quot.sound |
| `CI.Props.C75_fails` | propext, Classical.choice, Quot.sound |
| `CI.Props.C75_spei_fails` | propext, Classical.choice, Quot.sound |
| `CI.Props.C75_partial` | propext, Classical.choice, Quot.sound |
| `CI.Props.C76_partial` | propext, Classical.choice, Quot.sound |
| `CI.Props.C76_fails` | propext, Classical.choice, Quot.sound |
| `CI.Props.C77_union` | propext, Classical.choice, Quot.sound |
| `CI.Props.C77_disjoint_fails` | propext, Classical.choice, Quot.sound |
| `CI.Props.C77_partial` | propext, Classical.choice, Quot.sound |
| `CI.Props.C77_fails` | propext, Classical.choice, Quot.sound |
| `CI.Props.C78_partial` | propext, Quot.sound |
| `CI.Props.C78_fails` | propext, Classical.choice, Quot.sound |
| `CI.Props.C79_partial` | propext, Classical.choice, Quot.sound |
| `CI.Props.C79_fails` | propext, Classical.choice, Quot.sound |
| `CI.Props.C80_bounded` | propext, Classical.choice, Quot.sound |
| `CI.Props.C80_pdsi` | propext, Classical.choice, Quot.sound |
| `CI.Props.C81_fails_float64` | propext, Classical.choice, Quot.sound |
| `CI.Props.C81_first` | propext, Classical.choice, Quot.sound |
| `CI.Props.C81_follows` | propext, Classical.choice, Quot.sound |
| `CI.Props.C81_begins` | propext, Classical.choice, Quot.sound |
| `CI.Props.C81_partial` | propext, Classical.choice, Quot.sound |
| `CI.Props.C81_fails` | propext, Classical.choice, Quot.sound |
| `CI.Props.C82_resolved` | propext, Classical.choice, Quot.sound |
| `CI.Props.C82_zero` | propext, Quot.sound |
| `CI.Props.C83_match` | propext, Classical.choice, Quot.sound |
| `CI.Props.C83_mirror` | propext, Classical.choice, Quot.sound |
| `CI.Props.C84_value` | propext, Classical.choice, Quot.sound |
| `CI.Props.C84_partial` | propext, Classical.choice, Quot.sound |
| `CI.Props.C84_fails` | propext, Classical.choice, Quot.sound |
| `CI.Props.C85_cases` | propext, Classical.choice, Quot.sound |
| `CI.Props.C85_value` | propext, Classical.choice, Quot.sound |
| `CI.Props.C85_partial` | propext, Classical.choice, Quot.sound |
| `CI.Props.C85_fails` | propext, Classical.choice, Quot.sound |
| `CI.Props.C86_partial` | propext, Classical.choice, Quot.sound |
| `CI.Props.C86_given_partial` | propext, Classical.choice, Quot.sound |
| `CI.Props.C86_normalised_partial` | propext, Classical.choice, Quot.sound |
| `CI.Props.C86_fails` | propext, Classical.choice, Quot.sound |
| `CI.Props.C86_desert_fails` | propext, Classical.choice, Quot.sound |
| `CI.Props.C86_one_year_fails` | propext, Classical.choice, Quot.sound |
| `CI.Props.C87_fails_float64` | propext, Classical.choice, Quot.sound |
| `CI.Props.C87_partial` | propext, Classical.choice, Quot.sound |
| `CI.Props.C87_fails` | propext, Classical.choice, Quot.sound |
| `CI.Props.C87_tie_fails` | propext, Classical.choice, Quot.sound |
| `CI.Props.C88_pnp` | propext, Classical.choice, Quot.sound |
| `CI.Props.C88_pearson` | propext, Classical.choice, Quot.sound |
| `CI.Props.C88_gamma_partial` | propext, Classical.choice, Quot.sound |
| `CI.Props.C88_gamma_fails` | propext, Classical.choice, Quot.sound |
| `CI.Props.C88_gamma_given_fails` | propext, Classical.choice, Quot.sound |
| `CI.Props.C88_missing_fails` | propext, Classical.choice, Quot.sound |
| `CI.Props.C88_pet_partial` | propext, Classical.choice, Quot.sound |
| `CI.Props.C88_pet_fails` | propext, Classical.choice, Quot.sound |
| `CI.Props.C88_palmer_z` | propext, Classical.choice, Quot.sound |
| `CI.Props.C88_palmer_numbers` | propext, Classical.choice, Quot.sound |
| `CI.Props.C88_palmer_fails` | propext, Classical.choice, Quot.sound |
| `CI.Props.C88_every_fails` | propext, Classical.choice, Quot.sound |
| `CI.Props.C89_partial` | propext, Classical.choice, Quot.sound |
| `CI.Props.C89_gamma_mono` | propext, Classical.choice, Quot.sound |
| `CI.Props.C89_negative_fails` | propext, Classical.choice, Quot.sound |
| `CI.Props.C90_transform` | propext, Classical.choice, Quot.sound |
| `CI.Props.C90_series_partial` | propext, Classical.choice, Quot.sound |
| `CI.Props.C90_spi_partial` | propext, Classical.choice, Quot.sound |
| `CI.Props.C90_spei_unit_partial` | propext, Classical.choice, Quot.sound |
| `CI.Props.C90_spei_shift_partial` | propext, Classical.choice, Quot.sound |
| `CI.Props.C90_trace_fails` | propext, Classical.choice, Quot.sound |
| `CI.Props.C90_gamma_spei_fails` | propext, Classical.choice, Quot.sound |
| `CI.Props.C91_spi` | propext, Classical.choice, Quot.sound |
| `CI.Props.C91_spei` | propext, Classical.choice, Quot.sound |
| `CI.Props.C91_pnp` | propext, Classical.choice, Quot.sound |
| `CI.Props.C91_palmer` | propext, Classical.choice, Quot.sound |
| `CI.Props.C91_pet_partial` | propext, Classical.choice, Quot.sound |
| `CI.Props.C91_pet_400` | propext, Classical.choice, Quot.sound |
| `CI.Props.C91_pet_fails` | propext, Classical.choice, Quot.sound |
| `CI.Props.C92_spi` | propext, Classical.choice, Quot.sound |
| `CI.Props.C92_pnp` | propext, Classical.choice, Quot.sound |
| `CI.Props.C93_monthly_partial` | propext, Classical.choice, Quot.sound |
| `CI.Props.C93_daily_partial` | propext, Classical.choice, Quot.sound |
| `CI.Props.C93_fails` | propext, Classical.choice, Quot.sound |
| `CI.Props.C94_fails_float64` | propext, Classical.choice, Quot.sound |
| `CI.Props.C94_partial` | propext, Classical.choice, Quot.sound |
| `CI.Props.C94_fails` | propext, Classical.choice, Quot.sound |
| `CI.Props.C94_pmdi_fails` | propext, Classical.choice, Quot.sound |
| `CI.Props.C94_earlier_fails` | propext, Classical.choice, Quot.sound |
| `CI.Props.C94_record_partial` | propext, Classical.choice, Quot.sound |
| `CI.Props.C95_partial` | propext, Classical.choice, Quot.sound |
| `CI.Props.C95_fails` | propext, Classical.choice, Quot.sound |
| `CI.Props.C96_partial` | propext, Classical.choice, Quot.sound |
| `CI.Props.C96_beta_fails` | propext, Classical.choice, Quot.sound |
| `CI.Props.C96_gamma_fails` | propext, Classical.choice, Quot.sound |
| `CI.Props.C97_sums` | propext, Classical.choice, Quot.sound |
| `CI.Props.C98_pnp` | propext, Classical.choice, Quot.sound |
| `CI.Props.C99_pci` | propext, Classical.choice, Quot.sound |
| `CI.Props.C100_drift` | propext, Classical.choice, Quot.sound |
| `CI.Props.C101_coordinates` | propext, Classical.choice, Quot.sound |
| `CI.Props.C102_spi` | propext, Classical.choice, Quot.sound |
| `CI.Props.C102_spei` | propext, Classical.choice, Quot.sound |
| `CI.Props.C102_pnp` | propext, Classical.choice, Quot.sound |
| `CI.Props.C102_scale_fails` | propext, Classical.choice, Quot.sound |
| `CI.Props.C102_calibration_fails` | propext, Classical.choice, Quot.sound |
| `CI.Props.C102_fails_float64` | propext, Classical.choice, Quot.sound |
| `CI.Props.C102_pet` | propext, Classical.choice, Quot.sound |
| `CI.Props.C102_pet_fails` | propext, Classical.choice, Quot.sound |
| `CI.Props.C103_bounded` | propext, Classical.choice, Quot.sound |
| `CI.Props.C103_pdsi` | propext, Classical.choice, Quot.sound |
| `CI.Props.C103_exact_fails` | propext, Classical.choice, Quot.sound |
| `CI.Props.C103_overflow_fails` | propext, Classical.choice, Quot.sound |
| `CI.Props.C104_scale` | propext, Classical.choice, Quot.sound |
| `CI.Props.C104_fit_partial` | propext, Classical.choice, Quot.sound |
| `CI.Props.C104_constant_fails` | propext, Classical.choice, Quot.sound |
| `CI.Props.C104_distinct_fails` | propext, Classical.choice, Quot.sound |
| `CI.Props.C105_read` | propext, Classical.choice, Quot.sound |
| `CI.Props.C105_order` | propext, Classical.choice, Quot.sound |
| `CI.Props.C105_main` | propext, Classical.choice, Quot.sound |
| `CI.Props.C105_spi` | propext, Classical.choice, Quot.sound |
| `CI.Props.C105_unknown` | propext, Classical.choice, Quot.sound |
| `CI.Props.C105_ambiguous` | propext, Classical.choice, Quot.sound |
| `CI.Props.C105_abbrev` | propext, Classical.choice, Quot.sound |
| `CI.Props.C105_dash_fails` | propext, Classical.choice, Quot.sound |
| `CI.Props.C105_only` | propext, Classical.choice, Quot.sound |
| `CI.Props.C106_given` | propext, Classical.choice, Quot.sound |
| `CI.Props.C106_early` | propext, Classical.choice, Quot.sound |
| `CI.Props.C106_pet` | propext, Classical.choice, Quot.sound |
| `CI.Props.C106_pnp_fails` | propext, Classical.choice, Quot.sound |
| `CI.Props.C106_spi_fails` | propext, Classical.choice, Quot.sound |
| `CI.Props.C106_spei_fails` | propext, Classical.choice, Quot.sound |
| `CI.Props.C106_spei_temp_fails` | propext, Classical.choice, Quot.sound |
| `CI.Props.C107_loaded` | propext, Classical.choice, Quot.sound |
| `CI.Props.C108_spi` | propext, Classical.choice, Quot.sound |
| `CI.Props.C108_spei_given` | propext, Classical.choice, Quot.sound |
| `CI.Props.C108_spei_computed` | propext, Classical.choice, Quot.sound |
| `CI.Props.C108_tool_monthly` | propext, Classical.choice, Quot.sound |
| `CI.Props.C108_tool_daily` | propext, Classical.choice, Quot.sound |
| `CI.Props.C108_tool_loaded` | propext, Classical.choice, Quot.sound |
| `CI.Props.C108_pnp_partial` | propext, Classical.choice, Quot.sound |
| `CI.Props.C108_pnp_fails` | propext, Classical.choice, Quot.sound |
| `CI.Props.C108_pet_fails` | propext, Classical.choice, Quot.sound |
| `CI.Props.C109_partial` | propext, Classical.choice, Quot.sound |
| `CI.Props.C109_negative_fails` | propext, Classical.choice, Quot.sound |
| `CI.Props.C109_positive_fails` | propext, Classical.choice, Quot.sound |
| `CI.Props.C110_spi_fails` | propext, Classical.choice, Quot.sound |
| `CI.Props.C110_spi_partial` | propext, Classical.choice, Quot.sound |
| `CI.Props.C110_fails` | propext, Classical.choice, Quot.sound |
| `CI.Props.C110_pnp_fails` | propext, Classical.choice, Quot.sound |
| `CI.Props.C111_plain` | propext, Classical.choice, Quot.sound |
| `CI.Props.C111_masked_partial` | propext, Classical.choice, Quot.sound |
| `CI.Props.C111_masked_fails` | propext, Classical.choice, Quot.sound |
| `CI.Props.C112_pet` | propext, Classical.choice, Quot.sound |
| `CI.Props.C112_daylight` | propext, Classical.choice, Quot.sound |
| `CI.Props.C113_run` | propext, Classical.choice, Quot.sound |
| `CI.Props.C113_spi_exact` | propext, Classical.choice, Quot.sound |
| `CI.Props.C113_one_place_fails` | propext, Classical.choice, Quot.sound |
| `CI.Props.C113_pnp_exact` | propext, Classical.choice, Quot.sound |
| `CI.Props.C114_spi` | propext, Classical.choice, Quot.sound |
| `CI.Props.C114_pnp` | propext, Classical.choice, Quot.sound |
| `CI.Props.C114_pet` | propext, Classical.choice, Quot.sound |
| `CI.Props.C114_spei_temp` | propext, Classical.choice, Quot.sound |
| `CI.Props.C114_scaled` | propext, Classical.choice, Quot.sound |
| `CI.Props.C114_scaled_temp` | propext, Classical.choice, Quot.sound |
| `CI.Props.C114_spei` | propext, Classical.choice, Quot.sound |
| `CI.Props.C115_pearson` | propext, Classical.choice, Quot.sound |
| `CI.Props.C115_gamma` | propext, Classical.choice, Quot.sound |
| `CI.Props.C115_refused` | propext, Classical.choice, Quot.sound |
| `CI.Props.C115_defined` | propext, Classical.choice, Quot.sound |
| `CI.Props.C116_run` | propext, Classical.choice, Quot.sound |
| `CI.Props.C116_spei_exact` | propext, Classical.choice, Quot.sound |
| `CI.Props.C116_scaled_exact` | propext, Classical.choice, Quot.sound |
| `CI.Props.C117_pet` | propext, Classical.choice, Quot.sound |
| `CI.Props.C117_run` | propext, Classical.choice, Quot.sound |
| `CI.Props.C117_pet_exact` | propext, Classical.choice, Quot.sound |
| `CI.Props.C117_spei_exact` | propext, Classical.choice, Quot.sound |
| `CI.Props.C117_scaled_exact` | propext, Classical.choice, Quot.sound |
| `CI.Props.C118_run` | propext, Classical.choice, Quot.sound |
| `CI.Props.C118_finish` | propext, Classical.choice, Quot.sound |
| `CI.Props.C118_exact` | propext, Classical.choice, Quot.sound |
| `CI.Props.C118_order_fails` | propext, Classical.choice, Quot.sound |
| `CI.Props.C119_spi` | propext, Classical.choice, Quot.sound |
| `CI.Props.C120_agree` | propext, Classical.choice, Quot.sound |
| `CI.Props.C120_fails` | propext, Classical.choice, Quot.sound |
| `CI.Props.C120_agree_daily` | propext, Classical.choice, Quot.sound |
| `CI.Props.C120_daily_fails` | propext, Classical.choice, Quot.sound |
| `CI.Props.C121_any` | propext, Classical.choice, Quot.sound |
| `CI.Props.C121_before` | propext, Classical.choice, Quot.sound |
| `CI.Props.C121_loaded` | propext, Classical.choice, Quot.sound |
| `CI.Props.C121_exact` | propext, Classical.choice, Quot.sound |
| `CI.Props.C121_daily` | propext, Classical.choice, Quot.sound |
| `CI.Props.C122_run` | propext, Classical.choice, Quot.sound |
| `CI.Props.C122_spi_exact` | propext, Classical.choice, Quot.sound |
| `CI.Props.C122_pnp_exact` | propext, Classical.choice, Quot.sound |
| `CI.Props.C123_spi` | propext, Classical.choice, Quot.sound |
| `CI.Props.C123_pnp` | propext, Classical.choice, Quot.sound |
| `CI.Props.C124_run` | propext, Classical.choice, Quot.sound |
| `CI.Props.C124_spei_exact` | propext, Classical.choice, Quot.sound |
| `CI.Props.C124_scaled_exact` | propext, Classical.choice, Quot.sound |
| `CI.Props.C125_spei` | propext, Classical.choice, Quot.sound |
| `CI.Props.C125_scaled` | propext, Classical.choice, Quot.sound |
| `CI.Props.C126_run` | propext, Classical.choice, Quot.sound |
| `CI.Props.C126_finish` | propext, Classical.choice, Quot.sound |
| `CI.Props.C126_exact` | propext, Classical.choice, Quot.sound |
| `CI.Props.C127_spi` | propext, Classical.choice, Quot.sound |
| `CI.Props.C128_loads` | propext, Classical.choice, Quot.sound |
| `CI.Props.C128_zero_fails` | propext, Classical.choice, Quot.sound |
| `CI.Props.C128_command` | propext, Classical.choice, Quot.sound |
| `CI.Props.C129_again` | propext, Classical.choice, Quot.sound |
| `CI.Props.C129_commands` | propext, Classical.choice, Quot.sound |
| `CI.Props.C130_mean` | propext, Classical.choice, Quot.sound |
| `CI.Props.C130_negative_fails` | propext, Classical.choice, Quot.sound |
| `CI.Props.C130_finite_fails` | propext, Classical.choice, Quot.sound |
| `CI.Props.C131_partial` | propext, Classical.choice, Quot.sound |
| `CI.Props.C131_fails` | propext, Classical.choice, Quot.sound |
| `CI.Props.C131_same` | propext, Classical.choice, Quot.sound |
| `CI.Props.C131_same_float64` | propext, Classical.choice, Quot.sound |
| `CI.Props.C132_parameters` | propext, Classical.choice, Quot.sound |
| `CI.Props.C133_total` | propext, Classical.choice, Quot.sound |
| `CI.Props.C133_accurate` | propext, Classical.choice, Quot.sound |
| `CI.Props.C133_pet` | propext, Classical.choice, Quot.sound |
| `CI.Props.C134_pet` | propext, Classical.choice, Quot.sound |
| `CI.Props.C134_uniform` | propext, Classical.choice, Quot.sound |
| `CI.Props.C135_accumulations` | propext, Classical.choice, Quot.sound |
| `CI.Props.C135_spi` | propext, Classical.choice, Quot.sound |
| `CI.Props.C136_accumulations` | propext, Classical.choice, Quot.sound |
| `CI.Props.C136_spei` | propext, Classical.choice, Quot.sound |
| `CI.Props.C137_temp` | propext, Classical.choice, Quot.sound |
| `CI.Props.C137_precip` | propext, Classical.choice, Quot.sound |
| `CI.Props.C137_pet` | propext, Classical.choice, Quot.sound |
| `CI.Props.C138_pet` | propext, Classical.choice, Quot.sound |
| `CI.Props.C139_spi` | propext, Classical.choice, Quot.sound |
| `CI.Props.C139_pnp` | propext, Classical.choice, Quot.sound |
| `CI.Props.C140_spei` | propext, Classical.choice, Quot.sound |
| `CI.Props.C140_temp` | propext, Classical.choice, Quot.sound |
| `CI.Props.C141_cases` | propext, Classical.choice, Quot.sound |
| `CI.Props.C141_partial` | propext, Classical.choice, Quot.sound |
| `CI.Props.C141_fails` | propext, Classical.choice, Quot.sound |
| `CI.Props.C141_float64` | propext, Classical.choice, Quot.sound |
| `CI.Props.C141_fails_float64` | propext, Classical.choice, Quot.sound |
| `CI.Props.C142_spi` | propext, Classical.choice, Quot.sound |
| `CI.Props.C142_spei` | propext, Classical.choice, Quot.sound |
| `CI.Props.C142_run_spi` | propext, Classical.choice, Quot.sound |
| `CI.Props.C142_run_spei` | propext, Classical.choice, Quot.sound |
| `CI.Props.C142_run_temp` | propext, Classical.choice, Quot.sound |
| `CI.Props.C142_run_daily` | propext, Classical.choice, Quot.sound |
| `CI.Props.C142_run_daily_spei` | propext, Classical.choice, Quot.sound |
| `CI.Props.C142_tool` | propext, Classical.choice, Quot.sound |
| `CI.Props.C142_tool_daily` | propext, Classical.choice, Quot.sound |
| `CI.Props.C143_order` | propext, Classical.choice, Quot.sound |
| `CI.Props.C143_more` | propext, Classical.choice, Quot.sound |
| `CI.Props.C143_scale_fails` | propext, Classical.choice, Quot.sound |
| `CI.Props.C143_fails64` | propext, Classical.choice, Quot.sound |
| `CI.Props.C143_other64` | propext, Classical.choice, Quot.sound |
| `CI.Props.C143_outside64` | propext, Classical.choice, Quot.sound |
| `CI.Props.C144_gamma_partial` | propext, Classical.choice, Quot.sound |
| `CI.Props.C144_pearson_partial` | propext, Classical.choice, Quot.sound |
| `CI.Props.C144_fails` | propext, Classical.choice, Quot.sound |
| `CI.Props.C145_pnp` | propext, Classical.choice, Quot.sound |
| `CI.Props.C145_run` | propext, Classical.choice, Quot.sound |
| `CI.Props.C146_spi` | propext, Classical.choice, Quot.sound |
| `CI.Props.C147_pnp` | propext, Classical.choice, Quot.sound |
| `CI.Props.C147_run` | propext, Classical.choice, Quot.sound |
| `CI.Props.C148_spi` | propext, Classical.choice, Quot.sound |
| `CI.Props.C149_spi` | propext, Classical.choice, Quot.sound |
