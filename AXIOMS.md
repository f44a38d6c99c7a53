# Axioms each property theorem depends on

Output of `#print axioms` for every theorem named in MANIFEST.json, grouped by the result.

## none

`Dh.C21_small`, `Dh.C33_tables_length`

## propext

`Dh.C26_ca_stuck`, `Dh.C31_signed`, `Dh.C33_letters`, `Dh.C36_left_out`, `Dh.C43_filltree_zero_fails`, `Dh.C50_truncated`, `Dh.C52_chop`, `Dh.C115_requests`

## Quot.sound, propext

`Dh.C08_get_bit_ntuple_from_uint`, `Dh.C08_get_bit_ntuple_from_whole_uint`, `Dh.C09_reset_reproducible`, `Dh.C09_without_reset`, `Dh.C18_zero_diverges`, `Dh.C21_second_fails`, `Dh.C22_XOR`, `Dh.C22_fails`, `Dh.C22_no_generator`, `Dh.C23_kiss_injective`, `Dh.C23_superkiss_xs`, `Dh.C25_kiss`, `Dh.C25_ca`, `Dh.C25_ca_config`, `Dh.C26_ca_fails`, `Dh.C26_uvag_after_reset`, `Dh.C29_threefish_injective`, `Dh.C30_tally`, `Dh.C31_range`, `Dh.C31_order`, `Dh.C31_onto`, `Dh.C31_unsigned`, `Dh.C32_bitstream_overrun`, `Dh.C34_stale_table`, `Dh.C34_zeros_loop`, `Dh.C35_game`, `Dh.C35_prefix_free`, `Dh.C42_highest`, `Dh.C42_narrow`, `Dh.C43_insert`, `Dh.C43_filltree_large_fails`, `Dh.C44_blocks`, `Dh.C44_shared_cell`, `Dh.C51_dieharder`, `Dh.C54_multicarry_stuck`, `Dh.C55_private`, `Dh.C58_get_bit_saturating`, `Dh.C58_get_int_bit`, `Dh.C60_too_large`, `Dh.C61_block64`, `Dh.C61_ref`, `Dh.C90_draw`, `Dh.C90_seed`, `Dh.C90_end`, `Dh.C90_uniform_int`, `Dh.C90_stdin`, `Dh.C132_not_reversible`, `Dh.C132_recurrence`, `Dh.C133_range`, `Dh.C133_collide`, `Dh.C136_reversible`, `Dh.C136_reverse`, `Dh.C136_reverse_wrong`

## Classical.choice, Quot.sound, propext

`Dh.C01_get_bit_ntuple`, `Dh.C02_b_umask`, `Dh.C02_b_window`, `Dh.C03_rotations`, `Dh.C04_get_ntuple_cyclic`, `Dh.C04_aborts`, `Dh.C05_get_uint_rand`, `Dh.C05_polluted`, `Dh.C05_full_claim_fails`, `Dh.C06_get_rand_bits`, `Dh.C06_get_rand_bits_32`, `Dh.C07_get_rand_bits_uint`, `Dh.C07_segments`, `Dh.C10_binary_rank`, `Dh.C10_rank_range`, `Dh.C10_wrong_rank`, `Dh.C11_storage`, `Dh.C11_overrun`, `Dh.C12_accounting`, `Dh.C12_no_strategy`, `Dh.C12_restart`, `Dh.C13_terminates`, `Dh.C13_forever`, `Dh.C14_thresholds`, `Dh.C14_symmetric`, `Dh.C14_monotone`, `Dh.C15_sizes`, `Dh.C15_clear_differs`, `Dh.C16_vtest_eval`, `Dh.C16_created`, `Dh.C16_mass`, `Dh.C16_no_cells`, `Dh.C16_not_idempotent`, `Dh.C17_kstest_order`, `Dh.C17_kuiper_order`, `Dh.C17_kstest_small`, `Dh.C17_kstest_statistic`, `Dh.C17_kuiper_statistic`, `Dh.C18_mPower`, `Dh.C19_uint`, `Dh.C19_float_fails`, `Dh.C20_ascii`, `Dh.C20_ascii_bases`, `Dh.C20_long_line`, `Dh.C20_header_fields`, `Dh.C21_raw`, `Dh.C21_round_trip`, `Dh.C23_kiss_good`, `Dh.C23_kiss_seeds`, `Dh.C24_superkiss_out_of_range`, `Dh.C24_superkiss_bound`, `Dh.C24_r_range`, `Dh.C24_r_seeded`, `Dh.C25_superkiss`, `Dh.C25_uvag_step`, `Dh.C25_uvag`, `Dh.C26_uvag_fails`, `Dh.C27_aes_ofb`, `Dh.C64_threefish_ofb`, `Dh.C26_r`, `Dh.C28_rijndael_is_aes`, `Dh.C29_aes_injective`, `Dh.C30_outcome`, `Dh.C30_at_most`, `Dh.C30_count`, `Dh.C30_spacings`, `Dh.C30_undercount`, `Dh.C30_overrun`, `Dh.C31_tally`, `Dh.C32_bitstream`, `Dh.C32_bitstream_missing`, `Dh.C32_bitstream_wraps`, `Dh.C33_letter_probabilities`, `Dh.C33_word_probabilities`, `Dh.C33_byteStrings`, `Dh.C33_stream_words`, `Dh.C33_byte_words`, `Dh.C34_euclid`, `Dh.C34_gcd_test`, `Dh.C35_tally`, `Dh.C35_classes`, `Dh.C35_win`, `Dh.C35_ends`, `Dh.C35_last_class`, `Dh.C36_runs`, `Dh.C36_partition`, `Dh.C37_squeeze`, `Dh.C38_popcount`, `Dh.C38_monobit`, `Dh.C39_sts_runs`, `Dh.C40_sts_serial`, `Dh.C41_tally`, `Dh.C41_conserved`, `Dh.C42_bytedistrib`, `Dh.C43_filltree`, `Dh.C43_insertBit`, `Dh.C43_filltree2`, `Dh.C44_tally`, `Dh.C44_pairs`, `Dh.C44_first_block`, `Dh.C45_opso`, `Dh.C45_oqso`, `Dh.C45_dna`, `Dh.C45_dna_missing`, `Dh.C45_dna_wraps`, `Dh.C45_opso2`, `Dh.C45_opso2_refuses`, `Dh.C46_min_distance`, `Dh.C46_compare`, `Dh.C46_dim_fails`, `Dh.C47_parking`, `Dh.C47_accepted_unique`, `Dh.C48_persist`, `Dh.C49_name_off`, `Dh.C49_name_on_fails`, `Dh.C49_number`, `Dh.C49_names`, `Dh.C49_default_names`, `Dh.C49_none`, `Dh.C49_last_fails`, `Dh.C49_unknown`, `Dh.C50_bits`, `Dh.C51_run_all`, `Dh.C51_once`, `Dh.C52_split`, `Dh.C52_split_short`, `Dh.C52_unterminated`, `Dh.C53_histogram`, `Dh.inBin_unique`, `Dh.C53_min_ignored`, `Dh.C54_wichmann_hill`, `Dh.C54_multicarry`, `Dh.C54_multicarry_fails`, `Dh.C54_super_duper`, `Dh.C54_wh_value`, `Dh.C54_word_value`, `Dh.C55_r_shared`, `Dh.C55_r_out_of_bounds`, `Dh.C56_lagged_sums`, `Dh.C57_dumpbits`, `Dh.C57_read_back`, `Dh.C57_print_back`, `Dh.C58_cycle`, `Dh.C58_cycle_n`, `Dh.C58_get_bit`, `Dh.C59_fill_contents`, `Dh.C59_fill_16`, `Dh.C59_fill_loses_bits`, `Dh.C59_fill_leaves_zeros`, `Dh.C60_range`, `Dh.C60_order`, `Dh.C60_tally`, `Dh.C62_decrypt_encrypt`, `Dh.C63_aes_key`, `Dh.C64_threefish_seeds`, `Dh.C65_mersenne_twister`, `Dh.C66_knuth`, `Dh.C67_rank_32x32`, `Dh.C67_rank_6x8`, `Dh.C67_conserved`, `Dh.C68_rank_32x32`, `Dh.C68_rank_6x8`, `Dh.C69_sums`, `Dh.C69_one_sample`, `Dh.C70_intended`, `Dh.C70_first_three`, `Dh.C70_cov_sum`, `Dh.C70_correlated`, `Dh.C70_uniform_draws`, `Dh.C71_3dsphere`, `Dh.C72_transform`, `Dh.C72_inverse`, `Dh.C73_dct`, `Dh.C73_fallback`, `Dh.C73_shift_undefined`, `Dh.C73_few_blocks`, `Dh.C74_moments`, `Dh.C74_sd`, `Dh.C74_uniform_words`, `Dh.C75_bounds`, `Dh.C75_error`, `Dh.C75_zero`, `Dh.C75_even_spacing`, `Dh.C76_p_ks_new`, `Dh.C76_le_one`, `Dh.C76_small`, `Dh.C76_shortcut`, `Dh.C77_poisson`, `Dh.C77_geometric`, `Dh.C77_binomial`, `Dh.C77_truncated`, `Dh.C77_identity`, `Dh.C78_mean`, `Dh.C78_exhaustive`, `Dh.C78_poisson_bias`, `Dh.C78_geometric_bias`, `Dh.C79_gtest`, `Dh.C79_overflow`, `Dh.C80_chisq2d`, `Dh.C80_transpose`, `Dh.C80_zero`, `Dh.C81_exact`, `Dh.C82_valid`, `Dh.C82_atom`, `Dh.C83_opso`, `Dh.C83_oqso`, `Dh.C83_opso2`, `Dh.C83_opso_score`, `Dh.C83_oqso_score`, `Dh.C83_opso2_score`, `Dh.C84_statistics`, `Dh.C84_mean`, `Dh.C84_degrees`, `Dh.C84_mono`, `Dh.C85_statistic`, `Dh.C85_small`, `Dh.C85_stream_mean`, `Dh.C85_byte_mean`, `Dh.C86_overlap_statistic`, `Dh.C86_disjoint_statistic`, `Dh.C86_overlap_mean`, `Dh.C86_overlap_bound`, `Dh.C86_disjoint_mean`, `Dh.C87_vtest_mean`, `Dh.C87_right_law`, `Dh.C88_trials`, `Dh.C88_mean`, `Dh.C88_small`, `Dh.C89_statistic`, `Dh.C89_up_mean`, `Dh.C89_down_mean`, `Dh.C89_default`, `Dh.C90_maximum`, `Dh.C90_double`, `Dh.C90_uint`, `Dh.C90_hang`, `Dh.C90_stdin_double`, `Dh.C91_selected`, `Dh.C91_refused`, `Dh.C91_too_many`, `Dh.C91_xor_components`, `Dh.C91_seed`, `Dh.C92_statistic`, `Dh.C92_law`, `Dh.C92_mean`, `Dh.C92_default`, `Dh.C92_excess`, `Dh.C93_table`, `Dh.C93_table_sum`, `Dh.C93_mean`, `Dh.C93_default`, `Dh.C93_many`, `Dh.C94_law`, `Dh.C94_position`, `Dh.C94_position_fails`, `Dh.C94_table`, `Dh.C94_digits`, `Dh.C94_mean`, `Dh.C94_default`, `Dh.C94_few`, `Dh.C95_law`, `Dh.C95_position`, `Dh.C95_table`, `Dh.C95_digits`, `Dh.C95_mean`, `Dh.C95_default`, `Dh.C95_few`, `Dh.C96_rank_32x32`, `Dh.C96_rank_6x8`, `Dh.C97_mean`, `Dh.C97_few`, `Dh.C98_mean`, `Dh.C98_degenerate`, `Dh.C98_few`, `Dh.C99_value`, `Dh.C99_none`, `Dh.C99_reversed`, `Dh.C99_law`, `Dh.C99_tail`, `Dh.C99_not_uniform`, `Dh.C99_single`, `Dh.C100_independent`, `Dh.C100_unique`, `Dh.C100_wins`, `Dh.C100_mean`, `Dh.C100_default`, `Dh.C101_monobit`, `Dh.C101_runs`, `Dh.C101_runs_moments`, `Dh.C101_runs_bias`, `Dh.C101_lagged`, `Dh.C101_lagged_bias`, `Dh.C102_kiss`, `Dh.C102_kiss_state`, `Dh.C102_kiss_uniform`, `Dh.C102_superkiss`, `Dh.C103_wichmann_hill`, `Dh.C103_multicarry`, `Dh.C103_multicarry_first`, `Dh.C103_super_duper`, `Dh.C103_super_duper_seeds`, `Dh.C104_knuth`, `Dh.C104_sequence`, `Dh.C105_mersenne_twister`, `Dh.C105_sequence`, `Dh.C106_mersenne_twister`, `Dh.C107_listing`, `Dh.C107_width`, `Dh.C107_accepted`, `Dh.C107_refused`, `Dh.C107_counts`, `Dh.C108_order`, `Dh.C108_valid`, `Dh.C109_2dsphere_general`, `Dh.C109_2dsphere`, `Dh.C109_3dsphere_general`, `Dh.C109_3dsphere`, `Dh.C110_pvalue`, `Dh.C110_law`, `Dh.C110_dim0`, `Dh.C110_negative`, `Dh.C111_statistic`, `Dh.C111_rotation`, `Dh.C111_not_invariant`, `Dh.C112_aes`, `Dh.C112_threefish`, `Dh.C112_ca`, `Dh.C112_ca_byte`, `Dh.C113_listing`, `Dh.C113_accepted`, `Dh.C113_refused`, `Dh.C113_all`, `Dh.C114_run`, `Dh.C114_mode`, `Dh.C114_refused`, `Dh.C114_flags`, `Dh.C114_flag_meaning`, `Dh.C115_same`, `Dh.C115_different`, `Dh.C115_bitdist`, `Dh.C115_bitdist_31`, `Dh.C116_value`, `Dh.C116_distribution`, `Dh.C116_below`, `Dh.C116_negative`, `Dh.C116_constant`, `Dh.C116_zero_diverges`, `Dh.C116_grid`, `Dh.C117_columns`, `Dh.C117_script`, `Dh.C117_values`, `Dh.C117_generator`, `Dh.C117_names`, `Dh.C118_defined`, `Dh.C118_picture`, `Dh.C118_height`, `Dh.C118_total`, `Dh.C119_stdin`, `Dh.C119_stdin_default`, `Dh.C119_raw`, `Dh.C119_ascii`, `Dh.C119_seeded`, `Dh.C119_aes`, `Dh.C119_threefish`, `Dh.C120_template`, `Dh.C120_same`, `Dh.C120_gorilla`, `Dh.C121_jenkins`, `Dh.C122_levels`, `Dh.C122_value`, `Dh.C122_exit`, `Dh.C122_few`, `Dh.C122_default`, `Dh.C123_game`, `Dh.C123_craps`, `Dh.C123_words`, `Dh.C123_late`, `Dh.C123_gcd`, `Dh.C124_kmax`, `Dh.C124_diehard`, `Dh.C124_dab`, `Dh.C124_diehard_narrow`, `Dh.C124_dab_narrow`, `Dh.C124_dab_24`, `Dh.C125_span`, `Dh.C125_period`, `Dh.C125_parity`, `Dh.C126_distance`, `Dh.C126_crowded`, `Dh.C126_equal`, `Dh.C126_constant`, `Dh.C126_birthdays`, `Dh.C126_robust`, `Dh.C126_even`, `Dh.C127_text`, `Dh.C127_mono`, `Dh.C127_verdict`, `Dh.C127_reader`, `Dh.C127_limits`, `Dh.C128_missing`, `Dh.C128_count1s`, `Dh.C128_monobit`, `Dh.C128_runs`, `Dh.C128_serial`, `Dh.C129_kstest`, `Dh.C129_monobit`, `Dh.C129_runs`, `Dh.C129_runs_reversed`, `Dh.C129_operm5`, `Dh.C129_permutations`, `Dh.C129_rank`, `Dh.C130_bias`, `Dh.C130_default`, `Dh.C130_balanced`, `Dh.C131_stuck`, `Dh.C131_period`, `Dh.C131_fixed`, `Dh.C131_file`, `Dh.C132_count`, `Dh.C132_gather`, `Dh.C132_terms`, `Dh.C132_prob`, `Dh.C132_expected`, `Dh.C133_urandom`, `Dh.C133_few`, `Dh.C133_delta`, `Dh.C134_binomial`, `Dh.C134_sums`, `Dh.C135_opso`, `Dh.C135_oqso`, `Dh.C135_dna`, `Dh.C135_bitstream`, `Dh.C135_opso2`, `Dh.C136_gather`, `Dh.C136_undefined`, `Dh.C136_report`, `Dh.C136_driver`, `Dh.C137_tail`, `Dh.C137_statistic`, `Dh.C137_crowded`, `Dh.C137_low`, `Dh.C138_tail`, `Dh.C138_chernoff`, `Dh.C138_cell`, `Dh.C138_bytedistrib`, `Dh.C138_too_even`, `Dh.C138_missing_byte`, `Dh.C139_high`, `Dh.C139_many`, `Dh.C139_few`, `Dh.C139_runs`, `Dh.C139_lagged`, `Dh.C140_parity`, `Dh.C140_span`, `Dh.C140_order`, `Dh.C140_default`, `Dh.C141_first`, `Dh.C141_second`, `Dh.C141_next`, `Dh.C141_ends`, `Dh.C141_predictable`, `Dh.C141_predictable_ends`, `Dh.C141_register`, `Dh.C141_even`, `Dh.C142_squares`, `Dh.C142_correlation`, `Dh.C142_guess`, `Dh.C142_stream`, `Dh.C142_byte`, `Dh.C142_determined`, `Dh.C143_missing`, `Dh.C143_lowbit`, `Dh.C144_sample`, `Dh.C144_kuiper`, `Dh.C144_run`, `Dh.C144_default`, `Dh.C145_wins`, `Dh.C145_throws`, `Dh.C145_missing`, `Dh.C145_parity`, `Dh.C145_run`, `Dh.C146_missing`, `Dh.C146_high_steps`, `Dh.C146_low_steps`, `Dh.C146_stuck`, `Dh.C147_number`, `Dh.C147_form`, `Dh.C147_class`, `Dh.C147_drops`, `Dh.C147_run`, `Dh.C148_stat`, `Dh.C148_rank`, `Dh.C148_span`, `Dh.C148_period`, `Dh.C148_stuck`, `Dh.C149_cell`, `Dh.C149_off`, `Dh.C149_same`, `Dh.C149_period`, `Dh.C150_level`, `Dh.C150_cell`, `Dh.C150_missing`, `Dh.C150_constant`, `Dh.C151_2d`, `Dh.C151_3d`, `Dh.C151_rgb`, `Dh.C151_zero`, `Dh.C151_period`, `Dh.C151_values`, `Dh.C152_cars`, `Dh.C152_few`, `Dh.C152_period`, `Dh.C152_values`, `Dh.C152_coarse`, `Dh.C153_cell`, `Dh.C153_missing`, `Dh.C153_period`, `Dh.C153_binary`, `Dh.C153_same`, `Dh.C154_cells`, `Dh.C154_same`, `Dh.C154_period`, `Dh.C155_places`, `Dh.C155_period`, `Dh.C155_slow`, `Dh.C155_fails`, `Dh.C156_missing`, `Dh.C156_four`, `Dh.C157_bits`, `Dh.C157_words`, `Dh.C158_trees`, `Dh.C158_four`, `Dh.C158_shift`, `Dh.C159_interval`, `Dh.C159_fails`, `Dh.C159_robust`
