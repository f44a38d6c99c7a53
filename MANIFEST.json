{
 "claims": [
  {
   "property": "C01",
   "status": "proved",
   "theorems": [
    "Dh.C01_get_bit_ntuple"
   ],
   "note": ""
  },
  {
   "property": "C02",
   "status": "proved",
   "theorems": [
    "Dh.C02_b_umask",
    "Dh.C02_b_window"
   ],
   "note": ""
  },
  {
   "property": "C03",
   "status": "proved",
   "theorems": [
    "Dh.C03_rotations"
   ],
   "note": ""
  },
  {
   "property": "C04",
   "status": "proved",
   "theorems": [
    "Dh.C04_get_ntuple_cyclic",
    "Dh.C04_aborts"
   ],
   "note": "The two theorems together decide every request."
  },
  {
   "property": "C05",
   "status": "proved",
   "theorems": [
    "Dh.C05_get_uint_rand",
    "Dh.C05_polluted",
    "Dh.C05_full_claim_fails"
   ],
   "note": "The first two theorems give the value of every word; the third shows that lossless repackaging fails for every width below 32."
  },
  {
   "property": "C06",
   "status": "proved",
   "theorems": [
    "Dh.C06_get_rand_bits",
    "Dh.C06_get_rand_bits_32"
   ],
   "note": ""
  },
  {
   "property": "C07",
   "status": "proved",
   "theorems": [
    "Dh.C07_get_rand_bits_uint",
    "Dh.C07_segments"
   ],
   "note": ""
  },
  {
   "property": "C08",
   "status": "proved",
   "theorems": [
    "Dh.C08_get_bit_ntuple_from_uint",
    "Dh.C08_get_bit_ntuple_from_whole_uint"
   ],
   "note": ""
  },
  {
   "property": "C09",
   "status": "proved",
   "theorems": [
    "Dh.C09_reset_reproducible",
    "Dh.C09_without_reset"
   ],
   "note": ""
  },
  {
   "property": "C10",
   "status": "proved",
   "theorems": [
    "Dh.C10_binary_rank",
    "Dh.C10_rank_range",
    "Dh.C10_wrong_rank"
   ],
   "note": "Every use in the program has at most 32 columns."
  },
  {
   "property": "C11",
   "status": "proved",
   "theorems": [
    "Dh.C11_storage",
    "Dh.C11_overrun"
   ],
   "note": ""
  },
  {
   "property": "C12",
   "status": "proved",
   "theorems": [
    "Dh.C12_accounting",
    "Dh.C12_no_strategy",
    "Dh.C12_restart"
   ],
   "note": "C12_restart describes the exception named in the statement."
  },
  {
   "property": "C13",
   "status": "proved",
   "theorems": [
    "Dh.C13_terminates",
    "Dh.C13_forever"
   ],
   "note": ""
  },
  {
   "property": "C14",
   "status": "proved",
   "theorems": [
    "Dh.C14_thresholds",
    "Dh.C14_symmetric",
    "Dh.C14_monotone"
   ],
   "note": "Exact arithmetic."
  },
  {
   "property": "C15",
   "status": "proved",
   "theorems": [
    "Dh.C15_sizes",
    "Dh.C15_clear_differs"
   ],
   "note": ""
  },
  {
   "property": "C16",
   "status": "proved",
   "theorems": [
    "Dh.C16_vtest_eval",
    "Dh.C16_created",
    "Dh.C16_mass",
    "Dh.C16_no_cells",
    "Dh.C16_not_idempotent"
   ],
   "note": "Exact arithmetic, positive cutoff; the p-value itself (incomplete gamma) is outside the model."
  },
  {
   "property": "C17",
   "status": "proved",
   "theorems": [
    "Dh.C17_kstest_order",
    "Dh.C17_kuiper_order",
    "Dh.C17_kstest_small",
    "Dh.C17_kstest_statistic",
    "Dh.C17_kuiper_statistic"
   ],
   "note": "Exact arithmetic; the distribution function applied to the statistic is a parameter."
  },
  {
   "property": "C18",
   "status": "proved",
   "theorems": [
    "Dh.C18_mPower",
    "Dh.C18_zero_diverges"
   ],
   "note": "Exact arithmetic."
  },
  {
   "property": "C19",
   "status": "proved",
   "theorems": [
    "Dh.C19_uint",
    "Dh.C19_float_fails"
   ],
   "note": "printf and sscanf are modelled for the formats used; the numbers of -O 2 are given by their ten-digit roundings."
  },
  {
   "property": "C20",
   "status": "proved",
   "theorems": [
    "Dh.C20_ascii",
    "Dh.C20_ascii_bases",
    "Dh.C20_long_line",
    "Dh.C20_header_fields"
   ],
   "note": "Types d, i, u, o, x, X. Counters are unbounded integers; the report is proved while the number of passes fits 32 bits."
  },
  {
   "property": "C21",
   "status": "proved",
   "theorems": [
    "Dh.C21_raw",
    "Dh.C21_small",
    "Dh.C21_second_fails",
    "Dh.C21_round_trip"
   ],
   "note": "Regular files; little-endian machine."
  },
  {
   "property": "C22",
   "status": "proved",
   "theorems": [
    "Dh.C22_XOR",
    "Dh.C22_fails",
    "Dh.C22_no_generator"
   ],
   "note": "The code differs from its documentation (one value from each generator)."
  },
  {
   "property": "C23",
   "status": "proved",
   "theorems": [
    "Dh.C23_kiss_injective",
    "Dh.C23_kiss_good",
    "Dh.C23_kiss_seeds",
    "Dh.C23_superkiss_xs"
   ],
   "note": ""
  },
  {
   "property": "C24",
   "status": "proved",
   "theorems": [
    "Dh.C24_superkiss_out_of_range",
    "Dh.C24_superkiss_bound",
    "Dh.C24_r_range",
    "Dh.C24_r_seeded"
   ],
   "note": ""
  },
  {
   "property": "C25",
   "status": "proved",
   "theorems": [
    "Dh.C25_superkiss",
    "Dh.C25_kiss",
    "Dh.C25_ca",
    "Dh.C25_ca_config",
    "Dh.C25_uvag_step",
    "Dh.C25_uvag"
   ],
   "note": ""
  },
  {
   "property": "C26",
   "status": "proved",
   "theorems": [
    "Dh.C26_ca_fails",
    "Dh.C26_ca_stuck",
    "Dh.C26_uvag_fails",
    "Dh.C26_uvag_after_reset",
    "Dh.C27_aes_ofb",
    "Dh.C64_threefish_ofb",
    "Dh.C26_r"
   ],
   "note": "kiss and superkiss overwrite their whole state from another generator; their seeding functions are modelled as functions of that generator's stream."
  },
  {
   "property": "C27",
   "status": "proved",
   "theorems": [
    "Dh.C27_aes_ofb"
   ],
   "note": ""
  },
  {
   "property": "C28",
   "status": "proved",
   "theorems": [
    "Dh.C28_rijndael_is_aes"
   ],
   "note": "All three key sizes; the specification is FIPS 197 with the S-box defined algebraically."
  },
  {
   "property": "C29",
   "status": "proved",
   "theorems": [
    "Dh.C29_aes_injective",
    "Dh.C29_threefish_injective"
   ],
   "note": ""
  },
  {
   "property": "C30",
   "status": "proved",
   "theorems": [
    "Dh.C30_outcome",
    "Dh.C30_at_most",
    "Dh.C30_count",
    "Dh.C30_spacings",
    "Dh.C30_tally",
    "Dh.C30_undercount",
    "Dh.C30_overrun"
   ],
   "note": "C30_outcome describes the result completely; C30_undercount and C30_overrun are samples on which the count is too small and on which the loop reads beyond the array."
  },
  {
   "property": "C31",
   "status": "proved",
   "theorems": [
    "Dh.C31_range",
    "Dh.C31_order",
    "Dh.C31_onto",
    "Dh.C31_unsigned",
    "Dh.C31_signed",
    "Dh.C31_tally"
   ],
   "note": "The comparison is signed; C31_signed shows that the unsigned order is not respected for values from 2^31 on."
  },
  {
   "property": "C32",
   "status": "proved",
   "theorems": [
    "Dh.C32_bitstream",
    "Dh.C32_bitstream_missing",
    "Dh.C32_bitstream_overrun",
    "Dh.C32_bitstream_wraps"
   ],
   "note": ""
  },
  {
   "property": "C33",
   "status": "proved",
   "theorems": [
    "Dh.C33_letters",
    "Dh.C33_tables_length",
    "Dh.C33_letter_probabilities",
    "Dh.C33_word_probabilities",
    "Dh.C33_byteStrings",
    "Dh.C33_stream_words",
    "Dh.C33_byte_words"
   ],
   "note": ""
  },
  {
   "property": "C34",
   "status": "proved",
   "theorems": [
    "Dh.C34_euclid",
    "Dh.C34_gcd_test",
    "Dh.C34_stale_table",
    "Dh.C34_zeros_loop"
   ],
   "note": "C34_stale_table shows the excluded case: an earlier call that allocated an empty table makes a later one write out of bounds."
  },
  {
   "property": "C35",
   "status": "proved",
   "theorems": [
    "Dh.C35_game",
    "Dh.C35_tally",
    "Dh.C35_classes",
    "Dh.C35_win",
    "Dh.C35_ends",
    "Dh.C35_last_class",
    "Dh.C35_prefix_free"
   ],
   "note": "Doubles are rational numbers; the dice are abstract values of roll()."
  },
  {
   "property": "C36",
   "status": "proved",
   "theorems": [
    "Dh.C36_runs",
    "Dh.C36_partition",
    "Dh.C36_left_out"
   ],
   "note": "All maximal runs are counted except one of the two last ones; C36_left_out is a sequence in which an ascending run of length 3 is lost."
  },
  {
   "property": "C37",
   "status": "proved",
   "theorems": [
    "Dh.C37_squeeze"
   ],
   "note": "Rounding of the product is arbitrary between 0 and k."
  },
  {
   "property": "C38",
   "status": "proved",
   "theorems": [
    "Dh.C38_popcount",
    "Dh.C38_monobit"
   ],
   "note": "nbits wraps mod 2^32, as in the code."
  },
  {
   "property": "C39",
   "status": "proved",
   "theorems": [
    "Dh.C39_sts_runs"
   ],
   "note": ""
  },
  {
   "property": "C40",
   "status": "proved",
   "theorems": [
    "Dh.C40_sts_serial"
   ],
   "note": ""
  },
  {
   "property": "C41",
   "status": "proved",
   "theorems": [
    "Dh.C41_tally",
    "Dh.C41_conserved"
   ],
   "note": "The tuples are an abstract sequence of values below 2^nb; C07 is about the function that produces them."
  },
  {
   "property": "C42",
   "status": "proved",
   "theorems": [
    "Dh.C42_bytedistrib",
    "Dh.C42_highest",
    "Dh.C42_narrow"
   ],
   "note": ""
  },
  {
   "property": "C43",
   "status": "proved",
   "theorems": [
    "Dh.C43_insert",
    "Dh.C43_filltree",
    "Dh.C43_filltree_zero_fails",
    "Dh.C43_filltree_large_fails",
    "Dh.C43_insertBit",
    "Dh.C43_filltree2"
   ],
   "note": "Holds for every generator and 2..255 cells in dab_filltree2, and for every generator without zeros and 2..41 cells in dab_filltree; the two failing cases of dab_filltree (zero draws, 42 or more cells) are proved as such."
  },
  {
   "property": "C44",
   "status": "proved",
   "theorems": [
    "Dh.C44_tally",
    "Dh.C44_blocks",
    "Dh.C44_pairs",
    "Dh.C44_first_block",
    "Dh.C44_shared_cell"
   ],
   "note": ""
  },
  {
   "property": "C45",
   "status": "proved",
   "theorems": [
    "Dh.C45_opso",
    "Dh.C45_oqso",
    "Dh.C45_dna",
    "Dh.C45_dna_missing",
    "Dh.C45_dna_wraps",
    "Dh.C45_opso2",
    "Dh.C45_opso2_refuses"
   ],
   "note": ""
  },
  {
   "property": "C46",
   "status": "proved",
   "theorems": [
    "Dh.C46_min_distance",
    "Dh.C46_compare",
    "Dh.C46_dim_fails"
   ],
   "note": "Real arithmetic; the GSL heapsort is represented by any sorted permutation of the points. More than 5 dimensions are proved to access the coordinates out of bounds."
  },
  {
   "property": "C47",
   "status": "proved",
   "theorems": [
    "Dh.C47_parking",
    "Dh.C47_accepted_unique"
   ],
   "note": "Rational arithmetic, for every sequence of places; the accepted attempts are proved to be determined by the places."
  },
  {
   "property": "C48",
   "status": "proved",
   "theorems": [
    "Dh.C48_persist"
   ],
   "note": ""
  },
  {
   "property": "C49",
   "status": "proved",
   "theorems": [
    "Dh.C49_name_off",
    "Dh.C49_name_on_fails",
    "Dh.C49_number",
    "Dh.C49_names",
    "Dh.C49_default_names",
    "Dh.C49_none",
    "Dh.C49_last_fails",
    "Dh.C49_unknown"
   ],
   "note": "Whether a -D argument is a number is taken as given (strtol is not modelled)."
  },
  {
   "property": "C50",
   "status": "proved",
   "theorems": [
    "Dh.C50_bits",
    "Dh.C50_truncated"
   ],
   "note": ""
  },
  {
   "property": "C51",
   "status": "proved",
   "theorems": [
    "Dh.C51_run_all",
    "Dh.C51_once",
    "Dh.C51_dieharder"
   ],
   "note": "For every table of tests and every value of -n."
  },
  {
   "property": "C52",
   "status": "proved",
   "theorems": [
    "Dh.C52_split",
    "Dh.C52_split_short",
    "Dh.C52_unterminated",
    "Dh.C52_chop"
   ],
   "note": ""
  },
  {
   "property": "C53",
   "status": "proved",
   "theorems": [
    "Dh.C53_histogram",
    "Dh.inBin_unique",
    "Dh.C53_min_ignored"
   ],
   "note": ""
  },
  {
   "property": "C54",
   "status": "proved",
   "theorems": [
    "Dh.C54_wichmann_hill",
    "Dh.C54_multicarry",
    "Dh.C54_multicarry_stuck",
    "Dh.C54_multicarry_fails",
    "Dh.C54_super_duper",
    "Dh.C54_wh_value",
    "Dh.C54_word_value"
   ],
   "note": ""
  },
  {
   "property": "C55",
   "status": "proved",
   "theorems": [
    "Dh.C55_private",
    "Dh.C55_r_shared",
    "Dh.C55_r_out_of_bounds"
   ],
   "note": "ca and uvag keep their whole state in file-scope variables too (see C26_ca_fails, C26_uvag_fails)."
  },
  {
   "property": "C56",
   "status": "proved",
   "theorems": [
    "Dh.C56_lagged_sums"
   ],
   "note": ""
  },
  {
   "property": "C57",
   "status": "proved",
   "theorems": [
    "Dh.C57_dumpbits",
    "Dh.C57_read_back",
    "Dh.C57_print_back"
   ],
   "note": ""
  },
  {
   "property": "C58",
   "status": "proved",
   "theorems": [
    "Dh.C58_cycle",
    "Dh.C58_cycle_n",
    "Dh.C58_get_bit",
    "Dh.C58_get_bit_saturating",
    "Dh.C58_get_int_bit"
   ],
   "note": ""
  },
  {
   "property": "C59",
   "status": "proved",
   "theorems": [
    "Dh.C59_fill_contents",
    "Dh.C59_fill_16",
    "Dh.C59_fill_loses_bits",
    "Dh.C59_fill_leaves_zeros"
   ],
   "note": ""
  },
  {
   "property": "C60",
   "status": "proved",
   "theorems": [
    "Dh.C60_range",
    "Dh.C60_order",
    "Dh.C60_tally",
    "Dh.C60_too_large"
   ],
   "note": "gsl_sort_index and the gsl_permutation functions are used through their contracts; C60_too_large: from 13 on the number of permutations does not fit in an unsigned int."
  },
  {
   "property": "C61",
   "status": "proved",
   "theorems": [
    "Dh.C61_block64",
    "Dh.C61_ref"
   ],
   "note": "Rotation constants and parity word of the Skein paper 1.1/1.2, which is what the code carries."
  },
  {
   "property": "C62",
   "status": "proved",
   "theorems": [
    "Dh.C62_decrypt_encrypt"
   ],
   "note": ""
  },
  {
   "property": "C63",
   "status": "proved",
   "theorems": [
    "Dh.C63_aes_key"
   ],
   "note": ""
  },
  {
   "property": "C64",
   "status": "proved",
   "theorems": [
    "Dh.C64_threefish_ofb",
    "Dh.C64_threefish_seeds"
   ],
   "note": ""
  },
  {
   "property": "C65",
   "status": "proved",
   "theorems": [
    "Dh.C65_mersenne_twister"
   ],
   "note": "The final conversion of a word to a double is exact arithmetic followed by an arbitrary rounding."
  },
  {
   "property": "C66",
   "status": "proved",
   "theorems": [
    "Dh.C66_knuth"
   ],
   "note": "The final conversion of a word to a double is exact arithmetic followed by an arbitrary rounding."
  },
  {
   "property": "C67",
   "status": "proved",
   "theorems": [
    "Dh.C67_rank_32x32",
    "Dh.C67_rank_6x8",
    "Dh.C67_conserved"
   ],
   "note": "Uses the rank theorem C10."
  },
  {
   "property": "C68",
   "status": "proved",
   "theorems": [
    "Dh.C68_rank_32x32",
    "Dh.C68_rank_6x8"
   ],
   "note": ""
  },
  {
   "property": "C69",
   "status": "proved",
   "theorems": [
    "Dh.C69_sums",
    "Dh.C69_one_sample"
   ],
   "note": "Real arithmetic; the normal cdf is an arbitrary function."
  },
  {
   "property": "C70",
   "status": "proved",
   "theorems": [
    "Dh.C70_intended",
    "Dh.C70_first_three",
    "Dh.C70_cov_sum",
    "Dh.C70_correlated",
    "Dh.C70_uniform_draws"
   ],
   "note": "A finding: the compiled line differs from the commented-out one."
  },
  {
   "property": "C71",
   "status": "proved",
   "theorems": [
    "Dh.C71_3dsphere"
   ],
   "note": "Real arithmetic."
  },
  {
   "property": "C72",
   "status": "proved",
   "theorems": [
    "Dh.C72_transform",
    "Dh.C72_inverse"
   ],
   "note": "GSL's real radix-2 FFT enters by its documented contract."
  },
  {
   "property": "C73",
   "status": "proved",
   "theorems": [
    "Dh.C73_dct",
    "Dh.C73_fallback",
    "Dh.C73_shift_undefined",
    "Dh.C73_few_blocks"
   ],
   "note": "Real arithmetic; KS test, normal cdf and gamma function are arbitrary functions."
  },
  {
   "property": "C74",
   "status": "proved",
   "theorems": [
    "Dh.C74_moments",
    "Dh.C74_sd",
    "Dh.C74_uniform_words"
   ],
   "note": ""
  },
  {
   "property": "C75",
   "status": "proved",
   "theorems": [
    "Dh.C75_bounds",
    "Dh.C75_error",
    "Dh.C75_zero",
    "Dh.C75_even_spacing"
   ],
   "note": "Real arithmetic."
  },
  {
   "property": "C76",
   "status": "proved",
   "theorems": [
    "Dh.C76_p_ks_new",
    "Dh.C76_le_one",
    "Dh.C76_small",
    "Dh.C76_shortcut"
   ],
   "note": "Rational arithmetic."
  },
  {
   "property": "C77",
   "status": "proved",
   "theorems": [
    "Dh.C77_poisson",
    "Dh.C77_geometric",
    "Dh.C77_binomial",
    "Dh.C77_truncated",
    "Dh.C77_identity"
   ],
   "note": "Real arithmetic; GSL densities by their documentation, the gamma function is arbitrary."
  },
  {
   "property": "C78",
   "status": "proved",
   "theorems": [
    "Dh.C78_mean",
    "Dh.C78_exhaustive",
    "Dh.C78_poisson_bias",
    "Dh.C78_geometric_bias"
   ],
   "note": ""
  },
  {
   "property": "C79",
   "status": "proved",
   "theorems": [
    "Dh.C79_gtest",
    "Dh.C79_overflow"
   ],
   "note": "Real arithmetic."
  },
  {
   "property": "C80",
   "status": "proved",
   "theorems": [
    "Dh.C80_chisq2d",
    "Dh.C80_transpose",
    "Dh.C80_zero"
   ],
   "note": "Real arithmetic; tables with an empty row or column (NaN in C) are outside the last theorem."
  },
  {
   "property": "C81",
   "status": "proved",
   "theorems": [
    "Dh.C81_exact"
   ],
   "note": "Real arithmetic. Spec.ksDistance is the supremum over [0,1] of |F_n(y)-y|."
  },
  {
   "property": "C82",
   "status": "proved",
   "theorems": [
    "Dh.C82_valid",
    "Dh.C82_atom"
   ],
   "note": "Real arithmetic, ks_test=2 for validity; the atom for every ks_test. The uniform distribution of the p-values fails: see C82_atom."
  },
  {
   "property": "C83",
   "status": "proved",
   "theorems": [
    "Dh.C83_opso",
    "Dh.C83_oqso",
    "Dh.C83_opso2",
    "Dh.C83_opso_score",
    "Dh.C83_oqso_score",
    "Dh.C83_opso2_score"
   ],
   "note": "Uniform draws are the uniform distribution over all bit assignments of k draws of r bits."
  },
  {
   "property": "C84",
   "status": "proved",
   "theorems": [
    "Dh.C84_statistics",
    "Dh.C84_mean",
    "Dh.C84_degrees",
    "Dh.C84_mono"
   ],
   "note": "Real arithmetic; gsl_cdf_gaussian_P and gsl_sf_gamma_inc_Q are parameters. The theorems are about the means; the chi-square law itself is asymptotic."
  },
  {
   "property": "C85",
   "status": "proved",
   "theorems": [
    "Dh.C85_statistic",
    "Dh.C85_small",
    "Dh.C85_stream_mean",
    "Dh.C85_byte_mean"
   ],
   "note": "Exact arithmetic; gsl_cdf_gaussian_P is a parameter. Between 895 and 79279 samples some words are pooled and the exact statistic is C33 with C16."
  },
  {
   "property": "C86",
   "status": "proved",
   "theorems": [
    "Dh.C86_overlap_statistic",
    "Dh.C86_disjoint_statistic",
    "Dh.C86_overlap_mean",
    "Dh.C86_overlap_bound",
    "Dh.C86_disjoint_mean"
   ],
   "note": "Real arithmetic; gsl_sf_gamma_inc_Q is a parameter; table entries as decimal numbers. The null model is a random order of N different values (no ties). The theorem is about the mean; the chi-square law itself is asymptotic."
  },
  {
   "property": "C87",
   "status": "proved",
   "theorems": [
    "Dh.C87_vtest_mean",
    "Dh.C87_right_law"
   ],
   "note": "Exact arithmetic. The trials are random variables on a finite probability space."
  },
  {
   "property": "C88",
   "status": "proved",
   "theorems": [
    "Dh.C88_trials",
    "Dh.C88_mean",
    "Dh.C88_small"
   ],
   "note": "Exact arithmetic. gsl_sort_index and gsl_permutation_next enter through their contracts (SortIndexOk, LookupOk); no ties."
  },
  {
   "property": "C89",
   "status": "proved",
   "theorems": [
    "Dh.C89_statistic",
    "Dh.C89_up_mean",
    "Dh.C89_down_mean",
    "Dh.C89_default"
   ],
   "note": "Real arithmetic; gsl_sf_gamma_inc_Q is a parameter; table entries as decimal numbers. The null model is a random order of N different values (no ties). The theorem is about the mean; the chi-square law itself is asymptotic."
  },
  {
   "property": "C90",
   "status": "proved",
   "theorems": [
    "Dh.C90_draw",
    "Dh.C90_maximum",
    "Dh.C90_double",
    "Dh.C90_uint",
    "Dh.C90_seed",
    "Dh.C90_end",
    "Dh.C90_uniform_int",
    "Dh.C90_hang",
    "Dh.C90_stdin",
    "Dh.C90_stdin_double"
   ],
   "note": "Little-endian machine with 64-bit long; deviates in exact arithmetic; the device is a finite stream of bytes."
  },
  {
   "property": "C91",
   "status": "proved",
   "theorems": [
    "Dh.C91_selected",
    "Dh.C91_refused",
    "Dh.C91_too_many",
    "Dh.C91_xor_components",
    "Dh.C91_seed"
   ],
   "note": "strtol by its definition in the C standard with 64-bit long; getopt delivers the options in order; static vectors begin with zeros. Other options are left out."
  },
  {
   "property": "C92",
   "status": "proved",
   "theorems": [
    "Dh.C92_statistic",
    "Dh.C92_law",
    "Dh.C92_mean",
    "Dh.C92_default",
    "Dh.C92_excess"
   ],
   "note": "Rational arithmetic for the doubles, exact square root before it is cut; the null model is the sequence of non-zero words (zeros are skipped by the test, C34). The theorem is about the mean of the statistic, not about its whole law."
  },
  {
   "property": "C93",
   "status": "proved",
   "theorems": [
    "Dh.C93_table",
    "Dh.C93_table_sum",
    "Dh.C93_mean",
    "Dh.C93_default",
    "Dh.C93_many"
   ],
   "note": "Rational arithmetic for the doubles. The null model has the deviates (a+1)/L with a uniform below L, for any L divisible by all numbers below 2^31 (such L exist: exists_fineGrid); a generator with 32-bit words is an approximation to it, and the deviate 0 is left out. The theorem is about the mean of the statistic, not about its whole law."
  },
  {
   "property": "C94",
   "status": "proved",
   "theorems": [
    "Dh.C94_law",
    "Dh.C94_position",
    "Dh.C94_position_fails",
    "Dh.C94_table",
    "Dh.C94_digits",
    "Dh.C94_mean",
    "Dh.C94_default",
    "Dh.C94_few"
   ],
   "note": "Rational arithmetic for the doubles. The null model has independent uniform words of r bits (random bits, lowest first). The table is compared with the law for size 128 (ntuple 0) only; the theorems on the p-values are about that size. The mean of the first statistic is proved, not its whole law; the second p-value (a G statistic) has no such theorem."
  },
  {
   "property": "C95",
   "status": "proved",
   "theorems": [
    "Dh.C95_law",
    "Dh.C95_position",
    "Dh.C95_table",
    "Dh.C95_digits",
    "Dh.C95_mean",
    "Dh.C95_default",
    "Dh.C95_few"
   ],
   "note": "Rational arithmetic for the doubles. The null model has the keys (the rotated draws) independent and uniform on 1..N; a draw of 0 is left out (it would leave its node unmarked), and the rotation is not part of this model (it permutes the words). The means of both statistics are proved, not their whole law; the second mean is for a number of trees that is a multiple of 16, as in the default run, because the code divides integers."
  },
  {
   "property": "C96",
   "status": "proved",
   "theorems": [
    "Dh.C96_rank_32x32",
    "Dh.C96_rank_6x8"
   ],
   "note": "Rational arithmetic for the doubles. The null model has independent uniform words of r bits. The means of the statistics are proved, not their whole law."
  },
  {
   "property": "C97",
   "status": "proved",
   "theorems": [
    "Dh.C97_mean",
    "Dh.C97_few"
   ],
   "note": "Rational arithmetic for the doubles. The null model has independent uniform words of r bits. The mean of the statistic is proved, not its whole law (the three bytes of a word are not independent for narrow words)."
  },
  {
   "property": "C98",
   "status": "proved",
   "theorems": [
    "Dh.C98_mean",
    "Dh.C98_degenerate",
    "Dh.C98_few"
   ],
   "note": "Rational arithmetic for the doubles, exact binomial probabilities for gsl_ran_binomial_pdf. The null model has independent uniform words of r bits and an empty bit buffer at the start; the tuple that is scored is a parameter (the program picks it with later words). The mean of the statistic is proved, not its whole law."
  },
  {
   "property": "C99",
   "status": "proved",
   "theorems": [
    "Dh.C99_value",
    "Dh.C99_none",
    "Dh.C99_reversed",
    "Dh.C99_law",
    "Dh.C99_tail",
    "Dh.C99_not_uniform",
    "Dh.C99_single"
   ],
   "note": "Real arithmetic for the doubles. The law is for independent uniform p-values; the p-values of the levels of dab_monobit2 come from the same words and are not independent."
  },
  {
   "property": "C100",
   "status": "proved",
   "theorems": [
    "Dh.C100_independent",
    "Dh.C100_unique",
    "Dh.C100_wins",
    "Dh.C100_mean",
    "Dh.C100_default"
   ],
   "note": "Rational and real arithmetic for the doubles. The null model is the infinite product of fair dice (Mathlib's infinite product measure) for the values of roll(). Means and the variance of the wins are proved, not the whole law of the statistics."
  },
  {
   "property": "C101",
   "status": "proved",
   "theorems": [
    "Dh.C101_monobit",
    "Dh.C101_runs",
    "Dh.C101_runs_moments",
    "Dh.C101_runs_bias",
    "Dh.C101_lagged",
    "Dh.C101_lagged_bias"
   ],
   "note": "Real arithmetic for the doubles; gsl_cdf_gaussian_P is a parameter. The null model has independent uniform words of r bits (for the runs given the number of ones) and, for the sums, independent uniform values below L. Means and variances are proved, not the normal law, which is asymptotic."
  },
  {
   "property": "C102",
   "status": "proved",
   "theorems": [
    "Dh.C102_kiss",
    "Dh.C102_kiss_state",
    "Dh.C102_kiss_uniform",
    "Dh.C102_superkiss"
   ],
   "note": "The seeding generator is an arbitrary source of words. The period of the multiply-with-carry table Q of superkiss and with it that of the whole generator is not proved."
  },
  {
   "property": "C103",
   "status": "proved",
   "theorems": [
    "Dh.C103_wichmann_hill",
    "Dh.C103_multicarry",
    "Dh.C103_multicarry_first",
    "Dh.C103_super_duper",
    "Dh.C103_super_duper_seeds"
   ],
   "note": "About the numbers of unif_rand (gsl_rng_uniform). Doubles are rationals with an arbitrary rounding that is monotone and exact on 53-bit numbers. R_mersenne_twister is not covered."
  },
  {
   "property": "C104",
   "status": "proved",
   "theorems": [
    "Dh.C104_knuth",
    "Dh.C104_sequence"
   ],
   "note": "About the numbers of unif_rand (gsl_rng_uniform), with an arbitrary rounding of doubles that is monotone and exact on 53-bit numbers. That 2^100-1 is the order of the shift modulo two uses the factorisation of 2^100-1, checked in the kernel."
  },
  {
   "property": "C105",
   "status": "proved",
   "theorems": [
    "Dh.C105_mersenne_twister",
    "Dh.C105_sequence"
   ],
   "note": "About the numbers of unif_rand (gsl_rng_uniform), with an arbitrary rounding of doubles that is monotone and exact on 53-bit numbers. The primality of 2^19937-1 (test of Lucas and Lehmer, from Mathlib) and the 19937 squarings modulo the characteristic polynomial are computed by the kernel."
  },
  {
   "property": "C106",
   "status": "proved",
   "theorems": [
    "Dh.C106_mersenne_twister"
   ],
   "note": "About the words behind the numbers of unif_rand (gsl_rng_uniform), with an arbitrary rounding of doubles."
  },
  {
   "property": "C107",
   "status": "proved",
   "theorems": [
    "Dh.C107_listing",
    "Dh.C107_width",
    "Dh.C107_accepted",
    "Dh.C107_refused",
    "Dh.C107_counts"
   ],
   "note": "The names of the GSL generators, the devices that can be opened and the version string are parameters. printf with %3.3d, %3d and %-20s is modelled for numbers below 1000. The verbose messages are not modelled."
  },
  {
   "property": "C108",
   "status": "proved",
   "theorems": [
    "Dh.C108_order",
    "Dh.C108_valid"
   ],
   "note": "Real arithmetic for the doubles. C108_order holds for arbitrary distribution functions at the end of kstest and kstest_kuiper; C108_valid is for -k 2 (the exact distribution of C81 and C82)."
  },
  {
   "property": "C109",
   "status": "proved",
   "theorems": [
    "Dh.C109_2dsphere_general",
    "Dh.C109_2dsphere",
    "Dh.C109_3dsphere_general",
    "Dh.C109_3dsphere"
   ],
   "note": "Real arithmetic for the doubles; gsl_heapsort is any function that sorts by the first coordinate. First-order bounds from below and above, not the whole law."
  },
  {
   "property": "C110",
   "status": "proved",
   "theorems": [
    "Dh.C110_pvalue",
    "Dh.C110_law",
    "Dh.C110_dim0",
    "Dh.C110_negative"
   ],
   "note": "Real arithmetic for the doubles; gsl_heapsort is any function that sorts by the first coordinate; gsl_sf_fact and gsl_sf_doublefact are the exact functions. In C110_dim0 the memory after malloc is arbitrary."
  },
  {
   "property": "C111",
   "status": "proved",
   "theorems": [
    "Dh.C111_statistic",
    "Dh.C111_rotation",
    "Dh.C111_not_invariant"
   ],
   "note": "the tail function q_ks_kuiper is a parameter"
  },
  {
   "property": "C112",
   "status": "proved",
   "theorems": [
    "Dh.C112_aes",
    "Dh.C112_threefish",
    "Dh.C112_ca",
    "Dh.C112_ca_byte"
   ],
   "note": ""
  },
  {
   "property": "C113",
   "status": "proved",
   "theorems": [
    "Dh.C113_listing",
    "Dh.C113_accepted",
    "Dh.C113_refused",
    "Dh.C113_all"
   ],
   "note": "The version is a parameter."
  },
  {
   "property": "C114",
   "status": "proved",
   "theorems": [
    "Dh.C114_run",
    "Dh.C114_mode",
    "Dh.C114_refused",
    "Dh.C114_flags",
    "Dh.C114_flag_meaning"
   ],
   "note": "The input is the sequence that getopt returns; strtod and the default doubles are parameters."
  },
  {
   "property": "C115",
   "status": "proved",
   "theorems": [
    "Dh.C115_same",
    "Dh.C115_different",
    "Dh.C115_requests",
    "Dh.C115_bitdist",
    "Dh.C115_bitdist_31"
   ],
   "note": "The runs share one copy of static_get_bits.c (each test file has its own); direct draws are requests for all r bits."
  },
  {
   "property": "C116",
   "status": "proved",
   "theorems": [
    "Dh.C116_value",
    "Dh.C116_distribution",
    "Dh.C116_below",
    "Dh.C116_negative",
    "Dh.C116_constant",
    "Dh.C116_zero_diverges",
    "Dh.C116_grid"
   ],
   "note": "Real arithmetic: the loops, which the code leaves when an addition changes nothing, are carried to the limit."
  },
  {
   "property": "C117",
   "status": "proved",
   "theorems": [
    "Dh.C117_columns",
    "Dh.C117_script",
    "Dh.C117_values",
    "Dh.C117_generator",
    "Dh.C117_names"
   ],
   "note": "The texts of %g, %e and %.8f are parameters, assumed to hold no separator and no newline; the p-values are rationals."
  },
  {
   "property": "C118",
   "status": "proved",
   "theorems": [
    "Dh.C118_defined",
    "Dh.C118_picture",
    "Dh.C118_height",
    "Dh.C118_total"
   ],
   "note": "Exact arithmetic: the quotient by the double 0.1 is taken as the product with 10."
  },
  {
   "property": "C119",
   "status": "proved",
   "theorems": [
    "Dh.C119_stdin",
    "Dh.C119_stdin_default",
    "Dh.C119_raw",
    "Dh.C119_ascii",
    "Dh.C119_seeded",
    "Dh.C119_aes",
    "Dh.C119_threefish"
   ],
   "note": "A test is given by the number of values it draws. The clock and /dev/urandom are parameters. -m is between 0 and 2^32/10."
  },
  {
   "property": "C120",
   "status": "proved",
   "theorems": [
    "Dh.C120_template",
    "Dh.C120_same",
    "Dh.C120_gorilla"
   ],
   "note": "The normal cdf is a parameter; sums are exact."
  },
  {
   "property": "C121",
   "status": "proved",
   "theorems": [
    "Dh.C121_jenkins"
   ],
   "note": "Until the counter of the loop ends."
  },
  {
   "property": "C122",
   "status": "proved",
   "theorems": [
    "Dh.C122_levels",
    "Dh.C122_value",
    "Dh.C122_exit",
    "Dh.C122_few",
    "Dh.C122_default"
   ],
   "note": "gsl_sf_gamma_inc_Q is a parameter; real arithmetic."
  },
  {
   "property": "C123",
   "status": "proved",
   "theorems": [
    "Dh.C123_game",
    "Dh.C123_craps",
    "Dh.C123_words",
    "Dh.C123_late",
    "Dh.C123_gcd"
   ],
   "note": ""
  },
  {
   "property": "C124",
   "status": "proved",
   "theorems": [
    "Dh.C124_kmax",
    "Dh.C124_diehard",
    "Dh.C124_dab",
    "Dh.C124_diehard_narrow",
    "Dh.C124_dab_narrow",
    "Dh.C124_dab_24"
   ],
   "note": "gsl_sf_gamma_inc_Q is a parameter; real arithmetic.  The hypothesis that no sample reads outside of its array is C30_outcome's."
  },
  {
   "property": "C125",
   "status": "proved",
   "theorems": [
    "Dh.C125_span",
    "Dh.C125_period",
    "Dh.C125_parity"
   ],
   "note": ""
  },
  {
   "property": "C126",
   "status": "proved",
   "theorems": [
    "Dh.C126_distance",
    "Dh.C126_crowded",
    "Dh.C126_equal",
    "Dh.C126_constant",
    "Dh.C126_birthdays",
    "Dh.C126_robust",
    "Dh.C126_even"
   ],
   "note": "Real arithmetic."
  },
  {
   "property": "C127",
   "status": "proved",
   "theorems": [
    "Dh.C127_text",
    "Dh.C127_mono",
    "Dh.C127_verdict",
    "Dh.C127_reader",
    "Dh.C127_limits"
   ],
   "note": "The p-values and the limits are rationals, printed with the exact rounding of the C standard's recommended practice (to nearest, ties to even)."
  },
  {
   "property": "C128",
   "status": "proved",
   "theorems": [
    "Dh.C128_missing",
    "Dh.C128_count1s",
    "Dh.C128_monobit",
    "Dh.C128_runs",
    "Dh.C128_serial"
   ],
   "note": "The normal and gamma distributions are parameters; for p to become 1-p the former is assumed symmetric. Real arithmetic."
  },
  {
   "property": "C129",
   "status": "proved",
   "theorems": [
    "Dh.C129_kstest",
    "Dh.C129_monobit",
    "Dh.C129_runs",
    "Dh.C129_runs_reversed",
    "Dh.C129_operm5",
    "Dh.C129_permutations",
    "Dh.C129_rank"
   ],
   "note": "The distribution functions are parameters; for C129_monobit the normal distribution is assumed symmetric. Real arithmetic."
  },
  {
   "property": "C130",
   "status": "proved",
   "theorems": [
    "Dh.C130_bias",
    "Dh.C130_default",
    "Dh.C130_balanced"
   ],
   "note": "gsl_cdf_gaussian_P is taken to be Mathlib's normal distribution for C130_bias and C130_default and is any function for C130_balanced. Real arithmetic."
  },
  {
   "property": "C131",
   "status": "proved",
   "theorems": [
    "Dh.C131_stuck",
    "Dh.C131_period",
    "Dh.C131_fixed",
    "Dh.C131_file"
   ],
   "note": "A test is any function from the words that follow to a p-value; tests that keep bits in a static buffer between samples (bits.c) are not covered. Real arithmetic."
  },
  {
   "property": "C132",
   "status": "proved",
   "theorems": [
    "Dh.C132_count",
    "Dh.C132_gather",
    "Dh.C132_terms",
    "Dh.C132_not_reversible",
    "Dh.C132_recurrence",
    "Dh.C132_prob",
    "Dh.C132_expected"
   ],
   "note": "unsigned long has 64 bits. The chi-square sum, the printing and main_countx are not modelled. Real arithmetic. Nothing in dieharder calls this file."
  },
  {
   "property": "C133",
   "status": "proved",
   "theorems": [
    "Dh.C133_range",
    "Dh.C133_urandom",
    "Dh.C133_collide",
    "Dh.C133_few",
    "Dh.C133_delta"
   ],
   "note": "time_t has 64 bits; bytes of /dev/urandom in little-endian order; fewer than four bytes leave the seed uninitialised (undefined). Real arithmetic for delta_timing."
  },
  {
   "property": "C134",
   "status": "proved",
   "theorems": [
    "Dh.C134_binomial",
    "Dh.C134_sums"
   ],
   "note": "gsl_sf_fact by its documentation: n! up to 170, else the default error handler aborts. Real arithmetic."
  },
  {
   "property": "C135",
   "status": "proved",
   "theorems": [
    "Dh.C135_opso",
    "Dh.C135_oqso",
    "Dh.C135_dna",
    "Dh.C135_bitstream",
    "Dh.C135_opso2"
   ],
   "note": "The stream of words is periodic too (two words from two numbers, six from four, 32 from ten, 32 per number), so few words occur, the count is four deviations high, and the tail bound of C130 with C126 and C137 gives the p-values. Any ks_test but 2."
  },
  {
   "property": "C136",
   "status": "proved",
   "theorems": [
    "Dh.C136_reversible",
    "Dh.C136_reverse",
    "Dh.C136_reverse_wrong",
    "Dh.C136_gather",
    "Dh.C136_undefined",
    "Dh.C136_report",
    "Dh.C136_driver"
   ],
   "note": "rngav.c with 64-bit u4. What the compiler makes of 1<<31 is a parameter; with the standard's meaning everything is undefined (C136_undefined). The loop over rotations and the clock are left out."
  },
  {
   "property": "C137",
   "status": "proved",
   "theorems": [
    "Dh.C137_tail",
    "Dh.C137_statistic",
    "Dh.C137_crowded",
    "Dh.C137_low"
   ],
   "note": "For the value of q_ks_kuiper in the limit of its loops, as in C116."
  },
  {
   "property": "C138",
   "status": "proved",
   "theorems": [
    "Dh.C138_tail",
    "Dh.C138_chernoff",
    "Dh.C138_cell",
    "Dh.C138_bytedistrib",
    "Dh.C138_too_even",
    "Dh.C138_missing_byte"
   ],
   "note": "For the exact regularised incomplete gamma function in place of GSL's; real arithmetic."
  },
  {
   "property": "C139",
   "status": "proved",
   "theorems": [
    "Dh.C139_high",
    "Dh.C139_many",
    "Dh.C139_few",
    "Dh.C139_runs",
    "Dh.C139_lagged"
   ],
   "note": "For the exact normal distribution function in place of GSL's; real arithmetic. Samples of fewer than 2^31 bits, as in C39."
  },
  {
   "property": "C140",
   "status": "proved",
   "theorems": [
    "Dh.C140_parity",
    "Dh.C140_span",
    "Dh.C140_order",
    "Dh.C140_default"
   ],
   "note": "For the exact regularized incomplete gamma function in place of GSL's; real arithmetic. Sorting and the table of permutations of GSL under the promises of C60."
  },
  {
   "property": "C141",
   "status": "proved",
   "theorems": [
    "Dh.C141_first",
    "Dh.C141_second",
    "Dh.C141_next",
    "Dh.C141_ends",
    "Dh.C141_predictable",
    "Dh.C141_predictable_ends",
    "Dh.C141_register",
    "Dh.C141_even"
   ],
   "note": "For the exact regularized incomplete gamma function in place of GSL's; real arithmetic. The cumulative normal distribution of the first p-value is arbitrary."
  },
  {
   "property": "C142",
   "status": "proved",
   "theorems": [
    "Dh.C142_squares",
    "Dh.C142_correlation",
    "Dh.C142_guess",
    "Dh.C142_stream",
    "Dh.C142_byte",
    "Dh.C142_determined"
   ],
   "note": "For the exact normal distribution function in place of GSL's; exact arithmetic. From 79280 samples on (C85), below which cells are pooled."
  },
  {
   "property": "C143",
   "status": "proved",
   "theorems": [
    "Dh.C143_missing",
    "Dh.C143_lowbit"
   ],
   "note": "For the exact regularized incomplete gamma function in place of GSL's; exact arithmetic, and the constants 6/pi^2 and table size of C92. The second p-value (number of steps) is not part of it."
  },
  {
   "property": "C144",
   "status": "proved",
   "theorems": [
    "Dh.C144_sample",
    "Dh.C144_kuiper",
    "Dh.C144_run",
    "Dh.C144_default"
   ],
   "note": "Real arithmetic; the deviates are the results of gsl_rng_uniform_pos. With -k 3 the p-values can be negative (C116_negative), so the whole run is stated for -k 0 and 1."
  },
  {
   "property": "C145",
   "status": "proved",
   "theorems": [
    "Dh.C145_wins",
    "Dh.C145_throws",
    "Dh.C145_missing",
    "Dh.C145_parity",
    "Dh.C145_run"
   ],
   "note": "Exact arithmetic and exact distribution functions. The dice are the values of roll(); that the games end is part of GamesAre (C123 shows when they do)."
  },
  {
   "property": "C146",
   "status": "proved",
   "theorems": [
    "Dh.C146_missing",
    "Dh.C146_high_steps",
    "Dh.C146_low_steps",
    "Dh.C146_stuck"
   ],
   "note": "The product of k and the deviate is a parameter with the bounds that rounding keeps; chi-square statistic and distribution exact."
  },
  {
   "property": "C147",
   "status": "proved",
   "theorems": [
    "Dh.C147_number",
    "Dh.C147_form",
    "Dh.C147_class",
    "Dh.C147_drops",
    "Dh.C147_run"
   ],
   "note": "For the exact regularized incomplete gamma function in place of GSL's; exact arithmetic in the quadratic form."
  },
  {
   "property": "C148",
   "status": "proved",
   "theorems": [
    "Dh.C148_stat",
    "Dh.C148_rank",
    "Dh.C148_span",
    "Dh.C148_period",
    "Dh.C148_stuck"
   ],
   "note": "For the exact regularized incomplete gamma function in place of GSL's; exact arithmetic in Vtest_eval."
  },
  {
   "property": "C149",
   "status": "proved",
   "theorems": [
    "Dh.C149_cell",
    "Dh.C149_off",
    "Dh.C149_same",
    "Dh.C149_period"
   ],
   "note": "For the exact regularized incomplete gamma function and the exact binomial probabilities in place of GSL's; the tuple picked is a parameter, and each run starts with an empty bit buffer (C115)."
  },
  {
   "property": "C150",
   "status": "proved",
   "theorems": [
    "Dh.C150_level",
    "Dh.C150_cell",
    "Dh.C150_missing",
    "Dh.C150_constant"
   ],
   "note": "For the exact regularized incomplete gamma function in place of GSL's (with the value 0 for no degree of freedom, as in GSL) and exact binomial probabilities."
  },
  {
   "property": "C151",
   "status": "proved",
   "theorems": [
    "Dh.C151_2d",
    "Dh.C151_3d",
    "Dh.C151_rgb",
    "Dh.C151_zero",
    "Dh.C151_period",
    "Dh.C151_values"
   ],
   "note": "Doubles are real numbers; gsl_heapsort is any function that sorts; the deviates of diehard_3dsphere are in [0, 1]."
  },
  {
   "property": "C152",
   "status": "proved",
   "theorems": [
    "Dh.C152_cars",
    "Dh.C152_few",
    "Dh.C152_period",
    "Dh.C152_values",
    "Dh.C152_coarse"
   ],
   "note": "Doubles are rational numbers; the exact normal distribution function stands for gsl_cdf_gaussian_P."
  },
  {
   "property": "C153",
   "status": "proved",
   "theorems": [
    "Dh.C153_cell",
    "Dh.C153_missing",
    "Dh.C153_period",
    "Dh.C153_binary",
    "Dh.C153_same"
   ],
   "note": "For the exact regularized incomplete gamma function in place of GSL's; doubles are real numbers."
  },
  {
   "property": "C154",
   "status": "proved",
   "theorems": [
    "Dh.C154_cells",
    "Dh.C154_same",
    "Dh.C154_period"
   ],
   "note": "For the exact regularized incomplete gamma function and exact Poisson probabilities in place of GSL's; samples in which the loop reads beyond the array (C30) are excluded by hypothesis."
  },
  {
   "property": "C155",
   "status": "proved",
   "theorems": [
    "Dh.C155_places",
    "Dh.C155_period",
    "Dh.C155_slow",
    "Dh.C155_fails"
   ],
   "note": "p-value at most exp(-0.9 len) if the peaks are at no more than half of the places; periods dividing the block length and generators constant within blocks are such."
  },
  {
   "property": "C156",
   "status": "proved",
   "theorems": [
    "Dh.C156_missing",
    "Dh.C156_four"
   ],
   "note": "Bounds on both p-values of a default run with a missing position or length; keys with at most four values never reach the last position."
  },
  {
   "property": "C157",
   "status": "proved",
   "theorems": [
    "Dh.C157_bits",
    "Dh.C157_words"
   ],
   "note": "p-value at most exp(-25) for all bit streams of period 72 or less."
  },
  {
   "property": "C158",
   "status": "proved",
   "theorems": [
    "Dh.C158_trees",
    "Dh.C158_four",
    "Dh.C158_shift"
   ],
   "note": "The trees of a run with their rotations; generators with at most four values; the undefined shift of 32-bit generators."
  },
  {
   "property": "C159",
   "status": "proved",
   "theorems": [
    "Dh.C159_interval",
    "Dh.C159_fails",
    "Dh.C159_robust"
   ],
   "note": "For too many p-values C137 has the same bound; too few and the robustness are new. Doubles are real numbers; the function that turns the statistic into a p-value (q_ks_kuiper) is a parameter, in C159_fails the limit of the series that the code sums."
  }
 ]
}