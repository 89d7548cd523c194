{
 "claims": [
  {
   "property": "C01",
   "status": "proved",
   "theorems": [
    "ZkHash.C01_permutation_eq_spec"
   ],
   "note": ""
  },
  {
   "property": "C02",
   "status": "proved",
   "theorems": [
    "ZkHash.C02_permutation_bijective_iff"
   ],
   "note": ""
  },
  {
   "property": "C03",
   "status": "proved",
   "theorems": [
    "ZkHash.C03_permutation_total"
   ],
   "note": ""
  },
  {
   "property": "C04",
   "status": "proved",
   "theorems": [
    "ZkHash.C04_permutation_guards"
   ],
   "note": ""
  },
  {
   "property": "C05",
   "status": "proved",
   "theorems": [
    "ZkHash.C05_new_panics_iff",
    "ZkHash.C05_degree_11_unusable"
   ],
   "note": ""
  },
  {
   "property": "C06",
   "status": "proved",
   "theorems": [
    "ZkHash.C06_noninterference"
   ],
   "note": ""
  },
  {
   "property": "C07",
   "status": "proved",
   "theorems": [
    "ZkHash.C07_short_rows_panic",
    "ZkHash.C07_result_width"
   ],
   "note": ""
  },
  {
   "property": "C08",
   "status": "proved",
   "theorems": [
    "ZkHash.C08_shipped_bijective",
    "ZkHash.C08_shipped_eq_spec"
   ],
   "note": ""
  },
  {
   "property": "C09",
   "status": "proved",
   "theorems": [
    "ZkHash.C09_internal_table",
    "ZkHash.C09_internal_entries"
   ],
   "note": ""
  },
  {
   "property": "C10",
   "status": "proved",
   "theorems": [
    "ZkHash.C10_reference_script"
   ],
   "note": ""
  },
  {
   "property": "C11",
   "status": "proved",
   "theorems": [
    "ZkHash.C11_equivalent_round_constants",
    "ZkHash.C11_equivalent_round_constants_returns_iff",
    "ZkHash.C11_no_partial_rounds"
   ],
   "note": ""
  },
  {
   "property": "C12",
   "status": "proved",
   "theorems": [
    "ZkHash.C12_permutation_eq_spec",
    "ZkHash.C12_optimized_eq_plain"
   ],
   "note": ""
  },
  {
   "property": "C13",
   "status": "proved",
   "theorems": [
    "ZkHash.C13_plain_eq_spec"
   ],
   "note": ""
  },
  {
   "property": "C14",
   "status": "proved",
   "theorems": [
    "ZkHash.C14_bijective_iff"
   ],
   "note": ""
  },
  {
   "property": "C15",
   "status": "proved",
   "theorems": [
    "ZkHash.C15_new_panics",
    "ZkHash.C15_new_singular",
    "ZkHash.C15_new_returns_iff"
   ],
   "note": ""
  },
  {
   "property": "C16",
   "status": "proved",
   "theorems": [
    "ZkHash.C16_wrong_length"
   ],
   "note": ""
  },
  {
   "property": "C17",
   "status": "proved",
   "theorems": [
    "ZkHash.C17_shipped",
    "ZkHash.C17_shipped_eq_spec"
   ],
   "note": ""
  },
  {
   "property": "C18",
   "status": "proved",
   "theorems": [
    "ZkHash.C18_short_row_debug",
    "ZkHash.C18_short_row_release"
   ],
   "note": ""
  },
  {
   "property": "C19",
   "status": "proved",
   "theorems": [
    "ZkHash.C19_optimized_eq_plain",
    "ZkHash.C19_permutation_eq_spec"
   ],
   "note": ""
  },
  {
   "property": "C20",
   "status": "proved",
   "theorems": [
    "ZkHash.C20_bijective"
   ],
   "note": ""
  },
  {
   "property": "C21",
   "status": "proved",
   "theorems": [
    "ZkHash.C21_new",
    "ZkHash.C21_total",
    "ZkHash.C21_wrong_length",
    "ZkHash.C21_no_rounds"
   ],
   "note": ""
  },
  {
   "property": "C22",
   "status": "proved",
   "theorems": [
    "ZkHash.C22_external_layer",
    "ZkHash.C22_width_4",
    "ZkHash.C22_width_8"
   ],
   "note": ""
  },
  {
   "property": "C23",
   "status": "proved",
   "theorems": [
    "ZkHash.C23_internal_layer",
    "ZkHash.C23_mu_draws"
   ],
   "note": ""
  },
  {
   "property": "C24",
   "status": "proved",
   "theorems": [
    "ZkHash.C24_sbox_bijective_iff",
    "ZkHash.C24_layer_bijective_iff"
   ],
   "note": ""
  },
  {
   "property": "C25",
   "status": "proved",
   "theorems": [
    "ZkHash.C25_permutation_eq_spec",
    "ZkHash.C25_total",
    "ZkHash.C25_wrong_length",
    "ZkHash.C25_new_panics"
   ],
   "note": ""
  },
  {
   "property": "C26",
   "status": "proved",
   "theorems": [
    "ZkHash.C26_bijective_iff",
    "ZkHash.C26_bijective_4_8",
    "ZkHash.C26_bad_draws"
   ],
   "note": ""
  },
  {
   "property": "C27",
   "status": "proved",
   "theorems": [
    "ZkHash.C27_matInverse_two_sided"
   ],
   "note": ""
  },
  {
   "property": "C28",
   "status": "proved",
   "theorems": [
    "ZkHash.C28_matInverse_returns_iff",
    "ZkHash.C28_matInverse_singular",
    "ZkHash.C28_matInverse_invertible_panic",
    "ZkHash.C28_matInverse_not_square"
   ],
   "note": ""
  },
  {
   "property": "C29",
   "status": "proved",
   "theorems": [
    "ZkHash.C29_matInverse_profile"
   ],
   "note": ""
  },
  {
   "property": "C30",
   "status": "proved",
   "theorems": [
    "ZkHash.C30_matTranspose",
    "ZkHash.C30_matTranspose_twice",
    "ZkHash.C30_matTranspose_empty"
   ],
   "note": ""
  },
  {
   "property": "C31",
   "status": "proved",
   "theorems": [
    "ZkHash.C31_matVecMul",
    "ZkHash.C31_matVecMul_debug",
    "ZkHash.C31_matMatMul",
    "ZkHash.C31_matmul"
   ],
   "note": ""
  },
  {
   "property": "C32",
   "status": "proved",
   "theorems": [
    "ZkHash.C32_value",
    "ZkHash.C32_panics_iff"
   ],
   "note": ""
  },
  {
   "property": "C33",
   "status": "proved",
   "theorems": [
    "ZkHash.C33_without_0"
   ],
   "note": ""
  },
  {
   "property": "C34",
   "status": "proved",
   "theorems": [
    "ZkHash.C34_depth",
    "ZkHash.C34_root",
    "ZkHash.C34_root_total"
   ],
   "note": ""
  },
  {
   "property": "C35",
   "status": "proved",
   "theorems": [
    "ZkHash.C35_empty",
    "ZkHash.C35_nonempty",
    "ZkHash.C35_nonempty_levels",
    "ZkHash.C35_nonempty_digest"
   ],
   "note": ""
  },
  {
   "property": "C36",
   "status": "proved",
   "theorems": [
    "ZkHash.C36_collision",
    "ZkHash.C36_collision_same_length"
   ],
   "note": ""
  },
  {
   "property": "C37",
   "status": "proved",
   "theorems": [
    "ZkHash.C37_append_last",
    "ZkHash.C37_append_last_levels",
    "ZkHash.C37_second_preimage"
   ],
   "note": ""
  },
  {
   "property": "C38",
   "status": "proved",
   "theorems": [
    "ZkHash.C38_levels",
    "ZkHash.C38_levels_above_unused",
    "ZkHash.C38_levels_below_used",
    "ZkHash.C38_level_independent"
   ],
   "note": ""
  },
  {
   "property": "C39",
   "status": "proved",
   "theorems": [
    "ZkHash.C39_history",
    "ZkHash.C39_state_after_call",
    "ZkHash.C39_root"
   ],
   "note": ""
  },
  {
   "property": "C40",
   "status": "proved",
   "theorems": [
    "ZkHash.C40_least_power",
    "ZkHash.C40_overflow_checked",
    "ZkHash.C40_overflow_wraps",
    "ZkHash.C40_padded_size",
    "ZkHash.C40_least_power_base"
   ],
   "note": ""
  },
  {
   "property": "C41",
   "status": "proved",
   "theorems": [
    "ZkHash.C41_erase",
    "ZkHash.C41_count"
   ],
   "note": ""
  },
  {
   "property": "C42",
   "status": "proved",
   "theorems": [
    "ZkHash.C42_poseidon2_value",
    "ZkHash.C42_poseidon2",
    "ZkHash.C42_poseidon2_panics",
    "ZkHash.C42_poseidon_value",
    "ZkHash.C42_poseidon",
    "ZkHash.C42_poseidon_panics",
    "ZkHash.C42_gmimc_value",
    "ZkHash.C42_gmimc",
    "ZkHash.C42_gmimc_panics",
    "ZkHash.C42_neptune_value",
    "ZkHash.C42_neptune",
    "ZkHash.C42_neptune_panics"
   ],
   "note": ""
  },
  {
   "property": "C43",
   "status": "proved",
   "theorems": [
    "ZkHash.C43_wrong_width",
    "ZkHash.C43_poseidon2_total",
    "ZkHash.C43_shipped_total",
    "ZkHash.C43_shipped_other_widths"
   ],
   "note": ""
  },
  {
   "property": "C44",
   "status": "proved",
   "theorems": [
    "ZkHash.C44_modulus_prime",
    "ZkHash.C44_generator_order",
    "ZkHash.C44_every_nonzero_element"
   ],
   "note": ""
  },
  {
   "property": "C45",
   "status": "proved",
   "theorems": [
    "ZkHash.C45_sbox_bijective"
   ],
   "note": ""
  },
  {
   "property": "C46",
   "status": "proved",
   "theorems": [
    "ZkHash.C46_sbox",
    "ZkHash.C46_gmimc_sbox",
    "ZkHash.C46_sbox_layer"
   ],
   "note": ""
  },
  {
   "property": "C47",
   "status": "proved",
   "theorems": [
    "ZkHash.C47_injective",
    "ZkHash.C47_one_leaf"
   ],
   "note": ""
  },
  {
   "property": "C48",
   "status": "proved",
   "theorems": [
    "ZkHash.C48_shipped_fields",
    "ZkHash.C48_external_layer_bijective_iff",
    "ZkHash.C48_M4_det"
   ],
   "note": ""
  },
  {
   "property": "C49",
   "status": "proved",
   "theorems": [
    "ZkHash.C49_internal_layer_bijective_iff",
    "ZkHash.C49_internal_layer_bijective_iff_any",
    "ZkHash.C49_internal_layer_small"
   ],
   "note": ""
  },
  {
   "property": "C50",
   "status": "proved",
   "theorems": [
    "ZkHash.C50_reference_script"
   ],
   "note": ""
  },
  {
   "property": "C51",
   "status": "proved",
   "theorems": [
    "ZkHash.C51_constructor_iff"
   ],
   "note": ""
  },
  {
   "property": "C52",
   "status": "proved",
   "theorems": [
    "ZkHash.C52_mds",
    "ZkHash.C52_linear_layer",
    "ZkHash.C52_full_round"
   ],
   "note": ""
  },
  {
   "property": "C53",
   "status": "proved",
   "theorems": [
    "ZkHash.C53_external_layer",
    "ZkHash.C53_mds",
    "ZkHash.C53_exact",
    "ZkHash.C53_full_round"
   ],
   "note": ""
  },
  {
   "property": "C54",
   "status": "proved",
   "theorems": [
    "ZkHash.C54_minimal_polynomials",
    "ZkHash.C54_no_invariant_subspace",
    "ZkHash.C54_prime",
    "ZkHash.C54_width_three"
   ],
   "note": ""
  },
  {
   "property": "C55",
   "status": "proved",
   "theorems": [
    "ZkHash.C55_gmimc",
    "ZkHash.C55_neptune",
    "ZkHash.C55_neptune_bijective"
   ],
   "note": ""
  },
  {
   "property": "C56",
   "status": "proved",
   "theorems": [
    "ZkHash.C56_poseidon",
    "ZkHash.C56_gmimc",
    "ZkHash.C56_neptune"
   ],
   "note": ""
  },
  {
   "property": "C58",
   "status": "proved",
   "theorems": [
    "ZkHash.C58_blocks_mds",
    "ZkHash.C58_external_layer"
   ],
   "note": ""
  },
  {
   "property": "C59",
   "status": "proved",
   "theorems": [
    "ZkHash.C59_poseidon2",
    "ZkHash.C59_poseidon",
    "ZkHash.C59_poseidon2_active",
    "ZkHash.C59_poseidon_active",
    "ZkHash.C59_poseidon2_quiet"
   ],
   "note": ""
  },
  {
   "property": "C57",
   "status": "proved",
   "theorems": [
    "ZkHash.C57_script_output",
    "ZkHash.C57_permutation_from_script"
   ],
   "note": ""
  },
  {
   "property": "C60",
   "status": "proved",
   "theorems": [
    "ZkHash.C60_getAlpha",
    "ZkHash.C60_exponent",
    "ZkHash.C60_round_numbers",
    "ZkHash.C60_inequalities",
    "ZkHash.C60_optimal",
    "ZkHash.C60_script",
    "ZkHash.C60_poseidon_shapes",
    "ZkHash.C60_poseidon"
   ],
   "note": ""
  },
  {
   "property": "C61",
   "status": "proved",
   "theorems": [
    "ZkHash.C61_width",
    "ZkHash.C61_round_trip",
    "ZkHash.C61_other_field",
    "ZkHash.C61_table"
   ],
   "note": ""
  },
  {
   "property": "C62",
   "status": "proved",
   "theorems": [
    "ZkHash.C62_script_matrices_iff",
    "ZkHash.C62_tables",
    "ZkHash.C62_shipped",
    "ZkHash.C62_script_accepts_more"
   ],
   "note": ""
  },
  {
   "property": "C63",
   "status": "proved",
   "theorems": [
    "ZkHash.C63_consistent_perm_iff",
    "ZkHash.C63_consistent_perm_ends",
    "ZkHash.C63_opt_iff",
    "ZkHash.C63_poseidon2",
    "ZkHash.C63_poseidon",
    "ZkHash.C63_gmimc",
    "ZkHash.C63_neptune",
    "ZkHash.C63_matmul_equalities",
    "ZkHash.C63_matmul_equalities_4_8",
    "ZkHash.C63_matmul_equalities_can_fail",
    "ZkHash.C63_input_24_elements"
   ],
   "note": ""
  },
  {
   "property": "C64",
   "status": "proved",
   "theorems": [
    "ZkHash.C64_constants",
    "ZkHash.C64_internal_matrix",
    "ZkHash.C64_external_matrix",
    "ZkHash.C64_generate",
    "ZkHash.C64_script",
    "ZkHash.C64_script_large_exponent"
   ],
   "note": ""
  },
  {
   "property": "C65",
   "status": "proved",
   "theorems": [
    "ZkHash.C65_script_output",
    "ZkHash.C65_generated_mds",
    "ZkHash.C65_generate_any"
   ],
   "note": ""
  },
  {
   "property": "C66",
   "status": "proved",
   "theorems": [
    "ZkHash.C66_poseidon2_no_partial_rounds",
    "ZkHash.C66_poseidon2_panics",
    "ZkHash.C66_neptune_no_internal_rounds",
    "ZkHash.C66_neptune_panics"
   ],
   "note": ""
  },
  {
   "property": "C67",
   "status": "proved",
   "theorems": [
    "ZkHash.C67_sbox_poseidon2",
    "ZkHash.C67_sbox_poseidon",
    "ZkHash.C67_characteristic",
    "ZkHash.C67_poseidon2",
    "ZkHash.C67_poseidon"
   ],
   "note": ""
  },
  {
   "property": "C68",
   "status": "proved",
   "theorems": [
    "ZkHash.C68_gmimc",
    "ZkHash.C68_neptune",
    "ZkHash.C68_neptune_127"
   ],
   "note": ""
  },
  {
   "property": "C69",
   "status": "proved",
   "theorems": [
    "ZkHash.C69_complete",
    "ZkHash.C69_sound",
    "ZkHash.C69_length_matters",
    "ZkHash.C69_complete_levels",
    "ZkHash.C69_sound_levels",
    "ZkHash.C69_digest"
   ],
   "note": ""
  },
  {
   "property": "C70",
   "status": "proved",
   "theorems": [
    "ZkHash.C70_agree",
    "ZkHash.C70_order",
    "ZkHash.C70_bound",
    "ZkHash.C70_crate_values",
    "ZkHash.C70_crate_progress",
    "ZkHash.C70_crate_outcome",
    "ZkHash.C70_crate_fresh",
    "ZkHash.C70_poisoned"
   ],
   "note": ""
  },
  {
   "property": "C71",
   "status": "proved",
   "theorems": [
    "ZkHash.C71_gmimc",
    "ZkHash.C71_gmimc_compress",
    "ZkHash.C71_neptune",
    "ZkHash.C71_neptune_compress",
    "ZkHash.C71_gmimc_agree",
    "ZkHash.C71_gmimc_compress_agree"
   ],
   "note": ""
  },
  {
   "property": "C72",
   "status": "proved",
   "theorems": [
    "ZkHash.C72_gmimc_active"
   ],
   "note": ""
  },
  {
   "property": "C73",
   "status": "proved",
   "theorems": [
    "ZkHash.C73_neptune"
   ],
   "note": ""
  },
  {
   "property": "C74",
   "status": "proved",
   "theorems": [
    "ZkHash.C74_poseidon2",
    "ZkHash.C74_poseidon",
    "ZkHash.C74_gmimc",
    "ZkHash.C74_neptune",
    "ZkHash.C74_compress_poseidon2",
    "ZkHash.C74_compress_poseidon",
    "ZkHash.C74_compress_gmimc",
    "ZkHash.C74_compress_neptune",
    "ZkHash.C74_merkle"
   ],
   "note": ""
  },
  {
   "property": "C75",
   "status": "proved",
   "theorems": [
    "ZkHash.C75_poseidon2",
    "ZkHash.C75_poseidon",
    "ZkHash.C75_gmimc",
    "ZkHash.C75_neptune",
    "ZkHash.C75_poseidon2_exact",
    "ZkHash.C75_poseidon_exact"
   ],
   "note": ""
  },
  {
   "property": "C76",
   "status": "proved",
   "theorems": [
    "ZkHash.C76_poseidon2_value",
    "ZkHash.C76_poseidon2_returns_iff",
    "ZkHash.C76_matInverse_returns_iff",
    "ZkHash.C76_matInverse_value",
    "ZkHash.C76_matInverse_profiles",
    "ZkHash.C76_matInverse_profiles_differ",
    "ZkHash.C76_matTranspose",
    "ZkHash.C76_matVecMul"
   ],
   "note": ""
  },
  {
   "property": "C77",
   "status": "proved",
   "theorems": [
    "ZkHash.C77_binding",
    "ZkHash.C77_iff",
    "ZkHash.C77_same_depth",
    "ZkHash.C77_levels",
    "ZkHash.C77_levels_depth",
    "ZkHash.C77_digest"
   ],
   "note": ""
  },
  {
   "property": "C78",
   "status": "proved",
   "theorems": [
    "ZkHash.C78_gmimc",
    "ZkHash.C78_gmimc_shipped",
    "ZkHash.C78_neptune4",
    "ZkHash.C78_neptune4_exact",
    "ZkHash.C78_neptune4_shipped",
    "ZkHash.C78_neptune4_less",
    "ZkHash.C78_neptune8"
   ],
   "note": ""
  },
  {
   "property": "C79",
   "status": "proved",
   "theorems": [
    "ZkHash.C79_printed_program",
    "ZkHash.C79_shipped"
   ],
   "note": ""
  },
  {
   "property": "C80",
   "status": "proved",
   "theorems": [
    "ZkHash.C80_afterZeros",
    "ZkHash.C80_neptune_4_8",
    "ZkHash.C80_neptune_other",
    "ZkHash.C80_shipped"
   ],
   "note": ""
  },
  {
   "property": "C81",
   "status": "proved",
   "theorems": [
    "ZkHash.C81_new_returns_iff",
    "ZkHash.C81_optimized_eq_plain",
    "ZkHash.C81_debug",
    "ZkHash.C81_plain_value",
    "ZkHash.C81_optimized_value",
    "ZkHash.C81_value",
    "ZkHash.C81_release_differ",
    "ZkHash.C81_matMatMul"
   ],
   "note": ""
  },
  {
   "property": "C82",
   "status": "proved",
   "theorems": [
    "ZkHash.C82_returns_iff",
    "ZkHash.C82_all_calls_return",
    "ZkHash.C82_agree",
    "ZkHash.C82_reproducible",
    "ZkHash.C82_values",
    "ZkHash.C82_values_poseidon2",
    "ZkHash.C82_values_poseidon",
    "ZkHash.C82_benches"
   ],
   "note": ""
  },
  {
   "property": "C83",
   "status": "proved",
   "theorems": [
    "ZkHash.C83_many_active",
    "ZkHash.C83_layer_iff",
    "ZkHash.C83_count",
    "ZkHash.C83_draws",
    "ZkHash.C83_shipped"
   ],
   "note": ""
  },
  {
   "property": "C84",
   "status": "proved",
   "theorems": [
    "ZkHash.C84_calls",
    "ZkHash.C84_progress",
    "ZkHash.C84_completes",
    "ZkHash.C84_agree",
    "ZkHash.C84_values",
    "ZkHash.C84_values_poseidon2",
    "ZkHash.C84_values_poseidon",
    "ZkHash.C84_deterministic"
   ],
   "note": ""
  },
  {
   "property": "C85",
   "status": "proved",
   "theorems": [
    "ZkHash.C85_criterion",
    "ZkHash.C85_draws",
    "ZkHash.C85_shipped"
   ],
   "note": ""
  },
  {
   "property": "C86",
   "status": "proved",
   "theorems": [
    "ZkHash.C86_listing_lines",
    "ZkHash.C86_found_iff",
    "ZkHash.C86_found",
    "ZkHash.C86_no_invariant_subspaces",
    "ZkHash.C86_wide",
    "ZkHash.C86_width4",
    "ZkHash.C86_poseidon2",
    "ZkHash.C86_listing"
   ],
   "note": ""
  },
  {
   "property": "C87",
   "status": "proved",
   "theorems": [
    "ZkHash.C87_gmimc",
    "ZkHash.C87_gmimc_shipped",
    "ZkHash.C87_compress"
   ],
   "note": ""
  },
  {
   "property": "C88",
   "status": "proved",
   "theorems": [
    "ZkHash.C88_poseidon2_compress",
    "ZkHash.C88_poseidon_compress",
    "ZkHash.C88_poseidon2",
    "ZkHash.C88_poseidon2_shipped",
    "ZkHash.C88_poseidon",
    "ZkHash.C88_poseidon_shipped"
   ],
   "note": ""
  },
  {
   "property": "C89",
   "status": "proved",
   "theorems": [
    "ZkHash.C89_neptune_compress",
    "ZkHash.C89_neptune",
    "ZkHash.C89_neptune_4_8",
    "ZkHash.C89_neptune_shipped"
   ],
   "note": ""
  },
  {
   "property": "C90",
   "status": "proved",
   "theorems": [
    "ZkHash.C90_poseidon2_word",
    "ZkHash.C90_poseidon2_compress",
    "ZkHash.C90_poseidon_word",
    "ZkHash.C90_poseidon_compress",
    "ZkHash.C90_neptune_word",
    "ZkHash.C90_neptune_compress",
    "ZkHash.C90_gmimc",
    "ZkHash.C90_gmimc_count",
    "ZkHash.C90_gmimc_word",
    "ZkHash.C90_gmimc_compress",
    "ZkHash.C90_gmimc_shipped",
    "ZkHash.C90_poseidon2",
    "ZkHash.C90_poseidon2_shipped",
    "ZkHash.C90_poseidon",
    "ZkHash.C90_poseidon_shipped",
    "ZkHash.C90_neptune"
   ],
   "note": ""
  },
  {
   "property": "C91",
   "status": "proved",
   "theorems": [
    "ZkHash.C91_append",
    "ZkHash.C91_poseidon_returns_iff",
    "ZkHash.C91_poseidon2_returns_iff",
    "ZkHash.C91_poseidon_value",
    "ZkHash.C91_poseidon2_value",
    "ZkHash.C91_width_one",
    "ZkHash.C91_no_matrix",
    "ZkHash.C91_no_rounds"
   ],
   "note": ""
  },
  {
   "property": "C92",
   "status": "proved",
   "theorems": [
    "ZkHash.C92_returns_iff",
    "ZkHash.C92_value",
    "ZkHash.C92_rounds",
    "ZkHash.C92_no_rounds",
    "ZkHash.C92_narrow"
   ],
   "note": ""
  },
  {
   "property": "C93",
   "status": "proved",
   "theorems": [
    "ZkHash.C93_combine",
    "ZkHash.C93_combine_padded",
    "ZkHash.C93_append_one",
    "ZkHash.C93_combine_levels",
    "ZkHash.C93_combine_digest",
    "ZkHash.C93_update",
    "ZkHash.C93_update_levels",
    "ZkHash.C93_update_digest"
   ],
   "note": ""
  },
  {
   "property": "C94",
   "status": "proved",
   "theorems": [
    "ZkHash.C94_balanced",
    "ZkHash.C94_order",
    "ZkHash.C94_iterate",
    "ZkHash.C94_compress_pigeonhole",
    "ZkHash.C94_compress_collides",
    "ZkHash.C94_roots_collide",
    "ZkHash.C94_poseidon2_shipped",
    "ZkHash.C94_poseidon_shipped",
    "ZkHash.C94_gmimc_shipped",
    "ZkHash.C94_neptune_shipped",
    "ZkHash.C94_crate_collides"
   ],
   "note": ""
  },
  {
   "property": "C95",
   "status": "proved",
   "theorems": [
    "ZkHash.C95_poseidon2",
    "ZkHash.C95_poseidon",
    "ZkHash.C95_neptune",
    "ZkHash.C95_gmimc",
    "ZkHash.C95_poseidon2_shipped",
    "ZkHash.C95_poseidon_shipped",
    "ZkHash.C95_neptune_shipped",
    "ZkHash.C95_poseidon2_compress",
    "ZkHash.C95_poseidon_compress",
    "ZkHash.C95_neptune_compress"
   ],
   "note": ""
  },
  {
   "property": "C96",
   "status": "proved",
   "theorems": [
    "ZkHash.C96_poseidon2",
    "ZkHash.C96_poseidon",
    "ZkHash.C96_neptune",
    "ZkHash.C96_poseidon2_compress",
    "ZkHash.C96_poseidon_compress",
    "ZkHash.C96_neptune_compress"
   ],
   "note": ""
  },
  {
   "property": "C97",
   "status": "proved",
   "theorems": [
    "ZkHash.C97_poseidon2",
    "ZkHash.C97_poseidon",
    "ZkHash.C97_poseidon2_compress",
    "ZkHash.C97_poseidon_compress",
    "ZkHash.C97_neptune_compress"
   ],
   "note": ""
  },
  {
   "property": "C98",
   "status": "proved",
   "theorems": [
    "ZkHash.C98_calls",
    "ZkHash.C98_history",
    "ZkHash.C98_in_time",
    "ZkHash.C98_agree",
    "ZkHash.C98_reproducible",
    "ZkHash.C98_values",
    "ZkHash.C98_values_poseidon2",
    "ZkHash.C98_values_poseidon",
    "ZkHash.C98_fresh"
   ],
   "note": ""
  },
  {
   "property": "C99",
   "status": "proved",
   "theorems": [
    "ZkHash.C99_poseidon2",
    "ZkHash.C99_poseidon",
    "ZkHash.C99_neptune4",
    "ZkHash.C99_neptune8",
    "ZkHash.C99_poseidon2_compress",
    "ZkHash.C99_poseidon_compress"
   ],
   "note": ""
  }
 ]
}