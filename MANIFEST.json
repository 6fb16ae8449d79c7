{
 "claims": [
  {
   "property": "C01",
   "status": "proved",
   "theorems": [
    "Cryptopy.C01_int_roundtrip",
    "Cryptopy.C01_ecc_int_roundtrip"
   ],
   "note": ""
  },
  {
   "property": "C02",
   "status": "proved",
   "theorems": [
    "Cryptopy.C02_bytes_roundtrip",
    "Cryptopy.C02_ecc_bytes_roundtrip"
   ],
   "note": ""
  },
  {
   "property": "C03",
   "status": "proved",
   "theorems": [
    "Cryptopy.C03_int_to_string_contract"
   ],
   "note": ""
  },
  {
   "property": "C04",
   "status": "proved",
   "theorems": [
    "Cryptopy.C04_base_n_roundtrip"
   ],
   "note": ""
  },
  {
   "property": "C05",
   "status": "proved",
   "theorems": [
    "Cryptopy.C05_padto_ignored"
   ],
   "note": ""
  },
  {
   "property": "C06",
   "status": "proved",
   "theorems": [
    "Cryptopy.C06_decode_positional"
   ],
   "note": ""
  },
  {
   "property": "C07",
   "status": "proved",
   "theorems": [
    "Cryptopy.C07_encode_decode",
    "Cryptopy.C07_decode_injective",
    "Cryptopy.C07_alphabets",
    "Cryptopy.C07_graphic"
   ],
   "note": ""
  },
  {
   "property": "C08",
   "status": "proved",
   "theorems": [
    "Cryptopy.C08_xor",
    "Cryptopy.C08_xor_min"
   ],
   "note": ""
  },
  {
   "property": "C09",
   "status": "proved",
   "theorems": [
    "Cryptopy.C09_cmac_rfc4493",
    "Cryptopy.C09_cmac_bad_key"
   ],
   "note": ""
  },
  {
   "property": "C10",
   "status": "proved",
   "theorems": [
    "Cryptopy.C10_subkeys_gf128"
   ],
   "note": ""
  },
  {
   "property": "C11",
   "status": "proved",
   "theorems": [
    "Cryptopy.C11_cmac_substitute_cipher",
    "Cryptopy.C11_cmac_substitute_differs"
   ],
   "note": ""
  },
  {
   "property": "C12",
   "status": "proved",
   "theorems": [
    "Cryptopy.C12_dbl"
   ],
   "note": ""
  },
  {
   "property": "C13",
   "status": "proved",
   "theorems": [
    "Cryptopy.C13_s2v_rfc5297"
   ],
   "note": ""
  },
  {
   "property": "C14",
   "status": "proved",
   "theorems": [
    "Cryptopy.C14_siv_roundtrip",
    "Cryptopy.C14_aes_siv_object"
   ],
   "note": ""
  },
  {
   "property": "C15",
   "status": "proved",
   "theorems": [
    "Cryptopy.C15_siv_accepts_exactly",
    "Cryptopy.C15_siv_rejects"
   ],
   "note": ""
  },
  {
   "property": "C16",
   "status": "proved",
   "theorems": [
    "Cryptopy.C16_siv_lengths",
    "Cryptopy.C16_siv_encrypt_rfc5297"
   ],
   "note": ""
  },
  {
   "property": "C17",
   "status": "proved",
   "theorems": [
    "Cryptopy.C17_siv_counters",
    "Cryptopy.C17_siv_encrypt_blocks"
   ],
   "note": ""
  },
  {
   "property": "C18",
   "status": "proved",
   "theorems": [
    "Cryptopy.C18_quarter_round_rfc",
    "Cryptopy.C18_quarter_round_bijective"
   ],
   "note": ""
  },
  {
   "property": "C19",
   "status": "proved",
   "theorems": [
    "Cryptopy.C19_block_rfc"
   ],
   "note": ""
  },
  {
   "property": "C20",
   "status": "proved",
   "theorems": [
    "Cryptopy.C20_encrypt_rfc",
    "Cryptopy.C20_encrypt_blocks",
    "Cryptopy.C20_self_inverse"
   ],
   "note": ""
  },
  {
   "property": "C21",
   "status": "proved",
   "theorems": [
    "Cryptopy.C21_chunk_law",
    "Cryptopy.C21_partial_block_skipped",
    "Cryptopy.C21_state_after_calls"
   ],
   "note": ""
  },
  {
   "property": "C22",
   "status": "proved",
   "theorems": [
    "Cryptopy.C22_counter_unbounded",
    "Cryptopy.C22_keystream_repeats",
    "Cryptopy.C22_not_rfc_wrap"
   ],
   "note": ""
  },
  {
   "property": "C23",
   "status": "proved",
   "theorems": [
    "Cryptopy.C23_constructor"
   ],
   "note": ""
  },
  {
   "property": "C24",
   "status": "proved",
   "theorems": [
    "Cryptopy.C24_keystream_reuse",
    "Cryptopy.C24_malleable"
   ],
   "note": ""
  },
  {
   "property": "C25",
   "status": "proved",
   "theorems": [
    "Cryptopy.C25_poly1305_rfc"
   ],
   "note": ""
  },
  {
   "property": "C26",
   "status": "proved",
   "theorems": [
    "Cryptopy.C26_clamp_octets",
    "Cryptopy.C26_clamp_bits",
    "Cryptopy.C26_clamp_idempotent"
   ],
   "note": ""
  },
  {
   "property": "C27",
   "status": "proved",
   "theorems": [
    "Cryptopy.C27_little_endian"
   ],
   "note": ""
  },
  {
   "property": "C28",
   "status": "proved",
   "theorems": [
    "Cryptopy.C28_forgery_bound",
    "Cryptopy.C28_clamped_count"
   ],
   "note": ""
  },
  {
   "property": "C29",
   "status": "proved",
   "theorems": [
    "Cryptopy.C29_key_length"
   ],
   "note": ""
  },
  {
   "property": "C30",
   "status": "proved",
   "theorems": [
    "Cryptopy.C30_aead_rfc"
   ],
   "note": ""
  },
  {
   "property": "C31",
   "status": "proved",
   "theorems": [
    "Cryptopy.C31_aead_decrypt_recovers"
   ],
   "note": ""
  },
  {
   "property": "C32",
   "status": "proved",
   "theorems": [
    "Cryptopy.C32_decrypt_no_authentication",
    "Cryptopy.C32_returned_tag_differs"
   ],
   "note": ""
  },
  {
   "property": "C33",
   "status": "proved",
   "theorems": [
    "Cryptopy.C33_mac_input_injective"
   ],
   "note": ""
  },
  {
   "property": "C34",
   "status": "proved",
   "theorems": [
    "Cryptopy.C34_chacha_poly_aead_unusable"
   ],
   "note": ""
  },
  {
   "property": "C35",
   "status": "proved",
   "theorems": [
    "Cryptopy.C35_two_random_nonces"
   ],
   "note": ""
  },
  {
   "property": "C36",
   "status": "proved",
   "theorems": [
    "Cryptopy.C36_hmac_rfc2104"
   ],
   "note": ""
  },
  {
   "property": "C37",
   "status": "proved",
   "theorems": [
    "Cryptopy.C37_hmac_long_key",
    "Cryptopy.C37_hmac_long_key_full_digest",
    "Cryptopy.C37_hmac_long_key_collision",
    "Cryptopy.C37_hmac_long_key_differs"
   ],
   "note": ""
  },
  {
   "property": "C38",
   "status": "proved",
   "theorems": [
    "Cryptopy.C38_hmac_histories",
    "Cryptopy.C38_hmac_incremental"
   ],
   "note": ""
  },
  {
   "property": "C39",
   "status": "proved",
   "theorems": [
    "Cryptopy.C39_hmac_unkeyed",
    "Cryptopy.C39_hmac_setKey_later"
   ],
   "note": ""
  },
  {
   "property": "C40",
   "status": "proved",
   "theorems": [
    "Cryptopy.C40_pbkdf2_rfc2898",
    "Cryptopy.C40_pbkdf2_hmac",
    "Cryptopy.C40_pbkdf2_float_range"
   ],
   "note": ""
  },
  {
   "property": "C41",
   "status": "proved",
   "theorems": [
    "Cryptopy.C41_pbkdf2_length",
    "Cryptopy.C41_pbkdf2_prefix",
    "Cryptopy.C41_pbkdf2_limits"
   ],
   "note": ""
  },
  {
   "property": "C42",
   "status": "proved",
   "theorems": [
    "Cryptopy.C42_psk_assert",
    "Cryptopy.C42_psk_value"
   ],
   "note": ""
  },
  {
   "property": "C43",
   "status": "proved",
   "theorems": [
    "Cryptopy.C43_prf_value",
    "Cryptopy.C43_prf_prefix"
   ],
   "note": ""
  },
  {
   "property": "C44",
   "status": "proved",
   "theorems": [
    "Cryptopy.C44_prf_raises",
    "Cryptopy.C44_prf_negative"
   ],
   "note": ""
  },
  {
   "property": "C45",
   "status": "proved",
   "theorems": [
    "Cryptopy.C45_michael_value",
    "Cryptopy.C45_michael_key_size",
    "Cryptopy.C45_no_incremental",
    "Cryptopy.C45_michael_block_bijective"
   ],
   "note": ""
  },
  {
   "property": "C46",
   "status": "proved",
   "theorems": [
    "Cryptopy.C46_michael_key_recovery",
    "Cryptopy.C46_michael_key_computed"
   ],
   "note": ""
  },
  {
   "property": "C47",
   "status": "proved",
   "theorems": [
    "Cryptopy.C47_michael_padded_length",
    "Cryptopy.C47_michael_padding_injective"
   ],
   "note": ""
  },
  {
   "property": "C48",
   "status": "proved",
   "theorems": [
    "Cryptopy.C48_tkip_mic_D3",
    "Cryptopy.C48_tkip_mic_D2",
    "Cryptopy.C48_tkip_mic_D3_injective",
    "Cryptopy.C48_tkip_mic_asserts",
    "Cryptopy.C48_tkip_mic_version",
    "Cryptopy.C48_tkip_mic_call"
   ],
   "note": ""
  },
  {
   "property": "C49",
   "status": "proved",
   "theorems": [
    "Cryptopy.C49_mixer_histories"
   ],
   "note": ""
  },
  {
   "property": "C50",
   "status": "proved",
   "theorems": [
    "Cryptopy.C50_stale_characterisation",
    "Cryptopy.C50_stale_exists"
   ],
   "note": ""
  },
  {
   "property": "C51",
   "status": "proved",
   "theorems": [
    "Cryptopy.C51_phase1_value",
    "Cryptopy.C51_sbox_value",
    "Cryptopy.C51_phase1_bijective"
   ],
   "note": ""
  },
  {
   "property": "C52",
   "status": "proved",
   "theorems": [
    "Cryptopy.C52_phase2_value",
    "Cryptopy.C52_mixing_bijective",
    "Cryptopy.C52_phase2_injective"
   ],
   "note": ""
  },
  {
   "property": "C53",
   "status": "proved",
   "theorems": [
    "Cryptopy.C53_seed_shape",
    "Cryptopy.C53_seed_low_counter",
    "Cryptopy.C53_seed_injective",
    "Cryptopy.C53_no_raise"
   ],
   "note": ""
  },
  {
   "property": "C54",
   "status": "proved",
   "theorems": [
    "Cryptopy.C54_inverse_mod",
    "Cryptopy.C54_zero_modulus"
   ],
   "note": ""
  },
  {
   "property": "C55",
   "status": "proved",
   "theorems": [
    "Cryptopy.C55_gcd2",
    "Cryptopy.C55_gcd2_signed",
    "Cryptopy.C55_gcd_list",
    "Cryptopy.C55_lcm_list",
    "Cryptopy.C55_errors"
   ],
   "note": ""
  },
  {
   "property": "C56",
   "status": "proved",
   "theorems": [
    "Cryptopy.C56_jacobi",
    "Cryptopy.C56_precondition"
   ],
   "note": ""
  },
  {
   "property": "C57",
   "status": "proved",
   "theorems": [
    "Cryptopy.C57_square_root",
    "Cryptopy.C57_range"
   ],
   "note": ""
  },
  {
   "property": "C58",
   "status": "proved",
   "theorems": [
    "Cryptopy.C58_modular_sqrt",
    "Cryptopy.C58_modular_sqrt_two"
   ],
   "note": ""
  },
  {
   "property": "C59",
   "status": "proved",
   "theorems": [
    "Cryptopy.C59_legendre",
    "Cryptopy.C59_legendre_two"
   ],
   "note": ""
  },
  {
   "property": "C60",
   "status": "proved",
   "theorems": [
    "Cryptopy.C60_factorization",
    "Cryptopy.C60_below_two",
    "Cryptopy.C60_complete_small"
   ],
   "note": ""
  },
  {
   "property": "C61",
   "status": "proved",
   "theorems": [
    "Cryptopy.C61_phi",
    "Cryptopy.C61_phi_small"
   ],
   "note": ""
  },
  {
   "property": "C62",
   "status": "proved",
   "theorems": [
    "Cryptopy.C62_carmichael",
    "Cryptopy.C62_carmichael_small"
   ],
   "note": ""
  },
  {
   "property": "C63",
   "status": "proved",
   "theorems": [
    "Cryptopy.C63_order_mod",
    "Cryptopy.C63_order_mod_rejects"
   ],
   "note": ""
  },
  {
   "property": "C64",
   "status": "proved",
   "theorems": [
    "Cryptopy.C64_largest_factor",
    "Cryptopy.C64_diverges",
    "Cryptopy.C64_kinda_order"
   ],
   "note": ""
  },
  {
   "property": "C65",
   "status": "proved",
   "theorems": [
    "Cryptopy.C65_accepts_primes",
    "Cryptopy.C65_exact_small",
    "Cryptopy.C65_small_factors",
    "Cryptopy.C65_strong_probable_prime"
   ],
   "note": ""
  },
  {
   "property": "C66",
   "status": "proved",
   "theorems": [
    "Cryptopy.C66_accepts_composite",
    "Cryptopy.C66_not_exact",
    "Cryptopy.C66_three_primes"
   ],
   "note": ""
  },
  {
   "property": "C67",
   "status": "proved",
   "theorems": [
    "Cryptopy.C67_next_prime",
    "Cryptopy.C67_bound"
   ],
   "note": ""
  },
  {
   "property": "C68",
   "status": "proved",
   "theorems": [
    "Cryptopy.C68_reduce",
    "Cryptopy.C68_multiply",
    "Cryptopy.C68_power",
    "Cryptopy.C68_power_edges",
    "Cryptopy.C68_bad_modulus"
   ],
   "note": ""
  },
  {
   "property": "C69",
   "status": "proved",
   "theorems": [
    "Cryptopy.C69_prime",
    "Cryptopy.C69_shared_factor",
    "Cryptopy.C69_composite",
    "Cryptopy.C69_range",
    "Cryptopy.C69_strong_probable_prime",
    "Cryptopy.C69_even"
   ],
   "note": ""
  },
  {
   "property": "C70",
   "status": "proved",
   "theorems": [
    "Cryptopy.C70_fermat_prime",
    "Cryptopy.C70_fermat_carmichael",
    "Cryptopy.C70_fermat_561",
    "Cryptopy.C70_fermat_iff"
   ],
   "note": ""
  },
  {
   "property": "C71",
   "status": "proved",
   "theorems": [
    "Cryptopy.C71_new",
    "Cryptopy.C71_ring",
    "Cryptopy.C71_power",
    "Cryptopy.C71_errors"
   ],
   "note": ""
  },
  {
   "property": "C72",
   "status": "proved",
   "theorems": [
    "Cryptopy.C72_div",
    "Cryptopy.C72_rdiv",
    "Cryptopy.C72_div_error"
   ],
   "note": ""
  },
  {
   "property": "C73",
   "status": "proved",
   "theorems": [
    "Cryptopy.C73_eq_iff",
    "Cryptopy.C73_eq_representatives",
    "Cryptopy.C73_not_an_order"
   ],
   "note": ""
  },
  {
   "property": "C74",
   "status": "proved",
   "theorems": [
    "Cryptopy.C74_add",
    "Cryptopy.C74_points_of_group",
    "Cryptopy.C74_group"
   ],
   "note": ""
  },
  {
   "property": "C75",
   "status": "proved",
   "theorems": [
    "Cryptopy.C75_double",
    "Cryptopy.C75_negate",
    "Cryptopy.C75_subtract"
   ],
   "note": ""
  },
  {
   "property": "C76",
   "status": "proved",
   "theorems": [
    "Cryptopy.C76_scalar",
    "Cryptopy.C76_scalar_prime"
   ],
   "note": ""
  },
  {
   "property": "C77",
   "status": "proved",
   "theorems": [
    "Cryptopy.C77_scalar_add",
    "Cryptopy.C77_diffie_hellman"
   ],
   "note": ""
  },
  {
   "property": "C78",
   "status": "proved",
   "theorems": [
    "Cryptopy.C78_point",
    "Cryptopy.C78_infinity",
    "Cryptopy.C78_closed"
   ],
   "note": ""
  },
  {
   "property": "C79",
   "status": "proved",
   "theorems": [
    "Cryptopy.C79_infinity",
    "Cryptopy.C79_double",
    "Cryptopy.C79_unreduced",
    "Cryptopy.C79_different_curves"
   ],
   "note": ""
  },
  {
   "property": "C80",
   "status": "proved",
   "theorems": [
    "Cryptopy.C80_eq",
    "Cryptopy.C80_negative"
   ],
   "note": ""
  },
  {
   "property": "C81",
   "status": "proved",
   "theorems": [
    "Cryptopy.C81_montgomery",
    "Cryptopy.C81_edwards"
   ],
   "note": ""
  },
  {
   "property": "C82",
   "status": "proved",
   "theorems": [
    "Cryptopy.C82_ladder",
    "Cryptopy.C82_in_range"
   ],
   "note": ""
  },
  {
   "property": "C83",
   "status": "proved",
   "theorems": [
    "Cryptopy.C83_y_from_x"
   ],
   "note": ""
  },
  {
   "property": "C84",
   "status": "proved",
   "theorems": [
    "Cryptopy.C84_range",
    "Cryptopy.C84_residue",
    "Cryptopy.C84_zero"
   ],
   "note": ""
  },
  {
   "property": "C85",
   "status": "proved",
   "theorems": [
    "Cryptopy.C85_coord_size",
    "Cryptopy.C85_negative"
   ],
   "note": ""
  },
  {
   "property": "C86",
   "status": "proved",
   "theorems": [
    "Cryptopy.C86_encoders",
    "Cryptopy.C86_with_import",
    "Cryptopy.C86_octetstring"
   ],
   "note": ""
  },
  {
   "property": "C87",
   "status": "proved",
   "theorems": [
    "Cryptopy.C87_orbits",
    "Cryptopy.C87_partition",
    "Cryptopy.C87_lengths"
   ],
   "note": ""
  },
  {
   "property": "C88",
   "status": "proved",
   "theorems": [
    "Cryptopy.C88_sum",
    "Cryptopy.C88_parseval",
    "Cryptopy.C88_inversion",
    "Cryptopy.C88_injective"
   ],
   "note": ""
  },
  {
   "property": "C89",
   "status": "proved",
   "theorems": [
    "Cryptopy.C89_nonlinearity",
    "Cryptopy.C89_bound",
    "Cryptopy.C89_one"
   ],
   "note": ""
  },
  {
   "property": "C90",
   "status": "proved",
   "theorems": [
    "Cryptopy.C90_log2n"
   ],
   "note": ""
  },
  {
   "property": "C91",
   "status": "proved",
   "theorems": [
    "Cryptopy.C91_parity",
    "Cryptopy.C91_symm",
    "Cryptopy.C91_bilinear"
   ],
   "note": ""
  },
  {
   "property": "C92",
   "status": "proved",
   "theorems": [
    "Cryptopy.C92_truncation",
    "Cryptopy.C92_error",
    "Cryptopy.C92_default",
    "Cryptopy.C92_more",
    "Cryptopy.C92_negative"
   ],
   "note": ""
  },
  {
   "property": "C93",
   "status": "proved",
   "theorems": [
    "Cryptopy.C93_primes_to_5k",
    "Cryptopy.C93_sorted",
    "Cryptopy.C93_smallprimes",
    "Cryptopy.C93_smallprimes_sorted"
   ],
   "note": ""
  },
  {
   "property": "C94",
   "status": "proved",
   "theorems": [
    "Cryptopy.C94_sbox",
    "Cryptopy.C94_one",
    "Cryptopy.C94_length",
    "Cryptopy.C94_aes",
    "Cryptopy.C94_sms4",
    "Cryptopy.C94_streebog",
    "Cryptopy.C94_pi"
   ],
   "note": ""
  },
  {
   "property": "C95",
   "status": "proved",
   "theorems": [
    "Cryptopy.C95_parameters",
    "Cryptopy.C95_scalar",
    "Cryptopy.C95_diffie_hellman",
    "Cryptopy.C95_scalars_modulo_n"
   ],
   "note": ""
  },
  {
   "property": "C96",
   "status": "proved",
   "theorems": [
    "Cryptopy.C96_p1305_prime",
    "Cryptopy.C96_domain"
   ],
   "note": ""
  },
  {
   "property": "C97",
   "status": "proved",
   "theorems": [
    "Cryptopy.C97_prf_sibling_import"
   ],
   "note": ""
  },
  {
   "property": "C98",
   "status": "proved",
   "theorems": [
    "Cryptopy.C98_seed_octet_order"
   ],
   "note": ""
  },
  {
   "property": "C99",
   "status": "proved",
   "theorems": [
    "Cryptopy.C99_broken"
   ],
   "note": ""
  },
  {
   "property": "C100",
   "status": "proved",
   "theorems": [
    "Cryptopy.C100_scalar_outcome",
    "Cryptopy.C100_order_two",
    "Cryptopy.C100_quarter_order"
   ],
   "note": ""
  },
  {
   "property": "C101",
   "status": "proved",
   "theorems": [
    "Cryptopy.C101_gost_parameters",
    "Cryptopy.C101_gost_scalar"
   ],
   "note": ""
  },
  {
   "property": "C102",
   "status": "proved",
   "theorems": [
    "Cryptopy.C102_quarter"
   ],
   "note": ""
  },
  {
   "property": "C103",
   "status": "proved",
   "theorems": [
    "Cryptopy.C103_korselt",
    "Cryptopy.C103_half"
   ],
   "note": ""
  },
  {
   "property": "C104",
   "status": "proved",
   "theorems": [
    "Cryptopy.C104_ladder_agreement"
   ],
   "note": ""
  },
  {
   "property": "C105",
   "status": "proved",
   "theorems": [
    "Cryptopy.C105_growth",
    "Cryptopy.C105_memory"
   ],
   "note": ""
  },
  {
   "property": "C106",
   "status": "proved",
   "theorems": [
    "Cryptopy.C106_add",
    "Cryptopy.C106_double",
    "Cryptopy.C106_identity",
    "Cryptopy.C106_opposite",
    "Cryptopy.C106_raises"
   ],
   "note": ""
  },
  {
   "property": "C107",
   "status": "proved",
   "theorems": [
    "Cryptopy.C107_scalar",
    "Cryptopy.C107_order",
    "Cryptopy.C107_edges"
   ],
   "note": ""
  },
  {
   "property": "C108",
   "status": "proved",
   "theorems": [
    "Cryptopy.C108_implemented_equation",
    "Cryptopy.C108_curve_points",
    "Cryptopy.C108_generators",
    "Cryptopy.C108_ed25519"
   ],
   "note": ""
  },
  {
   "property": "C109",
   "status": "proved",
   "theorems": [
    "Cryptopy.C109_add",
    "Cryptopy.C109_double_negate"
   ],
   "note": ""
  },
  {
   "property": "C110",
   "status": "proved",
   "theorems": [
    "Cryptopy.C110_edwards",
    "Cryptopy.C110_gost",
    "Cryptopy.C110_montgomery",
    "Cryptopy.C110_m511"
   ],
   "note": ""
  },
  {
   "property": "C111",
   "status": "proved",
   "theorems": [
    "Cryptopy.C111_ladder",
    "Cryptopy.C111_x25519"
   ],
   "note": ""
  },
  {
   "property": "C112",
   "status": "proved",
   "theorems": [
    "Cryptopy.C112_low_order",
    "Cryptopy.C112_contributory"
   ],
   "note": ""
  },
  {
   "property": "C113",
   "status": "proved",
   "theorems": [
    "Cryptopy.C113_negate",
    "Cryptopy.C113_scalar",
    "Cryptopy.C113_double",
    "Cryptopy.C113_add"
   ],
   "note": ""
  },
  {
   "property": "C114",
   "status": "proved",
   "theorems": [
    "Cryptopy.C114_ladder_zero",
    "Cryptopy.C114_x25519_zero",
    "Cryptopy.C114_x25519_inputs"
   ],
   "note": ""
  },
  {
   "property": "C115",
   "status": "proved",
   "theorems": [
    "Cryptopy.C115_same_object",
    "Cryptopy.C115_same_histories",
    "Cryptopy.C115_different_keys",
    "Cryptopy.C115_long_key",
    "Cryptopy.C115_pbkdf2",
    "Cryptopy.C115_psk"
   ],
   "note": ""
  },
  {
   "property": "C116",
   "status": "proved",
   "theorems": [
    "Cryptopy.C116_ambiguous",
    "Cryptopy.C116_separated",
    "Cryptopy.C116_wrappers"
   ],
   "note": ""
  },
  {
   "property": "C117",
   "status": "proved",
   "theorems": [
    "Cryptopy.C117_collision_extends",
    "Cryptopy.C117_one_block",
    "Cryptopy.C117_last_block"
   ],
   "note": ""
  },
  {
   "property": "C118",
   "status": "proved",
   "theorems": [
    "Cryptopy.C118_no_transfer"
   ],
   "note": ""
  },
  {
   "property": "C119",
   "status": "proved",
   "theorems": [
    "Cryptopy.C119_twist"
   ],
   "note": ""
  },
  {
   "property": "C120",
   "status": "proved",
   "theorems": [
    "Cryptopy.C120_zero_iff",
    "Cryptopy.C120_affine",
    "Cryptopy.C120_input",
    "Cryptopy.C120_lipschitz",
    "Cryptopy.C120_inverse"
   ],
   "note": ""
  },
  {
   "property": "C121",
   "status": "proved",
   "theorems": [
    "Cryptopy.C121_senders",
    "Cryptopy.C121_histories",
    "Cryptopy.C121_reuse"
   ],
   "note": ""
  },
  {
   "property": "C122",
   "status": "proved",
   "theorems": [
    "Cryptopy.C122_plaintexts",
    "Cryptopy.C122_forgery",
    "Cryptopy.C122_distinct"
   ],
   "note": ""
  },
  {
   "property": "C123",
   "status": "proved",
   "theorems": [
    "Cryptopy.C123_malleable"
   ],
   "note": ""
  },
  {
   "property": "C124",
   "status": "proved",
   "theorems": [
    "Cryptopy.C124_weak_keys"
   ],
   "note": ""
  },
  {
   "property": "C125",
   "status": "proved",
   "theorems": [
    "Cryptopy.C125_short_full",
    "Cryptopy.C125_header_change",
    "Cryptopy.C125_header_swap"
   ],
   "note": ""
  },
  {
   "property": "C126",
   "status": "proved",
   "theorems": [
    "Cryptopy.C126_sorted_by_base",
    "Cryptopy.C126_name_order",
    "Cryptopy.C126_shipped",
    "Cryptopy.C126_others_are_duplicates",
    "Cryptopy.C126_curve_ids",
    "Cryptopy.C126_oids",
    "Cryptopy.C126_strength",
    "Cryptopy.C126_called_again"
   ],
   "note": ""
  },
  {
   "property": "C127",
   "status": "proved",
   "theorems": [
    "Cryptopy.C127_point",
    "Cryptopy.C127_point_eq",
    "Cryptopy.C127_element",
    "Cryptopy.C127_numeral"
   ],
   "note": ""
  },
  {
   "property": "C128",
   "status": "proved",
   "theorems": [
    "Cryptopy.C128_exact",
    "Cryptopy.C128_every_point",
    "Cryptopy.C128_infinity",
    "Cryptopy.C128_shipped"
   ],
   "note": ""
  },
  {
   "property": "C129",
   "status": "proved",
   "theorems": [
    "Cryptopy.C129_any_table",
    "Cryptopy.C129_lookalike",
    "Cryptopy.C129_one_open"
   ],
   "note": ""
  },
  {
   "property": "C130",
   "status": "proved",
   "theorems": [
    "Cryptopy.C130_shared",
    "Cryptopy.C130_only_then",
    "Cryptopy.C130_when"
   ],
   "note": ""
  },
  {
   "property": "C131",
   "status": "proved",
   "theorems": [
    "Cryptopy.C131_length",
    "Cryptopy.C131_enough",
    "Cryptopy.C131_shipped"
   ],
   "note": ""
  },
  {
   "property": "C132",
   "status": "proved",
   "theorems": [
    "Cryptopy.C132_nist"
   ],
   "note": ""
  },
  {
   "property": "C133",
   "status": "proved",
   "theorems": [
    "Cryptopy.C133_seeds",
    "Cryptopy.C133_requirements"
   ],
   "note": ""
  },
  {
   "property": "C134",
   "status": "proved",
   "theorems": [
    "Cryptopy.C134_seeds",
    "Cryptopy.C134_unique",
    "Cryptopy.C134_prime",
    "Cryptopy.C134_coefficients"
   ],
   "note": ""
  },
  {
   "property": "C135",
   "status": "proved",
   "theorems": [
    "Cryptopy.C135_aes",
    "Cryptopy.C135_sms4",
    "Cryptopy.C135_streebog",
    "Cryptopy.C135_orbits",
    "Cryptopy.C135_fixed"
   ],
   "note": ""
  },
  {
   "property": "C136",
   "status": "proved",
   "theorems": [
    "Cryptopy.C136_map",
    "Cryptopy.C136_gost",
    "Cryptopy.C136_scalar",
    "Cryptopy.C136_twist"
   ],
   "note": ""
  },
  {
   "property": "C137",
   "status": "proved",
   "theorems": [
    "Cryptopy.C137_prefix",
    "Cryptopy.C137_extend",
    "Cryptopy.C137_forge",
    "Cryptopy.C137_related",
    "Cryptopy.C137_zero_key",
    "Cryptopy.C137_zero_state",
    "Cryptopy.C137_zero_state_key"
   ],
   "note": ""
  },
  {
   "property": "C138",
   "status": "proved",
   "theorems": [
    "Cryptopy.C138_value",
    "Cryptopy.C138_one",
    "Cryptopy.C138_curve25519"
   ],
   "note": ""
  },
  {
   "property": "C139",
   "status": "proved",
   "theorems": [
    "Cryptopy.C139_second_half",
    "Cryptopy.C139_keys",
    "Cryptopy.C139_forgery"
   ],
   "note": ""
  },
  {
   "property": "C140",
   "status": "proved",
   "theorems": [
    "Cryptopy.C140_reduce",
    "Cryptopy.C140_left_behind",
    "Cryptopy.C140_alias",
    "Cryptopy.C140_multiply",
    "Cryptopy.C140_exp"
   ],
   "note": ""
  },
  {
   "property": "C141",
   "status": "proved",
   "theorems": [
    "Cryptopy.C141_same_x",
    "Cryptopy.C141_lambda",
    "Cryptopy.C141_same_y"
   ],
   "note": ""
  },
  {
   "property": "C142",
   "status": "proved",
   "theorems": [
    "Cryptopy.C142_same",
    "Cryptopy.C142_log",
    "Cryptopy.C142_secret",
    "Cryptopy.C142_counts",
    "Cryptopy.C142_minimal",
    "Cryptopy.C142_signs",
    "Cryptopy.C142_shipped"
   ],
   "note": ""
  },
  {
   "property": "C143",
   "status": "proved",
   "theorems": [
    "Cryptopy.C143_bent_iff",
    "Cryptopy.C143_derivative",
    "Cryptopy.C143_weight",
    "Cryptopy.C143_odd",
    "Cryptopy.C143_exists",
    "Cryptopy.C143_sbox",
    "Cryptopy.C143_permutation",
    "Cryptopy.C143_four",
    "Cryptopy.C143_eight"
   ],
   "note": ""
  },
  {
   "property": "C144",
   "status": "proved",
   "theorems": [
    "Cryptopy.C144_base_multiple",
    "Cryptopy.C144_factor",
    "Cryptopy.C144_exact",
    "Cryptopy.C144_next",
    "Cryptopy.C144_factorization"
   ],
   "note": ""
  },
  {
   "property": "C145",
   "status": "proved",
   "theorems": [
    "Cryptopy.C145_divides",
    "Cryptopy.C145_attained",
    "Cryptopy.C145_two",
    "Cryptopy.C145_accepted",
    "Cryptopy.C145_exists"
   ],
   "note": ""
  },
  {
   "property": "C146",
   "status": "proved",
   "theorems": [
    "Cryptopy.C146_even",
    "Cryptopy.C146_error",
    "Cryptopy.C146_three",
    "Cryptopy.C146_five",
    "Cryptopy.C146_wrong",
    "Cryptopy.C146_modular_sqrt",
    "Cryptopy.C146_diverges",
    "Cryptopy.C146_561"
   ],
   "note": ""
  },
  {
   "property": "C147",
   "status": "proved",
   "theorems": [
    "Cryptopy.C147_lawful",
    "Cryptopy.C147_table",
    "Cryptopy.C147_permutation",
    "Cryptopy.C147_distinct",
    "Cryptopy.C147_choose_tag",
    "Cryptopy.C147_no_tag",
    "Cryptopy.C147_no_whole_blocks",
    "Cryptopy.C147_only_whole_blocks",
    "Cryptopy.C147_siv"
   ],
   "note": ""
  },
  {
   "property": "C148",
   "status": "proved",
   "theorems": [
    "Cryptopy.C148_same_mac_iff",
    "Cryptopy.C148_message_collision",
    "Cryptopy.C148_prf",
    "Cryptopy.C148_prf_short",
    "Cryptopy.C148_pbkdf2_salt",
    "Cryptopy.C148_pbkdf2_iterations"
   ],
   "note": ""
  },
  {
   "property": "C149",
   "status": "proved",
   "theorems": [
    "Cryptopy.C149_standard",
    "Cryptopy.C149_prf",
    "Cryptopy.C149_rfc2202",
    "Cryptopy.C149_long_key"
   ],
   "note": ""
  },
  {
   "property": "C150",
   "status": "proved",
   "theorems": [
    "Cryptopy.C150_answer",
    "Cryptopy.C150_count",
    "Cryptopy.C150_docstring",
    "Cryptopy.C150_tested"
   ],
   "note": ""
  },
  {
   "property": "C151",
   "status": "proved",
   "theorems": [
    "Cryptopy.C151_octets",
    "Cryptopy.C151_padded",
    "Cryptopy.C151_ascending",
    "Cryptopy.C151_b94",
    "Cryptopy.C151_not_b27_b85",
    "Cryptopy.C151_length_matters"
   ],
   "note": ""
  },
  {
   "property": "C152",
   "status": "proved",
   "theorems": [
    "Cryptopy.C152_middle_octet",
    "Cryptopy.C152_other_middle",
    "Cryptopy.C152_key_sizes"
   ],
   "note": ""
  },
  {
   "property": "C153",
   "status": "proved",
   "theorems": [
    "Cryptopy.C153_square_roots",
    "Cryptopy.C153_jacobi",
    "Cryptopy.C153_inverse",
    "Cryptopy.C153_self_test",
    "Cryptopy.C153_both"
   ],
   "note": ""
  },
  {
   "property": "C154",
   "status": "proved",
   "theorems": [
    "Cryptopy.C154_records",
    "Cryptopy.C154_two_three",
    "Cryptopy.C154_50000",
    "Cryptopy.C154_five",
    "Cryptopy.C154_too_short",
    "Cryptopy.C154_known_primes",
    "Cryptopy.C154_known_composites",
    "Cryptopy.C154_shipped"
   ],
   "note": ""
  },
  {
   "property": "C155",
   "status": "proved",
   "theorems": [
    "Cryptopy.C155_misc",
    "Cryptopy.C155_misc_count",
    "Cryptopy.C155_basic",
    "Cryptopy.C155_encoding_main",
    "Cryptopy.C155_example",
    "Cryptopy.C155_sha256"
   ],
   "note": ""
  },
  {
   "property": "C156",
   "status": "proved",
   "theorems": [
    "Cryptopy.C156_factorization",
    "Cryptopy.C156_phi",
    "Cryptopy.C156_wrong_values"
   ],
   "note": ""
  },
  {
   "property": "C157",
   "status": "proved",
   "theorems": [
    "Cryptopy.C157_elements",
    "Cryptopy.C157_power_laws",
    "Cryptopy.C157_fermat",
    "Cryptopy.C157_element_exponents",
    "Cryptopy.C157_precedence"
   ],
   "note": ""
  },
  {
   "property": "C158",
   "status": "proved",
   "theorems": [
    "Cryptopy.C158_modular_exp",
    "Cryptopy.C158_signs",
    "Cryptopy.C158_egcd",
    "Cryptopy.C158_gf_inverse",
    "Cryptopy.C158_negative_modulus",
    "Cryptopy.C158_two_inverses",
    "Cryptopy.C158_carmichael",
    "Cryptopy.C158_repeated"
   ],
   "note": ""
  },
  {
   "property": "C159",
   "status": "proved",
   "theorems": [
    "Cryptopy.C159_permutation",
    "Cryptopy.C159_subclass",
    "Cryptopy.C159_sbox_analysis",
    "Cryptopy.C159_walsh",
    "Cryptopy.C159_nonlinearity"
   ],
   "note": ""
  },
  {
   "property": "C160",
   "status": "proved",
   "theorems": [
    "Cryptopy.C160_leak",
    "Cryptopy.C160_same_bits",
    "Cryptopy.C160_second_octet"
   ],
   "note": ""
  },
  {
   "property": "C161",
   "status": "proved",
   "theorems": [
    "Cryptopy.C161_forgery",
    "Cryptopy.C161_random_function",
    "Cryptopy.C161_raises"
   ],
   "note": ""
  },
  {
   "property": "C162",
   "status": "proved",
   "theorems": [
    "Cryptopy.C162_field",
    "Cryptopy.C162_period",
    "Cryptopy.C162_orbit",
    "Cryptopy.C162_independent"
   ],
   "note": ""
  },
  {
   "property": "C163",
   "status": "proved",
   "theorems": [
    "Cryptopy.C163_forgery",
    "Cryptopy.C163_random_function"
   ],
   "note": ""
  },
  {
   "property": "C164",
   "status": "proved",
   "theorems": [
    "Cryptopy.C164_rfc5297",
    "Cryptopy.C164_headers"
   ],
   "note": ""
  },
  {
   "property": "C165",
   "status": "proved",
   "theorems": [
    "Cryptopy.C165_privacy",
    "Cryptopy.C165_decryption",
    "Cryptopy.C165_exceptions"
   ],
   "note": ""
  },
  {
   "property": "C166",
   "status": "proved",
   "theorems": [
    "Cryptopy.C166_switching",
    "Cryptopy.C166_cmac_forgery",
    "Cryptopy.C166_cmac_random_function",
    "Cryptopy.C166_siv_forgery",
    "Cryptopy.C166_privacy",
    "Cryptopy.C166_decryption",
    "Cryptopy.C166_exceptions"
   ],
   "note": ""
  },
  {
   "property": "C167",
   "status": "proved",
   "theorems": [
    "Cryptopy.C167_model",
    "Cryptopy.C167_random_strings"
   ],
   "note": ""
  },
  {
   "property": "C168",
   "status": "proved",
   "theorems": [
    "Cryptopy.C168_authenticated_encryption",
    "Cryptopy.C168_forgery"
   ],
   "note": ""
  },
  {
   "property": "C169",
   "status": "proved",
   "theorems": [
    "Cryptopy.C169_iterations_needed",
    "Cryptopy.C169_psk",
    "Cryptopy.C169_iterations_suffice"
   ],
   "note": ""
  },
  {
   "property": "C170",
   "status": "proved",
   "theorems": [
    "Cryptopy.C170_hmac_random_function",
    "Cryptopy.C170_forgery"
   ],
   "note": ""
  },
  {
   "property": "C171",
   "status": "proved",
   "theorems": [
    "Cryptopy.C171_derived_keys"
   ],
   "note": ""
  },
  {
   "property": "C172",
   "status": "proved",
   "theorems": [
    "Cryptopy.C172_password_keys"
   ],
   "note": ""
  },
  {
   "property": "C173",
   "status": "proved",
   "theorems": [
    "Cryptopy.C173_dictionary",
    "Cryptopy.C173_name_password",
    "Cryptopy.C173_psk",
    "Cryptopy.C173_attack"
   ],
   "note": ""
  },
  {
   "property": "C174",
   "status": "proved",
   "theorems": [
    "Cryptopy.C174_jacobi",
    "Cryptopy.C174_jacobi_too_deep",
    "Cryptopy.C174_square_root",
    "Cryptopy.C174_square_root_refused",
    "Cryptopy.C174_which",
    "Cryptopy.C174_y_from_x",
    "Cryptopy.C174_never_returns",
    "Cryptopy.C174_montgomery",
    "Cryptopy.C174_pbkdf2"
   ],
   "note": ""
  },
  {
   "property": "C175",
   "status": "proved",
   "theorems": [
    "Cryptopy.C175_model",
    "Cryptopy.C175_random_nonces",
    "Cryptopy.C175_sharp",
    "Cryptopy.C175_test",
    "Cryptopy.C175_test_fails",
    "Cryptopy.C175_test_rarely_fails"
   ],
   "note": ""
  },
  {
   "property": "C176",
   "status": "proved",
   "theorems": [
    "Cryptopy.C176_encrypt",
    "Cryptopy.C176_decrypt",
    "Cryptopy.C176_encrypt_share",
    "Cryptopy.C176_decrypt_share"
   ],
   "note": ""
  },
  {
   "property": "C177",
   "status": "proved",
   "theorems": [
    "Cryptopy.C177_gcd2",
    "Cryptopy.C177_gcd2_sharp",
    "Cryptopy.C177_inverse_mod",
    "Cryptopy.C177_inverse_mod_sharp",
    "Cryptopy.C177_modular_sqrt",
    "Cryptopy.C177_factorization",
    "Cryptopy.C177_factorization_semiprime"
   ],
   "note": ""
  },
  {
   "property": "C178",
   "status": "proved",
   "theorems": [
    "Cryptopy.C178_cmac",
    "Cryptopy.C178_siv_encrypt",
    "Cryptopy.C178_siv_decrypt",
    "Cryptopy.C178_siv_decrypt_same",
    "Cryptopy.C178_pbkdf2",
    "Cryptopy.C178_pbkdf2_count",
    "Cryptopy.C178_psk",
    "Cryptopy.C178_prf"
   ],
   "note": ""
  },
  {
   "property": "C179",
   "status": "proved",
   "theorems": [
    "Cryptopy.C179_discrete_logarithm",
    "Cryptopy.C179_shared_secret",
    "Cryptopy.C179_decision",
    "Cryptopy.C179_many_keys",
    "Cryptopy.C179_square_root"
   ],
   "note": ""
  },
  {
   "property": "C180",
   "status": "proved",
   "theorems": [
    "Cryptopy.C180_inputs_differ",
    "Cryptopy.C180_chacha",
    "Cryptopy.C180_aead",
    "Cryptopy.C180_no_input_twice",
    "Cryptopy.C180_words",
    "Cryptopy.C180_nonce_reuse"
   ],
   "note": ""
  },
  {
   "property": "C181",
   "status": "proved",
   "theorems": [
    "Cryptopy.C181_every_tag",
    "Cryptopy.C181_exactly",
    "Cryptopy.C181_aead"
   ],
   "note": ""
  },
  {
   "property": "C182",
   "status": "proved",
   "theorems": [
    "Cryptopy.C182_every_key",
    "Cryptopy.C182_every_pair",
    "Cryptopy.C182_squares",
    "Cryptopy.C182_parity"
   ],
   "note": ""
  },
  {
   "property": "C183",
   "status": "proved",
   "theorems": [
    "Cryptopy.C183_permutation",
    "Cryptopy.C183_turn",
    "Cryptopy.C183_equal_columns",
    "Cryptopy.C183_constants"
   ],
   "note": ""
  },
  {
   "property": "C184",
   "status": "proved",
   "theorems": [
    "Cryptopy.C184_two_tags",
    "Cryptopy.C184_exactly",
    "Cryptopy.C184_aead"
   ],
   "note": ""
  },
  {
   "property": "C185",
   "status": "proved",
   "theorems": [
    "Cryptopy.C185_key_hidden",
    "Cryptopy.C185_random_function",
    "Cryptopy.C185_key_guess",
    "Cryptopy.C185_rounds",
    "Cryptopy.C185_sharp"
   ],
   "note": ""
  },
  {
   "property": "C186",
   "status": "proved",
   "theorems": [
    "Cryptopy.C186_authenticated_encryption",
    "Cryptopy.C186_forgery"
   ],
   "note": ""
  },
  {
   "property": "C187",
   "status": "proved",
   "theorems": [
    "Cryptopy.C187_keys_hidden",
    "Cryptopy.C187_random_functions",
    "Cryptopy.C187_key_guess"
   ],
   "note": ""
  },
  {
   "property": "C188",
   "status": "proved",
   "theorems": [
    "Cryptopy.C188_authenticated_encryption",
    "Cryptopy.C188_forgery"
   ],
   "note": ""
  },
  {
   "property": "C189",
   "status": "proved",
   "theorems": [
    "Cryptopy.C189_authenticated_encryption",
    "Cryptopy.C189_forgery"
   ],
   "note": ""
  },
  {
   "property": "C190",
   "status": "proved",
   "theorems": [
    "Cryptopy.C190_salt",
    "Cryptopy.C190_name_password",
    "Cryptopy.C190_table"
   ],
   "note": ""
  },
  {
   "property": "C191",
   "status": "proved",
   "theorems": [
    "Cryptopy.C191_cost",
    "Cryptopy.C191_when",
    "Cryptopy.C191_certain",
    "Cryptopy.C191_aes",
    "Cryptopy.C191_share",
    "Cryptopy.C191_share_of_all",
    "Cryptopy.C191_bound"
   ],
   "note": ""
  },
  {
   "property": "C192",
   "status": "proved",
   "theorems": [
    "Cryptopy.C192_cost",
    "Cryptopy.C192_when",
    "Cryptopy.C192_certain",
    "Cryptopy.C192_aes",
    "Cryptopy.C192_share",
    "Cryptopy.C192_share_of_all",
    "Cryptopy.C192_bound"
   ],
   "note": ""
  },
  {
   "property": "C193",
   "status": "proved",
   "theorems": [
    "Cryptopy.C193_reuse",
    "Cryptopy.C193_name_password",
    "Cryptopy.C193_psk"
   ],
   "note": ""
  },
  {
   "property": "C194",
   "status": "proved",
   "theorems": [
    "Cryptopy.C194_users",
    "Cryptopy.C194_name_password",
    "Cryptopy.C194_psk",
    "Cryptopy.C194_same_salt",
    "Cryptopy.C194_random_salts"
   ],
   "note": ""
  },
  {
   "property": "C195",
   "status": "proved",
   "theorems": [
    "Cryptopy.C195_any_keys",
    "Cryptopy.C195_forgery",
    "Cryptopy.C195_most",
    "Cryptopy.C195_aead"
   ],
   "note": ""
  },
  {
   "property": "C196",
   "status": "proved",
   "theorems": [
    "Cryptopy.C196_blocks",
    "Cryptopy.C196_count",
    "Cryptopy.C196_share",
    "Cryptopy.C196_plaintexts",
    "Cryptopy.C196_zeros",
    "Cryptopy.C196_random"
   ],
   "note": ""
  },
  {
   "property": "C197",
   "status": "proved",
   "theorems": [
    "Cryptopy.C197_forger"
   ],
   "note": ""
  },
  {
   "property": "C198",
   "status": "proved",
   "theorems": [
    "Cryptopy.C198_search"
   ],
   "note": ""
  }
 ]
}