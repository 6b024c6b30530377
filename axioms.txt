'Verif.Props.C01_invariant' depends on axioms: [propext, Classical.choice, Quot.sound]
'Verif.Props.C01_no_bad_access' depends on axioms: [propext, Classical.choice, Quot.sound]
'Verif.Props.C01_program' depends on axioms: [propext, Classical.choice, Quot.sound]
'Verif.Props.C02_call' depends on axioms: [propext, Classical.choice, Quot.sound]
'Verif.Props.C02_program' depends on axioms: [propext, Classical.choice, Quot.sound]
'Verif.Props.C02_faithful' depends on axioms: [propext, Classical.choice, Quot.sound]
'Verif.Props.C03_eq' depends on axioms: [propext, Classical.choice, Quot.sound]
'Verif.Props.C03_equivalence' depends on axioms: [propext, Classical.choice, Quot.sound]
'Verif.Props.C03_hash' depends on axioms: [propext, Classical.choice, Quot.sound]
'Verif.Props.C04_add' depends on axioms: [propext, Classical.choice, Quot.sound]
'Verif.Props.C04_add_signed' depends on axioms: [propext, Classical.choice, Quot.sound]
'Verif.Props.C05_sub' depends on axioms: [propext, Classical.choice, Quot.sound]
'Verif.Props.C05_sub_signed' depends on axioms: [propext, Classical.choice, Quot.sound]
'Verif.Props.C06_inc_dec_neg' depends on axioms: [propext, Classical.choice, Quot.sound]
'Verif.Props.C06_undo' depends on axioms: [propext, Classical.choice, Quot.sound]
'Verif.Props.C07_mul' depends on axioms: [propext, Classical.choice, Quot.sound]
'Verif.Props.C07_mul_signed' depends on axioms: [propext, Classical.choice, Quot.sound]
'Verif.Props.C08_comm' depends on axioms: [propext, Classical.choice, Quot.sound]
'Verif.Props.C08_assoc' depends on axioms: [propext, Classical.choice, Quot.sound]
'Verif.Props.C08_distrib' depends on axioms: [propext, Classical.choice, Quot.sound]
'Verif.Props.C08_neutral' depends on axioms: [propext, Classical.choice, Quot.sound]
'Verif.Props.C08_neg' depends on axioms: [propext, Classical.choice, Quot.sound]
'Verif.Props.C09_unsigned_division' depends on axioms: [propext, Classical.choice, Quot.sound]
'Verif.Props.C09_consuming' depends on axioms: [propext, Classical.choice, Quot.sound]
'Verif.Props.C10_euclid' depends on axioms: [propext, Classical.choice, Quot.sound]
'Verif.Props.C10_unique' depends on axioms: [propext, Classical.choice, Quot.sound]
'Verif.Props.C11_signed_division' depends on axioms: [propext, Classical.choice, Quot.sound]
'Verif.Props.C11_signed_values' depends on axioms: [propext, Classical.choice, Quot.sound]
'Verif.Props.C11_min_by_minus_one' depends on axioms: [propext, Classical.choice, Quot.sound]
'Verif.Props.C12_division_by_zero' depends on axioms: [propext, Classical.choice, Quot.sound]
'Verif.Props.C12_consuming' depends on axioms: [propext, Classical.choice, Quot.sound]
'Verif.Props.C13_in_place' depends on axioms: [propext, Quot.sound]
'Verif.Props.C13_consuming' depends on axioms: [propext, Quot.sound]
'Verif.Props.C13_unsigned_division' depends on axioms: [propext, Quot.sound]
'Verif.Props.C13_compare' depends on axioms: [propext, Quot.sound]
'Verif.Props.C14_behaviour' depends on axioms: [propext, Classical.choice, Quot.sound]
'Verif.Props.C14_consuming' depends on axioms: [propext, Classical.choice, Quot.sound]
'Verif.Props.C14_doc_false' depends on axioms: [propext, Classical.choice, Quot.sound]
'Verif.Props.C15_shl' depends on axioms: [propext, Classical.choice, Quot.sound]
'Verif.Props.C15_shl_bits' depends on axioms: [propext, Classical.choice, Quot.sound]
'Verif.Props.C16_lshr' depends on axioms: [propext, Quot.sound]
'Verif.Props.C16_lshr_bits' depends on axioms: [propext, Quot.sound]
'Verif.Props.C17_ashr' depends on axioms: [propext, Classical.choice, Quot.sound]
'Verif.Props.C17_ashr_bits' depends on axioms: [propext, Classical.choice, Quot.sound]
'Verif.Props.C18_shift_errors' depends on axioms: [propext, Classical.choice, Quot.sound]
'Verif.Props.C19_bitnot' depends on axioms: [propext, Classical.choice, Quot.sound]
'Verif.Props.C19_binary' depends on axioms: [propext, Classical.choice, Quot.sound]
'Verif.Props.C19_laws' depends on axioms: [propext, Classical.choice, Quot.sound]
'Verif.Props.C20_bit_at' depends on axioms: [propext, Classical.choice, Quot.sound]
'Verif.Props.C20_invalid' depends on axioms: [propext, Quot.sound]
'Verif.Props.C20_unsigned' depends on axioms: [propext, Classical.choice, Quot.sound]
'Verif.Props.C20_unsigned_invalid' depends on axioms: [propext, Quot.sound]
'Verif.Props.C20_signed' depends on axioms: [propext, Classical.choice, Quot.sound]
'Verif.Props.C20_signed_invalid' depends on axioms: [propext, Quot.sound]
'Verif.Props.C21_all' depends on axioms: [propext, Classical.choice, Quot.sound]
'Verif.Props.C21_msb' depends on axioms: [propext, Classical.choice, Quot.sound]
'Verif.Props.C21_unsigned' depends on axioms: [propext, Classical.choice, Quot.sound]
'Verif.Props.C21_signed' depends on axioms: [propext, Classical.choice, Quot.sound]
'Verif.Props.C21_signed_msb' depends on axioms: [propext, Classical.choice, Quot.sound]
'Verif.Props.C22_counts' depends on axioms: [propext, Classical.choice, Quot.sound]
'Verif.Props.C22_leading_trailing' depends on axioms: [propext, Classical.choice, Quot.sound]
'Verif.Props.C22_unsigned' depends on axioms: [propext, Classical.choice, Quot.sound]
'Verif.Props.C22_signed' depends on axioms: [propext, Classical.choice, Quot.sound]
'Verif.Props.C23_truncate' depends on axioms: [propext, Classical.choice, Quot.sound]
'Verif.Props.C23_truncate_err' depends on axioms: [propext, Quot.sound]
'Verif.Props.C24_zero_extend' depends on axioms: [propext, Classical.choice, Quot.sound]
'Verif.Props.C24_zero_extend_err' depends on axioms: [propext, Quot.sound]
'Verif.Props.C25_sign_extend' depends on axioms: [propext, Classical.choice, Quot.sound]
'Verif.Props.C25_sign_extend_err' depends on axioms: [propext, Quot.sound]
'Verif.Props.C26_resize' depends on axioms: [propext, Classical.choice, Quot.sound]
'Verif.Props.C26_round_trip' depends on axioms: [propext, Classical.choice, Quot.sound]
'Verif.Props.C26_two_steps' depends on axioms: [propext, Classical.choice, Quot.sound]
'Verif.Props.C27_unsigned' depends on axioms: [propext, Classical.choice, Quot.sound]
'Verif.Props.C27_total' depends on axioms: [propext, Classical.choice, Quot.sound]
'Verif.Props.C28_signed' depends on axioms: [propext, Classical.choice, Quot.sound]
'Verif.Props.C28_total' depends on axioms: [propext, Classical.choice, Quot.sound]
'Verif.Props.C29_signed_partial_cmp' depends on axioms: [propext, Classical.choice, Quot.sound]
'Verif.Props.C29_signed_operators' depends on axioms: [propext, Classical.choice, Quot.sound]
'Verif.Props.C29_signed_agree' depends on axioms: [propext, Classical.choice, Quot.sound]
'Verif.Props.C29_unsigned_partial_cmp' depends on axioms: [propext, Classical.choice, Quot.sound]
'Verif.Props.C29_unsigned_operators' depends on axioms: [propext, Classical.choice, Quot.sound]
'Verif.Props.C29_unsigned_agree' depends on axioms: [propext, Classical.choice, Quot.sound]
'Verif.Props.C30_constants' depends on axioms: [propext, Classical.choice, Quot.sound]
'Verif.Props.C30_signed_bounds' depends on axioms: [propext, Classical.choice, Quot.sound]
'Verif.Props.C30_from_primitive' depends on axioms: [propext, Classical.choice, Quot.sound]
'Verif.Props.C30_from_signed' depends on axioms: [propext, Classical.choice, Quot.sound]
'Verif.Props.C30_from_array' depends on axioms: [propext, Classical.choice, Quot.sound]
'Verif.Props.C30_unsigned_array' depends on axioms: [propext, Classical.choice, Quot.sound]
'Verif.Props.C30_signed_array' depends on axioms: [propext, Classical.choice, Quot.sound]
'Verif.Props.C30_signed_bool' does not depend on any axioms
'Verif.Props.C31_resize_unsigned' depends on axioms: [propext, Classical.choice, Quot.sound]
'Verif.Props.C31_resize_signed' depends on axioms: [propext, Classical.choice, Quot.sound]
'Verif.Props.C31_exact' depends on axioms: [propext, Quot.sound]
'Verif.Props.C31_unsigned_wrapper' depends on axioms: [propext, Classical.choice, Quot.sound]
'Verif.Props.C31_signed_wrapper' depends on axioms: [propext, Classical.choice, Quot.sound]
'Verif.Props.C32_try_unsigned' depends on axioms: [propext, Classical.choice, Quot.sound]
'Verif.Props.C32_try_signed' depends on axioms: [propext, Classical.choice, Quot.sound]
'Verif.Props.C32_unsigned_wrapper' depends on axioms: [propext, Classical.choice, Quot.sound]
'Verif.Props.C32_signed_bool' depends on axioms: [propext, Classical.choice, Quot.sound]
'Verif.Props.C33_false_accepts' depends on axioms: [propext, Quot.sound]
'Verif.Props.C33_false_rejects' depends on axioms: [propext, Quot.sound]
'Verif.Props.C33_try_signed_partial' depends on axioms: [propext, Classical.choice, Quot.sound]
'Verif.Props.C33_wrong' depends on axioms: [propext, Classical.choice, Quot.sound]
'Verif.Props.C34_unsigned_round_trip' depends on axioms: [propext, Classical.choice, Quot.sound]
'Verif.Props.C34_bool_round_trip' depends on axioms: [propext, Classical.choice, Quot.sound]
'Verif.Props.C34_signed_round_trip' depends on axioms: [propext, Classical.choice, Quot.sound]
'Verif.Props.C35_zero_parity' depends on axioms: [propext, Classical.choice, Quot.sound]
'Verif.Props.C35_sign' depends on axioms: [propext, Classical.choice, Quot.sound]
'Verif.Props.C35_wrappers' depends on axioms: [propext, Classical.choice, Quot.sound]
'Verif.Props.C36_false' does not depend on any axioms
'Verif.Props.C36_is_one_partial' depends on axioms: [propext, Quot.sound]
'Verif.Props.C36_wide' depends on axioms: [propext, Quot.sound]
'Verif.Props.C36_unsigned_partial' depends on axioms: [propext, Quot.sound]
'Verif.Props.C36_unsigned_wide' depends on axioms: [propext, Quot.sound]
'Verif.Props.C37_false' depends on axioms: [propext, Quot.sound]
'Verif.Props.C37_is_all_set_partial' depends on axioms: [propext, Classical.choice, Quot.sound]
'Verif.Props.C37_aligned' depends on axioms: [propext, Classical.choice, Quot.sound]
'Verif.Props.C37_unsigned_partial' depends on axioms: [propext, Classical.choice, Quot.sound]
'Verif.Props.C37_unsigned_aligned' depends on axioms: [propext, Classical.choice, Quot.sound]
'Verif.Props.C37_signed_partial' depends on axioms: [propext, Classical.choice, Quot.sound]
'Verif.Props.C37_signed_aligned' depends on axioms: [propext, Classical.choice, Quot.sound]
'Verif.Props.C38_abs' depends on axioms: [propext, Classical.choice, Quot.sound]
'Verif.Props.C39_parse_pow2' depends on axioms: [propext, Classical.choice, Quot.sound]
'Verif.Props.C39_no_panic' depends on axioms: [propext, Classical.choice, Quot.sound]
'Verif.Props.C40_error_iff' depends on axioms: [propext, Classical.choice, Quot.sound]
'Verif.Props.C41_behaviour' depends on axioms: [propext, Classical.choice, Quot.sound]
'Verif.Props.C41_parse_partial' depends on axioms: [propext, Classical.choice, Quot.sound]
'Verif.Props.C41_correct_iff' depends on axioms: [propext, Classical.choice, Quot.sound]
'Verif.Props.C41_false' depends on axioms: [propext, Classical.choice, Quot.sound]
'Verif.Props.C42_format' depends on axioms: [propext, Classical.choice, Quot.sound]
'Verif.Props.C42_injective' depends on axioms: [propext, Classical.choice, Quot.sound]
'Verif.Props.C42_unimplemented' depends on axioms: [propext, Quot.sound]
'Verif.Props.C42_wrappers' depends on axioms: [propext, Classical.choice, Quot.sound]
'Verif.Props.C42_unsigned_octal' depends on axioms: [propext, Quot.sound]
'Verif.Props.C42_signed_octal' depends on axioms: [propext, Quot.sound]
'Verif.Props.C43_round_trip' depends on axioms: [propext, Classical.choice, Quot.sound]
'Verif.Props.C43_normalises' depends on axioms: [propext, Classical.choice, Quot.sound]
'Verif.Props.C44_radix' depends on axioms: [propext, Classical.choice, Quot.sound]
'Verif.Props.C44_bitwidth' depends on axioms: [propext, Quot.sound]
'Verif.Props.C44_base_table' depends on axioms: [propext, Classical.choice, Quot.sound]
'Verif.Props.C44_bits_per_digit' depends on axioms: [propext, Classical.choice, Quot.sound]
'Verif.Props.C45_assign' depends on axioms: [propext, Classical.choice, Quot.sound]
'Verif.Props.C45_unsigned' depends on axioms: [propext, Classical.choice, Quot.sound]
'Verif.Props.C45_signed' depends on axioms: [propext, Classical.choice, Quot.sound]
'Verif.Props.C46_random' depends on axioms: [propext, Classical.choice, Quot.sound]
'Verif.Props.C46_randomize' depends on axioms: [propext, Classical.choice, Quot.sound]
'Verif.Props.C46_uniform' depends on axioms: [propext, Classical.choice, Quot.sound]
'Verif.Props.C46_unsigned' depends on axioms: [propext, Classical.choice, Quot.sound]
'Verif.Props.C46_signed' depends on axioms: [propext, Classical.choice, Quot.sound]
'Verif.Props.C47_serialized' depends on axioms: [propext, Quot.sound]
'Verif.Props.C47_round_trip' depends on axioms: [propext, Classical.choice, Quot.sound]
'Verif.Props.C47_accepted' depends on axioms: [propext, Classical.choice, Quot.sound]
'Verif.Props.C47_accepts_iff' depends on axioms: [propext, Classical.choice, Quot.sound]
'Verif.Props.C47_field_order' depends on axioms: [propext, Classical.choice, Quot.sound]
'Verif.Props.C47_fields' depends on axioms: [propext, Classical.choice, Quot.sound]
'Verif.Props.C47_field_errors' depends on axioms: [propext, Classical.choice, Quot.sound]
'Verif.Props.C47_panics_iff' depends on axioms: [propext, Classical.choice, Quot.sound]
'Verif.Props.C48_apint_operators' depends on axioms: [propext, Quot.sound]
'Verif.Props.C48_unsigned_operators' depends on axioms: [propext, Quot.sound]
'Verif.Props.C48_signed_operators' depends on axioms: [propext, Quot.sound]
'Verif.Props.C48_apint_failures' depends on axioms: [propext, Quot.sound]
'Verif.Props.C48_signed_mismatch' depends on axioms: [propext, Classical.choice, Quot.sound]
'Verif.Props.C48_signed_div_shift' depends on axioms: [propext, Classical.choice, Quot.sound]
'Verif.Props.C48_unsigned_mismatch' depends on axioms: [propext, Quot.sound]
'Verif.Props.C48_unsigned_div_shift' depends on axioms: [propext, Classical.choice, Quot.sound]
'Verif.Props.C49_signed_arith' depends on axioms: [propext, Classical.choice, Quot.sound]
'Verif.Props.C49_signed_neg' depends on axioms: [propext, Classical.choice, Quot.sound]
'Verif.Props.C49_signed_div' depends on axioms: [propext, Classical.choice, Quot.sound]
'Verif.Props.C49_signed_shift' depends on axioms: [propext, Classical.choice, Quot.sound]
'Verif.Props.C49_signed_width' depends on axioms: [propext, Classical.choice, Quot.sound]
'Verif.Props.C49_signed_compare' depends on axioms: [propext, Classical.choice, Quot.sound]
'Verif.Props.C49_signed_construct' depends on axioms: [propext, Classical.choice, Quot.sound]
'Verif.Props.C49_signed_bitwise' depends on axioms: [propext, Classical.choice, Quot.sound]
'Verif.Props.C49_conversions' does not depend on any axioms
'Verif.Props.C49_unsigned_arith' depends on axioms: [propext, Classical.choice, Quot.sound]
'Verif.Props.C49_unsigned_neg' depends on axioms: [propext, Classical.choice, Quot.sound]
'Verif.Props.C49_unsigned_div' depends on axioms: [propext, Classical.choice, Quot.sound]
'Verif.Props.C49_unsigned_shift' depends on axioms: [propext, Classical.choice, Quot.sound]
'Verif.Props.C49_unsigned_width' depends on axioms: [propext, Classical.choice, Quot.sound]
'Verif.Props.C49_unsigned_compare' depends on axioms: [propext, Classical.choice, Quot.sound]
'Verif.Props.C49_unsigned_construct' depends on axioms: [propext, Classical.choice, Quot.sound]
'Verif.Props.C49_unsigned_bitwise' depends on axioms: [propext, Classical.choice, Quot.sound]
'Verif.Props.C50_one' depends on axioms: [propext, Classical.choice, Quot.sound]
'Verif.Props.C50_is_one' depends on axioms: [propext, Classical.choice, Quot.sound]
'Verif.Props.C50_is_one_wide' depends on axioms: [propext, Quot.sound]
'Verif.Props.C51_overflowing' depends on axioms: [propext, Classical.choice, Quot.sound]
'Verif.Props.C51_calls' depends on axioms: [propext, Classical.choice, Quot.sound]
'Verif.Props.C51_program' depends on axioms: [propext, Classical.choice, Quot.sound]
'Verif.Props.C51_others' depends on axioms: [propext, Classical.choice, Quot.sound]
'Verif.Props.C52_carrying' depends on axioms: [propext, Quot.sound]
'Verif.Props.C52_wrapping' depends on axioms: [propext, Quot.sound]
'Verif.Props.C52_divrem' depends on axioms: [propext]
'Verif.Props.C52_split_join' depends on axioms: [propext, Quot.sound]
'Verif.Props.C52_double_word' depends on axioms: [propext, Classical.choice, Quot.sound]
'Verif.Props.C52_bits' depends on axioms: [propext, Classical.choice, Quot.sound]
'Verif.Props.C52_whole_word' depends on axioms: [propext, Classical.choice, Quot.sound]
'Verif.Props.C52_shifts' depends on axioms: [propext]
'Verif.Props.C52_truncate' depends on axioms: [propext, Classical.choice, Quot.sound]
'Verif.Props.C52_sign_extend' depends on axioms: [propext, Classical.choice, Quot.sound]
'Verif.Props.C53_no_bad_access' depends on axioms: [propext, Classical.choice, Quot.sound]
'Verif.Props.C53_freed_once' depends on axioms: [propext, Classical.choice, Quot.sound]
'Verif.Props.C53_live' depends on axioms: [propext, Classical.choice, Quot.sound]
'Verif.Props.C53_storage' depends on axioms: [propext, Classical.choice, Quot.sound]
'Verif.Props.C53_not_shared' depends on axioms: [propext, Classical.choice, Quot.sound]
'Verif.Props.C53_nothing_left' depends on axioms: [propext, Classical.choice, Quot.sound]
'Verif.Props.C53_same_as_values' depends on axioms: [propext, Classical.choice, Quot.sound]
'Verif.Props.C54_false' depends on axioms: [propext, Quot.sound]
'Verif.Props.C54_behaviour' depends on axioms: [propext, Classical.choice, Quot.sound]
'Verif.Props.C54_uadd_partial' depends on axioms: [propext, Classical.choice, Quot.sound]
'Verif.Props.C54_correct_iff' depends on axioms: [propext, Classical.choice, Quot.sound]
'Verif.Props.C55_sadd' depends on axioms: [propext, Classical.choice, Quot.sound]
'Verif.Props.C55_mismatch' depends on axioms: [propext, Classical.choice, Quot.sound]
'Verif.Props.C56_eval' depends on axioms: [propext, Classical.choice, Quot.sound]
'Verif.Props.C56_bijection' depends on axioms: [propext, Classical.choice, Quot.sound]
'Verif.Props.C56_identity' depends on axioms: [propext, Classical.choice, Quot.sound]
'Verif.Props.C57_boolean_algebra' depends on axioms: [propext, Classical.choice, Quot.sound]
'Verif.Props.C57_links' depends on axioms: [propext, Classical.choice, Quot.sound]
'Verif.Props.C58_compose' depends on axioms: [propext, Classical.choice, Quot.sound]
'Verif.Props.C58_powers' depends on axioms: [propext, Classical.choice, Quot.sound]
'Verif.Props.C58_distribute' depends on axioms: [propext, Classical.choice, Quot.sound]
'Verif.Props.C58_sign' depends on axioms: [propext, Classical.choice, Quot.sound]
'Verif.Props.C59_truncate' depends on axioms: [propext, Classical.choice, Quot.sound]
'Verif.Props.C59_compose' depends on axioms: [propext, Classical.choice, Quot.sound]
'Verif.Props.C59_shifts' depends on axioms: [propext, Classical.choice, Quot.sound]
'Verif.Props.C59_widen_unsigned' depends on axioms: [propext, Classical.choice, Quot.sound]
'Verif.Props.C59_widen_signed' depends on axioms: [propext, Classical.choice, Quot.sound]
'Verif.Props.C59_extend' depends on axioms: [propext, Classical.choice, Quot.sound]
'Verif.Props.C60_compare' depends on axioms: [propext, Classical.choice, Quot.sound]
'Verif.Props.C60_overflow' depends on axioms: [propext, Classical.choice, Quot.sound]
'Verif.Props.C61_recompose' depends on axioms: [propext, Classical.choice, Quot.sound]
'Verif.Props.C61_units' depends on axioms: [propext, Classical.choice, Quot.sound]
'Verif.Props.C61_signed' depends on axioms: [propext, Classical.choice, Quot.sound]
'Verif.Props.C61_twice' depends on axioms: [propext, Classical.choice, Quot.sound]
'Verif.Props.C62_rounds' depends on axioms: [propext, Classical.choice, Quot.sound]
'Verif.Props.C62_enough' depends on axioms: [propext, Classical.choice, Quot.sound]
'Verif.Props.C63_client' depends on axioms: [propext, Classical.choice, Quot.sound]
'Verif.Props.C63_same_code' depends on axioms: [propext, Quot.sound]
'Verif.Props.C63_panic_unchanged' depends on axioms: [propext, Classical.choice, Quot.sound]
'Verif.Props.C63_panic_division' depends on axioms: [propext, Classical.choice, Quot.sound]
'Verif.Props.C63_panic_division_pair' depends on axioms: [propext, Classical.choice, Quot.sound]
'Verif.Props.C63_reachable' depends on axioms: [propext, Classical.choice, Quot.sound]
'Verif.Props.C64_unwinding' depends on axioms: [propext, Classical.choice, Quot.sound]
'Verif.Props.C64_client' depends on axioms: [propext, Classical.choice, Quot.sound]
'Verif.Props.C65_no_bad_access' depends on axioms: [propext, Classical.choice, Quot.sound]
'Verif.Props.C65_no_race' depends on axioms: [propext, Classical.choice, Quot.sound]
'Verif.Props.C65_lent_unchanged' depends on axioms: [propext, Classical.choice, Quot.sound]
'Verif.Props.C65_freed_once' depends on axioms: [propext, Classical.choice, Quot.sound]
'Verif.Props.C65_live' depends on axioms: [propext, Classical.choice, Quot.sound]
'Verif.Props.C66_atomic' depends on axioms: [propext, Classical.choice, Quot.sound]
'Verif.Props.C66_progress' depends on axioms: [propext, Classical.choice, Quot.sound]
'Verif.Props.C66_wait_free' does not depend on any axioms
'Verif.Props.C67_in_place' depends on axioms: [propext, Classical.choice, Quot.sound]
'Verif.Props.C67_same_buffer' depends on axioms: [propext, Classical.choice, Quot.sound]
'Verif.Props.C67_small' depends on axioms: [propext, Classical.choice, Quot.sound]
'Verif.Props.C67_small_program' depends on axioms: [propext, Classical.choice, Quot.sound]
'Verif.Props.C67_footprint' depends on axioms: [propext, Classical.choice, Quot.sound]
'Verif.Props.C68_same_digits' depends on axioms: [propext, Quot.sound]
'Verif.Props.C68_underscores' depends on axioms: [propext, Quot.sound]
'Verif.Props.C68_case' depends on axioms: [propext, Quot.sound]
'Verif.Props.C68_leading_zeros' depends on axioms: [propext, Classical.choice, Quot.sound]
'Verif.Props.C68_length' depends on axioms: [propext, Classical.choice, Quot.sound]
'Verif.Props.C68_order' depends on axioms: [propext, Classical.choice, Quot.sound]
'Verif.Props.C69_call' depends on axioms: [propext, Classical.choice, Quot.sound]
'Verif.Props.C69_program' depends on axioms: [propext, Classical.choice, Quot.sound]
'Verif.Props.C69_faithful' depends on axioms: [propext, Classical.choice, Quot.sound]
'Verif.Props.C69_no_bad_access' depends on axioms: [propext, Classical.choice, Quot.sound]
'Verif.Props.C69_exact' depends on axioms: [propext, Classical.choice, Quot.sound]
'Verif.Props.C69_panics' depends on axioms: [propext, Classical.choice, Quot.sound]
'Verif.Props.C70_assertion' depends on axioms: [propext, Classical.choice, Quot.sound]
'Verif.Props.C70_identities' depends on axioms: [propext, Classical.choice, Quot.sound]
'Verif.Props.C70_fuzz_random' depends on axioms: [propext, Classical.choice, Quot.sound]
'Verif.Props.C70_edges' depends on axioms: [propext, Classical.choice, Quot.sound]
'Verif.Props.C70_fuzz_edge' depends on axioms: [propext, Classical.choice, Quot.sound]
'Verif.Props.C70_nines' depends on axioms: [propext, Classical.choice, Quot.sound]
'Verif.Props.C70_shifted_product' depends on axioms: [propext, Classical.choice, Quot.sound]
'Verif.Props.C70_shifted_quotient' depends on axioms: [propext, Classical.choice, Quot.sound]
'Verif.Props.C70_negation' depends on axioms: [propext, Classical.choice, Quot.sound]
'Verif.Props.C71_and_or_xor' depends on axioms: [propext, Classical.choice, Quot.sound]
'Verif.Props.C71_not' depends on axioms: [propext, Classical.choice, Quot.sound]
'Verif.Props.C71_extremes' depends on axioms: [propext, Classical.choice, Quot.sound]
'Verif.Props.C71_arith' depends on axioms: [propext, Classical.choice, Quot.sound]
'Verif.Props.C71_clear_lowest' depends on axioms: [propext, Classical.choice, Quot.sound]
'Verif.Props.C71_leading_bound' depends on axioms: [propext, Classical.choice, Quot.sound]
'Verif.Props.C71_leading_order' depends on axioms: [propext, Classical.choice, Quot.sound]
'Verif.Props.C71_trailing_divides' depends on axioms: [propext, Quot.sound]
'Verif.Props.C71_trailing_mul' depends on axioms: [propext, Classical.choice, Quot.sound]
'Verif.Props.C71_lowest' depends on axioms: [propext, Classical.choice, Quot.sound]
'Verif.Props.C71_shifts' depends on axioms: [propext, Classical.choice, Quot.sound]
'Verif.Props.C71_zero_extend' depends on axioms: [propext, Classical.choice, Quot.sound]
'Verif.Props.C71_sign_extend' depends on axioms: [propext, Classical.choice, Quot.sound]
'Verif.C72_multiplication' depends on axioms: [propext, Classical.choice, Quot.sound]
'Verif.C72_unsigned_both' depends on axioms: [propext, Classical.choice, Quot.sound]
'Verif.C72_unsigned_one' depends on axioms: [propext, Classical.choice, Quot.sound]
'Verif.C72_signed_both' depends on axioms: [propext, Classical.choice, Quot.sound]
'Verif.C72_signed_one' depends on axioms: [propext, Classical.choice, Quot.sound]
'Verif.C72_mismatch' depends on axioms: [propext, Quot.sound]
'Verif.C72_linear' depends on axioms: [propext, Classical.choice, Quot.sound]
'Verif.C73_multiplication' depends on axioms: [propext, Classical.choice, Quot.sound]
'Verif.C73_division_partial' depends on axioms: [propext, Classical.choice, Quot.sound]
'Verif.C73_quotient_one' depends on axioms: [propext, Quot.sound]
'Verif.C73_always_copied' depends on axioms: [propext, Classical.choice, Quot.sound]
'Verif.Props.C74_calls' depends on axioms: [propext, Classical.choice, Quot.sound]
'Verif.Props.C74_program' depends on axioms: [propext, Classical.choice, Quot.sound]
'Verif.Props.C74_typed' depends on axioms: [propext, Classical.choice, Quot.sound]
'Verif.Props.C74_client' depends on axioms: [propext, Classical.choice, Quot.sound]
'Verif.Props.C74_heap' depends on axioms: [propext, Classical.choice, Quot.sound]
'Verif.Props.C74_others' depends on axioms: [propext, Classical.choice, Quot.sound]
'Verif.Props.C75_same_as_values' depends on axioms: [propext, Classical.choice, Quot.sound]
'Verif.Props.C75_reachable' depends on axioms: [propext, Classical.choice, Quot.sound]
'Verif.Props.C75_live' depends on axioms: [propext, Classical.choice, Quot.sound]
'Verif.Props.C75_storage' depends on axioms: [propext, Classical.choice, Quot.sound]
'Verif.Props.C75_not_shared' depends on axioms: [propext, Classical.choice, Quot.sound]
'Verif.Props.C75_freed' depends on axioms: [propext, Classical.choice, Quot.sound]
'Verif.Props.C75_kept' depends on axioms: [propext, Classical.choice, Quot.sound]
'Verif.Props.C75_number' depends on axioms: [propext, Classical.choice, Quot.sound]
'Verif.Props.C76_debug_text' depends on axioms: [propext, Classical.choice, Quot.sound]
'Verif.Props.C76_wrappers' depends on axioms: [propext, Classical.choice, Quot.sound]
'Verif.Props.C76_injective' depends on axioms: [propext, Classical.choice, Quot.sound]
'Verif.Props.C76_prefix_free' depends on axioms: [propext, Classical.choice, Quot.sound]
'Verif.Props.C77_same_calls' depends on axioms: [propext, Classical.choice, Quot.sound]
'Verif.Props.C77_message' depends on axioms: [propext, Classical.choice, Quot.sound]
'Verif.Props.C77_annotation' depends on axioms: [propext, Classical.choice, Quot.sound]
'Verif.Props.C77_message_tells' depends on axioms: [propext, Classical.choice, Quot.sound]
'Verif.Props.C77_owned' depends on axioms: [propext, Classical.choice, Quot.sound]
'Verif.Props.C77_owned_equal' depends on axioms: [propext, Classical.choice, Quot.sound]
'Verif.Props.C77_comparison_operands' depends on axioms: [propext, Classical.choice, Quot.sound]
'Verif.Props.C77_display' depends on axioms: [propext, Classical.choice, Quot.sound]
'Verif.Props.C77_invalid_numbers' depends on axioms: [propext, Classical.choice, Quot.sound]
'Verif.Props.C78_same_errors' depends on axioms: [propext, Classical.choice, Quot.sound]
'Verif.Props.C78_note' depends on axioms: [propext, Classical.choice, Quot.sound]
'Verif.Props.C78_first_invalid' depends on axioms: [propext, Classical.choice, Quot.sound]
'Verif.Props.C78_first_invalid_ascii_partial' depends on axioms: [propext, Classical.choice, Quot.sound]
'Verif.Props.C78_other_character' depends on axioms: [propext, Quot.sound]
'Verif.Props.C78_counterexample' depends on axioms: [propext, Classical.choice, Quot.sound]
'Verif.Props.C79_limit' depends on axioms: [propext, Classical.choice, Quot.sound]
'Verif.Props.C79_call' depends on axioms: [propext, Classical.choice, Quot.sound]
'Verif.Props.C79_program' depends on axioms: [propext, Classical.choice, Quot.sound]
'Verif.Props.C80_call' depends on axioms: [propext, Classical.choice, Quot.sound]
'Verif.Props.C80_release' depends on axioms: [propext, Classical.choice, Quot.sound]
'Verif.Props.C80_program' depends on axioms: [propext, Classical.choice, Quot.sound]
'Verif.Props.C80_modest' depends on axioms: [propext, Classical.choice, Quot.sound]
'Verif.Props.C81_accepted_partial' depends on axioms: [propext, Classical.choice, Quot.sound]
'Verif.Props.C81_cut' depends on axioms: [propext, Quot.sound]
'Verif.Props.C81_wide_words' depends on axioms: [propext, Classical.choice, Quot.sound]
'Verif.Props.C81_round_trip' depends on axioms: [propext, Classical.choice, Quot.sound]
'Verif.Props.C82_same_code' depends on axioms: [propext, Classical.choice, Quot.sound]
'Verif.Props.C82_call' depends on axioms: [propext, Classical.choice, Quot.sound]
'Verif.Props.C82_panic' depends on axioms: [propext, Classical.choice, Quot.sound]
'Verif.Props.C82_client' depends on axioms: [propext, Classical.choice, Quot.sound]
'Verif.Props.C82_memory' depends on axioms: [propext, Classical.choice, Quot.sound]
'Verif.Props.C83_no_bad_access' depends on axioms: [propext, Classical.choice, Quot.sound]
'Verif.Props.C83_no_race' depends on axioms: [propext, Classical.choice, Quot.sound]
'Verif.Props.C83_shared_unchanged' depends on axioms: [propext, Classical.choice, Quot.sound]
'Verif.Props.C83_freed_once' depends on axioms: [propext, Classical.choice, Quot.sound]
'Verif.Props.C83_live' depends on axioms: [propext, Classical.choice, Quot.sound]
'Verif.Props.C83_atomic' depends on axioms: [propext, Classical.choice, Quot.sound]
'Verif.Props.C83_completes' depends on axioms: [propext, Classical.choice, Quot.sound]
'Verif.Props.C83_alone' depends on axioms: [propext, Classical.choice, Quot.sound]
'Verif.Props.C84_limit' depends on axioms: [propext, Classical.choice, Quot.sound]
'Verif.Props.C84_call' depends on axioms: [propext, Classical.choice, Quot.sound]
'Verif.Props.C84_debug' depends on axioms: [propext, Classical.choice, Quot.sound]
'Verif.Props.C84_program' depends on axioms: [propext, Classical.choice, Quot.sound]
'Verif.Props.C84_release' depends on axioms: [propext, Classical.choice, Quot.sound]
'Verif.Props.C84_builds' depends on axioms: [propext, Classical.choice, Quot.sound]
'Verif.Props.C84_modest' depends on axioms: [propext, Classical.choice, Quot.sound]
'Verif.Props.C84_negative' depends on axioms: [propext, Classical.choice, Quot.sound]
'Verif.Props.C85_integer' depends on axioms: [propext, Classical.choice, Quot.sound]
'Verif.Props.C85_typed' depends on axioms: [propext, Classical.choice, Quot.sound]
'Verif.Props.C85_sequences' depends on axioms: [propext, Classical.choice, Quot.sound]
'Verif.Props.C85_errors' depends on axioms: [propext, Classical.choice, Quot.sound]
'Verif.Props.C85_table' depends on axioms: [propext, Classical.choice, Quot.sound]
'Verif.Props.C85_table_uint' depends on axioms: [propext, Classical.choice, Quot.sound]
'Verif.Props.C85_table_int' depends on axioms: [propext, Classical.choice, Quot.sound]
'Verif.Props.C85_table_error' depends on axioms: [propext, Classical.choice, Quot.sound]
'Verif.Props.C86_no_bad_access' depends on axioms: [propext, Classical.choice, Quot.sound]
'Verif.Props.C86_no_race' depends on axioms: [propext, Classical.choice, Quot.sound]
'Verif.Props.C86_shared_unchanged' depends on axioms: [propext, Classical.choice, Quot.sound]
'Verif.Props.C86_freed_once' depends on axioms: [propext, Classical.choice, Quot.sound]
'Verif.Props.C86_live' depends on axioms: [propext, Classical.choice, Quot.sound]
'Verif.Props.C86_atomic' depends on axioms: [propext, Classical.choice, Quot.sound]
'Verif.Props.C86_completes' depends on axioms: [propext, Classical.choice, Quot.sound]
'Verif.Props.C86_alone' depends on axioms: [propext, Classical.choice, Quot.sound]
'Verif.Props.C87_gcd' depends on axioms: [propext, Classical.choice, Quot.sound]
'Verif.Props.C87_pow' depends on axioms: [propext, Classical.choice, Quot.sound]
'Verif.Props.C87_mul_mod' depends on axioms: [propext, Classical.choice, Quot.sound]
'Verif.Props.C87_pow_mod' depends on axioms: [propext, Classical.choice, Quot.sound]
'Verif.Props.C87_decimal' depends on axioms: [propext, Classical.choice, Quot.sound]
'Verif.Props.C87_signed_decimal' depends on axioms: [propext, Classical.choice, Quot.sound]
'Verif.Props.C87_parse' depends on axioms: [propext, Classical.choice, Quot.sound]
'Verif.Props.C87_decimal_round_trip' depends on axioms: [propext, Classical.choice, Quot.sound]
'Verif.Props.C87_sqrt' depends on axioms: [propext, Classical.choice, Quot.sound]
'Verif.Props.C87_inverse' depends on axioms: [propext, Classical.choice, Quot.sound]
'Verif.Props.C87_add_or_none' depends on axioms: [propext, Classical.choice, Quot.sound]
'Verif.Props.C87_sub_or_none' depends on axioms: [propext, Classical.choice, Quot.sound]
'Verif.Props.C87_mul_or_none' depends on axioms: [propext, Classical.choice, Quot.sound]
'Verif.Props.C87_signed_add_or_none' depends on axioms: [propext, Classical.choice, Quot.sound]
'Verif.Props.C87_wide_mul' depends on axioms: [propext, Classical.choice, Quot.sound]
'Verif.Props.C87_sort' depends on axioms: [propext, Classical.choice, Quot.sound]
'Verif.Props.C87_signed_sort' depends on axioms: [propext, Classical.choice, Quot.sound]
'Verif.C88_multiplication' depends on axioms: [propext, Classical.choice, Quot.sound]
'Verif.C88_unsigned_division' depends on axioms: [propext, Classical.choice, Quot.sound]
'Verif.C88_signed_division' depends on axioms: [propext, Classical.choice, Quot.sound]
'Verif.C88_quadratic' depends on axioms: [propext, Classical.choice, Quot.sound]
'Verif.C88_close' depends on axioms: [propext, Classical.choice, Quot.sound]
'Verif.C89_quiet' depends on axioms: [propext, Classical.choice, Quot.sound]
'Verif.C89_same_programs' depends on axioms: [propext, Quot.sound]
'Verif.C89_same_calls' depends on axioms: [propext, Quot.sound]
'Verif.C89_inc' depends on axioms: [propext, Classical.choice, Quot.sound]
'Verif.C89_dec' depends on axioms: [propext, Classical.choice, Quot.sound]
'Verif.C89_neg' depends on axioms: [propext, Classical.choice, Quot.sound]
'Verif.C89_is_zero' depends on axioms: [propext, Classical.choice, Quot.sound]
'Verif.C89_ult' depends on axioms: [propext, Classical.choice, Quot.sound]
'Verif.C89_sign' depends on axioms: [propext, Classical.choice, Quot.sound]
'Verif.C89_one_digit' depends on axioms: [propext, Classical.choice, Quot.sound]
'Verif.C89_products_show' depends on axioms: [propext, Quot.sound]
'Verif.C89_every_call' depends on axioms: [propext, Quot.sound]
'Verif.C90_programs' depends on axioms: [propext, Classical.choice, Quot.sound]
'Verif.C90_add_sub' depends on axioms: [propext, Quot.sound]
'Verif.C90_shifts' depends on axioms: [propext, Classical.choice, Quot.sound]
'Verif.C90_inc_dec_neg' depends on axioms: [propext, Classical.choice, Quot.sound]
'Verif.C90_tests' depends on axioms: [propext, Quot.sound]
'Verif.C90_casts' depends on axioms: [propext, Classical.choice, Quot.sound]
'Verif.C90_copies' depends on axioms: [propext, Classical.choice, Quot.sound]
'Verif.Props.C91_same_calls' depends on axioms: [propext, Classical.choice, Quot.sound]
'Verif.Props.C91_same_typed_calls' depends on axioms: [propext, Classical.choice, Quot.sound]
'Verif.Props.C91_message' depends on axioms: [propext, Classical.choice, Quot.sound]
'Verif.Props.C91_typed_message' depends on axioms: [propext, Classical.choice, Quot.sound]
'Verif.Props.C91_tells' depends on axioms: [propext, Classical.choice, Quot.sound]
'Verif.Props.C91_typed_tells' depends on axioms: [propext, Classical.choice, Quot.sound]
'Verif.Props.C91_operator' depends on axioms: [propext, Classical.choice, Quot.sound]
'Verif.C92_parse_pow2' depends on axioms: [propext, Classical.choice, Quot.sound]
'Verif.C92_parse_other' depends on axioms: [propext, Classical.choice, Quot.sound]
'Verif.C92_parse_rejected' depends on axioms: [propext, Classical.choice, Quot.sound]
'Verif.C92_print' depends on axioms: [propext, Classical.choice, Quot.sound]
'Verif.Props.C93_same_calls' depends on axioms: [propext, Classical.choice, Quot.sound]
'Verif.Props.C93_texts' depends on axioms: [propext, Classical.choice, Quot.sound]
'Verif.Props.C93_parse' depends on axioms: [propext, Classical.choice, Quot.sound]
'Verif.Props.C93_message_tells' depends on axioms: [propext, Classical.choice, Quot.sound]
'Verif.Props.C93_owned_equal' depends on axioms: [propext, Classical.choice, Quot.sound]
'Verif.Props.C93_comparison_operands' depends on axioms: [propext, Classical.choice, Quot.sound]
'Verif.Props.C93_display' depends on axioms: [propext, Classical.choice, Quot.sound]
'Verif.Props.C94_prints' depends on axioms: [propext, Classical.choice, Quot.sound]
'Verif.Props.C94_typed' depends on axioms: [propext, Classical.choice, Quot.sound]
'Verif.Props.C94_flags' depends on axioms: [propext]
'Verif.Props.C94_unlike_u64' depends on axioms: [propext, Classical.choice, Quot.sound]
'Verif.Props.C94_string' depends on axioms: [propext, Classical.choice, Quot.sound]
'Verif.Props.C94_buffer' depends on axioms: [propext, Classical.choice, Quot.sound]
'Verif.Props.C94_broken' depends on axioms: [propext, Classical.choice, Quot.sound]
'Verif.Props.C94_octal' depends on axioms: [propext, Quot.sound]
'Verif.C95_call' depends on axioms: [propext, Classical.choice, Quot.sound]
'Verif.C95_widths' depends on axioms: [propext, Classical.choice, Quot.sound]
'Verif.C95_program' depends on axioms: [propext, Classical.choice, Quot.sound]
'Verif.C95_quadratic' depends on axioms: [propext, Classical.choice, Quot.sound]
'Verif.C95_linear' depends on axioms: [propext, Classical.choice, Quot.sound]
'Verif.C95_every_call' depends on axioms: [propext, Quot.sound]
'Verif.C96_same_calls' depends on axioms: [propext, Quot.sound]
'Verif.C96_eq' depends on axioms: [propext, Classical.choice, Quot.sound]
'Verif.C96_slt' depends on axioms: [propext, Classical.choice, Quot.sound]
'Verif.C96_orders' depends on axioms: [propext, Quot.sound]
'Verif.C96_leading_zeros' depends on axioms: [propext, Classical.choice, Quot.sound]
'Verif.C96_trailing_zeros' depends on axioms: [propext, Classical.choice, Quot.sound]
'Verif.C96_is_one' depends on axioms: [propext, Classical.choice, Quot.sound]
'Verif.C96_is_all_set' depends on axioms: [propext, Classical.choice, Quot.sound]
'Verif.C96_sign_resize' depends on axioms: [propext, Classical.choice, Quot.sound]
'Verif.C96_nothing' depends on axioms: [propext, Classical.choice, Quot.sound]
'Verif.C96_same_programs' depends on axioms: [propext, Classical.choice, Quot.sound]
'Verif.C96_program' depends on axioms: [propext, Classical.choice, Quot.sound]
'Verif.C96_every_call' depends on axioms: [propext, Quot.sound]
'Verif.C97_call' depends on axioms: [propext, Classical.choice, Quot.sound]
'Verif.C97_widths' depends on axioms: [propext, Classical.choice, Quot.sound]
'Verif.C97_program' depends on axioms: [propext, Classical.choice, Quot.sound]
'Verif.C97_quadratic' depends on axioms: [propext, Classical.choice, Quot.sound]
'Verif.C97_linear' depends on axioms: [propext, Classical.choice, Quot.sound]
'Verif.C97_every_call' depends on axioms: [propext, Quot.sound]
'Verif.C98_same_calls' depends on axioms: [propext, Quot.sound]
'Verif.C98_abs' depends on axioms: [propext, Classical.choice, Quot.sound]
'Verif.C98_signum' depends on axioms: [propext, Classical.choice, Quot.sound]
'Verif.C98_uint_order' depends on axioms: [propext, Classical.choice, Quot.sound]
'Verif.C98_int_order' depends on axioms: [propext, Classical.choice, Quot.sound]
'Verif.C98_no_order' depends on axioms: [propext, Quot.sound]
'Verif.C98_order_shows_more' depends on axioms: [propext, Quot.sound]
'Verif.C99_same_calls' depends on axioms: [propext, Classical.choice, Quot.sound]
'Verif.C99_narrow' depends on axioms: [propext, Classical.choice, Quot.sound]
'Verif.C99_fits' depends on axioms: [propext, Classical.choice, Quot.sound]
'Verif.C99_bool' depends on axioms: [propext, Classical.choice, Quot.sound]
'Verif.C99_wide' depends on axioms: [propext, Classical.choice, Quot.sound]
'Verif.C99_success' depends on axioms: [propext, Classical.choice, Quot.sound]
'Verif.C99_resize' depends on axioms: [propext, Classical.choice, Quot.sound]
'Verif.C99_facts' depends on axioms: [propext, Classical.choice, Quot.sound]
'Verif.C100_same_calls' depends on axioms: [propext, Quot.sound]
'Verif.C100_mul' depends on axioms: [propext, Classical.choice, Quot.sound]
'Verif.C100_small' depends on axioms: [propext, Classical.choice, Quot.sound]
'Verif.C100_refused' depends on axioms: [propext, Quot.sound]
'Verif.C100_by_zero' depends on axioms: [propext, Classical.choice, Quot.sound]
'Verif.C100_of_zero' depends on axioms: [propext, Quot.sound]
'Verif.C100_zero' depends on axioms: [propext, Classical.choice, Quot.sound]
'Verif.C100_full' depends on axioms: [propext, Classical.choice, Quot.sound]
'Verif.C100_facts' depends on axioms: [propext, Classical.choice, Quot.sound]
'Verif.C101_same_calls' depends on axioms: [propext, Quot.sound]
'Verif.C101_text' depends on axioms: [propext, Classical.choice, Quot.sound]
'Verif.C101_alike' depends on axioms: [propext, Classical.choice, Quot.sound]
'Verif.C101_small' depends on axioms: [propext, Classical.choice, Quot.sound]
'Verif.C101_full' depends on axioms: [propext, Classical.choice, Quot.sound] 
