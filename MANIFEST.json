{
 "claims": [
  {
   "property": "C01",
   "status": "proved",
   "theorems": [
    "Verif.Props.C01_invariant",
    "Verif.Props.C01_no_bad_access",
    "Verif.Props.C01_program"
   ],
   "note": ""
  },
  {
   "property": "C02",
   "status": "proved",
   "theorems": [
    "Verif.Props.C02_call",
    "Verif.Props.C02_program",
    "Verif.Props.C02_faithful"
   ],
   "note": "The abstract machine is SpecProgram.lean. is_one, is_all_set (C36, C37 refuted) and radices that are not powers of two (C41 refuted) are not among the calls."
  },
  {
   "property": "C03",
   "status": "proved",
   "theorems": [
    "Verif.Props.C03_eq",
    "Verif.Props.C03_equivalence",
    "Verif.Props.C03_hash"
   ],
   "note": ""
  },
  {
   "property": "C04",
   "status": "proved",
   "theorems": [
    "Verif.Props.C04_add",
    "Verif.Props.C04_add_signed"
   ],
   "note": ""
  },
  {
   "property": "C05",
   "status": "proved",
   "theorems": [
    "Verif.Props.C05_sub",
    "Verif.Props.C05_sub_signed"
   ],
   "note": ""
  },
  {
   "property": "C06",
   "status": "proved",
   "theorems": [
    "Verif.Props.C06_inc_dec_neg",
    "Verif.Props.C06_undo"
   ],
   "note": ""
  },
  {
   "property": "C07",
   "status": "proved",
   "theorems": [
    "Verif.Props.C07_mul",
    "Verif.Props.C07_mul_signed"
   ],
   "note": ""
  },
  {
   "property": "C08",
   "status": "proved",
   "theorems": [
    "Verif.Props.C08_comm",
    "Verif.Props.C08_assoc",
    "Verif.Props.C08_distrib",
    "Verif.Props.C08_neutral",
    "Verif.Props.C08_neg"
   ],
   "note": ""
  },
  {
   "property": "C09",
   "status": "proved",
   "theorems": [
    "Verif.Props.C09_unsigned_division",
    "Verif.Props.C09_consuming"
   ],
   "note": ""
  },
  {
   "property": "C10",
   "status": "proved",
   "theorems": [
    "Verif.Props.C10_euclid",
    "Verif.Props.C10_unique"
   ],
   "note": ""
  },
  {
   "property": "C11",
   "status": "proved",
   "theorems": [
    "Verif.Props.C11_signed_division",
    "Verif.Props.C11_signed_values",
    "Verif.Props.C11_min_by_minus_one"
   ],
   "note": ""
  },
  {
   "property": "C12",
   "status": "proved",
   "theorems": [
    "Verif.Props.C12_division_by_zero",
    "Verif.Props.C12_consuming"
   ],
   "note": ""
  },
  {
   "property": "C13",
   "status": "proved",
   "theorems": [
    "Verif.Props.C13_in_place",
    "Verif.Props.C13_consuming",
    "Verif.Props.C13_unsigned_division",
    "Verif.Props.C13_compare"
   ],
   "note": ""
  },
  {
   "property": "C14",
   "status": "proved",
   "theorems": [
    "Verif.Props.C14_behaviour",
    "Verif.Props.C14_consuming",
    "Verif.Props.C14_doc_false"
   ],
   "note": "The documented promise is refuted (C14_doc_false); what the code does on every pair of unmatched widths is C14_behaviour."
  },
  {
   "property": "C15",
   "status": "proved",
   "theorems": [
    "Verif.Props.C15_shl",
    "Verif.Props.C15_shl_bits"
   ],
   "note": ""
  },
  {
   "property": "C16",
   "status": "proved",
   "theorems": [
    "Verif.Props.C16_lshr",
    "Verif.Props.C16_lshr_bits"
   ],
   "note": ""
  },
  {
   "property": "C17",
   "status": "proved",
   "theorems": [
    "Verif.Props.C17_ashr",
    "Verif.Props.C17_ashr_bits"
   ],
   "note": ""
  },
  {
   "property": "C18",
   "status": "proved",
   "theorems": [
    "Verif.Props.C18_shift_errors"
   ],
   "note": ""
  },
  {
   "property": "C19",
   "status": "proved",
   "theorems": [
    "Verif.Props.C19_bitnot",
    "Verif.Props.C19_binary",
    "Verif.Props.C19_laws"
   ],
   "note": ""
  },
  {
   "property": "C20",
   "status": "proved",
   "theorems": [
    "Verif.Props.C20_bit_at",
    "Verif.Props.C20_invalid",
    "Verif.Props.C20_unsigned",
    "Verif.Props.C20_unsigned_invalid",
    "Verif.Props.C20_signed",
    "Verif.Props.C20_signed_invalid"
   ],
   "note": ""
  },
  {
   "property": "C21",
   "status": "proved",
   "theorems": [
    "Verif.Props.C21_all",
    "Verif.Props.C21_msb",
    "Verif.Props.C21_unsigned",
    "Verif.Props.C21_signed",
    "Verif.Props.C21_signed_msb"
   ],
   "note": ""
  },
  {
   "property": "C22",
   "status": "proved",
   "theorems": [
    "Verif.Props.C22_counts",
    "Verif.Props.C22_leading_trailing",
    "Verif.Props.C22_unsigned",
    "Verif.Props.C22_signed"
   ],
   "note": ""
  },
  {
   "property": "C23",
   "status": "proved",
   "theorems": [
    "Verif.Props.C23_truncate",
    "Verif.Props.C23_truncate_err"
   ],
   "note": ""
  },
  {
   "property": "C24",
   "status": "proved",
   "theorems": [
    "Verif.Props.C24_zero_extend",
    "Verif.Props.C24_zero_extend_err"
   ],
   "note": ""
  },
  {
   "property": "C25",
   "status": "proved",
   "theorems": [
    "Verif.Props.C25_sign_extend",
    "Verif.Props.C25_sign_extend_err"
   ],
   "note": ""
  },
  {
   "property": "C26",
   "status": "proved",
   "theorems": [
    "Verif.Props.C26_resize",
    "Verif.Props.C26_round_trip",
    "Verif.Props.C26_two_steps"
   ],
   "note": ""
  },
  {
   "property": "C27",
   "status": "proved",
   "theorems": [
    "Verif.Props.C27_unsigned",
    "Verif.Props.C27_total"
   ],
   "note": ""
  },
  {
   "property": "C28",
   "status": "proved",
   "theorems": [
    "Verif.Props.C28_signed",
    "Verif.Props.C28_total"
   ],
   "note": ""
  },
  {
   "property": "C29",
   "status": "proved",
   "theorems": [
    "Verif.Props.C29_signed_partial_cmp",
    "Verif.Props.C29_signed_operators",
    "Verif.Props.C29_signed_agree",
    "Verif.Props.C29_unsigned_partial_cmp",
    "Verif.Props.C29_unsigned_operators",
    "Verif.Props.C29_unsigned_agree"
   ],
   "note": ""
  },
  {
   "property": "C30",
   "status": "proved",
   "theorems": [
    "Verif.Props.C30_constants",
    "Verif.Props.C30_signed_bounds",
    "Verif.Props.C30_from_primitive",
    "Verif.Props.C30_from_signed",
    "Verif.Props.C30_from_array",
    "Verif.Props.C30_unsigned_array",
    "Verif.Props.C30_signed_array",
    "Verif.Props.C30_signed_bool"
   ],
   "note": ""
  },
  {
   "property": "C31",
   "status": "proved",
   "theorems": [
    "Verif.Props.C31_resize_unsigned",
    "Verif.Props.C31_resize_signed",
    "Verif.Props.C31_exact",
    "Verif.Props.C31_unsigned_wrapper",
    "Verif.Props.C31_signed_wrapper"
   ],
   "note": ""
  },
  {
   "property": "C32",
   "status": "proved",
   "theorems": [
    "Verif.Props.C32_try_unsigned",
    "Verif.Props.C32_try_signed",
    "Verif.Props.C32_unsigned_wrapper",
    "Verif.Props.C32_signed_bool"
   ],
   "note": ""
  },
  {
   "property": "C33",
   "status": "partial",
   "theorems": [
    "Verif.Props.C33_false_accepts",
    "Verif.Props.C33_false_rejects",
    "Verif.Props.C33_try_signed_partial",
    "Verif.Props.C33_wrong"
   ],
   "note": "False as stated (C33_false_accepts, C33_false_rejects): the signed try_to methods test the unsigned value. C33_wrong gives the exact behaviour."
  },
  {
   "property": "C34",
   "status": "proved",
   "theorems": [
    "Verif.Props.C34_unsigned_round_trip",
    "Verif.Props.C34_bool_round_trip",
    "Verif.Props.C34_signed_round_trip"
   ],
   "note": ""
  },
  {
   "property": "C35",
   "status": "proved",
   "theorems": [
    "Verif.Props.C35_zero_parity",
    "Verif.Props.C35_sign",
    "Verif.Props.C35_wrappers"
   ],
   "note": ""
  },
  {
   "property": "C36",
   "status": "partial",
   "theorems": [
    "Verif.Props.C36_false",
    "Verif.Props.C36_is_one_partial",
    "Verif.Props.C36_wide",
    "Verif.Props.C36_unsigned_partial",
    "Verif.Props.C36_unsigned_wide"
   ],
   "note": "False as stated for widths above 64 (C36_false); exact behaviour there is C36_wide."
  },
  {
   "property": "C37",
   "status": "partial",
   "theorems": [
    "Verif.Props.C37_false",
    "Verif.Props.C37_is_all_set_partial",
    "Verif.Props.C37_aligned",
    "Verif.Props.C37_unsigned_partial",
    "Verif.Props.C37_unsigned_aligned",
    "Verif.Props.C37_signed_partial",
    "Verif.Props.C37_signed_aligned"
   ],
   "note": "False as stated for widths that are multiples of 64 (C37_false); exact behaviour there is C37_aligned."
  },
  {
   "property": "C38",
   "status": "proved",
   "theorems": [
    "Verif.Props.C38_abs"
   ],
   "note": ""
  },
  {
   "property": "C39",
   "status": "proved",
   "theorems": [
    "Verif.Props.C39_parse_pow2",
    "Verif.Props.C39_no_panic"
   ],
   "note": ""
  },
  {
   "property": "C40",
   "status": "proved",
   "theorems": [
    "Verif.Props.C40_error_iff"
   ],
   "note": ""
  },
  {
   "property": "C41",
   "status": "partial",
   "theorems": [
    "Verif.Props.C41_behaviour",
    "Verif.Props.C41_parse_partial",
    "Verif.Props.C41_correct_iff",
    "Verif.Props.C41_false"
   ],
   "note": "False as stated beyond one machine word of digits (C41_false); C41_behaviour is what the code returns for every accepted string and C41_correct_iff says exactly when that is right."
  },
  {
   "property": "C42",
   "status": "proved",
   "theorems": [
    "Verif.Props.C42_format",
    "Verif.Props.C42_injective",
    "Verif.Props.C42_unimplemented",
    "Verif.Props.C42_wrappers",
    "Verif.Props.C42_unsigned_octal",
    "Verif.Props.C42_signed_octal"
   ],
   "note": "Octal formatting and to_string_radix are unimplemented in the source (C42_unimplemented)."
  },
  {
   "property": "C43",
   "status": "proved",
   "theorems": [
    "Verif.Props.C43_round_trip",
    "Verif.Props.C43_normalises"
   ],
   "note": ""
  },
  {
   "property": "C44",
   "status": "proved",
   "theorems": [
    "Verif.Props.C44_radix",
    "Verif.Props.C44_bitwidth",
    "Verif.Props.C44_base_table",
    "Verif.Props.C44_bits_per_digit"
   ],
   "note": ""
  },
  {
   "property": "C45",
   "status": "proved",
   "theorems": [
    "Verif.Props.C45_assign",
    "Verif.Props.C45_unsigned",
    "Verif.Props.C45_signed"
   ],
   "note": ""
  },
  {
   "property": "C46",
   "status": "proved",
   "theorems": [
    "Verif.Props.C46_random",
    "Verif.Props.C46_randomize",
    "Verif.Props.C46_uniform",
    "Verif.Props.C46_unsigned",
    "Verif.Props.C46_signed"
   ],
   "note": ""
  },
  {
   "property": "C47",
   "status": "proved",
   "theorems": [
    "Verif.Props.C47_serialized",
    "Verif.Props.C47_round_trip",
    "Verif.Props.C47_accepted",
    "Verif.Props.C47_accepts_iff",
    "Verif.Props.C47_field_order",
    "Verif.Props.C47_fields",
    "Verif.Props.C47_field_errors",
    "Verif.Props.C47_panics_iff"
   ],
   "note": "The round trip assumes the width fits a machine word (usize). C47_panics_iff records that the compact form panics on an empty sequence."
  },
  {
   "property": "C48",
   "status": "proved",
   "theorems": [
    "Verif.Props.C48_apint_operators",
    "Verif.Props.C48_unsigned_operators",
    "Verif.Props.C48_signed_operators",
    "Verif.Props.C48_apint_failures",
    "Verif.Props.C48_signed_mismatch",
    "Verif.Props.C48_signed_div_shift",
    "Verif.Props.C48_unsigned_mismatch",
    "Verif.Props.C48_unsigned_div_shift"
   ],
   "note": ""
  },
  {
   "property": "C49",
   "status": "proved",
   "theorems": [
    "Verif.Props.C49_signed_arith",
    "Verif.Props.C49_signed_neg",
    "Verif.Props.C49_signed_div",
    "Verif.Props.C49_signed_shift",
    "Verif.Props.C49_signed_width",
    "Verif.Props.C49_signed_compare",
    "Verif.Props.C49_signed_construct",
    "Verif.Props.C49_signed_bitwise",
    "Verif.Props.C49_conversions",
    "Verif.Props.C49_unsigned_arith",
    "Verif.Props.C49_unsigned_neg",
    "Verif.Props.C49_unsigned_div",
    "Verif.Props.C49_unsigned_shift",
    "Verif.Props.C49_unsigned_width",
    "Verif.Props.C49_unsigned_compare",
    "Verif.Props.C49_unsigned_construct",
    "Verif.Props.C49_unsigned_bitwise"
   ],
   "note": ""
  },
  {
   "property": "C50",
   "status": "proved",
   "theorems": [
    "Verif.Props.C50_one",
    "Verif.Props.C50_is_one",
    "Verif.Props.C50_is_one_wide"
   ],
   "note": ""
  },
  {
   "property": "C51",
   "status": "proved",
   "theorems": [
    "Verif.Props.C51_overflowing",
    "Verif.Props.C51_calls",
    "Verif.Props.C51_program",
    "Verif.Props.C51_others"
   ],
   "note": "C51_calls gives the exact set of panicking calls; C51_others covers the calls left out of the instruction set."
  },
  {
   "property": "C52",
   "status": "proved",
   "theorems": [
    "Verif.Props.C52_carrying",
    "Verif.Props.C52_wrapping",
    "Verif.Props.C52_divrem",
    "Verif.Props.C52_split_join",
    "Verif.Props.C52_double_word",
    "Verif.Props.C52_bits",
    "Verif.Props.C52_whole_word",
    "Verif.Props.C52_shifts",
    "Verif.Props.C52_truncate",
    "Verif.Props.C52_sign_extend"
   ],
   "note": "C52_truncate records that truncate_to with the full width of 64 overflows its shift (panics with overflow checks)."
  },
  {
   "property": "C53",
   "status": "proved",
   "theorems": [
    "Verif.Props.C53_no_bad_access",
    "Verif.Props.C53_freed_once",
    "Verif.Props.C53_live",
    "Verif.Props.C53_storage",
    "Verif.Props.C53_not_shared",
    "Verif.Props.C53_nothing_left",
    "Verif.Props.C53_same_as_values"
   ],
   "note": "Model/Heap.lean keeps the pointers. Temporary vectors and clones local to one arithmetic call and owned by safe code are not tracked, nor is unwinding after a panic; the digits of parsed integers come from the pure model."
  },
  {
   "property": "C54",
   "status": "partial",
   "theorems": [
    "Verif.Props.C54_false",
    "Verif.Props.C54_behaviour",
    "Verif.Props.C54_uadd_partial",
    "Verif.Props.C54_correct_iff"
   ],
   "note": "Crate-private, unused code. False as stated: the mask ONES >> excess keeps 64 - excess bits of the top digit instead of excess bits (C54_false at 7 bits; C54_correct_iff: the claim holds exactly at widths that are 0 or 32 modulo 64). C54_uadd_partial proves it there; C54_behaviour says what the code computes at every width."
  },
  {
   "property": "C55",
   "status": "proved",
   "theorems": [
    "Verif.Props.C55_sadd",
    "Verif.Props.C55_mismatch"
   ],
   "note": "Crate-private, unused code; holds at every width."
  },
  {
   "property": "C56",
   "status": "proved",
   "theorems": [
    "Verif.Props.C56_eval",
    "Verif.Props.C56_bijection",
    "Verif.Props.C56_identity"
   ],
   "note": ""
  },
  {
   "property": "C57",
   "status": "proved",
   "theorems": [
    "Verif.Props.C57_boolean_algebra",
    "Verif.Props.C57_links"
   ],
   "note": ""
  },
  {
   "property": "C58",
   "status": "proved",
   "theorems": [
    "Verif.Props.C58_compose",
    "Verif.Props.C58_powers",
    "Verif.Props.C58_distribute",
    "Verif.Props.C58_sign"
   ],
   "note": ""
  },
  {
   "property": "C59",
   "status": "proved",
   "theorems": [
    "Verif.Props.C59_truncate",
    "Verif.Props.C59_compose",
    "Verif.Props.C59_shifts",
    "Verif.Props.C59_widen_unsigned",
    "Verif.Props.C59_widen_signed",
    "Verif.Props.C59_extend"
   ],
   "note": ""
  },
  {
   "property": "C60",
   "status": "proved",
   "theorems": [
    "Verif.Props.C60_compare",
    "Verif.Props.C60_overflow"
   ],
   "note": ""
  },
  {
   "property": "C61",
   "status": "proved",
   "theorems": [
    "Verif.Props.C61_recompose",
    "Verif.Props.C61_units",
    "Verif.Props.C61_signed",
    "Verif.Props.C61_twice"
   ],
   "note": ""
  },
  {
   "property": "C62",
   "status": "proved",
   "theorems": [
    "Verif.Props.C62_rounds",
    "Verif.Props.C62_enough"
   ],
   "note": ""
  },
  {
   "property": "C63",
   "status": "proved",
   "theorems": [
    "Verif.Props.C63_client",
    "Verif.Props.C63_same_code",
    "Verif.Props.C63_panic_unchanged",
    "Verif.Props.C63_panic_division",
    "Verif.Props.C63_panic_division_pair",
    "Verif.Props.C63_reachable"
   ],
   "note": "Unwinding is modelled for the calls of programs (Model/Unwind.lean); C63_same_code links it to the code of C02."
  },
  {
   "property": "C64",
   "status": "proved",
   "theorems": [
    "Verif.Props.C64_unwinding",
    "Verif.Props.C64_client"
   ],
   "note": "Buffers of temporaries owned by a panicking call are tracked (Model/HeapUnwind.lean)."
  },
  {
   "property": "C65",
   "status": "proved",
   "theorems": [
    "Verif.Props.C65_no_bad_access",
    "Verif.Props.C65_no_race",
    "Verif.Props.C65_lent_unchanged",
    "Verif.Props.C65_freed_once",
    "Verif.Props.C65_live"
   ],
   "note": "Interleaving at the granularity of one buffer access; the lent integers are fixed before the threads start. An example shows a race when the borrow checker's rule is dropped."
  },
  {
   "property": "C66",
   "status": "proved",
   "theorems": [
    "Verif.Props.C66_atomic",
    "Verif.Props.C66_progress",
    "Verif.Props.C66_wait_free"
   ],
   "note": "Linearization point: the return of the call."
  },
  {
   "property": "C67",
   "status": "proved",
   "theorems": [
    "Verif.Props.C67_in_place",
    "Verif.Props.C67_same_buffer",
    "Verif.Props.C67_small",
    "Verif.Props.C67_small_program",
    "Verif.Props.C67_footprint"
   ],
   "note": "About the buffers of a program's own integers. The scratch vectors inside multiplication and division are the subject of C72; copies carried by error values are not tracked by the heap model."
  },
  {
   "property": "C68",
   "status": "proved",
   "theorems": [
    "Verif.Props.C68_same_digits",
    "Verif.Props.C68_underscores",
    "Verif.Props.C68_case",
    "Verif.Props.C68_leading_zeros",
    "Verif.Props.C68_length",
    "Verif.Props.C68_order"
   ],
   "note": "The documentation of from_str_radix says leading zeros are an error; the code accepts them."
  },
  {
   "property": "C69",
   "status": "proved",
   "theorems": [
    "Verif.Props.C69_call",
    "Verif.Props.C69_program",
    "Verif.Props.C69_faithful",
    "Verif.Props.C69_no_bad_access",
    "Verif.Props.C69_exact",
    "Verif.Props.C69_panics"
   ],
   "note": "Left out of the instruction set: is_one and is_all_set (C36, C37), Int::try_to_* (C33) and parsing in radices other than powers of two (C41), whose behaviour is not the one of integers; see those properties."
  },
  {
   "property": "C70",
   "status": "proved",
   "theorems": [
    "Verif.Props.C70_assertion",
    "Verif.Props.C70_identities",
    "Verif.Props.C70_fuzz_random",
    "Verif.Props.C70_edges",
    "Verif.Props.C70_fuzz_edge",
    "Verif.Props.C70_nines",
    "Verif.Props.C70_shifted_product",
    "Verif.Props.C70_shifted_quotient",
    "Verif.Props.C70_negation"
   ],
   "note": "Holds although overflowing_uadd_assign, which identities calls, is wrong at most widths (C54): where it misses an overflow the division that follows works on the unreduced digits, and where it reports one too many the check is skipped. So the authors' fuzzer cannot find that bug at any width."
  },
  {
   "property": "C71",
   "status": "proved",
   "theorems": [
    "Verif.Props.C71_and_or_xor",
    "Verif.Props.C71_not",
    "Verif.Props.C71_extremes",
    "Verif.Props.C71_arith",
    "Verif.Props.C71_clear_lowest",
    "Verif.Props.C71_leading_bound",
    "Verif.Props.C71_leading_order",
    "Verif.Props.C71_trailing_divides",
    "Verif.Props.C71_trailing_mul",
    "Verif.Props.C71_lowest",
    "Verif.Props.C71_shifts",
    "Verif.Props.C71_zero_extend",
    "Verif.Props.C71_sign_extend"
   ],
   "note": "Corollaries of C22 with C04, C06, C07, C15, C16, C19, C24, C25; the bounds for sums and products by induction on the width."
  },
  {
   "property": "C72",
   "status": "proved",
   "theorems": [
    "Verif.C72_multiplication",
    "Verif.C72_unsigned_both",
    "Verif.C72_unsigned_one",
    "Verif.C72_signed_both",
    "Verif.C72_signed_one",
    "Verif.C72_mismatch",
    "Verif.C72_linear"
   ],
   "note": "Sizes in digits, of Vec buffers only (not of error messages). Whether a long division with at least 64 extra bits uses one or two buffers is left open by the statement."
  },
  {
   "property": "C73",
   "status": "partial",
   "theorems": [
    "Verif.C73_multiplication",
    "Verif.C73_division_partial",
    "Verif.C73_quotient_one",
    "Verif.C73_always_copied"
   ],
   "note": "False as stated: quotient one with a dividend that has more bits than the divisor allocates (C73_quotient_one), and the calls that give only the quotient or the remainder always allocate above 64 bits (C73_always_copied). Proved: all multiplication cases, and the division cases for udivrem and uremdiv except the quotient one with more bits."
  },
  {
   "property": "C74",
   "status": "proved",
   "theorems": [
    "Verif.Props.C74_calls",
    "Verif.Props.C74_program",
    "Verif.Props.C74_typed",
    "Verif.Props.C74_client",
    "Verif.Props.C74_heap",
    "Verif.Props.C74_others"
   ],
   "note": "Faults of the model are split into panics every build has and checks only debug builds have; the latter are shown unreachable. usize additions and multiplications are unbounded in the model and not covered (they count bits or digits of integers in memory)."
  },
  {
   "property": "C75",
   "status": "proved",
   "theorems": [
    "Verif.Props.C75_same_as_values",
    "Verif.Props.C75_reachable",
    "Verif.Props.C75_live",
    "Verif.Props.C75_storage",
    "Verif.Props.C75_not_shared",
    "Verif.Props.C75_freed",
    "Verif.Props.C75_kept",
    "Verif.Props.C75_number"
   ],
   "note": "Machine with pointers refined to a machine whose errors are values (SpecErrors.lean). Message and annotation strings of an error are not part of it."
  },
  {
   "property": "C76",
   "status": "proved",
   "theorems": [
    "Verif.Props.C76_debug_text",
    "Verif.Props.C76_wrappers",
    "Verif.Props.C76_injective",
    "Verif.Props.C76_prefix_free"
   ],
   "note": "Debug of derived types is modelled from the standard library's format without the alternate flag."
  },
  {
   "property": "C77",
   "status": "proved",
   "theorems": [
    "Verif.Props.C77_same_calls",
    "Verif.Props.C77_message",
    "Verif.Props.C77_annotation",
    "Verif.Props.C77_message_tells",
    "Verif.Props.C77_owned",
    "Verif.Props.C77_owned_equal",
    "Verif.Props.C77_comparison_operands",
    "Verif.Props.C77_display",
    "Verif.Props.C77_invalid_numbers"
   ],
   "note": "The annotations reproduce the wrong abbreviations of the code (see Findings); Quoting (how {:?} escapes characters and strings) is a parameter."
  },
  {
   "property": "C78",
   "status": "partial",
   "theorems": [
    "Verif.Props.C78_same_errors",
    "Verif.Props.C78_note",
    "Verif.Props.C78_first_invalid",
    "Verif.Props.C78_first_invalid_ascii_partial",
    "Verif.Props.C78_other_character",
    "Verif.Props.C78_counterexample"
   ],
   "note": "False outside ASCII: the character named is the one numbered by the first UTF-8 byte (C78_first_invalid gives the exact message, C78_other_character shows that it is wrong for every non-ASCII character but one, C78_counterexample a text). The position is right for all texts. Proved as stated for invalid ASCII characters (C78_first_invalid_ascii_partial)."
  },
  {
   "property": "C79",
   "status": "proved",
   "theorems": [
    "Verif.Props.C79_limit",
    "Verif.Props.C79_call",
    "Verif.Props.C79_program"
   ],
   "note": "Every function of the crate that computes sizes is modelled a second time with machine arithmetic (Model/Machine.lean). Integers after a caught panic are not part of this claim."
  },
  {
   "property": "C80",
   "status": "proved",
   "theorems": [
    "Verif.Props.C80_call",
    "Verif.Props.C80_release",
    "Verif.Props.C80_program",
    "Verif.Props.C80_modest"
   ],
   "note": "C80_modest says that the unlimited sizes used by all other properties are exact for programs that hold no integer of 2^(u-1) bits or more."
  },
  {
   "property": "C81",
   "status": "partial",
   "theorems": [
    "Verif.Props.C81_accepted_partial",
    "Verif.Props.C81_cut",
    "Verif.Props.C81_wide_words",
    "Verif.Props.C81_round_trip"
   ],
   "note": "False for u < 64: the stated width is cast to usize, so its high bits are lost (C81_cut: 2^32 + 8 is read as 8 on a 32-bit machine). C81_accepted_partial says what the width is instead, C81_wide_words that nothing is lost for u >= 64, C81_round_trip that integers of the machine are read back."
  },
  {
   "property": "C82",
   "status": "proved",
   "theorems": [
    "Verif.Props.C82_same_code",
    "Verif.Props.C82_call",
    "Verif.Props.C82_panic",
    "Verif.Props.C82_client",
    "Verif.Props.C82_memory"
   ],
   "note": "C82_same_code ties the scripts to the code of C69; C82_call, C82_panic and C82_client are the agreement with the machine over integers through panics; C82_memory is the heap. The exception in the statement is the known finding on caught panics of in-place signed division."
  },
  {
   "property": "C83",
   "status": "proved",
   "theorems": [
    "Verif.Props.C83_no_bad_access",
    "Verif.Props.C83_no_race",
    "Verif.Props.C83_shared_unchanged",
    "Verif.Props.C83_freed_once",
    "Verif.Props.C83_live",
    "Verif.Props.C83_atomic",
    "Verif.Props.C83_completes",
    "Verif.Props.C83_alone"
   ],
   "note": "Removes the two simplifications of C65 and C66: what is lent is no longer fixed, and a panic unwinds instead of ending the thread. The model of a call reads its operands before it decides whether it is the call that returns or the one that panics (C83_alone: on its own this is the caught call of C64). C66_wait_free holds for these calls too (it is about any sequence of accesses)."
  },
  {
   "property": "C84",
   "status": "proved",
   "theorems": [
    "Verif.Props.C84_limit",
    "Verif.Props.C84_call",
    "Verif.Props.C84_debug",
    "Verif.Props.C84_program",
    "Verif.Props.C84_release",
    "Verif.Props.C84_builds",
    "Verif.Props.C84_modest",
    "Verif.Props.C84_negative"
   ],
   "note": "Every call of UInt and Int is run as its script of calls on the fields (shown equal to the method without limits by lower_call), each of them on the machine of C79/C80. SpecTypedMachine.lean is independent of the model."
  },
  {
   "property": "C85",
   "status": "proved",
   "theorems": [
    "Verif.Props.C85_integer",
    "Verif.Props.C85_typed",
    "Verif.Props.C85_sequences",
    "Verif.Props.C85_errors",
    "Verif.Props.C85_table",
    "Verif.Props.C85_table_uint",
    "Verif.Props.C85_table_int",
    "Verif.Props.C85_table_error"
   ],
   "note": "The table is client code: rows of (key, value) pairs, chosen by an arbitrary function of the feed. C85_table* hold for every such function."
  },
  {
   "property": "C86",
   "status": "proved",
   "theorems": [
    "Verif.Props.C86_no_bad_access",
    "Verif.Props.C86_no_race",
    "Verif.Props.C86_shared_unchanged",
    "Verif.Props.C86_freed_once",
    "Verif.Props.C86_live",
    "Verif.Props.C86_atomic",
    "Verif.Props.C86_completes",
    "Verif.Props.C86_alone"
   ],
   "note": "Typed version of C83: one call of a thread is the whole sequence of memory accesses of all calls its method makes on the fields (and of the drop of an integer taken by value when it panics). Safety, absence of races, atomicity towards the machine over integers of C69/C82, completion and leak freedom for all schedules; left alone a call is the caught call of C82."
  },
  {
   "property": "C87",
   "status": "proved",
   "theorems": [
    "Verif.Props.C87_gcd",
    "Verif.Props.C87_pow",
    "Verif.Props.C87_mul_mod",
    "Verif.Props.C87_pow_mod",
    "Verif.Props.C87_decimal",
    "Verif.Props.C87_signed_decimal",
    "Verif.Props.C87_parse",
    "Verif.Props.C87_decimal_round_trip",
    "Verif.Props.C87_sqrt",
    "Verif.Props.C87_inverse",
    "Verif.Props.C87_add_or_none",
    "Verif.Props.C87_sub_or_none",
    "Verif.Props.C87_mul_or_none",
    "Verif.Props.C87_signed_add_or_none",
    "Verif.Props.C87_wide_mul",
    "Verif.Props.C87_sort",
    "Verif.Props.C87_signed_sort"
   ],
   "note": "The algorithms are client code (lean/Verif/Algorithms.lean), not in /repo; all calls they make are the modelled ones. Loops get a number of rounds and the theorems say how many suffice."
  },
  {
   "property": "C88",
   "status": "proved",
   "theorems": [
    "Verif.C88_multiplication",
    "Verif.C88_unsigned_division",
    "Verif.C88_signed_division",
    "Verif.C88_quadratic",
    "Verif.C88_close"
   ],
   "note": "Counted are reads, writes and pushes of digits in slices and vectors; work on local variables (a bounded amount per digit touched) and the moves of a growing vector are not."
  },
  {
   "property": "C89",
   "status": "proved",
   "theorems": [
    "Verif.C89_quiet",
    "Verif.C89_same_programs",
    "Verif.C89_same_calls",
    "Verif.C89_inc",
    "Verif.C89_dec",
    "Verif.C89_neg",
    "Verif.C89_is_zero",
    "Verif.C89_ult",
    "Verif.C89_sign",
    "Verif.C89_one_digit",
    "Verif.C89_products_show",
    "Verif.C89_every_call"
   ],
   "note": "The trace is of the source: accesses of digits, allocations and branches on digits. Operations of the processor on single digits, the carry selection in carrying_add, and what a compiler makes of the source are outside the model; widths and shift amounts are public."
  },
  {
   "property": "C90",
   "status": "proved",
   "theorems": [
    "Verif.C90_programs",
    "Verif.C90_add_sub",
    "Verif.C90_shifts",
    "Verif.C90_inc_dec_neg",
    "Verif.C90_tests",
    "Verif.C90_casts",
    "Verif.C90_copies"
   ],
   "note": "Counts entries of the traces of Model/Trace.lean: accesses of digits, allocations and branches on digits. Parsing and printing are not counted; multiplication and division are counted in C88."
  },
  {
   "property": "C91",
   "status": "proved",
   "theorems": [
    "Verif.Props.C91_same_calls",
    "Verif.Props.C91_same_typed_calls",
    "Verif.Props.C91_message",
    "Verif.Props.C91_typed_message",
    "Verif.Props.C91_tells",
    "Verif.Props.C91_typed_tells",
    "Verif.Props.C91_operator"
   ],
   "note": "The texts that Result::unwrap and unimplemented!() of the standard library put around the Debug text are assumed; the location that a panic hook prints (file and line) is not modelled. How strings are quoted is a parameter."
  },
  {
   "property": "C92",
   "status": "proved",
   "theorems": [
    "Verif.C92_parse_pow2",
    "Verif.C92_parse_other",
    "Verif.C92_parse_rejected",
    "Verif.C92_print"
   ],
   "note": "Counts accesses, not seconds. In the radices that are not powers of two the work is linear only because most of the conversion is commented out in the source (C41). The short fixed part of error messages and the writing of a single u64 by the standard library count nothing beyond the characters."
  },
  {
   "property": "C93",
   "status": "proved",
   "theorems": [
    "Verif.Props.C93_same_calls",
    "Verif.Props.C93_texts",
    "Verif.Props.C93_parse",
    "Verif.Props.C93_message_tells",
    "Verif.Props.C93_owned_equal",
    "Verif.Props.C93_comparison_operands",
    "Verif.Props.C93_display"
   ],
   "note": "The methods of UInt and Int are run as the calls they make on their fields (Script), each call with its whole error; that these scripts do what the methods do is part of C82. The names in parentheses (slt, ule, ugt) are those of the source, which are the same for both types."
  },
  {
   "property": "C94",
   "status": "proved",
   "theorems": [
    "Verif.Props.C94_prints",
    "Verif.Props.C94_typed",
    "Verif.Props.C94_flags",
    "Verif.Props.C94_unlike_u64",
    "Verif.Props.C94_string",
    "Verif.Props.C94_buffer",
    "Verif.Props.C94_broken",
    "Verif.Props.C94_octal"
   ],
   "note": "The flags are those of Formatter::pad_integral of the standard library, which is modelled for u64; a text is handed over by write_str in pieces of the standard library's choosing (a parameter). {:?} and its flags are not part of this."
  },
  {
   "property": "C95",
   "status": "proved",
   "theorems": [
    "Verif.C95_call",
    "Verif.C95_widths",
    "Verif.C95_program",
    "Verif.C95_quadratic",
    "Verif.C95_linear",
    "Verif.C95_every_call"
   ],
   "note": "The count is of digits and bytes touched, not of machine instructions; resize_to_* and the primitive constructors count as one or two digits. A call that panics is not counted (the count is that of the calls that returned)."
  },
  {
   "property": "C96",
   "status": "proved",
   "theorems": [
    "Verif.C96_same_calls",
    "Verif.C96_eq",
    "Verif.C96_slt",
    "Verif.C96_orders",
    "Verif.C96_leading_zeros",
    "Verif.C96_trailing_zeros",
    "Verif.C96_is_one",
    "Verif.C96_is_all_set",
    "Verif.C96_sign_resize",
    "Verif.C96_nothing",
    "Verif.C96_same_programs",
    "Verif.C96_program",
    "Verif.C96_every_call"
   ],
   "note": "The observer sees which digits are touched and the outcomes of data-dependent branches, not the timing of machine instructions. is_one and is_all_set are not among the calls of the programs, nor are multiplication, division and text."
  },
  {
   "property": "C97",
   "status": "proved",
   "theorems": [
    "Verif.C97_call",
    "Verif.C97_widths",
    "Verif.C97_program",
    "Verif.C97_quadratic",
    "Verif.C97_linear",
    "Verif.C97_every_call"
   ],
   "note": "The unit of work is as in C95: digits and bytes touched, not machine instructions. The typed methods cost what the calls on their fields cost; moving a field between the types is free."
  },
  {
   "property": "C98",
   "status": "proved",
   "theorems": [
    "Verif.C98_same_calls",
    "Verif.C98_abs",
    "Verif.C98_signum",
    "Verif.C98_uint_order",
    "Verif.C98_int_order",
    "Verif.C98_no_order",
    "Verif.C98_order_shows_more"
   ],
   "note": "The observer is that of C89 and C96. The other methods of UInt and Int pass on to one call of the field and show what that call shows."
  },
  {
   "property": "C99",
   "status": "proved",
   "theorems": [
    "Verif.C99_same_calls",
    "Verif.C99_narrow",
    "Verif.C99_fits",
    "Verif.C99_bool",
    "Verif.C99_wide",
    "Verif.C99_success",
    "Verif.C99_resize",
    "Verif.C99_facts"
   ],
   "note": "The observer is that of C89 and C96. The refusal clones the integer into the error, which shows the width only."
  },
  {
   "property": "C100",
   "status": "proved",
   "theorems": [
    "Verif.C100_same_calls",
    "Verif.C100_mul",
    "Verif.C100_small",
    "Verif.C100_refused",
    "Verif.C100_by_zero",
    "Verif.C100_of_zero",
    "Verif.C100_zero",
    "Verif.C100_full",
    "Verif.C100_facts"
   ],
   "note": "The observer is that of C89 and C96; the multiplications of the processor are taken to show nothing. A digit of the receiver that the wrapping branch reads again for each digit of a row is traced once for each row."
  },
  {
   "property": "C101",
   "status": "proved",
   "theorems": [
    "Verif.C101_same_calls",
    "Verif.C101_text",
    "Verif.C101_alike",
    "Verif.C101_small",
    "Verif.C101_full"
   ],
   "note": "The observer is that of C89 and C96. How the standard library writes one digit, and the text written, are taken to show nothing here; {:o} is not in it, because it panics on every integer but zero."
  }
 ]
}