{"id": "C01", "title": "Representation invariant over every history", "statement": "Starting from any constructor, after any finite sequence of API calls (arithmetic, bitwise, shifts, casts, bit access, assignment, division) each integer still has a positive width w, stores inline exactly when w <= 64 and otherwise owns exactly ceil(w/64) digits, and has every bit at position >= w equal to zero. No call in such a history reads the wrong storage variant or indexes outside the digits.", "quantifier": "every finite history of API calls on any number of integers of any widths with any arguments", "why_tests_cant": "The set of histories is infinite and each operation relies on the invariant left by the previous ones; a test only samples a few call chains.", "anchors": ["src/apint/utils.rs:clear_unused_bits", "src/apint/utils.rs:access_data", "src/apint/constructors.rs:new_inl", "src/apint/constructors.rs:new_ext", "src/apint/constructors.rs:from_iter"]}
{"id": "C02", "title": "Any program over the API computes as over Z/2^w", "statement": "Run any straight-line program of API calls on a bank of integers next to the same program over mathematical fixed-width values (a width and a number below 2^width). After every call the two banks agree, and a call returns an error in one run exactly when it does in the other.", "quantifier": "every finite program over the API, every initial bank of well-formed integers", "why_tests_cant": "Errors that only show after a particular sequence (stale high bits, wrong length after a resize) cannot be excluded by finitely many sequences.", "anchors": ["src/apint/arithmetic.rs", "src/apint/bitwise.rs", "src/apint/shift.rs", "src/apint/casting.rs", "src/apint/relational.rs"]}
{"id": "C03", "title": "Equality is width and value equality", "statement": "Two integers compare equal iff they have the same width and denote the same number; equality is reflexive, symmetric, transitive; equal integers feed identical data to a hasher and unequal integers feed different data.", "quantifier": "all pairs and triples of integers of all widths", "why_tests_cant": "Needs canonical representation of every value; infinitely many widths.", "anchors": ["src/apint/relational.rs:PartialEq::eq", "src/apint/utils.rs:Hash::hash"]}
{"id": "C04", "title": "Wrapping addition", "statement": "For two integers of equal width w, wrapping_add_assign / into_wrapping_add / + succeed and yield the width-w integer denoting (a+b) mod 2^w, for any number of digits and any carry chain; it also denotes the signed sum wrapped to w bits.", "quantifier": "all widths w >= 1 and all pairs of width-w values", "why_tests_cant": "Carry chains of every length and every width; no finite set of examples covers them.", "anchors": ["src/apint/arithmetic.rs:wrapping_add_assign", "src/apint/arithmetic.rs:into_wrapping_add", "src/std_ops.rs:Add"]}
{"id": "C05", "title": "Wrapping subtraction", "statement": "For two integers of equal width w, wrapping_sub_assign / into_wrapping_sub / - succeed and yield (a-b) mod 2^w.", "quantifier": "all widths w >= 1 and all pairs of width-w values", "why_tests_cant": "Borrow chains of every length and every width.", "anchors": ["src/apint/arithmetic.rs:wrapping_sub_assign", "src/apint/arithmetic.rs:into_wrapping_sub", "src/std_ops.rs:Sub"]}
{"id": "C06", "title": "Negation, increment, decrement", "statement": "wrapping_neg yields (-a) mod 2^w, wrapping_inc yields (a+1) mod 2^w and wrapping_dec yields (a-1) mod 2^w; they never panic; inc and dec undo each other, neg is an involution.", "quantifier": "all widths and all values", "why_tests_cant": "Carry/borrow propagation may travel through any number of digits.", "anchors": ["src/apint/arithmetic.rs:wrapping_neg", "src/apint/arithmetic.rs:wrapping_inc", "src/apint/arithmetic.rs:wrapping_dec"]}
{"id": "C07", "title": "Wrapping multiplication", "statement": "For two integers of equal width w, wrapping_mul_assign / into_wrapping_mul / * succeed without panicking and yield (a*b) mod 2^w, whichever of the internal strategies (zero, one-digit operand, non-overflowing, wrapping long multiplication) is taken.", "quantifier": "all widths w >= 1 and all pairs of width-w values", "why_tests_cant": "The strategy depends on significant digits and leading zeros of both operands; case space is unbounded.", "anchors": ["src/apint/arithmetic.rs:wrapping_mul_assign", "src/apint/arithmetic.rs:into_wrapping_mul", "src/std_ops.rs:Mul"]}
{"id": "C08", "title": "Ring laws of the API", "statement": "Through the API, addition and multiplication of equal-width integers are commutative and associative, multiplication distributes over addition, zero(w) and one(w) are neutral, a - b = a + (-b), and a + (-a) = zero(w); all as equality of the returned integers.", "quantifier": "all widths and all triples of values of the same width", "why_tests_cant": "Algebraic laws quantify over all triples.", "anchors": ["src/apint/arithmetic.rs:wrapping_add_assign", "src/apint/arithmetic.rs:wrapping_mul_assign", "src/apint/arithmetic.rs:wrapping_sub_assign", "src/apint/arithmetic.rs:wrapping_neg"]}
{"id": "C09", "title": "Unsigned division", "statement": "For equal widths and b != 0, wrapping_udivrem_assign(a,b) leaves (a div b, a mod b), wrapping_uremdiv_assign leaves (a mod b, a div b), wrapping_udiv_assign leaves a div b and wrapping_urem_assign leaves a mod b, with rhs untouched in the last two; none of them panics or loops forever.", "quantifier": "all widths w >= 1, all values a, all nonzero b of width w", "why_tests_cant": "The long-division code has nested early exits and a loop whose progress and digit estimates depend on all digits; correctness needs an inductive argument.", "anchors": ["src/apint/arithmetic.rs:aarons_algorithm_divrem", "src/apint/arithmetic.rs:aarons_algorithm_remdiv", "src/apint/arithmetic.rs:wrapping_udivrem_assign", "src/apint/arithmetic.rs:wrapping_uremdiv_assign", "src/apint/arithmetic.rs:wrapping_udiv_assign", "src/apint/arithmetic.rs:wrapping_urem_assign"]}
{"id": "C10", "title": "Euclidean identity through the API", "statement": "For equal widths and b != 0 the integers q and r returned by unsigned division satisfy a = q*b + r computed with the API's own multiplication and addition, and r is checked_ult b; the pair (q,r) is the only one with r < b and q*b+r = a without overflow.", "quantifier": "all widths, all a, all nonzero b", "why_tests_cant": "Relates three operations on every input.", "anchors": ["src/apint/arithmetic.rs:wrapping_udivrem_assign", "src/apint/arithmetic.rs:wrapping_mul_assign"]}
{"id": "C11", "title": "Signed division truncates toward zero", "statement": "For equal widths and b != 0, the signed division family returns the quotient truncated toward zero and the remainder with the sign of the dividend (or zero), wrapped to w bits; minimum value divided by -1 yields the minimum value with remainder 0; no panic.", "quantifier": "all widths w >= 1, all values a, all nonzero b of width w", "why_tests_cant": "Sign combinations times every magnitude and width, including the overflowing corner at every width.", "anchors": ["src/apint/arithmetic.rs:wrapping_sdivrem_assign", "src/apint/arithmetic.rs:wrapping_sremdiv_assign", "src/apint/arithmetic.rs:wrapping_sdiv_assign", "src/apint/arithmetic.rs:wrapping_srem_assign"]}
{"id": "C12", "title": "Division by zero is an error that changes nothing", "statement": "With b = 0 each of the eight division functions returns the division-by-zero error naming that operation and carrying the dividend, and both operands keep their previous values.", "quantifier": "all widths, all dividends, all eight operations", "why_tests_cant": "Quantifies over every dividend and operation.", "anchors": ["src/apint/arithmetic.rs:wrapping_udivrem_assign", "src/apint/arithmetic.rs:wrapping_sdivrem_assign", "src/errors.rs:DivisionByZero"]}
{"id": "C13", "title": "Unmatched widths are rejected without side effects", "statement": "Binary arithmetic, bitwise, unsigned division and comparison calls on integers of different widths return the unmatching-bit-widths error carrying both widths and leave both operands unchanged.", "quantifier": "all pairs of integers with different widths, all listed operations", "why_tests_cant": "Infinite pairs of widths; partial mutation before the check must be impossible for all of them.", "anchors": ["src/apint/utils.rs:zip_access_data", "src/apint/utils.rs:zip_access_data_mut_self", "src/apint/utils.rs:zip_access_data_mut_both", "src/apint/utils.rs:modify_zipped_digits"]}
{"id": "C14", "title": "Signed division on unmatched widths", "statement": "The documentation promises the unmatching-bit-widths error from the signed division family on different widths. (The code instead panics through unwrap for nonzero divisors; the exact behaviour is characterised.)", "quantifier": "all pairs of integers with different widths and all four signed division operations", "why_tests_cant": "Claim over all pairs of widths and signs.", "anchors": ["src/apint/arithmetic.rs:wrapping_sdivrem_assign", "src/apint/arithmetic.rs:wrapping_sremdiv_assign", "src/apint/arithmetic.rs:wrapping_sdiv_assign", "src/apint/arithmetic.rs:wrapping_srem_assign"]}
{"id": "C15", "title": "Left shift", "statement": "For s < w, wrapping_shl yields (a * 2^s) mod 2^w; bit i of the result is bit i-s of the operand (zero for i < s).", "quantifier": "all widths, values and shift amounts below the width", "why_tests_cant": "Digit steps and bit steps interact at every multiple of 64.", "anchors": ["src/apint/shift.rs:wrapping_shl_assign", "src/apint/shift.rs:into_wrapping_shl"]}
{"id": "C16", "title": "Logical right shift", "statement": "For s < w, wrapping_lshr yields a div 2^s; bit i of the result is bit i+s of the operand (zero beyond).", "quantifier": "all widths, values and shift amounts below the width", "why_tests_cant": "Digit steps and bit steps interact at every multiple of 64.", "anchors": ["src/apint/shift.rs:wrapping_lshr_assign", "src/apint/shift.rs:into_wrapping_lshr"]}
{"id": "C17", "title": "Arithmetic right shift", "statement": "For s < w, wrapping_ashr yields the signed value floor-divided by 2^s: vacated positions are filled with the sign bit, positions at or above the width stay zero.", "quantifier": "all widths, values and shift amounts below the width", "why_tests_cant": "Sign fill has separate cases per digit alignment of width and shift.", "anchors": ["src/apint/shift.rs:wrapping_ashr_assign", "src/apint/shift.rs:into_wrapping_ashr"]}
{"id": "C18", "title": "Shift amount errors", "statement": "Every shift by s >= w returns the invalid-shift-amount error carrying s and w and leaves the integer unchanged; every shift by s < w succeeds.", "quantifier": "all widths, values and shift amounts", "why_tests_cant": "Boundary must hold at every width.", "anchors": ["src/checks.rs:verify_shift_amount", "src/apint/shift.rs"]}
{"id": "C19", "title": "Bitwise operations act bit by bit", "statement": "bitnot/bitand/bitor/bitxor on equal widths give at each position i < w the boolean operation of the operand bits at i, zero beyond; De Morgan and double negation hold through the API.", "quantifier": "all widths, values and bit positions", "why_tests_cant": "Every bit position of every width, including the partial top digit.", "anchors": ["src/apint/bitwise.rs:bitnot", "src/apint/bitwise.rs:bitand_assign", "src/apint/bitwise.rs:bitor_assign", "src/apint/bitwise.rs:bitxor_assign", "src/apint/utils.rs:modify_zipped_digits"]}
{"id": "C20", "title": "Single-bit access", "statement": "get_bit_at(i) is bit i of the value; set/unset/flip_bit_at(i) change exactly bit i to 1 / 0 / its negation and no other bit; positions i >= w return the invalid-bit-access error and change nothing.", "quantifier": "all widths, values and positions", "why_tests_cant": "Every position of every width, frame condition over all other positions.", "anchors": ["src/apint/bitwise.rs:get_bit_at", "src/apint/bitwise.rs:set_bit_at", "src/apint/bitwise.rs:unset_bit_at", "src/apint/bitwise.rs:flip_bit_at"]}
{"id": "C21", "title": "Whole-integer bit operations", "statement": "set_all yields 2^w-1, unset_all yields 0, flip_all equals bitnot; set_msb, unset_msb, flip_msb change exactly bit w-1; msb()/lsb() return bits w-1 and 0.", "quantifier": "all widths and values", "why_tests_cant": "Top-digit masking at every width.", "anchors": ["src/apint/bitwise.rs:set_all", "src/apint/bitwise.rs:unset_all", "src/apint/bitwise.rs:flip_all", "src/apint/bitwise.rs:set_msb", "src/apint/bitwise.rs:unset_msb", "src/apint/bitwise.rs:flip_msb", "src/apint/utils.rs:msb", "src/apint/utils.rs:lsb"]}
{"id": "C22", "title": "Bit counts", "statement": "count_ones is the number of positions below w holding a one, count_zeros = w - count_ones, leading_zeros is the number of zero positions above the highest one (w for zero), trailing_zeros the number below the lowest one (w for zero); no internal subtraction underflows.", "quantifier": "all widths and values", "why_tests_cant": "Involves a correction for unused bits at every width; zero and digit-boundary cases at each.", "anchors": ["src/apint/bitwise.rs:count_ones", "src/apint/bitwise.rs:count_zeros", "src/apint/bitwise.rs:leading_zeros", "src/apint/bitwise.rs:trailing_zeros"]}
{"id": "C23", "title": "Truncation", "statement": "truncate(t) with t <= w yields width t and value a mod 2^t; t > w returns the truncation error and changes nothing.", "quantifier": "all widths, values and targets", "why_tests_cant": "Storage may change from heap to inline at any target.", "anchors": ["src/apint/casting.rs:truncate", "src/apint/casting.rs:into_truncate"]}
{"id": "C24", "title": "Zero extension", "statement": "zero_extend(t) with t >= w yields width t and the same unsigned value; t < w returns the extension error and changes nothing.", "quantifier": "all widths, values and targets", "why_tests_cant": "Storage may change from inline to heap at any target.", "anchors": ["src/apint/casting.rs:zero_extend", "src/apint/casting.rs:into_zero_extend"]}
{"id": "C25", "title": "Sign extension", "statement": "sign_extend(t) with t >= w yields width t and the same signed value; t < w returns the extension error and changes nothing.", "quantifier": "all widths, values and targets", "why_tests_cant": "Sign fill of a partial digit, full digits and a partial target digit at every pair of widths.", "anchors": ["src/apint/casting.rs:sign_extend", "src/apint/casting.rs:into_sign_extend"]}
{"id": "C26", "title": "Resizes and their round trips", "statement": "zero_resize / sign_resize to t never fail and yield width t, and agree with truncation for t <= w and with the extension otherwise; extending and truncating back is the identity; resizing in two growing or two shrinking steps equals one step.", "quantifier": "all widths, values and targets", "why_tests_cant": "Composition law over all triples of widths.", "anchors": ["src/apint/casting.rs:zero_resize", "src/apint/casting.rs:sign_resize", "src/apint/casting.rs:into_zero_resize", "src/apint/casting.rs:into_sign_resize"]}
{"id": "C27", "title": "Unsigned comparison", "statement": "For equal widths checked_ult/ule/ugt/uge return Ok of <, <=, >, >= on the unsigned values, hence a total order consistent with equality.", "quantifier": "all widths and pairs of values", "why_tests_cant": "The deciding digit may be any digit.", "anchors": ["src/apint/relational.rs:checked_ult", "src/apint/relational.rs:checked_ule", "src/apint/relational.rs:checked_ugt", "src/apint/relational.rs:checked_uge"]}
{"id": "C28", "title": "Signed comparison", "statement": "For equal widths checked_slt/sle/sgt/sge return Ok of <, <=, >, >= on the two's complement values.", "quantifier": "all widths and pairs of values", "why_tests_cant": "Inline path inflates to 64 bits, heap path compares sign bits first; both at every width.", "anchors": ["src/apint/relational.rs:checked_slt", "src/apint/relational.rs:checked_sle", "src/apint/relational.rs:checked_sgt", "src/apint/relational.rs:checked_sge"]}
{"id": "C29", "title": "Signed and unsigned wrapper ordering", "statement": "UInt's and Int's partial_cmp give Some of the numeric order of the unsigned / signed values on equal widths and None otherwise; the operators <, <=, >, >= agree with partial_cmp and are all false on different widths.", "quantifier": "all pairs of UInt and all pairs of Int", "why_tests_cant": "Consistency contract of PartialOrd for all pairs.", "anchors": ["src/uint.rs:PartialOrd", "src/int.rs:PartialOrd"]}
{"id": "C30", "title": "Constructors", "statement": "zero, one, all_set, unsigned/signed min and max of width w denote 0, 1, 2^w-1, 0, 2^w-1, -2^(w-1), 2^(w-1)-1; conversions from bool, 8..128-bit primitives and u64/i64 arrays have the primitive's total width and its bit pattern (arrays most significant element first).", "quantifier": "all widths; all primitive values; arrays of any positive length", "why_tests_cant": "All widths and all 128-bit inputs.", "anchors": ["src/apint/constructors.rs:zero", "src/apint/constructors.rs:one", "src/apint/constructors.rs:all_set", "src/apint/constructors.rs:signed_min_value", "src/apint/constructors.rs:signed_max_value", "src/apint/constructors.rs:from_u128", "src/apint/constructors.rs:From<[u64;n]>"]}
{"id": "C31", "title": "Truncating conversion to primitives", "statement": "resize_to_bool/u8/../u128 return the value mod 2^n, resize_to_i8/../i128 return the sign-extended or truncated two's complement value of n bits, for any source width.", "quantifier": "all widths, values and primitive types", "why_tests_cant": "Source width below, equal to, above the target and across the inline boundary.", "anchors": ["src/apint/to_primitive.rs:resize_to_primitive_ty", "src/apint/to_primitive.rs:resize_to_i128", "src/apint/to_primitive.rs:resize_to_u128"]}
{"id": "C32", "title": "Checked conversion to primitives", "statement": "try_to_bool/u8/../u128 succeed exactly when the unsigned value fits n bits and then return it; otherwise they return the unrepresentable-value error. try_to_i8/../i128 succeed exactly when the unsigned value fits n bits and return the pattern reinterpreted as signed after sign-extending from the source width when that is narrower.", "quantifier": "all widths, values and primitive types", "why_tests_cant": "Acceptance boundary for every width.", "anchors": ["src/apint/to_primitive.rs:try_cast_to_primitive_ty", "src/apint/to_primitive.rs:try_to_u128", "src/apint/to_primitive.rs:try_to_i128"]}
{"id": "C33", "title": "Checked signed conversion follows the signed value", "statement": "As documented for Int, try_to_iN succeeds exactly when the represented signed value lies in the range of iN and returns it. (The code rejects negative values of wider integers and wraps values above the signed maximum; characterised.)", "quantifier": "all widths and values", "why_tests_cant": "Range claim over all values.", "anchors": ["src/int.rs:try_to_i8", "src/int.rs:try_to_i128", "src/apint/to_primitive.rs:try_cast_to_primitive_ty"]}
{"id": "C34", "title": "Primitive round trips", "statement": "Converting a primitive to an integer, resizing it to any width at least as large in the matching signedness, and converting back returns the original primitive; unsigned via both resize_to and try_to.", "quantifier": "all primitive values of all primitive types, all intermediate widths", "why_tests_cant": "2^128 inputs times all widths.", "anchors": ["src/apint/constructors.rs:from_u128", "src/apint/casting.rs:zero_resize", "src/apint/to_primitive.rs"]}
{"id": "C35", "title": "Zero, parity and sign tests", "statement": "is_zero iff the value is 0, is_even/is_odd iff value mod 2 is 0/1, Int::is_negative iff the signed value is negative, Int::is_positive iff it is not negative, signum returns -1, 0 or 1 by sign.", "quantifier": "all widths and values", "why_tests_cant": "All digits must be looked at for every width.", "anchors": ["src/apint/utils.rs:is_zero", "src/apint/utils.rs:is_even", "src/apint/utils.rs:is_odd", "src/int.rs:is_negative", "src/int.rs:is_positive", "src/int.rs:signum"]}
{"id": "C36", "title": "is_one recognises exactly one", "statement": "UInt::is_one returns true exactly for the value 1. (False for widths above 64: the code tests the most significant digit; exact behaviour characterised.)", "quantifier": "all widths and values", "why_tests_cant": "All widths.", "anchors": ["src/apint/utils.rs:is_one", "src/uint.rs:is_one", "src/int.rs:is_one"]}
{"id": "C37", "title": "is_all_set recognises exactly the all-ones value", "statement": "is_all_set returns true exactly when every bit below the width is set. (False when the width is a multiple of 64: the top digit is ignored; exact behaviour characterised.)", "quantifier": "all widths and values", "why_tests_cant": "All widths.", "anchors": ["src/apint/bitwise.rs:is_all_set", "src/apint/bitwise.rs:is_all_unset"]}
{"id": "C38", "title": "Absolute value", "statement": "Int::wrapping_abs leaves non-negative values unchanged and negates negative ones modulo 2^w; the minimum value maps to itself; otherwise the result is non-negative.", "quantifier": "all widths and values", "why_tests_cant": "Corner at every width.", "anchors": ["src/int.rs:wrapping_abs", "src/int.rs:into_abs"]}
{"id": "C39", "title": "Parsing in power-of-two radices", "statement": "For radix 2,4,8,16,32 and any accepted string (digits of the radix in either case, underscores only between, not first or last), from_str_radix returns an integer whose value is the positional value of the digits, with a width that is a multiple of 64 and large enough; it never panics.", "quantifier": "all strings of any length, all power-of-two radices", "why_tests_cant": "Strings of unbounded length; radices 8 and 32 straddle digit borders.", "anchors": ["src/apint/serialization.rs:from_str_radix", "src/apint/serialization.rs:from_bitwise_digits", "src/apint/serialization.rs:from_inexact_bitwise_digits"]}
{"id": "C40", "title": "Parsing rejects exactly the malformed strings", "statement": "from_str_radix returns an error iff the string is empty, starts or ends with an underscore, or contains a character that is neither an underscore nor a digit of the radix; the error reports the input and the radix.", "quantifier": "all strings over all characters, all valid radices", "why_tests_cant": "All strings.", "anchors": ["src/apint/serialization.rs:from_str_radix", "src/radix.rs:is_valid_byte"]}
{"id": "C41", "title": "Parsing in other radices", "statement": "For radices that are not powers of two from_str_radix returns the positional value of the digits. (True while the digits fit one machine-word chunk; false beyond, later chunks are dropped; characterised.)", "quantifier": "all strings, all non-power-of-two radices in 3..36", "why_tests_cant": "All strings; the chunk size differs per radix.", "anchors": ["src/apint/serialization.rs:from_radix_digits", "src/radix.rs:get_radix_base"]}
{"id": "C42", "title": "Formatting", "statement": "Binary, lower-hex and upper-hex formatting of an integer produce the canonical numeral of its unsigned value (no leading zeros, a single 0 for zero), independent of its width.", "quantifier": "all widths and values", "why_tests_cant": "Inner digits must be zero padded for every digit count.", "anchors": ["src/apint/serialization.rs:Binary::fmt", "src/apint/serialization.rs:LowerHex::fmt", "src/apint/serialization.rs:UpperHex::fmt"]}
{"id": "C43", "title": "Format/parse round trip", "statement": "Parsing the binary or hexadecimal text of an integer gives an integer with the same unsigned value; resizing it to the original width gives back an integer equal to the original.", "quantifier": "all widths and values", "why_tests_cant": "Composition of formatter and parser on every value.", "anchors": ["src/apint/serialization.rs:from_str_radix", "src/apint/serialization.rs:Binary::fmt", "src/apint/serialization.rs:LowerHex::fmt"]}
{"id": "C44", "title": "Radix and width validation", "statement": "Radix::new accepts exactly 2..=36 and BitWidth::new exactly the positive numbers; the panicking conversions panic exactly on the rejected inputs; per-radix digit tables satisfy base = radix^power with power maximal below 2^64.", "quantifier": "all u8 and all usize inputs", "why_tests_cant": "All inputs; the table property ranges over every radix (finite, fully checked).", "anchors": ["src/radix.rs:new", "src/radix.rs:get_radix_base", "src/bitwidth.rs:new"]}
{"id": "C45", "title": "Assignment and clone", "statement": "clone yields an equal integer; assign makes the target equal to the source whatever the two widths were; strict_assign does so on equal widths and otherwise returns the unmatching error leaving the target unchanged.", "quantifier": "all pairs of integers of all widths", "why_tests_cant": "Storage changes in both directions at all widths.", "anchors": ["src/apint/casting.rs:clone", "src/apint/casting.rs:assign", "src/apint/casting.rs:strict_assign"]}
{"id": "C46", "title": "Random integers are well formed and unbiased", "statement": "For any generator output stream, random_with_width_using(w) and randomize_using give a well-formed integer of width w whose value is the drawn digits modulo 2^w, so every value of width w is produced by the same number of digit draws.", "quantifier": "all widths, all generator streams", "why_tests_cant": "All generator outputs.", "anchors": ["src/apint/rand_impl.rs:random_with_width_using", "src/apint/rand_impl.rs:randomize_using"]}
{"id": "C47", "title": "Serialization round trip", "statement": "Deserializing the serialized form of an integer (human readable or compact) returns an integer equal to the original; any accepted (width, digits) input produces a well-formed integer with value = digits mod 2^width; digit counts not matching the width are rejected; field order in the readable form does not matter, duplicates and missing fields are rejected.", "quantifier": "all widths and values; all width/digit inputs", "why_tests_cant": "All inputs including malicious digit values above the width.", "anchors": ["src/apint/serde_impl.rs:Serialize", "src/apint/serde_impl.rs:Deserialize"]}
{"id": "C48", "title": "Operators panic exactly when the method errs", "statement": "The std operators on ApInt, UInt and Int return the method's result when it succeeds and panic exactly when the corresponding into_/assign method returns an error.", "quantifier": "all operators and all operand pairs", "why_tests_cant": "All operand pairs.", "anchors": ["src/std_ops.rs"]}
{"id": "C49", "title": "Wrapper types delegate with the right signedness", "statement": "UInt's shr/extend/resize/div/rem/lt and Int's counterparts give the unsigned / signed results on the same bit pattern; converting between Int, UInt and ApInt keeps width and bit pattern.", "quantifier": "all widths and values", "why_tests_cant": "All values; a wrong delegate shows only on negative patterns.", "anchors": ["src/uint.rs", "src/int.rs"]}
{"id": "C50", "title": "Int::one and Int::is_one at width 1", "statement": "Int::one(w) is None exactly for w = 1 and otherwise the width-w integer with signed value 1.", "quantifier": "all widths", "why_tests_cant": "All widths.", "anchors": ["src/int.rs:one", "src/int.rs:is_one"]}
{"id": "C51", "title": "Totality of the pure API", "statement": "On well-formed inputs no modelled API call other than the documented panicking ones (operators on error, From<0> for widths, unimplemented octal/radix formatting, signed division on unmatched widths) panics, over- or underflows a machine word, indexes out of bounds, shifts by too much, or runs forever.", "quantifier": "all widths, values and arguments of all modelled functions", "why_tests_cant": "Absence of panics for all inputs.", "anchors": ["src/apint/arithmetic.rs", "src/apint/bitwise.rs", "src/apint/shift.rs", "src/apint/casting.rs", "src/apint/utils.rs", "src/digit.rs"]}
{"id": "C52", "title": "Digit primitives", "statement": "The word-level helpers (carrying add, multiply, multiply-add, double-word split/join, divrem, truncate_to, sign_extend_from, bit get/set/unset/flip, retain_last_n) satisfy their word equations, e.g. lo + 2^64*hi = a*b + c, for all words; invalid positions and widths give errors and leave the word unchanged (truncate_to a width of exactly 64, which no caller asks for, shifts by 64 and so panics in debug builds; retain_last_n of 64 reports an error).", "quantifier": "all 64-bit and 128-bit words, all positions and widths", "why_tests_cant": "2^192 combinations.", "anchors": ["src/digit.rs"]}
{"id": "C53", "title": "Heap buffers are owned exactly once", "statement": "In any history of construction, clone, assign, truncate, extend and drop, each heap buffer is freed exactly once and with the capacity it was allocated with, two live integers never share a buffer, and after dropping everything no buffer is left.", "quantifier": "all finite histories of ownership-relevant calls", "why_tests_cant": "All histories; unsafe pointer code.", "anchors": ["src/apint/constructors.rs:drop_digits", "src/apint/constructors.rs:from_iter", "src/apint/constructors.rs:new_ext", "src/apint/casting.rs:clone", "src/apint/casting.rs:assign", "src/apint/casting.rs:truncate"]}
{"id": "C54", "title": "Unsigned addition with overflow report", "statement": "overflowing_uadd_assign leaves (a+b) mod 2^w in self, well-formed, and returns true exactly when the exact sum a+b is at least 2^w; unequal widths give an error and change nothing.", "quantifier": "all widths, all pairs of values of one width", "why_tests_cant": "The function is crate-private, unused and untested; its mask is right only at some widths, which a test at a power-of-two width (32, 64, 128) cannot see.", "anchors": ["src/apint/arithmetic.rs:overflowing_uadd_assign"]}
{"id": "C55", "title": "Signed addition with overflow report", "statement": "overflowing_sadd_assign leaves (a+b) mod 2^w in self, well-formed, and returns true exactly when the exact sum of the signed values lies outside [-2^(w-1), 2^(w-1)); unequal widths give an error and change nothing.", "quantifier": "all widths, all pairs of values of one width", "why_tests_cant": "All sign combinations at all widths.", "anchors": ["src/apint/arithmetic.rs:overflowing_sadd_assign"]}
{"id": "C56", "title": "The API is the theory of fixed-width bit-vectors", "statement": "Any expression built from constants, variables, the arithmetic, division, bitwise, shift, cast, single-bit and comparison calls evaluates, through the API, to the bit-vector it denotes in the SMT-LIB style theory of fixed-width bit-vectors, reports an error exactly where that theory's side condition (non-zero divisor, shift below the width, cast direction) fails, and never panics; integers of width w and bit-vectors of width w are in bijection; and an identity between expressions holds for the API exactly when it holds for bit-vectors.", "quantifier": "all expressions of any size, all widths, all values of the variables", "why_tests_cant": "All expression trees; an identity over all values.", "anchors": ["src/apint/arithmetic.rs", "src/apint/bitwise.rs", "src/apint/shift.rs", "src/apint/casting.rs", "src/apint/relational.rs"]}
{"id": "C57", "title": "Boolean algebra and its links to arithmetic", "statement": "and, or and bitnot form a Boolean algebra (commutative, associative, distributive, absorbing, complements); De Morgan; xor in terms of and/or/not and as its own inverse; -x = !x + 1; x - y = x + !y + 1; x + y = (x|y) + (x&y); x|y = (x^y) + (x&y).", "quantifier": "all widths, all values", "why_tests_cant": "Identities over all values at every width.", "anchors": ["src/apint/bitwise.rs", "src/apint/arithmetic.rs"]}
{"id": "C58", "title": "Laws of the shifts", "statement": "Two shifts in a row are one shift by the sum, or zero (sign fill for the arithmetic shift) once everything is shifted out; shl/lshr are multiplication/division by the power of two and the mask below it is the remainder, with errors on the same amounts; shifting out and back masks; shifts distribute over bitwise calls and shl over + and -; ashr is lshr or its complement form by sign; single-bit calls are bitwise calls with a shifted one; flipping the sign bit is adding the smallest signed value; the two halves of a rotation do not overlap.", "quantifier": "all widths, all shift amounts, all values", "why_tests_cant": "All pairs of shift amounts at all widths, across digit boundaries.", "anchors": ["src/apint/shift.rs", "src/apint/bitwise.rs"]}
{"id": "C59", "title": "Casts commute with the operations", "statement": "Truncation is a homomorphism for +, -, *, &, |, ^, !, neg, inc, dec and shl; extending and truncating back is the identity and casts compose; casts equal their shift/mask forms; after extending by one bit sums (and signed differences) are exact and after doubling the width products are; division, remainder and comparison give the same answer at any larger width.", "quantifier": "all pairs of widths in the stated order, all values", "why_tests_cant": "All pairs of widths.", "anchors": ["src/apint/casting.rs:truncate", "src/apint/casting.rs:zero_extend", "src/apint/casting.rs:sign_extend", "src/apint/arithmetic.rs"]}
{"id": "C60", "title": "Laws of the comparisons", "statement": "All eight order comparisons reduce to unsigned less-than; the signed order is the unsigned order with the sign bits flipped; equality is a zero difference, a zero xor, and absence of both strict orders; a wrapped unsigned sum is recognised by being below an operand and a wrapped signed sum by its sign.", "quantifier": "all widths, all pairs of values", "why_tests_cant": "Laws over all pairs.", "anchors": ["src/apint/relational.rs"]}
{"id": "C61", "title": "Laws of division", "statement": "q*d + r gives back the dividend (unsigned and signed) and reports an error exactly for a zero divisor; division by one and minus one; dividends below the divisor; x/x = 1; signed division and remainder from unsigned ones on the magnitudes, including the most negative value; dividing twice is dividing by the exact product.", "quantifier": "all widths, all values", "why_tests_cant": "Laws over all pairs and triples, including the single overflowing signed quotient.", "anchors": ["src/apint/arithmetic.rs:into_checked_udiv", "src/apint/arithmetic.rs:into_checked_sdiv"]}
{"id": "C62", "title": "Long division takes few rounds", "statement": "Each round of the main loop of large_div_by_large settles at least 61 bits of the quotient: a division whose quotient is below 2^(61k) finishes within k rounds with the right quotient and remainder, so two rounds per digit of the dividend always suffice and the unbounded `loop` terminates for every input.", "quantifier": "all digit vectors of the dividend and divisor, all k", "why_tests_cant": "Termination and a round count of an unbounded loop over all operand sizes.", "anchors": ["src/apint/arithmetic.rs:large_div_by_large"]}
{"id": "C63", "title": "Clients with control flow and caught panics", "statement": "A client that picks each next call from everything it has been told so far (answers, errors, panics it caught) is told exactly what the abstract machine on (width, number) tells it, for any number of calls, and its integers always satisfy the invariant. A call that panics leaves every integer exactly as it was, except the in-place signed divisions of operands of different width, which leave the operands lent mutably at their width with the magnitude of their value.", "quantifier": "all clients (any function of the answers so far), all numbers of calls, all banks of well-formed integers", "why_tests_cant": "Quantifies over adaptive clients of unbounded length and over the state seen after every panic.", "anchors": ["src/apint/arithmetic.rs:wrapping_sdivrem_assign", "src/apint/arithmetic.rs:wrapping_sdiv_assign", "src/std_ops.rs", "src/utils.rs:forward_mut_impl"]}
{"id": "C64", "title": "Panics neither leak nor dangle", "statement": "When a panic out of a call is caught, the drops done while unwinding only touch live buffers and do not fail; afterwards the live buffers are exactly those of the integers still owned by the client, no two share one, and dropping them all leaves every buffer ever allocated freed exactly once with its own capacity. Answers do not depend on the allocator.", "quantifier": "all allocators, all adaptive clients, all numbers of calls", "why_tests_cant": "Leak and double-free freedom over all histories with panics at any point and any allocator behaviour.", "anchors": ["src/apint/constructors.rs:Drop", "src/apint/constructors.rs:Clone", "src/apint/arithmetic.rs:wrapping_sdiv_assign", "src/utils.rs:forward_mut_impl"]}
{"id": "C65", "title": "Threads: memory safety and no data races", "statement": "Integers are Send and Sync by an unsafe impl. When threads use integers lent to all of them through shared references, and each its own integers through any calls, in any interleaving of their buffer accesses and with any allocator: no thread accesses a buffer that is not live or frees it with a wrong capacity; two threads are never about to access the same buffer unless both read; the integers lent never change, not even in the middle of a call; every buffer is freed at most once, and when no thread is in a call the live buffers are exactly those of the integers.", "quantifier": "all programs of all threads, any number of threads, all interleavings, all allocators", "why_tests_cant": "The claim is about every interleaving of an unbounded number of threads; a test sees only the schedules it happens to get.", "anchors": ["src/apint/mod.rs:Send", "src/apint/mod.rs:Sync", "src/apint/constructors.rs:Drop", "src/apint/constructors.rs:Clone"]}
{"id": "C66", "title": "Threads: calls are atomic and never wait", "statement": "What the threads see of any run (answers, errors, panics, integers handed over) is what an abstract machine on (width, number) shows in which every call happens at once, with the calls in the order in which they return. A thread in a call can always take its next step, and whatever the others do it ends its call after a number of its own steps that does not depend on them.", "quantifier": "all programs of all threads, any number of threads, all interleavings, all allocators", "why_tests_cant": "Linearizability and wait-freedom quantify over all schedules.", "anchors": ["src/apint/mod.rs:Send", "src/apint/mod.rs:Sync"]}
{"id": "C67", "title": "Which calls allocate", "statement": "Counted are the requests for the buffers of the program's own integers, made by constructors, clone, assign, casts and drop; scratch space that a call frees before it returns (the vectors and copies local to multiplication and division) and the copy of an operand that an error carries are outside the claim. Integers of at most 64 bits never use the allocator: a program all of whose integers stay within 64 bits makes no such request at all. The memory held is determined by the widths of the live integers: one buffer of exactly ceil(w/64) digits for each integer with w > 64. A call on borrowed integers (&mut self, assign, casts, shifts, questions, comparisons) makes such a request exactly when it changes the number of digits of one of them; otherwise every integer keeps its buffer at its address.", "quantifier": "all reachable states, all calls, all allocators, all growth policies of vectors (first claim: those that keep one digit inline)", "why_tests_cant": "An exact accounting of requests over all widths, boundaries of multiples of 64, error paths and histories.", "anchors": ["src/apint/casting.rs:truncate", "src/apint/casting.rs:zero_extend", "src/apint/casting.rs:sign_extend", "src/apint/casting.rs:assign", "src/apint/constructors.rs:from_iter", "src/lib.rs"]}
{"id": "C68", "title": "Laws of the text form", "statement": "Parsing depends on the digit values only: underscores between digits and the case of letters do not matter in any radix; leading zeros do not change the value (radices 2, 4, 8, 16, 32). A printed number has exactly as many digits as it needs: at most w in binary and ceil(w/4) in hexadecimal. Sorting the texts by length and then alphabetically sorts the numbers.", "quantifier": "all strings, all radices as stated, all widths and values", "why_tests_cant": "Laws over all strings of any length and all widths.", "anchors": ["src/apint/serialization.rs:from_str_radix", "src/apint/serialization.rs:Binary", "src/apint/serialization.rs:LowerHex", "src/apint/serialization.rs:UpperHex"]}
{"id": "C69", "title": "Programs over UInt and Int compute with integers", "statement": "A UInt of width w behaves as an integer in [0, 2^w), an Int of width w as one in [-2^(w-1), 2^(w-1)): run any program over UInts and Ints of any widths (constructors, moves between the types, in-place, consuming and operator forms of arithmetic, shifts, bit operations, casts, assignments, questions, comparisons) next to a machine that computes with mathematical integers and brings every result back into the range of its type by adding a multiple of 2^w. All answers and errors agree, the integers left agree, and both panic at the same call, if at all; the calls that panic are exactly the operators whose checked form reports an error, a checked signed division of different widths by a non-zero number, and octal text of a non-zero number. A sum, difference or product that fits is exact. Which object is lost to a failed consuming call is part of the agreement.", "quantifier": "all programs, all widths, all values, all initial well-formed integers", "why_tests_cant": "A refinement over all call sequences mixing two types and all widths.", "anchors": ["src/uint.rs", "src/int.rs", "src/uint.rs:into_signed", "src/int.rs:into_unsigned", "src/uint.rs:PartialOrd", "src/int.rs:PartialOrd"]}
{"id": "C70", "title": "The crate's own property tests hold for every input", "statement": "The parametric tests the authors run on samples never fail: the fuzzer's `identities` (increment and decrement against adding and subtracting one and minus one; shifts against multiplication, unsigned and floored signed division by powers of two; negation against multiplication by minus one; the wrapping product against the truncated product at double width; division undoing multiplication and addition of a remainder) for any three integers of any width and any random shift and width; hence `fuzz_random` for any size, number of rounds and random values and `fuzz_edge` for any size; `nine_test` for any number of bytes above one; the shifted products and quotients for any width at which they fit; and the symmetry of negation for any i128 that has one.", "quantifier": "all widths, operands, shifts, random draws and numbers of rounds", "why_tests_cant": "They are tests: the authors run them on 17 sizes with random values, on corner digits of up to 192 bits, and call larger sizes very expensive.", "anchors": ["src/apint/arithmetic.rs:identities", "src/apint/arithmetic.rs:fuzz_random", "src/apint/arithmetic.rs:fuzz_edge", "src/apint/arithmetic.rs:nine_test", "src/apint/arithmetic.rs:assert_symmetry"]}
{"id": "C71", "title": "Laws of counting bits", "statement": "How the counts of a result depend on those of the operands. The ones of x & y and x | y together are those of x and y; x ^ y has those that are not shared; !x has as many ones as x has zeros. No ones means zero, w ones means 2^w - 1, a single one means a power of two. x + y has at most as many ones as x and y together, x * y at most the product of their numbers of ones; x & (x - 1) has one less than a nonzero x, x & -x is the lowest one alone. n leading zeros mean 2^(w-1-n) <= x < 2^(w-n), so a smaller value has at least as many; n trailing zeros mean x is divisible by 2^n and not by 2^(n+1). The trailing zeros of a wrapping product are those of the factors added, up to w; of -x those of x; a left shift by s adds s of them, a logical right shift adds s leading zeros. Zero extension keeps ones and adds leading zeros, sign extension of a negative value adds ones.", "quantifier": "all widths, values and shift amounts below the width", "why_tests_cant": "Laws relating two functions on all values of all widths; the tests count the bits of zero, one, the least and the greatest value at six widths.", "anchors": ["src/apint/bitwise.rs:count_ones", "src/apint/bitwise.rs:count_zeros", "src/apint/bitwise.rs:leading_zeros", "src/apint/bitwise.rs:trailing_zeros"]}
{"id": "C72", "title": "Scratch memory of multiplication and division", "statement": "The buffers of digits that a multiplication or division asks for besides those of its operands depend on the width w and the values in a fixed way, and their sizes are known in advance: no vector outgrows the room it was created with. Let n be the number of digits of the width. Multiplication: none when w <= 64 or one factor fits a digit; otherwise one, of as many digits as both factors have together when their bits together do not exceed 64*n, of n digits when they do. Unsigned division in place (udivrem, uremdiv): none when w <= 64, the dividend fits two digits, the divisor fits one, or the dividend has no more bits than the divisor; one of n digits when it has less than 64 bits more; otherwise one or two of n digits. udiv and urem copy the divisor first. A division by zero copies the dividend into the error. The signed divisions ask for what the unsigned division of the magnitudes asks, and sdiv and srem for one copy more. Operands of different widths cost nothing in the unsigned calls. So no call uses more than three buffers of at most n + 1 digits.", "quantifier": "all widths and values", "why_tests_cant": "No test looks at memory, and the sizes depend on the values through the number of their significant digits and bits and on how long division ends.", "anchors": ["src/apint/arithmetic.rs:wrapping_mul_assign", "src/apint/arithmetic.rs:aarons_algorithm_divrem", "src/apint/arithmetic.rs:wrapping_udiv_assign", "src/apint/arithmetic.rs:wrapping_sdiv_assign"]}
{"id": "C73", "title": "Documented cases without allocation", "statement": "The documentation marks as \"no allocation\": multiplication by zero, of numbers that fit a digit, and of a large number by one that fits a digit; division of zero by anything, of numbers of one digit, any division whose quotient is zero or one, and division of any number by one that fits a digit. In each of these cases the call asks for no scratch buffer.", "quantifier": "all widths, values and division calls", "why_tests_cant": "No test looks at memory; the claim is about classes of values of all widths.", "anchors": ["src/apint/arithmetic.rs:283-288", "src/apint/arithmetic.rs:625-632"]}
{"id": "C74", "title": "Release builds behave like debug builds", "statement": "No call of the public interface, in any history and on any input, trips a check that only debug builds have: no subtraction of usize goes below zero, no primitive integer is shifted by its width or more, no sum, difference or product of primitive integers overflows, and no debug_assert fails. A release build, where these checks are absent and the operations wrap silently, therefore gives the same answers, the same errors and the same (documented or listed) panics as a debug build.", "quantifier": "for all programs over ApInt, UInt and Int from well-formed integers, all clients that catch panics, all texts, radices, serialized data and random generators", "why_tests_cant": "Tests run in one build profile; an overflow that is silent in release builds or a panic in debug builds on some untested width, shift amount, digit position or text length is invisible to them.", "anchors": ["src/apint/shift.rs:75-280", "src/apint/arithmetic.rs:840-1300", "src/apint/serialization.rs:210-333", "src/apint/to_primitive.rs:117-300", "src/digit.rs:240-420", "src/bitwidth.rs:95-170"]}
{"id": "C75", "title": "Errors that own integers are independent values", "statement": "An error of a division by zero or of a failed conversion to a primitive owns a copy of the left operand (of the converted integer) as it was before the call. A program can keep such errors as long as it likes, read, clone, compare and drop them: no later call, and no caught panic, changes the number in an error; two errors are equal exactly when they are of the same kind and their numbers have equal width and value; and with digit buffers on the heap every error has a buffer of its own exactly when its integer has more than 64 bits, which is freed exactly once, when the error is dropped.", "quantifier": "for every client (any control flow over the calls of the API and over keeping, cloning, comparing and dropping errors, panics caught), any number of steps, every allocator and growth policy of vectors", "why_tests_cant": "unit tests drop an error at once after matching on its kind; sharing of a buffer between an error and the operand would only show after some later mutation or drop", "anchors": ["src/errors.rs:16-141", "src/apint/arithmetic.rs:1550-1830", "src/apint/to_primitive.rs:300-570", "src/utils.rs:30-37"]}
{"id": "C76", "title": "The debug text of an integer tells its width and value", "statement": "Formatting an integer (or a UInt or Int) with {:?} never panics and gives its width and its 64-bit digits in decimal, least significant first. Two integers have the same debug text exactly when they have equal width and value, and no debug text is the beginning of the debug text of a different integer, so it can be read back inside a longer message.", "quantifier": "for all integers of all widths", "why_tests_cant": "the text is built from a buffer of any number of digits; injectivity is about all pairs", "anchors": ["src/apint/utils.rs:20-27", "src/uint.rs:25-28", "src/int.rs:25-28", "src/bitwidth.rs:20-21", "src/digit.rs:48-49"]}
{"id": "C77", "title": "The texts of an error say what failed", "statement": "Making the message and annotation of an error never panics and never changes which error is reported. The message of an error that is not about a text names the error's data (widths in order, shift amount, bit position, division and its left operand, destination type and value) and the message alone determines that data. The annotation names the operation and operands of a failed change of width, strict assignment, comparison or parse; the annotation of a failed comparison determines the comparison and both operands in order. For an error that owns an integer there is no annotation and the rest of the error determines its message, so comparing errors with == compares kind, operation or type, and integer. {} prints the same as {:?} and neither panics.", "quantifier": "for every call of the API that reports an error, on any integers of any widths", "why_tests_cant": "no unit test looks at messages; that a message determines its data is a statement about all pairs of failing calls", "anchors": ["src/errors.rs:125-405", "src/apint/relational.rs:32-228", "src/apint/casting.rs:80-345", "src/bitwidth.rs:55-65", "src/radix.rs:44-52"]}
{"id": "C78", "title": "The message for an invalid character names it and its position", "statement": "from_str_radix reports an empty text and an underscore at an end by an annotation; for any other invalid text the message names the first character that is no digit of the radix and no underscore, and its position.", "quantifier": "for all texts over all of Unicode and all radixes up to 36", "why_tests_cant": "texts are unbounded and the code works on bytes while the message speaks of characters", "anchors": ["src/apint/serialization.rs:144-190", "src/errors.rs:195-225"]}
{"id": "C79", "title": "Sizes on machine words", "statement": "On a machine whose usize has u bits (u at least 7), no integer wider than 2^u - 64 bits ever exists. In a release build every call does exactly what it does when sizes are unlimited numbers as long as the integers it leaves are not wider than that, and panics if one of them would be; so a size that overflows never leads to a wrong value, a wrong width or an unsafe access. The same for whole programs.", "quantifier": "for all machine word sizes of at least 7 bits, all programs and all integers", "why_tests_cant": "the widths at which sizes overflow need gigabytes of memory or more, and no test can run on all word sizes", "anchors": ["src/apint/constructors.rs:170-200", "src/apint/casting.rs:137-345", "src/apint/arithmetic.rs:300-480", "src/apint/bitwise.rs:248-300", "src/apint/serialization.rs:205-275", "src/bitwidth.rs:30-140"]}
{"id": "C80", "title": "Debug builds at large widths", "statement": "In a debug build on a machine whose usize has u bits a call does exactly what it does in the release build, or panics in an overflow check. Apart from integers that would be wider than 2^u - 64 bits this happens exactly for products of equally wide factors, both at least 2^64, whose numbers of significant bits add up to 2^u or more, and for texts in radix 8 or 32 that fill 2^u - 64 bits exactly. A program that only holds integers of fewer than 2^(u-1) bits runs in both builds exactly as if sizes were unlimited.", "quantifier": "for all machine word sizes of at least 7 bits, all programs and all integers", "why_tests_cant": "the checks fire only at widths near the size of the address space", "anchors": ["src/apint/arithmetic.rs:330-345", "src/apint/serialization.rs:205-275", "src/apint/constructors.rs:170-200"]}
{"id": "C81", "title": "Reading a width back on another machine", "statement": "Deserialization on a machine whose usize has u bits gives the integer whose width and digits the input states, or fails; it never gives an integer of another width. An integer that exists on a machine is read back unchanged from its serialized form on every machine on which it exists.", "quantifier": "for all machine word sizes of at least 7 bits, all inputs of both forms and all integers", "why_tests_cant": "inputs are arbitrary data of any length written on any machine; the tests run on one machine and read back what they wrote", "anchors": ["src/apint/serde_impl.rs:58-122", "src/apint/serde_impl.rs:203-289"]}
{"id": "C82", "title": "Clients of UInt and Int are told the truth and leak nothing", "statement": "UInt and Int own their integer through one field. Whatever a program over UInt and Int does, deciding on each call from all it has been told and catching panics, it is told what a machine computing with mathematical integers tells it, whatever the allocator does. A call that panics has dropped the integer it took by value; every other integer is exactly as before, except that an in-place signed division by a number other than zero may have replaced its left operand by its magnitude. At any point every buffer was freed at most once and with its own capacity, the live buffers are exactly those of the live UInts and Ints, and dropping these frees all that was ever allocated.", "quantifier": "all adaptive clients of UInt and Int, all numbers of calls, all allocators, all growth policies of vectors, all widths", "why_tests_cant": "Leak freedom and agreement over all histories of calls with panics at any point and any allocator behaviour; tests exercise neither panics of operators nor the allocator.", "anchors": ["src/uint.rs:UInt", "src/int.rs:Int", "src/utils.rs:forward_mut_impl", "src/std_ops.rs", "src/int.rs:wrapping_abs", "src/int.rs:partial_cmp"]}
{"id": "C83", "title": "Integers can be shared for a while between threads that survive panics", "statement": "ApInt is Send and Sync. Whatever threads do with integers that they own, hand over, begin to share with all threads while calls are running (Arc, RwLock, scoped threads), and take back once no call can be using them, with panics caught at any point: no thread ever accesses freed memory or frees twice, two threads never access the same buffer at once unless both read, no step of any thread changes an integer that is shared, every call happens as if at once when it returns or panics and tells the truth, a thread in a call can always finish it, and a panic leaks nothing: whenever no thread is in a call, the live buffers are exactly those of the shared integers and of those the threads own.", "quantifier": "all numbers of threads, all calls, all interleavings of single memory accesses, all allocators, all points at which integers are shared, handed over or taken back, all panics", "why_tests_cant": "Races, leaks after a panic in one thread and wrong interleavings depend on the schedule; a test run sees one schedule out of unboundedly many.", "anchors": ["src/apint/mod.rs:unsafe impl Send", "src/apint/mod.rs:unsafe impl Sync", "src/apint/mod.rs:Drop", "src/apint/constructors.rs:Clone", "src/std_ops.rs", "src/utils.rs:forward_mut_impl"]}
{"id": "C84", "title": "UInt and Int on machines with words of limited size", "statement": "On a target whose usize has u bits (at least 7), no UInt or Int is ever wider than 2^u - 64. A call in a release build gives exactly the answer and numbers that arithmetic on mathematical integers demands if all resulting numbers exist on the machine, and panics if one would be too wide; it never returns a wrong number because a size wrapped around. A debug build does the same or stops with the panic of an overflow check, which (beyond too wide numbers) happens exactly for products of two numbers of one type whose bit patterns, both longer than 64 bits, have together 2^u or more significant bits - so for any two negative Ints at widths from 2^(u-1) - and for texts in radix 8 or 32 that fill the widest integer exactly. A program whose numbers all have fewer than 2^(u-1) bits runs in both builds as if words were unbounded.", "quantifier": "all word sizes from 7 bits, both builds, all programs over UInt and Int, all widths and values", "why_tests_cant": "Integers with nearly 2^32 or 2^64 bits cannot be allocated in a test; only a model parametric in the word size reaches the boundary.", "anchors": ["src/uint.rs", "src/int.rs", "src/std_ops.rs", "src/apint/constructors.rs:from_iter", "src/apint/arithmetic.rs:wrapping_mul_assign", "src/apint/serialization.rs:from_inexact_bitwise_digits"]}
{"id": "C85", "title": "Integers and errors as keys of hash tables", "statement": "ApInt, UInt and Int keep the contract between Eq and Hash, and so do the errors the API reports: comparing and hashing never panic; two keys compare equal exactly when they have the same width and value (errors: when they are about the same widths, positions and integers and have the same texts), and exactly then they feed the same calls to every hasher. What an integer feeds is self-delimiting, so tuples and arrays of integers feed the same only if they are the same. Hence a hash table with such keys, whatever its hash function, its size and when it is resized, answers every sequence of insert, remove, get and count exactly like a mathematical map from (width, value).", "quantifier": "all hash functions, all table sizes, all sequences of table operations, all widths and values, all errors reported by any call on any integers", "why_tests_cant": "A test sees one hash function and a few keys; a collision, an unused bit that reaches the hasher or two equal keys that hash differently show up only for particular values and table sizes.", "anchors": ["src/apint/utils.rs:Hash for ApInt", "src/apint/relational.rs:PartialEq", "src/uint.rs:UInt", "src/int.rs:Int", "src/errors.rs:Error", "src/bitwidth.rs:BitWidth"]}
{"id": "C86", "title": "UInt and Int can be shared for a while between threads that survive panics", "statement": "UInt and Int are Send and Sync because ApInt is. Whatever threads do with UInts and Ints that they own, hand over, turn into each other, begin to share with all threads while calls are running, and take back once no call can be using them, with panics caught at any point: although one method makes several calls on the field, no thread ever accesses freed memory or frees twice, two threads never access the same buffer at once unless both read, no step of any thread changes an integer that is shared or its type, every method happens as if at once when it returns or panics and tells what a machine over mathematical integers tells, a thread in a call can always finish it, and a panic leaks nothing, not even the integer the method had taken by value.", "quantifier": "all numbers of threads, all calls, all interleavings of single memory accesses, all allocators, all points at which integers are shared, handed over or taken back, all panics", "why_tests_cant": "Races, leaks after a panic in one thread and wrong interleavings depend on the schedule; a test run sees one schedule out of unboundedly many.", "anchors": ["src/apint/mod.rs:unsafe impl Send", "src/apint/mod.rs:unsafe impl Sync", "src/uint.rs:UInt", "src/int.rs:Int", "src/int.rs:signum", "src/int.rs:partial_cmp", "src/utils.rs:forward_mut_impl", "src/std_ops.rs"]}
{"id": "C87", "title": "Textbook algorithms written with the operators are correct", "statement": "The operators of UInt and Int can be relied on inside loops. For every width and all values, functions that a user writes with them return (no operator panics, every loop ends within a stated number of rounds) and return the right number: Euclid's algorithm gives the greatest common divisor; repeated squaring gives powers modulo 2^w and, with an intermediate width of 2w, powers modulo any number; repeated division by ten gives the decimal text, for Int also at the minimum whose absolute value is not an Int, and reading that text gives the number back; deciding bits with set_bit_at and division gives the integer square root; Newton's method gives the inverse of an odd number; comparing the sum with an operand, dividing the product by a factor or comparing signs tells exactly whether a sum or a product fits; extending, multiplying and shifting gives both halves of a product; sorting by <= gives the same integers in increasing order.", "quantifier": "all widths, all values, all exponents, all lists", "why_tests_cant": "An algorithm combines operators at values a unit test of one operator never reaches; overflow idioms and loops go wrong only at particular values and widths.", "anchors": ["src/std_ops.rs", "src/uint.rs:UInt", "src/int.rs:Int", "src/int.rs:wrapping_abs", "src/uint.rs:into_extend", "src/uint.rs:into_truncate", "src/uint.rs:set_bit_at", "src/uint.rs:PartialOrd"]}
{"id": "C88", "title": "Multiplication and division take at most quadratic work", "statement": "Counting every digit that is read or written, a wrapping multiplication of integers of n digits touches at most 3n^2+14n+11 digits, and each of the eight divisions touches at most r(7n+12) digits plus a linear term (31n+67 unsigned, 46n+85 signed) when the quotient of the absolute values is below 2^(61r). So all of them are quadratic in the number of digits whatever the operands are, divisions with a quotient below 2^61 are linear, and no dividend or divisor chosen by an attacker makes a division take longer. The counted calls return the same results and fail in the same cases as the calls.", "quantifier": "all widths, all values of both operands, all r", "why_tests_cant": "A slow input of a division routine is one in astronomically many; timings of chosen inputs do not bound the others, and the loop in the source has no bound.", "anchors": ["src/apint/arithmetic.rs:wrapping_mul_assign", "src/apint/arithmetic.rs:aarons_algorithm_divrem", "src/apint/arithmetic.rs:aarons_algorithm_remdiv", "src/apint/arithmetic.rs:wrapping_udivrem_assign", "src/apint/arithmetic.rs:wrapping_sdiv_assign"]}
{"id": "C89", "title": "What memory accesses and branches tell about the values", "statement": "An observer who sees which digits are read and written in which order, what is allocated, and which way branches on digits go, learns nothing but the widths from any program made of wrapping additions and subtractions, bit operations, single bit accesses, counts of set bits, shifts to the left, logical shifts to the right, clones, assignments, truncations and zero extensions: two runs on integers of the same widths show the same trace and end alike. The other calls show exactly this and no more, for widths above 64 bits: incrementing shows how many digits the carry runs through, decrementing, negating and is_zero how many low digits are zero, the unsigned comparison the order and how many high digits agree; arithmetic right shifts and sign extensions show the sign. At one digit the first five show nothing. Multiplication and division touch a number of digits that depends on the values. The traced calls return what the calls return.", "quantifier": "all programs over the listed calls, all banks of integers of all widths, all values", "why_tests_cant": "Independence of a secret is a statement about all pairs of runs; timing tests sample pairs and measure noise. That a call tells nothing more than a given fact needs all values.", "anchors": ["src/apint/arithmetic.rs:wrapping_add_assign", "src/apint/arithmetic.rs:wrapping_inc", "src/apint/arithmetic.rs:wrapping_neg", "src/apint/relational.rs:checked_ult", "src/apint/utils.rs:is_zero", "src/apint/shift.rs:wrapping_ashr_assign", "src/apint/casting.rs:sign_extend"]}
{"id": "C90", "title": "Calls that neither multiply nor divide touch linearly many digits", "statement": "Clones, assignments, additions, subtractions, bit operations, single bit accesses, counts of set bits, shifts of all three kinds, increment, decrement, negation, the test for zero, the unsigned comparison, truncation and zero and sign extension read, write and allocate a number of digits that is at most linear in the number n of digits of the widths involved, whatever the values and the shift amount are: 3n+2 for additions and subtractions, 4n+2 for left and 4n for logical right shifts, 5n+8 for arithmetic ones, 5n+4 for negation, 2n for the test for zero. Truncation and extension are linear in the target width only. A program of k such calls (those of C89's quiet programs) whose integers never exceed W bits touches at most k * (8n+6) digits for the n digits of W bits. The counted calls return what the calls return, faults included.", "quantifier": "all integers of all widths, all shift amounts, all target widths, all programs over the listed calls", "why_tests_cant": "A benchmark samples widths and values; that no value makes a call do more work, at any width, is a statement about all inputs.", "anchors": ["src/apint/arithmetic.rs:wrapping_add_assign", "src/apint/arithmetic.rs:wrapping_neg", "src/apint/shift.rs:wrapping_shl_assign", "src/apint/shift.rs:wrapping_ashr_assign", "src/apint/casting.rs:truncate", "src/apint/casting.rs:sign_extend", "src/apint/relational.rs:checked_ult", "src/apint/utils.rs:is_zero"]}
{"id": "C91", "title": "The message of a panic says what failed", "statement": "When a call on well-formed integers panics, the message of the panic is determined by what failed. An operator on different widths, and a signed division of different widths, whose unwrap is inside the library, give the Debug text of an error with the two widths in the order of the operands; a shift operator gives the shift amount and the width; a division operator of UInt or Int with divisor 0 gives the name of the division of that type and the dividend with its width and digits; the octal text of a number other than 0 says that it is not implemented. The message tells what is to blame: two calls that panic with the same message blame the same error with the same numbers. Apart from the messages the calls are those of the other properties.", "quantifier": "all calls of programs over ApInt, UInt and Int, all banks of well-formed integers, every way to quote strings", "why_tests_cant": "A test sees the message for one pair of operands; that every panic of every call has a message from which the operands' widths, the shift amount or the dividend can be read back is a statement about all calls and all values.", "anchors": ["src/std_ops.rs", "src/apint/arithmetic.rs:wrapping_sdiv_assign", "src/apint/arithmetic.rs:wrapping_sdivrem_assign", "src/apint/serialization.rs:Octal", "src/errors.rs:Error"]}
{"id": "C92", "title": "Parsing and printing take linear time", "statement": "Counting every byte, vector element and digit that is read, written or moved and every character that is written, parsing a text of b bytes touches at most 7b+6 of them in the radices 2, 4, 8, 16 and 32 and at most 4b+b/4+10 in the others, and a text that is rejected at most 4b+2, whatever the text is; the vectors never outgrow the room they are created with. Printing an integer of n digits touches at most 66n in base 2 and 18n in base 16. The counted calls return what the calls return, faults included. So no text chosen by an attacker makes parsing slow.", "quantifier": "all radices, all texts (also ones outside ASCII), all well-formed integers of all widths", "why_tests_cant": "A test times finitely many texts on one machine; that no text of any length takes more than linear time is a statement about all texts.", "anchors": ["src/apint/serialization.rs:from_str_radix", "src/apint/serialization.rs:from_bitwise_digits", "src/apint/serialization.rs:from_inexact_bitwise_digits", "src/apint/serialization.rs:from_radix_digits", "src/apint/serialization.rs:Binary", "src/apint/serialization.rs:LowerHex"]}
{"id": "C93", "title": "The texts of the errors of UInt and Int say what failed", "statement": "Whenever a method of UInt or Int should report an error, it reports one whose message names the data of that error (widths in order, shift amount, bit position, division of the type and its left operand, destination type and value), and whose annotation is that of the operation: a change of width says zero-extend for a UInt and sign-extend for an Int, a comparison is called unsigned for a UInt and signed for an Int and shows both operands in the order given, as the ApInt with the same bits; strict assignment shows both operands; parsing reports the error of parsing the text. The message alone determines the data of the error, and the annotation of a failed comparison determines the comparison, the type and both operands. An error that owns an integer has no annotation. Making the texts changes no answer and never panics, and so does printing the error; {} prints the same as {:?}.", "quantifier": "all calls of programs over UInt and Int, all banks of well-formed integers of both types, every way to quote strings", "why_tests_cant": "A test sees the texts for one pair of operands; that every failing call of both types has texts from which the operation, the type and the operands can be read back is a statement about all calls and all values.", "anchors": ["src/uint.rs", "src/int.rs", "src/errors.rs:125-405", "src/apint/relational.rs:32-228", "src/apint/casting.rs:80-345", "src/utils.rs:8-37"]}
{"id": "C94", "title": "Formatting hands the text to the writer in order, stops at a refusal and ignores the flags", "statement": "Formatting an ApInt, UInt or Int in binary or hexadecimal hands the writer behind the formatter the canonical text of the unsigned value in pieces, in order, and nothing else. As soon as the writer refuses a piece, nothing more is handed over and the call returns an error; it returns Ok exactly when all pieces were taken; it never panics. A String therefore gets the whole text appended; a buffer of fixed size gets the whole text if it fits and otherwise a beginning of it together with an error. The flags of the formatter (#, +, 0, width, fill, alignment, precision) change nothing, unlike for the built-in integers: {:#x} prints no 0x and {:08x} does not pad. Octal prints zero as 0 and panics for everything else before anything is written.", "quantifier": "all well-formed integers of every width, all flags, all writers with any state, every way in which the standard library cuts a text into pieces", "why_tests_cant": "format! writes to a String, which never refuses; that nothing is written after a refusal at any point, for every writer and all combinations of flags, is beyond any list of cases.", "anchors": ["src/apint/serialization.rs:30-98", "src/digit.rs:53-75", "src/uint.rs:1080-1102", "src/int.rs:1156-1178"]}
{"id": "C95", "title": "A whole program takes at most quadratic work per call, and linear work without multiplication and division", "statement": "Counting every digit that is read or written and every byte of text that is touched: any call of a program over a bank of integers of at most W bits touches at most 14\u00b7D\u00b2+72\u00b7D+86 digits if it multiplies or divides and at most 66\u00b7D+12 if it does anything else, where D is the number of 64-bit digits of W, plus at most seven for each byte of the text it parses. This holds for all constructors, random integers, width changes, comparisons, bit queries, conversions to primitive types, formatting, operators and consuming methods, for operands of different widths and for calls that report an error. Hence a program of n calls touches at most n times as much, and no program that asks for no integer of more than W bits ever holds one.", "quantifier": "all programs of any length, all banks of well-formed integers of any widths up to any W, all texts and all streams of random words", "why_tests_cant": "A test measures the work of the operands it chose; that no operand, no order of calls and no mixture of widths makes some call slower than the bound is a statement about all of them.", "anchors": ["src/apint/arithmetic.rs:32-1841", "src/apint/bitwise.rs:15-302", "src/apint/casting.rs:13-490", "src/apint/constructors.rs:90-406", "src/apint/rand_impl.rs:30-70", "src/apint/relational.rs:12-229", "src/apint/serialization.rs:30-196", "src/apint/shift.rs:15-300", "src/apint/to_primitive.rs:117-573"]}
{"id": "C96", "title": "What equality, comparisons, zero counts and whole programs show to an observer", "statement": "Of everything an observer of the digits touched and the branches taken can see, the test for equality shows exactly how many low digits agree; a signed comparison of more than one digit shows exactly the two signs, the order and how many high digits agree, and of one digit nothing; the other comparisons show what < shows of the operands or of the swapped operands; leading_zeros shows exactly how many high digits are zero and trailing_zeros how many low ones; is_one shows whether the top digit is one and if so how many low digits are zero; is_all_set shows whether a partly used top digit is full and if so how many low digits are; sign_resize to a larger width shows exactly the sign and to a smaller one nothing; comparing different widths shows nothing. A program mixing these and the conversions to primitive types (C99) and multiplications (C100) and writing in binary and hexadecimal (C101) with the arithmetic, shifts and width changes of C89 shows only the widths and, call by call, these facts: two runs that agree in them have the same trace and end alike.", "quantifier": "all pairs and quadruples of well-formed integers of every width; all programs of any length over banks of integers of any widths", "why_tests_cant": "What a trace tells is a statement about all pairs of secrets: a test compares the traces of the secrets it chose and cannot show that no other pair is told apart, nor that a sequence of calls leaks no more than its calls.", "anchors": ["src/apint/relational.rs:12-229", "src/apint/bitwise.rs:183-302", "src/apint/utils.rs:385-412", "src/apint/arithmetic.rs:32-110", "src/apint/shift.rs:200-300", "src/apint/casting.rs:472-490"]}
{"id": "C97", "title": "The work of whole programs over UInt and Int", "statement": "The methods and operators of UInt and Int, which work by calls on their ApInt field (sometimes two, as in abs, signum and the order of two integers), do no hidden work: on integers of at most W bits a call touches at most quadratically many digits if it multiplies or divides, linearly many in anything else, and seven for each byte that it parses. No call makes an integer wider than it asks for, so a program of n such calls touches at most n times that, whatever mixture of types, widths, errors and panics it meets, and gives the answers it gives without the count.", "quantifier": "all programs of any length over banks of UInt and Int of any widths, all initial banks", "why_tests_cant": "A benchmark measures the programs it runs; that no combination of calls of the typed interface costs more than its length times the square of the widest integer is a statement about all programs and all widths.", "anchors": ["src/uint.rs:190-1102", "src/int.rs:198-1178", "src/std_ops.rs:1-325"]}
{"id": "C98", "title": "What abs, signum and the order of UInt and Int show to an observer", "statement": "Of everything an observer of the digits touched and the branches taken can see, Int::wrapping_abs shows exactly the sign and, of negative integers of more than one digit, how many low digits are zero; Int::signum shows exactly its answer and, beyond one digit, how many low digits are zero; partial_cmp of UInt and of Int shows exactly what < shows, the answer of <, and if that is false how many low digits agree, because equality is tested in a second pass. Hence partial_cmp tells strictly more than <. Integers of different widths show nothing.", "quantifier": "all pairs and quadruples of well-formed integers of every width", "why_tests_cant": "What a trace tells is a statement about all pairs of secrets: a test compares the traces of the secrets it chose and cannot show that no other pair is told apart.", "anchors": ["src/int.rs:236-277", "src/int.rs:346-361", "src/uint.rs:288-303"]}
{"id": "C99", "title": "What the conversions to primitive types show to an observer", "statement": "Of everything an observer of the digits touched and the branches taken can see, try_to_i8 to try_to_u64 show exactly whether the low 64 bits fit into the type and, if they do, how many of the digits above them are zero before the first that is not; try_to_bool shows the same and whether the low 64 bits are 0 or 1; try_to_u128 and try_to_i128 show exactly how many of the digits above the low 128 bits are zero before the first that is not. Hence of two integers that fit, every conversion but try_to_bool shows nothing, and every conversion shows whether it succeeds. resize_to_* shows nothing but the width.", "quantifier": "all pairs of well-formed integers of every width, all eleven primitive types", "why_tests_cant": "What a trace tells is a statement about all pairs of secrets: a test compares the traces of the secrets it chose and cannot show that no other pair is told apart.", "anchors": ["src/apint/to_primitive.rs:43-52", "src/apint/to_primitive.rs:117-288", "src/apint/to_primitive.rs:308-573"]}
{"id": "C100", "title": "What multiplication shows to an observer", "statement": "Of everything an observer of the digits touched, the memory allocated and the branches taken can see, wrapping_mul_assign at more than 64 bits shows exactly how many high digits of the argument are zero; unless the argument is zero, how many high digits of the receiver are zero; and, if both factors have more than one digit, whether their bit lengths together exceed the bits of the digits. At up to 64 bits, and when the widths differ, it shows nothing but the widths. Hence it shows whether the exact product is zero, a multiplication by zero shows nothing of the receiver (but a multiplication of zero shows something of the argument), and of factors whose top digits are not zero nothing is shown.", "quantifier": "all quadruples of well-formed integers of every width", "why_tests_cant": "What a trace tells is a statement about all pairs of secrets: a test compares the traces of the secrets it chose and cannot show that no other pair is told apart.", "anchors": ["src/apint/arithmetic.rs:294-578"]}
{"id": "C101", "title": "What writing an integer in binary or hexadecimal shows to an observer", "statement": "Of everything an observer of the digits touched and the branches taken can see, formatting with {:b}, {:x} or {:X} shows exactly how many high digits are zero and, of integers of more than 64 bits, how many low digits are zero (because it starts with is_zero). The three show the same of every pair of integers. At up to 64 bits nothing is shown but whether the integer is zero, and of integers whose lowest and highest digits are not zero nothing is shown.", "quantifier": "all pairs of well-formed integers of every width", "why_tests_cant": "What a trace tells is a statement about all pairs of secrets: a test compares the traces of the secrets it chose and cannot show that no other pair is told apart.", "anchors": ["src/apint/serialization.rs:30-98", "src/apint/utils.rs:385-392"]}
