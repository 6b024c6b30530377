{
 "C36": {
  "note": "False as stated for widths above 64 (C36_false); exact behaviour there is C36_wide."
 },
 "C37": {
  "note": "False as stated for widths that are multiples of 64 (C37_false); exact behaviour there is C37_aligned."
 },
 "C14": {
  "note": "The documented promise is refuted (C14_doc_false); what the code does on every pair of unmatched widths is C14_behaviour."
 },
 "C33": {
  "note": "False as stated (C33_false_accepts, C33_false_rejects): the signed try_to methods test the unsigned value. C33_wrong gives the exact behaviour."
 },
 "C41": {
  "note": "False as stated beyond one machine word of digits (C41_false); C41_behaviour is what the code returns for every accepted string and C41_correct_iff says exactly when that is right."
 },
 "C42": {
  "note": "Octal formatting and to_string_radix are unimplemented in the source (C42_unimplemented)."
 },
 "C47": {
  "note": "The round trip assumes the width fits a machine word (usize). C47_panics_iff records that the compact form panics on an empty sequence."
 },
 "C52": {
  "note": "C52_truncate records that truncate_to with the full width of 64 overflows its shift (panics with overflow checks)."
 },
 "C02": {
  "note": "The abstract machine is SpecProgram.lean. is_one, is_all_set (C36, C37 refuted) and radices that are not powers of two (C41 refuted) are not among the calls."
 },
 "C51": {
  "note": "C51_calls gives the exact set of panicking calls; C51_others covers the calls left out of the instruction set."
 },
 "C53": {
  "note": "Model/Heap.lean keeps the pointers. Temporary vectors and clones local to one arithmetic call and owned by safe code are not tracked, nor is unwinding after a panic; the digits of parsed integers come from the pure model."
 },
 "C54": {
  "note": "Crate-private, unused code. False as stated: the mask ONES >> excess keeps 64 - excess bits of the top digit instead of excess bits (C54_false at 7 bits; C54_correct_iff: the claim holds exactly at widths that are 0 or 32 modulo 64). C54_uadd_partial proves it there; C54_behaviour says what the code computes at every width."
 },
 "C55": {
  "note": "Crate-private, unused code; holds at every width."
 },
 "C63": {
  "note": "Unwinding is modelled for the calls of programs (Model/Unwind.lean); C63_same_code links it to the code of C02."
 },
 "C64": {
  "note": "Buffers of temporaries owned by a panicking call are tracked (Model/HeapUnwind.lean)."
 },
 "C65": {
  "note": "Interleaving at the granularity of one buffer access; the lent integers are fixed before the threads start. An example shows a race when the borrow checker's rule is dropped."
 },
 "C66": {
  "note": "Linearization point: the return of the call."
 },
 "C67": {
  "note": "About the buffers of a program's own integers. The scratch vectors inside multiplication and division are the subject of C72; copies carried by error values are not tracked by the heap model."
 },
 "C68": {
  "note": "The documentation of from_str_radix says leading zeros are an error; the code accepts them."
 },
 "C69": {
  "note": "Left out of the instruction set: is_one and is_all_set (C36, C37), Int::try_to_* (C33) and parsing in radices other than powers of two (C41), whose behaviour is not the one of integers; see those properties."
 },
 "C70": {
  "note": "Holds although overflowing_uadd_assign, which identities calls, is wrong at most widths (C54): where it misses an overflow the division that follows works on the unreduced digits, and where it reports one too many the check is skipped. So the authors' fuzzer cannot find that bug at any width."
 },
 "C71": {
  "note": "Corollaries of C22 with C04, C06, C07, C15, C16, C19, C24, C25; the bounds for sums and products by induction on the width."
 },
 "C72": {
  "note": "Sizes in digits, of Vec buffers only (not of error messages). Whether a long division with at least 64 extra bits uses one or two buffers is left open by the statement."
 },
 "C73": {
  "note": "False as stated: quotient one with a dividend that has more bits than the divisor allocates (C73_quotient_one), and the calls that give only the quotient or the remainder always allocate above 64 bits (C73_always_copied). Proved: all multiplication cases, and the division cases for udivrem and uremdiv except the quotient one with more bits."
 },
 "C74": {
  "note": "Faults of the model are split into panics every build has and checks only debug builds have; the latter are shown unreachable. usize additions and multiplications are unbounded in the model and not covered (they count bits or digits of integers in memory)."
 },
 "C75": {
  "note": "Machine with pointers refined to a machine whose errors are values (SpecErrors.lean). Message and annotation strings of an error are not part of it."
 },
 "C76": {
  "note": "Debug of derived types is modelled from the standard library's format without the alternate flag."
 },
 "C77": {
  "note": "The annotations reproduce the wrong abbreviations of the code (see Findings); Quoting (how {:?} escapes characters and strings) is a parameter."
 },
 "C78": {
  "note": "False outside ASCII: the character named is the one numbered by the first UTF-8 byte (C78_first_invalid gives the exact message, C78_other_character shows that it is wrong for every non-ASCII character but one, C78_counterexample a text). The position is right for all texts. Proved as stated for invalid ASCII characters (C78_first_invalid_ascii_partial)."
 },
 "C79": {
  "note": "Every function of the crate that computes sizes is modelled a second time with machine arithmetic (Model/Machine.lean). Integers after a caught panic are not part of this claim."
 },
 "C80": {
  "note": "C80_modest says that the unlimited sizes used by all other properties are exact for programs that hold no integer of 2^(u-1) bits or more."
 },
 "C81": {
  "note": "False for u < 64: the stated width is cast to usize, so its high bits are lost (C81_cut: 2^32 + 8 is read as 8 on a 32-bit machine). C81_accepted_partial says what the width is instead, C81_wide_words that nothing is lost for u >= 64, C81_round_trip that integers of the machine are read back."
 },
 "C82": {
  "note": "C82_same_code ties the scripts to the code of C69; C82_call, C82_panic and C82_client are the agreement with the machine over integers through panics; C82_memory is the heap. The exception in the statement is the known finding on caught panics of in-place signed division."
 },
 "C83": {
  "note": "Removes the two simplifications of C65 and C66: what is lent is no longer fixed, and a panic unwinds instead of ending the thread. The model of a call reads its operands before it decides whether it is the call that returns or the one that panics (C83_alone: on its own this is the caught call of C64). C66_wait_free holds for these calls too (it is about any sequence of accesses)."
 },
 "C84": {
  "note": "Every call of UInt and Int is run as its script of calls on the fields (shown equal to the method without limits by lower_call), each of them on the machine of C79/C80. SpecTypedMachine.lean is independent of the model."
 },
 "C85": {
  "note": "The table is client code: rows of (key, value) pairs, chosen by an arbitrary function of the feed. C85_table* hold for every such function."
 },
 "C86": {
  "note": "Typed version of C83: one call of a thread is the whole sequence of memory accesses of all calls its method makes on the fields (and of the drop of an integer taken by value when it panics). Safety, absence of races, atomicity towards the machine over integers of C69/C82, completion and leak freedom for all schedules; left alone a call is the caught call of C82."
 },
 "C87": {
  "note": "The algorithms are client code (lean/Verif/Algorithms.lean), not in /repo; all calls they make are the modelled ones. Loops get a number of rounds and the theorems say how many suffice."
 },
 "C88": {
  "note": "Counted are reads, writes and pushes of digits in slices and vectors; work on local variables (a bounded amount per digit touched) and the moves of a growing vector are not."
 },
 "C89": {
  "note": "The trace is of the source: accesses of digits, allocations and branches on digits. Operations of the processor on single digits, the carry selection in carrying_add, and what a compiler makes of the source are outside the model; widths and shift amounts are public."
 },
 "C90": {
  "note": "Counts entries of the traces of Model/Trace.lean: accesses of digits, allocations and branches on digits. Parsing and printing are not counted; multiplication and division are counted in C88."
 },
 "C91": {
  "note": "The texts that Result::unwrap and unimplemented!() of the standard library put around the Debug text are assumed; the location that a panic hook prints (file and line) is not modelled. How strings are quoted is a parameter."
 },
 "C92": {
  "note": "Counts accesses, not seconds. In the radices that are not powers of two the work is linear only because most of the conversion is commented out in the source (C41). The short fixed part of error messages and the writing of a single u64 by the standard library count nothing beyond the characters."
 },
 "C93": {
  "note": "The methods of UInt and Int are run as the calls they make on their fields (Script), each call with its whole error; that these scripts do what the methods do is part of C82. The names in parentheses (slt, ule, ugt) are those of the source, which are the same for both types."
 },
 "C94": {
  "note": "The flags are those of Formatter::pad_integral of the standard library, which is modelled for u64; a text is handed over by write_str in pieces of the standard library's choosing (a parameter). {:?} and its flags are not part of this."
 },
 "C95": {
  "note": "The count is of digits and bytes touched, not of machine instructions; resize_to_* and the primitive constructors count as one or two digits. A call that panics is not counted (the count is that of the calls that returned)."
 },
 "C96": {
  "note": "The observer sees which digits are touched and the outcomes of data-dependent branches, not the timing of machine instructions. is_one and is_all_set are not among the calls of the programs, nor are multiplication, division and text."
 },
 "C97": {
  "note": "The unit of work is as in C95: digits and bytes touched, not machine instructions. The typed methods cost what the calls on their fields cost; moving a field between the types is free."
 },
 "C98": {
  "note": "The observer is that of C89 and C96. The other methods of UInt and Int pass on to one call of the field and show what that call shows."
 },
 "C99": {
  "note": "The observer is that of C89 and C96. The refusal clones the integer into the error, which shows the width only."
 },
 "C100": {
  "note": "The observer is that of C89 and C96; the multiplications of the processor are taken to show nothing. A digit of the receiver that the wrapping branch reads again for each digit of a row is traced once for each row."
 },
 "C101": {
  "note": "The observer is that of C89 and C96. How the standard library writes one digit, and the text written, are taken to show nothing here; {:o} is not in it, because it panics on every integer but zero."
 }
}