# Formal model of apint in Lean 4

Source modelled: `/repo` (Robbepop/apint, pinned commit), read as text only; nothing
was built or run. Everything in `lean/Verif` is checked by `lake build`.

## Layout

| path | contents |
|------|----------|
| `lean/Verif/Model/*.lean` | the model, function by function, each definition citing file and lines |
| `lean/Verif/Spec.lean` | value of a digit list, unsigned / signed value, well-formedness, "the call returns / updates to" |
| `lean/Verif/SpecWrap.lean` | what it means that the four forms of an operation agree; meaning of `UInt` / `Int` values |
| `lean/Verif/SpecText.lean` | numerals: accepted strings, their value, canonical text |
| `lean/Verif/Instr.lean`, `SpecProgram.lean` | syntax of programs over the API and the abstract machine on (width, number) |
| `lean/Verif/TInstr.lean`, `SpecTyped.lean` | the same for programs over `UInt` and `Int`: the abstract machine computes with mathematical integers |
| `lean/Verif/Model/TypedHeap.lean`, `TypedClient.lean`, `SpecTypedClient.lean` | methods of `UInt` and `Int` as scripts of calls on their fields, clients running them on the pure or the pointer model, and what should happen |
| `lean/Verif/Model/Machine.lean` | the functions that compute sizes, on machines with words of limited size (C79 to C81); `SpecMachine.lean` says what should happen there |
| `lean/Verif/Model/TypedMachine.lean` | the calls of `UInt` and `Int` on such machines (C84), from the scripts of `Model/TypedHeap.lean`; `SpecTypedMachine.lean` says what should happen |
| `lean/Verif/Model/Hashing.lean` | what `Hash` of integers and errors feeds to a hasher, call by call, and a hash table built on `Hash` and `Eq` (C85); `SpecHashing.lean` says what a map should answer |
| `lean/Verif/Model/Fuzz.lean` | the parametric tests of `src/apint/arithmetic.rs`, an assertion being a panic; `usize` overflow of the sizes the tests compute (`size * 2`, `2usize.pow(..)`) is not modelled |
| `lean/Verif/Conform.lean` | **tests, not proofs**: the literal unit tests of the crate (about 130 `#[test]` functions, with the values their authors expected of the real code) evaluated on the model by the kernel; all pass, and the two samples the authors commented out as failing fail. Nothing depends on this file; it is evidence that the model is faithful where the code could not be run |
| `lean/Verif/SpecExpr.lean`, `ExprEval.lean`, `ExprNotation.lean` | expressions over the API: their meaning as bit-vector terms, their evaluation with the modelled calls, and notation |
| `lean/Verif/SpecThreads.lean` | abstract machine of several threads: every call happens at once |
| `lean/Verif/SpecSharing.lean` | the same with panics that are caught and integers shared for a while |
| `lean/Verif/Model/TypedSharing.lean`, `lean/Verif/SpecTypedSharing.lean` | the same for `UInt` and `Int` (C86) |
| `lean/Verif/Algorithms.lean` | functions a user writes with the operators: gcd, powers, decimal text, square root, overflow checks, sorting (C87) |
| `lean/Verif/Model/Work.lean` | multiplication and division with a count of the digits touched (C88) |
| `lean/Verif/Model/Trace.lean` | calls with a trace of their memory accesses and branches on digits (C89, C90) |
| `lean/Verif/Model/WorkText.lean` | parsing and printing with a count of bytes, digits and characters (C92) |
| `lean/Verif/Model/TraceTyped.lean` | traced `abs`, `signum` and `partial_cmp` of `UInt` and `Int` (C98) |
| `lean/Verif/Model/TracePrim.lean` | traced `try_to_*` and `resize_to_*` (C99) |
| `lean/Verif/Model/TraceMul.lean` | traced `wrapping_mul_assign` (C100) |
| `lean/Verif/Model/TraceText.lean` | traced `fmt::Binary`, `fmt::LowerHex`, `fmt::UpperHex` (C101) |
| `lean/Verif/Model/TypedWork.lean` | the calls of `UInt` and `Int` with a count of the digits touched, and programs of them (C97) |
| `lean/Verif/SpecTypedWork.lean` | how much work these calls may take (C97) |
| `lean/Verif/Model/TraceAsk.lean` | traced equality, comparisons, zero counts and `sign_resize`, and programs of traced calls (C96) |
| `lean/Verif/SpecTrace.lean` | what an observer may learn from each call (C96) |
| `lean/Verif/Model/WorkProgram.lean` | every call of a program with a count of the digits and bytes touched (C95) |
| `lean/Verif/SpecWorkProgram.lean` | how much a call may touch (C95) |
| `lean/Verif/Model/Formatter.lean` | binary, octal and hexadecimal formatting with flags and a writer (C94) |
| `lean/Verif/SpecFormatter.lean` | what a writer is handed; writers for the corollaries of C94 |
| `lean/Verif/Model/TypedErrors.lean` | methods of `UInt` and `Int` with whole errors (C93) |
| `lean/Verif/SpecTypedErrors.lean` | what the annotations of errors of `UInt` and `Int` should say |
| `lean/Verif/Model/Panics.lean` | calls that can panic, with the messages of the panics (C91) |
| `lean/Verif/SpecHeap.lean` | what correct use of an allocator means, on the log of its requests |
| `lean/Verif/SpecErrorText.lean` | what the texts of integers and errors should say |
| `lean/Verif/SpecPanics.lean` | what the messages of panics should say |
| `lean/Verif/Proof/*.lean` | helper lemmas and per-function correctness |
| `lean/Verif/Props/*.lean` | the property theorems (`C01_...`), each followed by an `example` that meets its hypotheses |
| `properties.jsonl`, `MANIFEST.json` | property list and claim status |
| `seeded/LOG.jsonl` | log of deliberately wrong models and which theorems caught them |
| `axioms.txt` | axioms of every property theorem, written by `tools/axioms.sh` |
| `tools/` | `gen_wrappers.py` (writes the text of `Model/UInt`, `SInt`, `StdOps`), `gen_manifest.py`, `notes.json`, `axioms.sh` |

No `Spec*` file uses a function of the model, only its data types (and, for `SpecWrap`,
the type of its results).

## Modelling decisions

* `u64` is `BitVec 64` (`Digit`), `u128` is `BitVec 128` (`DDigit`); `usize` is `Nat`.
  Every `usize` subtraction in the code is a *checked* subtraction in the model: an
  underflow is the fault `overflow` (a debug build panics, a release build wraps; C74:
  it never happens, so both builds agree). `usize` additions and
  multiplications are unbounded in the main model; `Model/Machine.lean` repeats every
  function that computes sizes with the arithmetic of a machine whose `usize` has u bits,
  and C80 (`C80_modest`) shows that this makes no difference for programs whose integers
  have fewer than 2^(u-1) bits.
* Every machine shift with an unchecked amount is a checked shift (fault `overflow` when
  the amount is >= the word size). `wrapping_shl/shr` mask the amount as Rust does.
* `Run a` is the type of a computation that returns a value or stops with a fault
  (`panic`, `overflow` for a check that only debug builds have, `ub` for undefined
  behaviour, `diverge` for an exhausted loop budget).
  Slice indexing, `unwrap`, `expect`, `assert!`, `unreachable!`, `unimplemented!`
  are faults `panic`; a failed `debug_assert!` is `overflow`; reading the wrong union variant or a raw slice of the wrong
  length is `ub`. A theorem of the form `f x = .ok y` therefore also says that no
  panic, no undefined behaviour and no endless loop happens.
* Rust `Result` values stay data (`Res a`), with the error kinds of `errors.rs`.
  `Model/Errors.lean` adds the messages and annotations (C76 to C78): `Instr.execE` is
  `Instr.exec` with whole errors, and erasing the texts gives back `Instr.exec`.
* A method `fn f(&mut self, ..) -> Result<()>` becomes
  `f : ApInt -> .. -> Run (Res Unit × ApInt)`: the state of `self` is returned in the
  error case too, so "an error changes nothing" can be stated.
* `for` loops over `iter_mut()` are structural recursions over the digit list; index
  loops are `forRange` with checked reads `idx` and writes `upd`; the single unbounded
  `loop` (long division) is a recursion with a budget of two rounds per dividend
  digit, whose exhaustion is the fault `diverge`. C62 proves that the budget is never
  exhausted and that a quotient below `2^(61k)` needs at most `k` rounds, so the model's
  answer does not depend on the choice of budget.
* `BitWidth` is a number with a proof that it is not 0 (the field is private and
  `BitWidth::new` is the only way to make one; the code relies on `NonZeroUsize`).
  Deserialisation, the one place that could bypass `new`, goes through it too.
* `Int` is called `SInt` in the model, since `Int` is Lean's type of integers.
* The wrapper methods of `uint.rs`, `int.rs` and the operators of `std_ops.rs` are one-line
  delegations; their Lean text was written by `tools/gen_wrappers.py` from a table and
  reviewed against the source. The Lean files are committed, the script is not part of
  the build.
* A random generator is an arbitrary stream `Nat -> Digit` together with the rest of the
  stream after the call.
* The serde data model (`SVal`) has numbers, sequences, structs and maps; the two visitors,
  the readable and the compact form are modelled on it.
* `ApInt` is a width and a tagged storage (`inl d` / `ext ds`). The union tag is a
  ghost: the code decides by width, the model checks that the tag agrees and
  raises `ub` otherwise. Heap addresses, allocation and freeing are modelled
  separately (`Model/Heap.lean`, property C53).

* Expressions (C56) are a client written for the proof: `Expr.eval` chains the modelled calls
  with `?`. Their meaning `Expr.den` uses only Lean's `BitVec`. The laws C57 to C61 are stated on
  `eval`, so they are claims about the API, and are proved by passing to `den` with `C56_identity`.

## Specification

`val ds` is the little-endian base-2^64 value of a digit list, `a.uval` the value of an
integer, `a.sval` its two's complement value at its width, `a.WF` well-formedness
(positive width, right storage, right digit count, value below 2^width). Properties
are equations between these numbers and ordinary `Nat`/`Int` arithmetic
(`(a + b) % 2^w`, `a / b`, `Int.tdiv`, `Nat.testBit`, ...).

## Programs

`Instr` lists the calls a program can make on a bank of integers (constructors, clone,
drop, assign, every in-place and consuming operation, operators, pair divisions, questions,
comparisons, parsing, formatting). `Instr.exec` runs the modelled code, `Instr.spec` the
abstract machine. C01, C02 and C51 are proved for every program by induction on it.
Left out of `Instr`: `is_one`, `is_all_set` (C36, C37: do not mean what they say) and
radices that are not powers of two (C41). `C51_others` covers their totality.

## Heap

`Model/Heap.lean` keeps the `ext` pointers: integers hold an address, buffers live in a
heap, and allocation, copying and freeing happen exactly where constructors, `clone`,
`assign`, `truncate`, the extensions, the consuming forms and `drop` do it. A heap function is
a program tree (`HM`) of single requests: allocate, read, write, free. `HM.run` runs it with an
arbitrary `Allocator` (any fresh address) and `Growth` (any spare capacity of a `Vec`). Use after free, double free and a free
with the wrong capacity are the fault `ub`. C53: for every program the heap machine behaves
like the pure one, no fault `ub` occurs, and once the bank is dropped every buffer has been
freed exactly once. Digits computed in place are computed by the pure model and written
back to the same buffer. Not tracked: temporaries of one arithmetic call that returns and that are owned by
safe code (`Vec`, cloned operands). The copy of an operand that an error value carries is made in
`Model/HeapErrors.lean`, where a program keeps, clones, compares and drops errors next to its
integers (C75).
`Model/Scratch.lean` gives the sizes of these (C72): it repeats the branches of multiplication and
division and computes the vectors up to their last `push`; for multiplication two lemmas say that
the vector is the one the model of the code copies from (`mulNonOverflow_sum`, `mulWrapping_sum`).

## Panics and clients

`Model/Unwind.lean` runs a call with the integers it was lent in view (`Traced`), so that the
state at a panic is known; forgetting that state gives the model of the other files
(`C63_same_code`). `Model/HeapUnwind.lean` has the drops done while unwinding. The relations
`Reachable` and `HReachable` of C01 and C53 include caught panics. A `Client` (C63, C64) is an
arbitrary function from the answers so far to the next call.

`UInt` and `Int` are structs with one `ApInt`, so their methods are modelled a second time as
scripts of calls on that field (`Model/TypedHeap.lean`), which can be run on the pure model and on
the heap. `C82_same_code` says that the scripts do what the first model (`Model/UInt`, `SInt`,
`StdOps`, `Typed`) does. Moving a field between structs (`into_unsigned`, `into_signed`) is no call.

## Threads

`Model/Threads.lean` runs the same program trees in several threads that interleave after every
single request to the heap, each allocation getting any address that is not live. Some integers
are lent to all threads (shared references), the others belong to one thread each and can be
handed over. `Instr.Allowed` is what the borrow checker accepts: a call that changes or moves an
operand needs it to be the thread's own. In C65 and C66 a thread whose call panics ends with the
buffers it held still live, and what is lent is fixed when the threads start. `Model/Sharing.lean`
(C83) has neither restriction: integers begin to be shared and are taken back while threads run,
and a panic unwinds. There a call is `Instr.attempt`: it reads its operands, and then makes the
accesses of the call that returns or those of the call that panics and drops what its frames own
(C83_alone relates this to the caught calls of C64). A shared integer is taken back only when every
call in progress began before it was shared, which is what `Arc::try_unwrap`, a write lock or the
end of a scope make sure of. One request (say, writing all digits of a buffer) is
one step; C65_no_race shows that no other thread can access the buffer in between, which is what
justifies that granularity. `Model/TypedSharing.lean` (C86) does the same for `UInt` and `Int`: a
method is the sequence of all accesses of the calls it makes on the fields, and other threads may
step in between any two of them. Trusted: Rust's type system, and that the allocator itself is safe to
call from several threads.

## Per property plan

| id | what is modelled | how proved |
|----|------------------|------------|
| C01 | all constructors and mutating calls | each preserves `WF`; induction over a reachability relation / call histories |
| C02 | instruction language over a bank of integers, abstract machine on (width, value) | simulation, induction on the program |
| C03 | `PartialEq`, `Hash` | injectivity of `val` on equal lengths |
| C04 C05 C06 | add, sub, neg, inc, dec | carry invariant along the digit list |
| C07 | mul with all four strategies | loop invariants on partial products |
| C08 | corollaries of C04-C07 | modular arithmetic + C03 |
| C09 | division: single digit, 32-bit, double digit, large by large | loop invariants; quotient estimate lemmas; strict decrease for termination |
| C10 | corollary of C04, C07, C09, C27 | uniqueness of quotient and remainder |
| C11 | signed division family | reduction to C09, case split on signs |
| C12 C13 | error paths of all division / binary calls | case analysis, state returned with the error |
| C14 | signed division on unmatched widths | claim is false: exact characterisation (panic) and a witness |
| C15-C18 | shifts | digit steps as powers of 2^64, bit steps as carry invariants; `Nat.testBit` |
| C19-C21 | bitwise calls | `testBit` of `val` |
| C22 | counts | sums over digits, correction for unused bits |
| C23-C26 | casts | `val` of take / append, masks |
| C27-C29 | comparisons | lexicographic comparison from the top digit |
| C30 | constructors | computation of `val` |
| C31-C34 | conversions to primitives | sign extension arithmetic on words |
| C33 | documented range of `Int::try_to_iN` | false: witness, partial theorem |
| C35 | zero, parity, sign | `val` lemmas |
| C36 | `is_one` | false for w > 64: witness, exact characterisation, partial theorem for w <= 64 |
| C37 | `is_all_set` | false for w divisible by 64: witness, exact characterisation, partial theorem otherwise |
| C38 | `wrapping_abs` | from C06 |
| C39-C41 | string parsing (characters as byte values of the UTF-8 text) | value invariants for chunked / straddling accumulation; C41 false beyond one chunk: witness + partial |
| C42 C43 | formatting to a character list | canonical numeral lemma; composition with the parser |
| C44 | radix and width validation, radix tables | case analysis; complete finite table |
| C45 | clone, assign, strict_assign | direct |
| C46 | random construction from a digit stream | direct; counting of preimages |
| C47 | serialized forms as data (width, digits) / field lists | direct |
| C48 C49 C50 | operators and wrapper types | delegation lemmas |
| C51 | whole model | every theorem is of the form `= .ok ..`; collected statement |
| C52 | word helpers | `BitVec` arithmetic lemmas |
| C53 | heap of buffers with owners | invariant over ownership histories |
| C56-C61 | expressions over the API | homomorphism into `BitVec`; laws from `BitVec` algebra |
| C62 | rounds of long division | progress lemma of one round (61 bits), induction on the budget |
| C63 C64 | unwinding, clients | the simulations of C02 and C53 extended to the state at a panic; induction on the number of calls |
| C65 C66 | threads | footprint of every heap function (`Proof/Foot.lean`); invariant of the interleaving: buffers of threads are disjoint, a call in progress ends as if it ran alone |
| C67 | requests to the allocator | `Calm` program trees (no request whatever the memory answers); C53 for the converse |
| C68 | text | corollaries of C39-C42 |
| C69 | programs over `UInt` and `Int` | the call lemmas of C02 read through the two values of a bit pattern; induction on the program |
| C70 | the crate's own property tests (`identities`, `fuzz_random`, `fuzz_edge`, `nine_test`, ...) | test code transcribed, an assertion is a panic, random draws are parameters; values tracked as integers modulo 2^w |
| C54 C55 | addition reporting overflow (crate-private) | C54 false: witness, exact set of widths where it holds; C55 from C04 |
| C71 | counting bits | from the values and bits of C04-C25; popcount of sums and products by induction on the width |
| C72 | scratch memory | lengths of the vectors `sum`, `quo`, `sub` when complete, along the same branches as C07 and C09 |
| C73 | documented cases without allocation | from C72; two counterexamples |
| C74 | release builds behave like debug builds | faults of debug builds are a separate kind (`overflow`); C02, C41, C46, C47, C54, C55 and C69 give the outcome of every call |
| C75 | errors that own integers | holders of integers (variable or error); each step is a short sequence of calls of the heap machine, so C53 applies; shape of the bank after a call says that only mutated variables change |
| C76 | debug text of integers | `Model/Errors.lean` (`ApInt.debug`), `SpecErrorText.lean` (`AInt.text` from width and number); injective and prefix-free by induction on the digits |
| C77 | error texts | `Model/Errors.lean` (`Instr.execE`), `SpecErrorText.lean` (`AErr.message`, `Instr.note` on the abstract machine); messages differ in their first characters or in numbers that can be read back |
| C78 | invalid characters in messages | `ApInt.parseError` on the UTF-8 bytes; all characters before the first invalid one are ASCII, so byte and character positions agree; the character itself is wrong outside ASCII (finding) |
| C79 | sizes on machine words | `Model/Machine.lean` (size arithmetic modulo 2^u), `SpecMachine.lean` (`specRunOn`: the abstract machine that stops at too wide numbers); each function equals its unlimited twin when the digits can be counted, and `from_iter` stops otherwise |
| C80 | debug builds at large widths | `Instr.Strains` (on the abstract numbers) is exactly when a check fires; `specHistory` for the bound under which nothing can overflow |
| C81 | reading a width back | `Machine.deserialize` with the casts `as usize`; false on machines with fewer than 64 bits (finding) |
| C82 | clients of `UInt` and `Int`, memory | every method is a script of calls on fields; scripts run on the pure and on the pointer model; C69, C63 and C64 lifted by induction on scripts and calls |
| C83 | threads | the invariant of C65 with the number of integers that were shared when a call began; footprints of the unwinding paths |
| C84 | `UInt`, `Int` on machine words | `Machine.runScript`, `Machine.texec`; a script makes at most one call that leaves a new integer and succeeds, so the bound of C79 carries over; `TInstr.Strains` on numbers equals `Instr.Strains` of the first call |
| C85 | `Hash`, `Eq` of `ApInt`, `UInt`, `Int`, `Error`; hash tables as clients | feeds are injective and prefix-free on well-formed keys; refinement of a map by the table for any lawful key type |
| C86 | threads with `UInt` and `Int` | the invariant of C83 with types; footprints compose along the calls of a method; refinement of the machine over integers of C82 |
| C87 | textbook algorithms | loop invariants over the numbers the integers stand for, from the theorems about the operators (C29, C48, C49) |
| C88 | work of multiplication and division | the code once more with a counter (Model/Work.lean), related to the model by a counting logic (`Costs`: same result, bounded count); the number of rounds from C62 |
| C89 | memory accesses and branches | the code once more with a trace (Model/Trace.lean), erasure to the model, and a relational logic for two runs (`Twin`: same trace, same faults) |
| C90 | work of the other calls | length of the traces of Model/Trace.lean, with a logic of bounds (`Spans`), and widths of programs bounded through the abstract machine |
| C91 | messages of panics | the panicking calls once more with messages (Model/Panics.lean), erasure to the model, SpecPanics.lean says what each panic blames; injective because kinds differ in their first characters and numbers can be read back |
| C92 | work of parsing and printing | the parser and the formatting once more with a count (Model/WorkText.lean), in which a push beyond the reserved room counts moving the vector; rules of C88 (`Costs`) |
| C93 | texts of errors of `UInt` and `Int` | the calls on the fields (C82) with whole errors (C77); the error of a method is that of the last call on a field that failed; notes over numbers in SpecTypedErrors.lean |
| C94 | formatting into a formatter | writers as arbitrary state machines that may refuse; `Handed` says which pieces a writer got; corollaries for a `String`, a buffer of fixed size and a broken writer |
| C95 | work of whole programs | counted versions of all calls of `Model/Program.lean`; bound per call for any widths, widths stay bounded on the abstract machine, induction over the program |
| C96 | exact leakage of questions; leakage of programs | traced versions in `Model/TraceAsk.lean`, reader facts in `SpecTrace.lean`; prefix scans as `whileSeen`, relational induction over two runs |
| C97 | work of programs over `UInt` and `Int` | scripts of calls on the fields played with counted calls; at most two costly calls in a script, C95 for each |
| C98 | exact leakage of `abs`, `signum` and `partial_cmp` | traced versions in `Model/TraceTyped.lean`; no trace is a proper beginning of another (`Apart`), so what calls in sequence show is what each shows |
| C99 | exact leakage of `try_to_*` | traced versions in `Model/TracePrim.lean`; the trace is written out (`castSeen`, `wideSeen`) and compared by the first digit that is not zero |
| C100 | exact leakage of multiplication | traced versions in `Model/TraceMul.lean`; the two searches and the one test on bit lengths come first in the trace and determine the rest (`Twin`), and are told apart by it (`scan_tells`) |
| C101 | exact leakage of writing in binary and hexadecimal | traced versions in `Model/TraceText.lean`; the test for zero and the search from the top are told apart one after the other (`Apart`) |

## Findings

Places where the code does not do what its documentation or name says. Each has a theorem
that refutes the claim with a witness, and a theorem that says what the code does.

| where | what happens | theorems |
|-------|--------------|----------|
| `is_one`, widths above 64 | looks at the most significant digit | `C36_false`, `C36_wide` |
| `is_all_set`, widths divisible by 64 | ignores the most significant digit | `C37_false`, `C37_aligned` |
| signed division, operands of different width | panics (documented as an error); with divisor zero it reports division by zero | `C14_doc_false`, `C14_behaviour` |
| `Int::try_to_i8` .. `i128` | range test on the unsigned value: rejects negative numbers, accepts too large ones | `C33_false_accepts`, `C33_false_rejects`, `C33_wrong` |
| `from_str_radix`, radix not a power of two | only the first chunk of digits is used | `C41_false`, `C41_behaviour`, `C41_correct_iff` |
| `overflowing_uadd_assign` (used by tests only) | mask of the wrong length | `C54_false`, `C54_correct_iff` |
| the authors' fuzzer and `overflowing_uadd_assign` | the fuzzer calls the faulty function, yet passes at every width: a missed overflow leaves the unreduced sum, which still divides exactly, and a spurious one skips the check | `C54_false`, `C70_identities` |
| division with quotient one, dividend with more bits than the divisor | documented as "no allocation", allocates a buffer | `C73_quotient_one` |
| `udiv`, `urem`, `sdiv`, `srem` above 64 bits | always copy the divisor, although division of zero and by one digit is documented as "no allocation" | `C73_always_copied` |
| `{:o}` | panics for every number but zero; `to_string_radix` always panics | `C42_unimplemented` |
| deserialising the compact form | panics on an empty sequence | `C47_panics_iff` |
| `Digit::truncate_to(64)` | shifts by 64 (panics with overflow checks) | `C52_truncate` |
| `checked_ule`, `ugt`, `sle`, `sgt` | the error names the two widths in swapped order | `SpecProgram.lean` (`pmc`), C13 |
| signed division in place, panic caught | the operands lent mutably are left as their magnitudes | `C63_panic_division`, `C63_panic_division_pair` |
| `#[cfg_attr(serde_support, ..)]` on `Int`, `UInt` | the cfg is never set (`feature = ".."` is missing), so the wrappers have no serde support | read, not modelled |
| `Int::is_positive` | true for zero | C35 |
| `from_str_radix` | documented to reject leading zeros and values that do not fit a target width; accepts leading zeros, and has no target width | `C68_leading_zeros`, C39 |
| `{:#x}`, `{:08x}` and so on | the flags of the formatter are ignored | read; see `Model/Strings.lean` |
| invalid character outside ASCII in a string | the message names the character whose number is the first byte of its UTF-8 encoding, `Ã` for `é`; wrong for every such character but `Ã` | `C78_other_character`, `C78_counterexample` |
| annotations of failed comparisons | `ult` is called "slt", `uge`, `sle` and `sge` "ule", `sgt` "ugt" (the words and the symbol next to it are right) | `Ask2.note`, `C77_annotation` |
| annotation of a failed `truncate` | has a line break and 25 spaces in the middle of the sentence | `Un.note`, `C77_annotation` |
| message for an invalid character | the character is quoted twice (`''g''`) | example of `C78_same_errors` |
| annotation of a failed `strict_assign` | "trying to `strict_assign` x to y" where y is to be assigned to x | `Instr.note`, `C77_annotation` |
| invalid character in a string | position and character are not stored in the error kind | C40 |
* C79: `from_iter` (constructors.rs:186) computes `n * 64`.  On a machine with u-bit words the
  widths from 2^u - 63 to 2^u - 1 are accepted by `BitWidth` but every constructor and extension
  panics for them (in a release build through the checks behind the wrapped product, not because
  of a check meant for it).
* C80: `wrapping_mul_assign` adds the numbers of significant bits of its factors
  (arithmetic.rs:340); the sum can overflow although the integers exist, and a debug build panics.
  A release build chooses the other of two algorithms, both of which are right.
* C80: `from_inexact_bitwise_digits` (radix 8 and 32) computes `len * bits + 64` and panics in a
  debug build for a text that fills the widest integer exactly.
* C84: for `Int` the same sum overflows for two negative numbers of any size at half of the widest
  widths (`C84_negative`): in a debug build on a machine with u-bit words, -1 times -1 panics at
  every width from 2^(u-1).
* C81: deserialization casts the stated width to `usize` (serde_impl.rs:91, 108).  On machines with
  32-bit words a width of 2^32 + 8 with one digit is accepted as an 8-bit integer.
| `{:#x}`, `{:08b}` and other flags | ignored: no prefix, no padding (the documentation promises nothing, but the built-in integers do it) | `C94_flags`, `C94_unlike_u64` |

## Not modelled

* how Rust quotes characters and strings in `{:?}` (a parameter `Quoting` of the error
  texts), the file and line in panic messages, `Formatter` flags of `{:?}` (`{:#?}`, `{:x?}`),
  the serde wire formats (JSON, bincode, ..) beneath the data model, the random
  generators themselves (a generator is an arbitrary stream of digits), hash function
  internals (the data fed to the hasher is modelled, and C85 is for every hash function), allocation failure, compiler and
  CPU, the external crates (`smallvec`, `rand`, `serde`).
* `random_with_width` and `randomize` without a generator argument (they seed one and call
  the modelled `_using` forms).
* `usize` is unbounded except in `Model/Machine.lean` and `Model/TypedMachine.lean` (C79, C80, C81,
  C84).  There, sums that are
  used as an index right away and the successors of digit counts are still unbounded (an index
  that passes the bounds check is below a length), and the parametric tests, the
  heap and the threads are not repeated.

## Trusted base

Lean's kernel; the axioms `propext`, `Classical.choice`, `Quot.sound` (`axioms.txt` lists
them theorem by theorem; no theorem depends on any other; no `sorry`, `native_decide`,
`bv_decide`); the faithfulness of the
hand-written model to the Rust text, the meaning of the Rust primitives used
(`u64::wrapping_add`, slices, iterators, ..) as transcribed in `Model/Base.lean` and
`Model/Digit.lean`.  `Conform.lean` runs the unit tests of the crate on the model as a check of
that faithfulness; it is not a proof of it.  C89 further takes widths, lengths and shift amounts as
public and the operations on single digits (with the choice of the carry in `carrying_add`) as
showing nothing; it says nothing about the code a compiler emits.  C101 takes the writing of a
single digit by the standard library as showing nothing.
