import Verif.Model.Casting

/-!
# Parsing and formatting (`/repo/src/radix.rs`, `/repo/src/apint/serialization.rs`)

A Rust `&str` is a list of characters; `input.bytes()` is its UTF-8 encoding (as natural
numbers below 256).  A `u8` digit value is a natural number.
-/

namespace Verif

/-- The UTF-8 bytes of a string (standard library `str::bytes`). Used in
`/repo/src/apint/serialization.rs:143-200`. -/
def utf8Bytes (s : List Char) : List Nat :=
  s.flatMap fun c => (String.utf8EncodeChar c).map UInt8.toNat

/-! ## `Radix` -/

namespace Radix

/-- `Radix::new`, `/repo/src/radix.rs:38-43` (`MIN`, `MAX`: lines 27,30). -/
def new (radix : Nat) : Res Radix :=
  if ¬ (2 ≤ radix ∧ radix ≤ 36) then .error (.invalidRadix radix) else .ok ⟨radix⟩

/-- `From<u8> for Radix`, `/repo/src/radix.rs:175-180`. -/
def «from» (radix : Nat) : Run Radix := expect (new radix)

/-- `Radix::is_valid_byte`, `/repo/src/radix.rs:54-56`. -/
def isValidByte (self : Radix) (byte : Nat) : Bool := byte < self.toU8

/-- `Radix::is_power_of_two`, `/repo/src/radix.rs:61-63` (`u8::is_power_of_two`). -/
def isPowerOfTwo (self : Radix) : Bool :=
  self.toU8 = 1 ∨ self.toU8 = 2 ∨ self.toU8 = 4 ∨ self.toU8 = 8 ∨ self.toU8 = 16 ∨
    self.toU8 = 32 ∨ self.toU8 = 64 ∨ self.toU8 = 128

/-- `u8::leading_zeros` (standard library). Used in `/repo/src/radix.rs:83`. -/
def leadingZeros8 (x : Nat) : Nat := if x = 0 then 8 else 7 - Nat.log2 x

/-- `Radix::bits_per_digit`, `/repo/src/radix.rs:80-86`. -/
def bitsPerDigit (self : Radix) : Run Nat :=
  if !self.isPowerOfTwo then .error .panic
  else do
    let lastBitSet ← csub 8 (leadingZeros8 self.toU8)
    csub lastBitSet 1

/-- `Radix::exact_bits_per_digit`, `/repo/src/radix.rs:102-108`. -/
def exactBitsPerDigit (self : Radix) : Run (Option Nat) :=
  if self.isPowerOfTwo then do
    let b ← self.bitsPerDigit
    .ok (some b)
  else .ok none

/-- The table `BASES`, `/repo/src/radix.rs:130-168`. -/
def BASES : List (Nat × Nat) :=
  [ (0, 0),
    (0, 0),
    (9223372036854775808, 63),
    (12157665459056928801, 40),
    (4611686018427387904, 31),
    (7450580596923828125, 27),
    (4738381338321616896, 24),
    (3909821048582988049, 22),
    (9223372036854775808, 21),
    (12157665459056928801, 20),
    (10000000000000000000, 19),
    (5559917313492231481, 18),
    (2218611106740436992, 17),
    (8650415919381337933, 17),
    (2177953337809371136, 16),
    (6568408355712890625, 16),
    (1152921504606846976, 15),
    (2862423051509815793, 15),
    (6746640616477458432, 15),
    (15181127029874798299, 15),
    (1638400000000000000, 14),
    (3243919932521508681, 14),
    (6221821273427820544, 14),
    (11592836324538749809, 14),
    (876488338465357824, 13),
    (1490116119384765625, 13),
    (2481152873203736576, 13),
    (4052555153018976267, 13),
    (6502111422497947648, 13),
    (10260628712958602189, 13),
    (15943230000000000000, 13),
    (787662783788549761, 12),
    (1152921504606846976, 12),
    (1667889514952984961, 12),
    (2386420683693101056, 12),
    (3379220508056640625, 12),
    (4738381338321616896, 12) ]

/-- `Radix::get_radix_base`, `/repo/src/radix.rs:115-172`. -/
def getRadixBase (self : Radix) : Run (Nat × Nat) :=
  if self.isPowerOfTwo then .error .panic else idx BASES self.toU8

end Radix

namespace ApInt

/-! ## Parsing -/

/-- The table `LB_2_36_I3F13`, `/repo/src/apint/serialization.rs:23-28`. -/
def LB_2_36_I3F13 : List Nat :=
  [8192, 12985, 16384, 19022, 21177, 22998, 24576, 25969, 27214, 28340, 29369,
   30315, 31190, 32006, 32768, 33485, 34161, 34800, 35406, 35982, 36532,
   37058, 37561, 38043, 38507, 38953, 39382, 39797, 40198, 40585, 40960,
   41324, 41677, 42020, 42353]

/-- The `match b { … }` on one byte, `/repo/src/apint/serialization.rs:171-177`; `none` is the
`continue` on an underscore. -/
def byteToDigit (b : Nat) : Option Nat :=
  if 48 ≤ b ∧ b ≤ 57 then some (b - 48)
  else if 97 ≤ b ∧ b ≤ 122 then some (b - 97 + 10)
  else if 65 ≤ b ∧ b ≤ 90 then some (b - 65 + 10)
  else if b = 95 then none
  else some 255

/-- The loop over the bytes of the input, `/repo/src/apint/serialization.rs:169-187`: the digit
values, or the error for the first invalid byte.  (The error kind does not record the position
or the character, `errors.rs:204-227`.) -/
def collectDigits (input : List Char) (radix : Radix) : List Nat → List Nat → Res (List Nat)
  | [], v => .ok v
  | b :: rest, v =>
    match byteToDigit b with
    | none => collectDigits input radix rest v
    | some d =>
      if !radix.isValidByte d then .error (.invalidStringRepr input radix none)
      else collectDigits input radix rest (v ++ [d])

/-- `slice::chunks` (standard library): pieces of `n` elements, the last one possibly
shorter; panics when `n` is zero.  The first argument bounds the number of chunks and is
always given as the length of the list. Used in `/repo/src/apint/serialization.rs:210-232`. -/
def chunksAux {α : Type} (n : Nat) : Nat → List α → List (List α)
  | 0, _ => []
  | k + 1, l => if l.isEmpty then [] else l.take n :: chunksAux n k (l.drop n)

/-- `slice::chunks` (standard library). Used in `/repo/src/apint/serialization.rs:210-232`. -/
def chunks {α : Type} (l : List α) (n : Nat) : Run (List (List α)) :=
  if n = 0 then .error .panic else .ok (chunksAux n l.length l)

/-- `chunk.iter().rev().fold(0, |acc, &c| (acc << bits) | c)`,
`/repo/src/apint/serialization.rs:221-224`. -/
def foldChunk (bits : Nat) (chunk : List Nat) : Digit :=
  chunk.reverse.foldl (fun acc c => (acc <<< bits) ||| BitVec.ofNat 64 c) 0#64

/-- `from_bitwise_digits`, `/repo/src/apint/serialization.rs:210-229`. -/
def fromBitwiseDigits (v : List Nat) (bits : Nat) : Run ApInt :=
  if ¬ (v ≠ [] ∧ bits ≤ 8 ∧ bits ≠ 0 ∧ 64 % bits = 0) then .error .overflow
  else if ¬ (v.all fun c => c < 2 ^ bits) then .error .overflow
  else do
    let radixDigitsPerDigit := 64 / bits
    let cs ← chunks v radixDigitsPerDigit
    let r ← fromIter (cs.map (foldChunk bits))
    expect r

/-- The state of the loop of `from_inexact_bitwise_digits`: `data`, `d`, `dbits`.
`/repo/src/apint/serialization.rs:237-275`. -/
structure InexactState where
  data : List Digit
  d : Digit
  dbits : Nat

/-- One iteration of the loop of `from_inexact_bitwise_digits`,
`/repo/src/apint/serialization.rs:251-263`. -/
def inexactStep (bits : Nat) (s : InexactState) (c : Nat) : Run InexactState := do
  let sh ← rawShl (BitVec.ofNat 64 c) s.dbits
  let d := s.d ||| sh
  let dbits := s.dbits + bits
  if dbits ≥ 64 then do
    let data := s.data ++ [d]
    let dbits ← csub dbits 64
    let n ← csub bits dbits
    let d ← rawShr (BitVec.ofNat 64 c) n
    .ok ⟨data, d, dbits⟩
  else .ok ⟨s.data, d, dbits⟩

/-- The loop of `from_inexact_bitwise_digits`, `/repo/src/apint/serialization.rs:251-263`. -/
def inexactLoop (bits : Nat) : List Nat → InexactState → Run InexactState
  | [], s => .ok s
  | c :: rest, s => do
    let s ← inexactStep bits s c
    inexactLoop bits rest s

/-- `from_inexact_bitwise_digits`, `/repo/src/apint/serialization.rs:237-271`. -/
def fromInexactBitwiseDigits (v : List Nat) (bits : Nat) : Run ApInt :=
  if ¬ (v ≠ [] ∧ bits ≤ 8 ∧ bits ≠ 0 ∧ 64 % bits ≠ 0) then .error .overflow
  else if ¬ (v.all fun c => c < 2 ^ bits) then .error .overflow
  else do
    let s ← inexactLoop bits v ⟨[], 0#64, 0⟩
    let data ←
      if s.dbits > 0 then
        if ¬ (s.dbits < 64) then .error .overflow else .ok (s.data ++ [s.d])
      else .ok s.data
    let r ← fromIter data
    expect r

/-- Checked `*` and `+` on `u64` in `acc * radix + d`: overflow is a fault.
`/repo/src/apint/serialization.rs:279-335`. -/
def mulAddU64 (acc radix d : Nat) : Run Nat :=
  if acc * radix + d < 2 ^ 64 then .ok (acc * radix + d) else .error .overflow

/-- `.fold(0, |acc, &d| acc * radix + d)`, `/repo/src/apint/serialization.rs:301-303,326-328`. -/
def foldRadix (radix : Nat) : List Nat → Nat → Run Nat
  | [], acc => .ok acc
  | d :: rest, acc => do
    let acc ← mulAddU64 acc radix d
    foldRadix radix rest acc

/-- The loop over the remaining chunks, `/repo/src/apint/serialization.rs:307-330`.  The
multiplication and addition of the carry are commented out in the source, so a chunk only
appends a zero digit when the last one is not zero. -/
def radixTailLoop (radix : Nat) : List (List Nat) → List Nat → Run (List Nat)
  | [], data => .ok data
  | chunk :: rest, data => do
    let data := if data.getLast? ≠ some 0 then data ++ [0] else data
    let _n ← foldRadix radix chunk 0
    radixTailLoop radix rest data

/-- `from_radix_digits`, `/repo/src/apint/serialization.rs:279-333`.  The estimate of the capacity
(lines 285-292) only indexes the table here: its `checked_mul` panics for inputs of more than
2^48 characters only. -/
def fromRadixDigits (v : List Nat) (radix : Radix) : Run ApInt :=
  if ¬ (v ≠ [] ∧ !radix.isPowerOfTwo) then .error .overflow
  else if ¬ (v.all fun c => radix.isValidByte c) then .error .overflow
  else do
    let i ← csub radix.toU8 2
    let _lb ← idx LB_2_36_I3F13 i
    let (_base, power) ← radix.getRadixBase
    if power = 0 then .error .panic
    else do
      let r := v.length % power
      let i := if r = 0 then power else r
      if v.length < i then .error .panic
      else do
        let head := v.take i
        let tail := v.drop i
        let first ← foldRadix radix.toU8 head 0
        if tail.length % power ≠ 0 then .error .overflow
        else do
          let cs ← chunks tail power
          let data ← radixTailLoop radix.toU8 cs [first]
          let r ← fromIter (data.map (BitVec.ofNat 64))
          expect r

/-- `from_str_radix` after the radix argument was converted,
`/repo/src/apint/serialization.rs:149-201`. -/
def fromStrRadix' (radix : Radix) (input : List Char) : Run (Res ApInt) :=
  if input.isEmpty then .ok (.error (.invalidStringRepr input radix none))
  else if input.head? = some '_' then .ok (.error (.invalidStringRepr input radix none))
  else if input.getLast? = some '_' then .ok (.error (.invalidStringRepr input radix none))
  else
    match collectDigits input radix (utf8Bytes input) [] with
    | .error e => .ok (.error e)
    | .ok v => do
      match ← radix.exactBitsPerDigit with
      | some bits =>
        let v := v.reverse
        if bits = 0 then .error .panic
        else if 64 % bits = 0 then do
          let a ← fromBitwiseDigits v bits
          .ok (.ok a)
        else do
          let a ← fromInexactBitwiseDigits v bits
          .ok (.ok a)
      | none => do
        let a ← fromRadixDigits v radix
        .ok (.ok a)

/-- `from_str_radix`, `/repo/src/apint/serialization.rs:143-202`; the radix is given as a `u8`
(`From<u8>` panics on an invalid one). -/
def fromStrRadix (radix : Nat) (input : List Char) : Run (Res ApInt) := do
  let r ← Radix.from radix
  fromStrRadix' r input

/-! ## Formatting

Every digit is written with its own `write!`, so the flags of the outer formatter (width, fill,
`#`) have no effect; the output is a list of characters. -/

/-- Digits of `n` in base `b`, most significant first, no leading zeros, empty for `0`; `k` bounds
the number of digits.  Used for the `{:b}`, `{:x}` and `{:X}` output of a `u64` (standard
library). Used in `/repo/src/apint/serialization.rs:30-98`. -/
def stdDigits (b : Nat) : Nat → Nat → List Nat
  | 0, _ => []
  | k + 1, n => if n = 0 then [] else stdDigits b k (n / b) ++ [n % b]

/-- Lower-case digit characters. Used in `/repo/src/apint/serialization.rs:60-78`. -/
def lowerChar (d : Nat) : Char := if d < 10 then Char.ofNat (48 + d) else Char.ofNat (87 + d)

/-- Upper-case digit characters. Used in `/repo/src/apint/serialization.rs:80-98`. -/
def upperChar (d : Nat) : Char := if d < 10 then Char.ofNat (48 + d) else Char.ofNat (55 + d)

/-- `write!(f, "{:b}", digit)` and friends, through `fmt::Binary for Digit`,
`fmt::LowerHex for Digit`, `fmt::UpperHex for Digit`, `/repo/src/digit.rs:53-75`. -/
def stdFmt (b : Nat) (ch : Nat → Char) (n : Nat) : List Char :=
  if n = 0 then ['0'] else (stdDigits b 64 n).map ch

/-- `write!(f, "{:064b}", digit)`, `{:016x}`, `{:016X}`: pad with zeros on the left. Used in
`/repo/src/apint/serialization.rs:30-98`. -/
def stdFmtPad (b : Nat) (ch : Nat → Char) (w : Nat) (n : Nat) : List Char :=
  let s := stdFmt b ch n
  List.replicate (w - s.length) '0' ++ s

/-- The common shape of `fmt::Binary`, `fmt::LowerHex` and `fmt::UpperHex`,
`/repo/src/apint/serialization.rs:30-48,60-98`, on the digits from the most significant one
down: skip zero digits, write the first nonzero one unpadded and the others padded. -/
def fmtDigits (b : Nat) (ch : Nat → Char) (w : Nat) : List Digit → List Char
  | [] => []
  | d :: rest =>
    if Digit.isZero d then fmtDigits b ch w rest
    else stdFmt b ch d.toNat ++ rest.flatMap fun d => stdFmtPad b ch w d.toNat

/-- `fmt::Binary for ApInt`, `/repo/src/apint/serialization.rs:30-48`. -/
def fmtBinary (self : ApInt) : Run (List Char) := do
  let z ← self.isZero
  if z then .ok ['0']
  else do
    let ds ← self.asDigitSlice
    .ok (fmtDigits 2 lowerChar 64 ds.reverse)

/-- `fmt::Octal for ApInt`, `/repo/src/apint/serialization.rs:50-58`: `unimplemented!()` for
every value but zero. -/
def fmtOctal (self : ApInt) : Run (List Char) := do
  let z ← self.isZero
  if z then .ok ['0'] else .error .panic

/-- `fmt::LowerHex for ApInt`, `/repo/src/apint/serialization.rs:60-78`. -/
def fmtLowerHex (self : ApInt) : Run (List Char) := do
  let z ← self.isZero
  if z then .ok ['0']
  else do
    let ds ← self.asDigitSlice
    .ok (fmtDigits 16 lowerChar 16 ds.reverse)

/-- `fmt::UpperHex for ApInt`, `/repo/src/apint/serialization.rs:80-98`. -/
def fmtUpperHex (self : ApInt) : Run (List Char) := do
  let z ← self.isZero
  if z then .ok ['0']
  else do
    let ds ← self.asDigitSlice
    .ok (fmtDigits 16 upperChar 16 ds.reverse)

/-- `to_string_radix`, `/repo/src/apint/serialization.rs:342-349`: `unimplemented!()`. -/
def toStringRadix (_self : ApInt) (radix : Nat) : Run (List Char) := do
  let _r ← Radix.from radix
  .error .panic

end ApInt

end Verif
