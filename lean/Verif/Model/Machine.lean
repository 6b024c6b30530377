import Verif.Model.Program
import Verif.Model.Serde

/-!
# Machine words

The rest of the model computes sizes with natural numbers.  Here they are computed with the `usize`
of a machine: every function of the crate that adds or multiplies sizes, casts to `usize`, or calls
such a function, is repeated with the machine as an argument and with the machine's arithmetic in
those places.  The functions have the names of the functions they repeat.

Not repeated: a sum that is used as an index right away (`sum[lhs_i + rhs_i]`), because an index
that passes the bounds check is below a length, which is a `usize`; the successor of an index or
digit count (`required_digits`); subtractions other than those of the bit counts (`csub` stops when
the result is negative, and C74 shows that this does not happen).
-/

namespace Verif

/-- A target: the number of bits of `usize`, and whether the build checks for overflow. Not in
`/repo` (the target and the build). -/
structure Machine where
  bits : Nat
  checks : Bool

namespace Machine

open ApInt Serde

/-- The result of an operation on `usize` whose exact result is `v`: a build with checks panics when
it does not fit, the others keep the low bits. Not in `/repo` (`usize` of the language). -/
def fit (m : Machine) (v : Nat) : Run Nat :=
  if v < 2 ^ m.bits then .ok v
  else if m.checks then .error .overflow else .ok (v % 2 ^ m.bits)

/-- `a + b` on `usize`. As in `/repo/src/apint/arithmetic.rs:352-354`. -/
def add (m : Machine) (a b : Nat) : Run Nat := m.fit (a + b)

/-- `a * b` on `usize`. As in `/repo/src/apint/constructors.rs:170-200`. -/
def mul (m : Machine) (a b : Nat) : Run Nat := m.fit (a * b)

/-- `a - b` on `usize`. As in `/repo/src/apint/bitwise.rs:257-284`. -/
def sub (m : Machine) (a b : Nat) : Run Nat :=
  if b ≤ a then .ok (a - b)
  else if m.checks then .error .overflow else .ok (a + 2 ^ m.bits - b)

/-- `v as usize` for a `u64`. As in `/repo/src/apint/serde_impl.rs:104-109`. -/
def ofU64 (m : Machine) (v : BitVec 64) : Nat := v.toNat % 2 ^ m.bits

/-- The loop of `.sum::<usize>()` (standard library). Used in `/repo/src/apint/bitwise.rs:248-269`.
-/
def sumAux (m : Machine) : List Nat → Nat → Run Nat
  | [], acc => .ok acc
  | n :: rest, acc => do
    let acc ← m.add acc n
    m.sumAux rest acc

/-- `.sum::<usize>()` (standard library). Used in `/repo/src/apint/bitwise.rs:248-269`. -/
def sum (m : Machine) (l : List Nat) : Run Nat := m.sumAux l 0

/-- `from_iter`, `/repo/src/apint/constructors.rs:170-200`. -/
def fromIter (m : Machine) (buffer : List Digit) : Run (Res ApInt) :=
  match buffer with
  | [] => .ok (.error .expectedNonEmptyDigits)
  | [d] => do
    let r ← newInl BitWidth.w64 d
    .ok (.ok r)
  | _ => do
    let n ← m.mul buffer.length 64
    let bitwidth ← expect (BitWidth.new n)
    let reqDigits := bitwidth.requiredDigits
    if buffer.length ≠ reqDigits then .error .panic
    else do
      let r ← newExt bitwidth buffer
      .ok (.ok r)

/-! ## Width changes -/

/-- `truncate`, `/repo/src/apint/casting.rs:137-206`.  The recursive call on line 201 is made
on a value whose width is the digit-aligned width of the target, so it can only return early
or take the `then` branch; the model keeps the whole function for it with one level of
recursion (`fuel`), and runs out of fuel with `diverge`. -/
def truncateAux (m : Machine) : Nat → ApInt → BitWidth → Run (Res Unit × ApInt)
  | 0, _, _ => .error .diverge
  | fuel + 1, self, targetWidth =>
    let actualWidth := self.width
    if targetWidth = actualWidth then .ok (.ok (), self)
    else if targetWidth.toUsize > self.width.toUsize then
      .ok (.error (.truncationBitWidthTooLarge targetWidth actualWidth), self)
    else
      let actualReqDigits := actualWidth.requiredDigits
      let targetReqDigits := targetWidth.requiredDigits
      if actualReqDigits = targetReqDigits then truncateSameDigits self targetWidth
      else do
        let ds ← self.asDigitSlice
        let truncatedCopy ← m.fromIter (ds.take targetReqDigits)
        let truncatedCopy ← expect truncatedCopy
        if truncatedCopy.width ≠ targetWidth then do
          let (r, truncatedCopy) ← m.truncateAux fuel truncatedCopy targetWidth
          match r with
          | .error e => .ok (.error e, self)
          | .ok () => .ok (.ok (), truncatedCopy)
        else .ok (.ok (), truncatedCopy)

/-- `truncate`, `/repo/src/apint/casting.rs:137-206`. -/
def truncate (m : Machine) (self : ApInt) (targetWidth : BitWidth) : Run (Res Unit × ApInt) :=
  m.truncateAux 2 self targetWidth

/-- `into_truncate`, `/repo/src/apint/casting.rs:119-124`. -/
def intoTruncate (m : Machine) (self : ApInt) (targetWidth : BitWidth) : Run (Res ApInt) :=
  tryForwardBinMutImpl self targetWidth m.truncate

/-- `zero_extend`, `/repo/src/apint/casting.rs:240-291`. -/
def zeroExtend (m : Machine) (self : ApInt) (targetWidth : BitWidth) : Run (Res Unit × ApInt) :=
  let actualWidth := self.width
  if targetWidth = actualWidth then .ok (.ok (), self)
  else if targetWidth.toUsize < actualWidth.toUsize then
    .ok (.error (.extensionBitWidthTooSmall targetWidth actualWidth), self)
  else
    let actualReqDigits := actualWidth.requiredDigits
    let targetReqDigits := targetWidth.requiredDigits
    if actualReqDigits = targetReqDigits then .ok (.ok (), { self with len := targetWidth })
    else if ¬ (targetReqDigits > actualReqDigits) then .error .panic
    else do
      let additionalDigits ← csub targetReqDigits actualReqDigits
      let ds ← self.asDigitSlice
      match ← m.fromIter (ds ++ List.replicate additionalDigits Digit.ZERO) with
      | .error e => .ok (.error e, self)
      | .ok apint => do
        match ← m.intoTruncate apint targetWidth with
        | .error e => .ok (.error e, self)
        | .ok extendedClone => .ok (.ok (), extendedClone)

/-- `into_zero_extend`, `/repo/src/apint/casting.rs:222-227`. -/
def intoZeroExtend (m : Machine) (self : ApInt) (targetWidth : BitWidth) : Run (Res ApInt) :=
  tryForwardBinMutImpl self targetWidth m.zeroExtend

/-- `sign_extend`, `/repo/src/apint/casting.rs:325-400`. -/
def signExtend (m : Machine) (self : ApInt) (targetWidth : BitWidth) : Run (Res Unit × ApInt) :=
  let actualWidth := self.width
  if targetWidth = actualWidth then .ok (.ok (), self)
  else if targetWidth.toUsize < actualWidth.toUsize then
    .ok (.error (.extensionBitWidthTooSmall targetWidth actualWidth), self)
  else do
    let top ← self.msb
    if !top then m.zeroExtend self targetWidth
    else
      let actualReqDigits := actualWidth.requiredDigits
      let targetReqDigits := targetWidth.requiredDigits
      if actualReqDigits = targetReqDigits then do
        let self : ApInt := { self with len := targetWidth }
        let (r, self) ← self.signExtendMsd actualWidth
        match r with
        | .error e => .ok (.error e, self)
        | .ok () => do
          let self ← self.clearUnusedBits
          .ok (.ok (), self)
      else if ¬ (targetReqDigits > actualReqDigits) then .error .panic
      else do
        let additionalDigits ← csub targetReqDigits actualReqDigits
        let (r, self) ← self.signExtendMsd actualWidth
        match r with
        | .error e => .ok (.error e, self)
        | .ok () => do
          let ds ← self.asDigitSlice
          match ← m.fromIter (ds ++ List.replicate additionalDigits Digit.ONES) with
          | .error e => .ok (.error e, self)
          | .ok apint => do
            match ← m.intoTruncate apint targetWidth with
            | .error e => .ok (.error e, self)
            | .ok extendedCopy => do
              let _ ← self.clearUnusedBits
              .ok (.ok (), extendedCopy)

/-- `into_sign_extend`, `/repo/src/apint/casting.rs:307-312`. -/
def intoSignExtend (m : Machine) (self : ApInt) (targetWidth : BitWidth) : Run (Res ApInt) :=
  tryForwardBinMutImpl self targetWidth m.signExtend

/-- `zero_resize`, `/repo/src/apint/casting.rs:443-461`. -/
def zeroResize (m : Machine) (self : ApInt) (targetWidth : BitWidth) : Run ApInt :=
  let actualWidth := self.width
  if targetWidth.toUsize ≤ actualWidth.toUsize then do
    let (r, self) ← m.truncate self targetWidth
    let () ← expect r
    pure self
  else do
    let (r, self) ← m.zeroExtend self targetWidth
    let () ← expect r
    pure self

/-- `sign_resize`, `/repo/src/apint/casting.rs:472-490`. -/
def signResize (m : Machine) (self : ApInt) (targetWidth : BitWidth) : Run ApInt :=
  let actualWidth := self.width
  if targetWidth.toUsize ≤ actualWidth.toUsize then do
    let (r, self) ← m.truncate self targetWidth
    let () ← expect r
    pure self
  else do
    let (r, self) ← m.signExtend self targetWidth
    let () ← expect r
    pure self

/-- `into_zero_resize`, `/repo/src/apint/casting.rs:412-417`. -/
def intoZeroResize (m : Machine) (self : ApInt) (targetWidth : BitWidth) : Run ApInt :=
  forwardBinMutImpl self targetWidth m.zeroResize

/-- `into_sign_resize`, `/repo/src/apint/casting.rs:427-432`. -/
def intoSignResize (m : Machine) (self : ApInt) (targetWidth : BitWidth) : Run ApInt :=
  forwardBinMutImpl self targetWidth m.signResize

/-! ## Constructors -/

/-- `From<[u64; n]>` (and `From<[i64; n]>`, a transmute), `/repo/src/apint/constructors.rs:374-406`:
most significant word first.  The crate instantiates `n = 2..8, 16, 32`; the model takes any
list. -/
def fromArray (m : Machine) (val : List (BitVec 64)) : Run ApInt := do
  let r ← m.fromIter val.reverse
  expect r

/-- `from_u128`, `/repo/src/apint/constructors.rs:149-153`. -/
def fromU128 (m : Machine) (val : BitVec 128) : Run ApInt :=
  let hi := (val >>> 64).setWidth 64
  let lo := (val &&& ((1#128 <<< 64) - 1#128)).setWidth 64
  m.fromArray [hi, lo]

/-- `from_i128`, `/repo/src/apint/constructors.rs:144-146`. -/
def fromI128 (m : Machine) (val : BitVec 128) : Run ApInt := m.fromU128 val

/-- `repeat_digit`, `/repo/src/apint/constructors.rs:220-243`. -/
def repeatDigit (m : Machine) (targetWidth : BitWidth) (digit : Digit) : Run ApInt := do
  let reqDigits := targetWidth.requiredDigits
  let r ← m.fromIter (List.replicate reqDigits digit)
  let a ← expect r
  let r ← m.intoTruncate a targetWidth
  expect r

/-- `zero`, `/repo/src/apint/constructors.rs:246-248`. -/
def zero (m : Machine) (width : BitWidth) : Run ApInt := m.repeatDigit width Digit.ZERO

/-- `one`, `/repo/src/apint/constructors.rs:251-253`. -/
def one (m : Machine) (width : BitWidth) : Run ApInt := do
  let a ← fromU64 1#64
  m.intoZeroResize a width

/-- `all_unset`, `/repo/src/apint/constructors.rs:258-260`. -/
def allUnset (m : Machine) (width : BitWidth) : Run ApInt := m.zero width

/-- `all_set`, `/repo/src/apint/constructors.rs:263-265`. -/
def allSet (m : Machine) (width : BitWidth) : Run ApInt := m.repeatDigit width Digit.ONES

/-- `unsigned_min_value`, `/repo/src/apint/constructors.rs:269-271`. -/
def unsignedMinValue (m : Machine) (width : BitWidth) : Run ApInt := m.zero width

/-- `unsigned_max_value`, `/repo/src/apint/constructors.rs:275-277`. -/
def unsignedMaxValue (m : Machine) (width : BitWidth) : Run ApInt := m.allSet width

/-- `signed_min_value`, `/repo/src/apint/constructors.rs:281-285`. -/
def signedMinValue (m : Machine) (width : BitWidth) : Run ApInt := do
  let result ← m.zero width
  result.setMsb

/-- `signed_max_value`, `/repo/src/apint/constructors.rs:289-293`. -/
def signedMaxValue (m : Machine) (width : BitWidth) : Run ApInt := do
  let result ← m.allSet width
  result.unsetMsb

/-- `random_with_width_using`, `/repo/src/apint/rand_impl.rs:30-49`. -/
def randomWithWidthUsing (m : Machine) (width : BitWidth) (rng : Rng) : Run (ApInt × Rng) :=
  let requiredDigits := width.requiredDigits
  if ¬ (requiredDigits ≥ 1) then .error .panic
  else do
    let r ← m.fromIter (rng.take requiredDigits)
    let a ← expect r
    let r ← m.intoTruncate a width
    let a ← expect r
    .ok (a, rng.drop requiredDigits)

/-! ## Parsing -/

/-- `from_bitwise_digits`, `/repo/src/apint/serialization.rs:210-229`. -/
def fromBitwiseDigits (m : Machine) (v : List Nat) (bits : Nat) : Run ApInt :=
  if ¬ (v ≠ [] ∧ bits ≤ 8 ∧ bits ≠ 0 ∧ 64 % bits = 0) then .error .overflow
  else if ¬ (v.all fun c => c < 2 ^ bits) then .error .overflow
  else do
    let radixDigitsPerDigit := 64 / bits
    let cs ← chunks v radixDigitsPerDigit
    let r ← m.fromIter (cs.map (foldChunk bits))
    expect r

/-- The size of the vector of `from_inexact_bitwise_digits`,
`/repo/src/apint/serialization.rs:243`, before the division by 64. -/
def inexactLen (m : Machine) (n bits : Nat) : Run Nat := do
  let len ← m.mul n bits
  let len ← m.add len 64
  m.sub len 1

/-- `from_inexact_bitwise_digits`, `/repo/src/apint/serialization.rs:237-271`. -/
def fromInexactBitwiseDigits (m : Machine) (v : List Nat) (bits : Nat) : Run ApInt :=
  if ¬ (v ≠ [] ∧ bits ≤ 8 ∧ bits ≠ 0 ∧ 64 % bits ≠ 0) then .error .overflow
  else if ¬ (v.all fun c => c < 2 ^ bits) then .error .overflow
  else do
    let _len ← m.inexactLen v.length bits
    let s ← inexactLoop bits v ⟨[], 0#64, 0⟩
    let data ←
      if s.dbits > 0 then
        if ¬ (s.dbits < 64) then .error .overflow else .ok (s.data ++ [s.d])
      else .ok s.data
    let r ← m.fromIter data
    expect r

/-- `from_radix_digits`, `/repo/src/apint/serialization.rs:279-333`.  The estimate of the capacity on
lines 285-292 panics in every build when the product does not fit (`checked_mul`). -/
def fromRadixDigits (m : Machine) (v : List Nat) (radix : Radix) : Run ApInt :=
  if ¬ (v ≠ [] ∧ !radix.isPowerOfTwo) then .error .overflow
  else if ¬ (v.all fun c => radix.isValidByte c) then .error .overflow
  else do
    let i ← csub radix.toU8 2
    let lb ← idx LB_2_36_I3F13 i
    let chars ← m.add v.length 1
    if ¬ (lb * chars < 2 ^ m.bits) then .error .panic else
    let _bigDigits ← m.add (lb * chars / 2 ^ 13 / 64) 1
    let (_base, power) ← radix.getRadixBase
    if power = 0 then .error .panic
    else do
      let r := v.length % power
      let i := if r = 0 then power else r
      if v.length < i then .error .panic
      else do
        let head := v.take i
        let tail := v.drop i
        let first ← foldRadix radix.toU8 head 0
        if tail.length % power ≠ 0 then .error .overflow
        else do
          let cs ← chunks tail power
          let data ← radixTailLoop radix.toU8 cs [first]
          let r ← m.fromIter (data.map (BitVec.ofNat 64))
          expect r

/-- `from_str_radix` after the radix argument was converted,
`/repo/src/apint/serialization.rs:149-201`. -/
def fromStrRadix' (m : Machine) (radix : Radix) (input : List Char) : Run (Res ApInt) :=
  if input.isEmpty then .ok (.error (.invalidStringRepr input radix none))
  else if input.head? = some '_' then .ok (.error (.invalidStringRepr input radix none))
  else if input.getLast? = some '_' then .ok (.error (.invalidStringRepr input radix none))
  else
    match collectDigits input radix (utf8Bytes input) [] with
    | .error e => .ok (.error e)
    | .ok v => do
      match ← radix.exactBitsPerDigit with
      | some bits =>
        let v := v.reverse
        if bits = 0 then .error .panic
        else if 64 % bits = 0 then do
          let a ← m.fromBitwiseDigits v bits
          .ok (.ok a)
        else do
          let a ← m.fromInexactBitwiseDigits v bits
          .ok (.ok a)
      | none => do
        let a ← m.fromRadixDigits v radix
        .ok (.ok a)

/-- `from_str_radix`, `/repo/src/apint/serialization.rs:143-202`; the radix is given as a `u8`
(`From<u8>` panics on an invalid one). -/
def fromStrRadix (m : Machine) (radix : Nat) (input : List Char) : Run (Res ApInt) := do
  let r ← Radix.from radix
  m.fromStrRadix' r input

/-! ## Counting bits -/

/-- `count_ones`, `/repo/src/apint/bitwise.rs:248-253`. -/
def countOnes (m : Machine) (self : ApInt) : Run Nat := do
  let ds ← self.asDigitSlice
  m.sum (ds.map countOnes64)

/-- `count_zeros`, `/repo/src/apint/bitwise.rs:257-268`. -/
def countZeros (m : Machine) (self : ApInt) : Run Nat := do
  let ds ← self.asDigitSlice
  let zeros ← m.sum (ds.map countZeros64)
  let unused ← self.unusedBits
  m.sub zeros unused

/-- The loops of `leading_zeros` and `trailing_zeros`
(`/repo/src/apint/bitwise.rs:273-280,288-295`): add up the counts of the digits and stop after
the first digit whose count is not 64. -/
def zerosLoop (m : Machine) (count : Digit → Nat) : List Digit → Nat → Run Nat
  | [], zeros => .ok zeros
  | d :: rest, zeros => do
    let n := count d
    let zeros ← m.add zeros n
    if n ≠ 64 then .ok zeros else m.zerosLoop count rest zeros

/-- `leading_zeros`, `/repo/src/apint/bitwise.rs:272-283`. -/
def leadingZeros (m : Machine) (self : ApInt) : Run Nat := do
  let ds ← self.asDigitSlice
  let zeros ← m.zerosLoop leadingZeros64 ds.reverse 0
  let unused ← self.unusedBits
  m.sub zeros unused

/-- `trailing_zeros`, `/repo/src/apint/bitwise.rs:287-301`. -/
def trailingZeros (m : Machine) (self : ApInt) : Run Nat := do
  let ds ← self.asDigitSlice
  let zeros ← m.zerosLoop trailingZeros64 ds 0
  if zeros ≥ self.width.toUsize then do
    let unused ← self.unusedBits
    m.sub zeros unused
  else pure zeros

/-! ## Multiplication -/

/-- Number of significant bits when `sig` is the index of the most significant nonzero digit,
`/repo/src/apint/arithmetic.rs:332-339`. -/
def sigBits (m : Machine) (l : List Digit) (sig : Nat) : Run Nat := do
  let d ← idx l sig
  let n ← csub 64 (Digit.leadingZeros d)
  let s ← m.mul sig 64
  m.add s n

/-- The branch without digit overflow, `/repo/src/apint/arithmetic.rs:342-445`.  The size of the
vector is computed on line 353; the indices are below lengths of slices. -/
def mulNonOverflow (m : Machine) (lhs rhs : List Digit) (lhsSig rhsSig : Nat) :
    Run (List Digit) := do
  let cap ← m.add lhsSig rhsSig
  let _cap ← m.add cap 2
  ApInt.mulNonOverflow lhs rhs lhsSig rhsSig

/-- The choice between the long and the short multiplications, by the positions of the most
significant nonzero digits, `/repo/src/apint/arithmetic.rs:330-572`. -/
def mulCases (m : Machine) (lhs rhs : List Digit) (lhsSig rhsSig : Nat) : Run (List Digit) :=
  match lhsSig == 0, rhsSig == 0 with
  | false, false => do
    let lhsSigBits ← m.sigBits lhs lhsSig
    let rhsSigBits ← m.sigBits rhs rhsSig
    let totSigBits ← m.add lhsSigBits rhsSigBits
    let lhsBits ← m.mul lhs.length 64
    if totSigBits ≤ lhsBits then m.mulNonOverflow lhs rhs lhsSig rhsSig
    else mulWrapping lhs rhs
  | true, false => mulSmallLhs lhs rhs rhsSig
  | false, true => mulSmallRhs lhs rhs lhsSig
  | true, true => do
    let l0 ← idx lhs 0
    let r0 ← idx rhs 0
    let temp0 := Digit.carryingMul l0 r0
    let lhs ← upd lhs 0 temp0.1
    upd lhs 1 temp0.2

/-- The heap branch of `wrapping_mul_assign`, `/repo/src/apint/arithmetic.rs:299-574`.
The flag is `true` for the early `return Ok(())` of a multiplication by zero (lines 305-310
and 315-320), where `lhs` has been zeroed and `clear_unused_bits` is not called. -/
def mulDigits (m : Machine) (lhs rhs : List Digit) : Run (List Digit × Bool) :=
  match rpositionNonzero rhs with
  | none => .ok (lhs.map Digit.unsetAll, true)
  | some rhsSig =>
    match rpositionNonzero lhs with
    | none => .ok (lhs.map Digit.unsetAll, true)
    | some lhsSig => do
      let lhs ← m.mulCases lhs rhs lhsSig rhsSig
      .ok (lhs, false)

/-- `wrapping_mul_assign`, `/repo/src/apint/arithmetic.rs:294-578`. -/
def wrappingMulAssign (m : Machine) (self rhs : ApInt) : Run (Res Unit × ApInt) := do
  match ← self.zipAccessData rhs with
  | .error e => .ok (.error e, self)
  | .ok (.inl l r) => do
    let self : ApInt := { self with data := .inl (Digit.wrappingMul l r) }
    let self ← self.clearUnusedBits
    .ok (.ok (), self)
  | .ok (.ext l r) => do
    let (l, early) ← m.mulDigits l r
    let self : ApInt := { self with data := .ext l }
    if early then .ok (.ok (), self)
    else do
      let self ← self.clearUnusedBits
      .ok (.ok (), self)

/-- `into_wrapping_mul`, `/repo/src/apint/arithmetic.rs:587-589`. -/
def intoWrappingMul (m : Machine) (self rhs : ApInt) : Run (Res ApInt) :=
  tryForwardBinMutImpl self rhs m.wrappingMulAssign

/-- `Mul<&'` for `ApInt`, `/repo/src/std_ops.rs:108-114`. -/
def opMul (m : Machine) (self rhs : ApInt) : Run ApInt := unwrapRes (m.intoWrappingMul self rhs)

/-- `MulAssign<&'` for `ApInt`, `/repo/src/std_ops.rs:157-161`. -/
def opMulAssign (m : Machine) (self rhs : ApInt) : Run ApInt := unwrapMut (m.wrappingMulAssign self rhs)

/-! ## Division -/

/-- `sd * 64 + (64 - lz)`: number of significant bits, `/repo/src/apint/arithmetic.rs:938-940,1349`. -/
def sigBitsOf (m : Machine) (sd lz : Nat) : Run Nat := do
  let n ← csub 64 lz
  let s ← m.mul sd 64
  m.add s n

/-- The part of an iteration of the main loop that follows the subtraction,
`/repo/src/apint/arithmetic.rs:1333-1423`. -/
def divLoopTail (m : Machine) (len : Nat) (duo quo div : List Digit) (duoSd divSb : Nat) : Run DivStep := do
  match ← findDuoSd duo duoSd with
  | none => do
    -- lines 1341-1345
    let (duo, div) ← forRange 0 len (duo, div) fun i (duo, div) => do
      let div ← upd div i Digit.ZERO
      let q ← idx quo i
      let duo ← upd duo i q
      .ok (duo, div)
    .ok (.done duo div)
  | some duoSd => do
    let d ← idx duo duoSd
    let duoLz := Digit.leadingZeros d
    let duoSb ← m.sigBitsOf duoSd duoLz
    if duoSb = divSb then do
      -- lines 1351-1386
      let ge ← uge len duo len div
      if ge then do
        let div ← twosComplement len div
        let div ← addMacro len div duo
        let duo ← quoPlusOne len duo quo
        .ok (.done duo div)
      else do
        let div ← copyRange div 0 len duo 0 len
        let duo ← copyRange duo 0 len quo 0 len
        .ok (.done duo div)
    else if divSb > duoSb then do
      -- lines 1388-1393
      let div ← copyRange div 0 len duo 0 len
      let duo ← copyRange duo 0 len quo 0 len
      .ok (.done duo div)
    else if duoSd < 2 then do
      let (duo, div) ← finishTwoDigits len duo quo div
      .ok (.done duo div)
    else .ok (.next ⟨duo, quo, duoSd, duoLz⟩)

/-- One iteration of the main `loop`, `/repo/src/apint/arithmetic.rs:1125-1424`. -/
def divLoopBody (m : Machine) (len : Nat) (div : List Digit) (divSd divSb divLesserBits : Nat)
    (divSigDAdd1 : DDigit) (s : DivState) : Run DivStep := do
  let n ← csub 64 s.duoLz
  let k ← csub s.duoSd 2
  let k ← m.mul 64 k
  let duoLesserBits ← m.add n k
  let duoSigDd ← sigDD s.duo s.duoSd s.duoLz
  if duoLesserBits ≥ divLesserBits then do
    let bits := duoLesserBits - divLesserBits
    let digits := bits / 64
    let bitsLl := bits % 64
    let mul ← DDigit.wrappingDiv duoSigDd divSigDAdd1
    let quo ← addToQuo s.quo mul digits bitsLl
    let duo ←
      if Digit.isZero (DDigit.hi mul) then
        subCoreLow s.duo div (DDigit.lo mul) s.duoSd digits bitsLl
      else subCoreHigh s.duo div (DDigit.lo mul) s.duoSd digits bitsLl
    m.divLoopTail len duo quo div s.duoSd divSb
  else do
    let (duo, div) ← mulOrMulSub1Quo len s div divSd duoSigDd
    .ok (.done duo div)

/-- The main `loop`, `/repo/src/apint/arithmetic.rs:1125-1424`, with a bound on the number of
iterations; running out of it is the `diverge` fault. -/
def divLoop (m : Machine) (len : Nat) (div : List Digit) (divSd divSb divLesserBits : Nat)
    (divSigDAdd1 : DDigit) : Nat → DivState → Run (List Digit × List Digit)
  | 0, _ => .error .diverge
  | fuel + 1, s => do
    match ← m.divLoopBody len div divSd divSb divLesserBits divSigDAdd1 s with
    | .done duo div => .ok (duo, div)
    | .next s => m.divLoop len div divSd divSb divLesserBits divSigDAdd1 fuel s

/-- Set-up of the main loop, `/repo/src/apint/arithmetic.rs:1104-1124`, and the loop, which is
allowed `budget` rounds. -/
def longDivision (m : Machine) (budget len : Nat) (duo : List Digit) (iniDuoSd iniDuoLz : Nat) (div : List Digit)
    (divSd divLz divSb : Nat) : Run (List Digit × List Digit) := do
  let n ← csub 64 divLz
  let k ← csub divSd 1
  let p ← m.mul 64 k
  let divLesserBits ← m.add n p
  let divSigD ←
    if divLz = 0 then idx div divSd
    else do
      let a ← idx div divSd
      let b ← idx div k
      .ok (Digit.bitor (Digit.shl a divLz) (Digit.shr b n))
  let divSigDAdd1 := DDigit.wrappingAdd (Digit.dd divSigD) (Digit.dd Digit.ONE)
  let quo := List.replicate len Digit.ZERO
  m.divLoop len div divSd divSb divLesserBits divSigDAdd1 budget
    ⟨duo, quo, iniDuoSd, iniDuoLz⟩

/-- `large_div_by_large`, `/repo/src/apint/arithmetic.rs:928-1425`. -/
def largeDivByLarge (m : Machine) (budget len : Nat) (duo : List Digit) (iniDuoSd : Nat) (div : List Digit)
    (divSd : Nat) : Run (List Digit × List Digit) := do
  let d ← idx duo iniDuoSd
  let iniDuoLz := Digit.leadingZeros d
  let d ← idx div divSd
  let divLz := Digit.leadingZeros d
  let iniDuoSb ← m.sigBitsOf iniDuoSd iniDuoLz
  let divSb ← m.sigBitsOf divSd divLz
  if iniDuoSb < divSb then moveDuoToDiv duo iniDuoSd div divSd
  else if iniDuoSb = divSb then do
    let place ← m.add iniDuoSd 1
    let ge ← uge place duo place div
    if ge then do
      let div ← twosComplement place div
      special0Self place duo div Digit.ONE
    else moveDuoToDiv duo iniDuoSd div divSd
  else do
    let iniBits ← csub iniDuoSb divSb
    if iniBits < 64 then mulOrMulSub1 len duo iniDuoSd iniDuoLz div divSd
    else m.longDivision budget len duo iniDuoSd iniDuoLz div divSd divLz divSb

/-- `aarons_algorithm_divrem`, `/repo/src/apint/arithmetic.rs:651-1498` (the top-level match is on
lines 1431-1497).  `none` stands for the return value `false` (the divisor is zero).  `budget` bounds
the number of rounds of the main loop. -/
def divremWithin (m : Machine) (budget : Nat) (duo div : List Digit) : Run (Option (List Digit × List Digit)) :=
  match rpositionNonzero div with
  | none => .ok none
  | some divSd =>
    match rpositionNonzero duo with
    | none => .ok (some (duo, div.map Digit.unsetAll))
    | some iniDuoSd =>
      if iniDuoSd < divSd then
        -- lines 1446-1454: `duo` and `div` are zipped, so the shorter m.one bounds the loop
        let n := min duo.length div.length
        .ok (some ((duo.take n).map Digit.unsetAll ++ duo.drop n, duo.take n ++ div.drop n))
      else
        match iniDuoSd == 0, divSd == 0 with
        | false, false =>
          if iniDuoSd = 1 then do
            let u0 ← idx duo 0
            let u1 ← idx duo 1
            let v0 ← idx div 0
            let v1 ← idx div 1
            let temp ← DDigit.wrappingDivrem (DDigit.fromLoHi u0 u1) (DDigit.fromLoHi v0 v1)
            let duo ← upd duo 0 (DDigit.lo temp.1)
            let duo ← upd duo 1 (DDigit.hi temp.1)
            let div ← upd div 0 (DDigit.lo temp.2)
            let div ← upd div 1 (DDigit.hi temp.2)
            .ok (some (duo, div))
          else do
            let r ← m.largeDivByLarge budget duo.length duo iniDuoSd div divSd
            .ok (some r)
        | true, false => .error .panic
        | false, true => do
          let d ← idx div 0
          if Digit.leadingZeros d ≥ 32 then do
            let r ← largeDivByU32 duo iniDuoSd div
            .ok (some r)
          else do
            let r ← largeDivBySmall duo iniDuoSd div
            .ok (some r)
        | true, true => do
          let u ← idx duo 0
          let v ← idx div 0
          let temp ← Digit.wrappingDivrem u v
          let duo ← upd duo 0 temp.1
          let div ← upd div 0 temp.2
          .ok (some (duo, div))

/-- `aarons_algorithm_divrem`, `/repo/src/apint/arithmetic.rs:651-1498`.  The source has no bound on
the number of rounds of the main loop; the model allows two per digit and fails with `diverge` after
that, which is shown not to happen. -/
def divremDigits (m : Machine) (duo div : List Digit) : Run (Option (List Digit × List Digit)) :=
  m.divremWithin (2 * duo.length) duo div

/-- `aarons_algorithm_remdiv`, `/repo/src/apint/arithmetic.rs:1507-1522`. -/
def remdivDigits (m : Machine) (duo div : List Digit) : Run (Option (List Digit × List Digit)) := do
  match ← m.divremDigits duo div with
  | some (duo, div) => do
    let (duo, div) ← forRange 0 duo.length (duo, div) fun i (duo, div) => do
      let temp ← idx duo i
      let d ← idx div i
      let duo ← upd duo i d
      let div ← upd div i temp
      .ok (duo, div)
    .ok (some (duo, div))
  | none => .ok none

/-- `wrapping_udivrem_assign`, `/repo/src/apint/arithmetic.rs:1532-1557`. -/
def wrappingUdivremAssign (m : Machine) (lhs rhs : ApInt) : Run (Res Unit × ApInt × ApInt) := do
  match ← lhs.zipAccessData rhs with
  | .error e => .ok (.error e, lhs, rhs)
  | .ok (.inl duo div) =>
    if !Digit.isZero div then do
      let temp ← Digit.wrappingDivrem duo div
      .ok (.ok (), { lhs with data := .inl temp.1 }, { rhs with data := .inl temp.2 })
    else do
      let c ← lhs.clone
      .ok (.error (.divisionByZero .unsignedDivRem c), lhs, rhs)
  | .ok (.ext duo div) => do
    match ← m.divremDigits duo div with
    | some (duo, div) => .ok (.ok (), { lhs with data := .ext duo }, { rhs with data := .ext div })
    | none => do
      let c ← lhs.clone
      .ok (.error (.divisionByZero .unsignedDivRem c), lhs, rhs)

/-- `wrapping_uremdiv_assign`, `/repo/src/apint/arithmetic.rs:1567-1587`. -/
def wrappingUremdivAssign (m : Machine) (lhs rhs : ApInt) : Run (Res Unit × ApInt × ApInt) := do
  match ← lhs.zipAccessData rhs with
  | .error e => .ok (.error e, lhs, rhs)
  | .ok (.inl duo div) =>
    if !Digit.isZero div then do
      let temp ← Digit.wrappingDivrem duo div
      .ok (.ok (), { lhs with data := .inl temp.2 }, { rhs with data := .inl temp.1 })
    else do
      let c ← lhs.clone
      .ok (.error (.divisionByZero .unsignedRemDiv c), lhs, rhs)
  | .ok (.ext duo div) => do
    match ← m.remdivDigits duo div with
    | some (duo, div) => .ok (.ok (), { lhs with data := .ext duo }, { rhs with data := .ext div })
    | none => do
      let c ← lhs.clone
      .ok (.error (.divisionByZero .unsignedRemDiv c), lhs, rhs)

/-- `wrapping_udiv_assign`, `/repo/src/apint/arithmetic.rs:1596-1611`. -/
def wrappingUdivAssign (m : Machine) (self rhs : ApInt) : Run (Res Unit × ApInt) := do
  match ← self.zipAccessData rhs with
  | .error e => .ok (.error e, self)
  | .ok (.inl duo div) =>
    if !Digit.isZero div then do
      let q ← Digit.wrappingDiv duo div
      .ok (.ok (), { self with data := .inl q })
    else do
      let c ← self.clone
      .ok (.error (.divisionByZero .unsignedDiv c), self)
  | .ok (.ext duo div) => do
    match ← m.divremDigits duo div with
    | some (duo, _) => .ok (.ok (), { self with data := .ext duo })
    | none => do
      let c ← self.clone
      .ok (.error (.divisionByZero .unsignedDiv c), self)

/-- `into_wrapping_udiv`, `/repo/src/apint/arithmetic.rs:1620-1622`. -/
def intoWrappingUdiv (m : Machine) (self rhs : ApInt) : Run (Res ApInt) :=
  tryForwardBinMutImpl self rhs m.wrappingUdivAssign

/-- `wrapping_urem_assign`, `/repo/src/apint/arithmetic.rs:1631-1646`. -/
def wrappingUremAssign (m : Machine) (self rhs : ApInt) : Run (Res Unit × ApInt) := do
  match ← self.zipAccessData rhs with
  | .error e => .ok (.error e, self)
  | .ok (.inl duo div) =>
    if !Digit.isZero div then do
      let q ← Digit.wrappingRem duo div
      .ok (.ok (), { self with data := .inl q })
    else do
      let c ← self.clone
      .ok (.error (.divisionByZero .unsignedRem c), self)
  | .ok (.ext duo div) => do
    match ← m.remdivDigits duo div with
    | some (duo, _) => .ok (.ok (), { self with data := .ext duo })
    | none => do
      let c ← self.clone
      .ok (.error (.divisionByZero .unsignedRem c), self)

/-- `into_wrapping_urem`, `/repo/src/apint/arithmetic.rs:1655-1657`. -/
def intoWrappingUrem (m : Machine) (self rhs : ApInt) : Run (Res ApInt) :=
  tryForwardBinMutImpl self rhs m.wrappingUremAssign

/-- `wrapping_sdivrem_assign`, `/repo/src/apint/arithmetic.rs:1667-1702`. -/
def wrappingSdivremAssign (m : Machine) (lhs rhs : ApInt) : Run (Res Unit × ApInt × ApInt) := do
  let z ← rhs.isZero
  if z then do
    let c ← lhs.clone
    .ok (.error (.divisionByZero .signedDivRem c), lhs, rhs)
  else do
    let lm ← lhs.msb
    let rm ← rhs.msb
    let (lhs, rhs, negateLhs, negateRhs) ←
      match lm, rm with
      | false, false => .ok (lhs, rhs, false, false)
      | true, false => do
        let lhs ← lhs.wrappingNeg
        .ok (lhs, rhs, true, true)
      | false, true => do
        let rhs ← rhs.wrappingNeg
        .ok (lhs, rhs, true, false)
      | true, true => do
        let lhs ← lhs.wrappingNeg
        let rhs ← rhs.wrappingNeg
        .ok (lhs, rhs, false, true)
    let (r, lhs, rhs) ← m.wrappingUdivremAssign lhs rhs
    let () ← expect r
    let lhs ← negIf negateLhs lhs
    let rhs ← negIf negateRhs rhs
    .ok (.ok (), lhs, rhs)

/-- `wrapping_sremdiv_assign`, `/repo/src/apint/arithmetic.rs:1712-1747`. -/
def wrappingSremdivAssign (m : Machine) (lhs rhs : ApInt) : Run (Res Unit × ApInt × ApInt) := do
  let z ← rhs.isZero
  if z then do
    let c ← lhs.clone
    .ok (.error (.divisionByZero .signedRemDiv c), lhs, rhs)
  else do
    let lm ← lhs.msb
    let rm ← rhs.msb
    let (lhs, rhs, negateLhs, negateRhs) ←
      match lm, rm with
      | false, false => .ok (lhs, rhs, false, false)
      | true, false => do
        let lhs ← lhs.wrappingNeg
        .ok (lhs, rhs, true, true)
      | false, true => do
        let rhs ← rhs.wrappingNeg
        .ok (lhs, rhs, false, true)
      | true, true => do
        let lhs ← lhs.wrappingNeg
        let rhs ← rhs.wrappingNeg
        .ok (lhs, rhs, true, false)
    let (r, lhs, rhs) ← m.wrappingUremdivAssign lhs rhs
    let () ← expect r
    let lhs ← negIf negateLhs lhs
    let rhs ← negIf negateRhs rhs
    .ok (.ok (), lhs, rhs)

/-- `wrapping_sdiv_assign`, `/repo/src/apint/arithmetic.rs:1756-1783`. -/
def wrappingSdivAssign (m : Machine) (self rhs : ApInt) : Run (Res Unit × ApInt) := do
  let z ← rhs.isZero
  if z then do
    let c ← self.clone
    .ok (.error (.divisionByZero .signedDiv c), self)
  else do
    let rhsClone ← rhs.clone
    let lm ← self.msb
    let rm ← rhsClone.msb
    let (self, rhsClone, negateLhs) ←
      match lm, rm with
      | false, false => .ok (self, rhsClone, false)
      | true, false => do
        let self ← self.wrappingNeg
        .ok (self, rhsClone, true)
      | false, true => do
        let rhsClone ← rhsClone.wrappingNeg
        .ok (self, rhsClone, true)
      | true, true => do
        let self ← self.wrappingNeg
        let rhsClone ← rhsClone.wrappingNeg
        .ok (self, rhsClone, false)
    let (r, self, _) ← m.wrappingUdivremAssign self rhsClone
    let () ← expect r
    let self ← negIf negateLhs self
    .ok (.ok (), self)

/-- `into_wrapping_sdiv`, `/repo/src/apint/arithmetic.rs:1792-1794`. -/
def intoWrappingSdiv (m : Machine) (self rhs : ApInt) : Run (Res ApInt) :=
  tryForwardBinMutImpl self rhs m.wrappingSdivAssign

/-- `wrapping_srem_assign`, `/repo/src/apint/arithmetic.rs:1803-1830`. -/
def wrappingSremAssign (m : Machine) (self rhs : ApInt) : Run (Res Unit × ApInt) := do
  let z ← rhs.isZero
  if z then do
    let c ← self.clone
    .ok (.error (.divisionByZero .signedRem c), self)
  else do
    let rhsClone ← rhs.clone
    let lm ← self.msb
    let rm ← rhsClone.msb
    let (self, rhsClone, negateLhs) ←
      match lm, rm with
      | false, false => .ok (self, rhsClone, false)
      | true, false => do
        let self ← self.wrappingNeg
        .ok (self, rhsClone, true)
      | false, true => do
        let rhsClone ← rhsClone.wrappingNeg
        .ok (self, rhsClone, false)
      | true, true => do
        let self ← self.wrappingNeg
        let rhsClone ← rhsClone.wrappingNeg
        .ok (self, rhsClone, true)
    let (r, self, _) ← m.wrappingUremdivAssign self rhsClone
    let () ← expect r
    let self ← negIf negateLhs self
    .ok (.ok (), self)

/-- `into_wrapping_srem`, `/repo/src/apint/arithmetic.rs:1839-1841`. -/
def intoWrappingSrem (m : Machine) (self rhs : ApInt) : Run (Res ApInt) :=
  tryForwardBinMutImpl self rhs m.wrappingSremAssign

/-! ## Deserialization -/

/-- `try_new_bitwidth`, `/repo/src/apint/serde_impl.rs:65-75`, and the casts `as usize` of lines 91
and 108. -/
def tryNewBitwidth (m : Machine) (v : BitVec 64) : DeRes BitWidth :=
  match BitWidth.new (m.ofU64 v) with
  | .ok w => .ok w
  | .error _ => .error .invalidValue

/-- `Deserialize for BitWidth`, `/repo/src/apint/serde_impl.rs:58-122`. -/
def deBitWidth (m : Machine) (human : Bool) (v : SVal) : DeRes BitWidth :=
  if human then
    match deSeq v with
    | .error e => .error e
    | .ok [] => .error (.invalidLength 0)
    | .ok (x :: _) =>
      match deU64 x with
      | .error e => .error e
      | .ok n => m.tryNewBitwidth n
  else
    match deU64 v with
    | .error e => .error e
    | .ok n => m.tryNewBitwidth n

/-- The common end of both visitors, `/repo/src/apint/serde_impl.rs:229-248,270-288`. -/
def deFinish (m : Machine) (width : BitWidth) (digits : List Digit) : Run (DeRes ApInt) :=
  if width.requiredDigits ≠ digits.length then .ok (.error .invalidValue)
  else do
    let r ← m.fromIter digits
    let a ← expect r
    let r ← m.intoTruncate a width
    let a ← expect r
    .ok (.ok a)

/-- The loop over the entries of the map in `visit_map`,
`/repo/src/apint/serde_impl.rs:207-223` (field names: lines 172-184). -/
def deFields (m : Machine) : List (String × SVal) → Option BitWidth → Option (List Digit) →
    DeRes (Option BitWidth × Option (List Digit))
  | [], width, digits => .ok (width, digits)
  | (key, v) :: rest, width, digits =>
    if key = "width" then
      if width.isSome then .error (.duplicateField "width")
      else
        match m.deBitWidth true v with
        | .error e => .error e
        | .ok w => m.deFields rest (some w) digits
    else if key = "digits" then
      if digits.isSome then .error (.duplicateField "digits")
      else
        match deDigits v with
        | .error e => .error e
        | .ok ds => m.deFields rest width (some ds)
    else .error (.unknownField key)

/-- `HumanReadableApIntVisitor::visit_map`, `/repo/src/apint/serde_impl.rs:203-249`. -/
def visitMap (m : Machine) (fields : List (String × SVal)) : Run (DeRes ApInt) :=
  match m.deFields fields none none with
  | .error e => .ok (.error e)
  | .ok (none, _) => .ok (.error (.missingField "width"))
  | .ok (some _, none) => .ok (.error (.missingField "digits"))
  | .ok (some width, some digits) => m.deFinish width digits

/-- `CompactApIntVisitor::visit_seq`, `/repo/src/apint/serde_impl.rs:261-289`.  The width is read
with `unwrap`, so an empty sequence panics. -/
def visitSeq (m : Machine) (xs : List SVal) : Run (DeRes ApInt) :=
  match xs with
  | [] => .error .panic
  | w :: rest =>
    match m.deBitWidth false w with
    | .error e => .ok (.error e)
    | .ok width =>
      match rest with
      | [] => .ok (.error (.invalidLength 1))
      | ds :: _ =>
        match deDigits ds with
        | .error e => .ok (.error e)
        | .ok digits => m.deFinish width digits

/-- `Deserialize for ApInt`, `/repo/src/apint/serde_impl.rs:150-302`.  The readable visitor has no
`visit_seq`, so only maps and structs are accepted there. -/
def deserialize (m : Machine) (human : Bool) (v : SVal) : Run (DeRes ApInt) :=
  if human then
    match v with
    | .struct _ fields => m.visitMap fields
    | _ => .ok (.error .invalidType)
  else
    match deSeq v with
    | .error e => .ok (.error e)
    | .ok xs => m.visitSeq xs

/-! ## Programs -/

/-- `Make.exec` on a machine. The calls are those cited at `Program.lean`, the changed functions
those cited above. -/
def make (m : Machine) : Make → Run (Res ApInt)
  | .zero t => fine (m.zero t)
  | .one t => fine (m.one t)
  | .allUnset t => fine (m.allUnset t)
  | .allSet t => fine (m.allSet t)
  | .unsignedMin t => fine (m.unsignedMinValue t)
  | .unsignedMax t => fine (m.unsignedMaxValue t)
  | .signedMin t => fine (m.signedMinValue t)
  | .signedMax t => fine (m.signedMaxValue t)
  | .u128 v => fine (m.fromU128 v)
  | .i128 v => fine (m.fromI128 v)
  | .array v vs => fine (m.fromArray (v :: vs))
  | .digits ds => m.fromIter ds
  | .parse k s => m.fromStrRadix (2 ^ (k.val + 1)) s
  | .random t rng => fine (do let (c, _) ← m.randomWithWidthUsing t rng; pure c)
  | k => k.exec

/-- `Un.exec` on a machine. The calls are those cited at `Program.lean`, the changed functions those
cited above. -/
def un (m : Machine) : Un → ApInt → Run (Res Unit × ApInt)
  | .truncate t, x => m.truncate x t
  | .zeroExtend t, x => m.zeroExtend x t
  | .signExtend t, x => m.signExtend x t
  | .zeroResize t, x => done (m.zeroResize x t)
  | .signResize t, x => done (m.signResize x t)
  | o, x => o.exec x

/-- `Un.execInto` on a machine. The calls are those cited at `Program.lean`, the changed functions
those cited above. -/
def intoUn (m : Machine) : Un → ApInt → Run (Res ApInt)
  | .truncate t, x => m.intoTruncate x t
  | .zeroExtend t, x => m.intoZeroExtend x t
  | .signExtend t, x => m.intoSignExtend x t
  | .zeroResize t, x => fine (m.intoZeroResize x t)
  | .signResize t, x => fine (m.intoSignResize x t)
  | o, x => o.execInto x

/-- `Bin.exec` on a machine. The calls are those cited at `Program.lean`, the changed functions
those cited above. -/
def bin (m : Machine) : Bin → ApInt → ApInt → Run (Res Unit × ApInt)
  | .mul => m.wrappingMulAssign
  | .udiv => m.wrappingUdivAssign
  | .urem => m.wrappingUremAssign
  | .sdiv => m.wrappingSdivAssign
  | .srem => m.wrappingSremAssign
  | o => o.exec

/-- `Bin.execInto` on a machine. The calls are those cited at `Program.lean`, the changed functions
those cited above. -/
def intoBin (m : Machine) : Bin → ApInt → ApInt → Run (Res ApInt)
  | .mul => m.intoWrappingMul
  | .udiv => m.intoWrappingUdiv
  | .urem => m.intoWrappingUrem
  | .sdiv => m.intoWrappingSdiv
  | .srem => m.intoWrappingSrem
  | o => o.execInto

/-- `Op.execAssign` on a machine. The calls are those cited at `Program.lean`, the changed functions
those cited above. -/
def opAssign (m : Machine) : Op → ApInt → ApInt → Run ApInt
  | .mul => m.opMulAssign
  | o => o.execAssign

/-- `Op.exec` on a machine. The calls are those cited at `Program.lean`, the changed functions those
cited above. -/
def op (m : Machine) : Op → ApInt → ApInt → Run ApInt
  | .mul => m.opMul
  | o => o.exec

/-- `Pair.exec` on a machine. The calls are those cited at `Program.lean`, the changed functions
those cited above. -/
def pair (m : Machine) : Pair → ApInt → ApInt → Run (Res Unit × ApInt × ApInt)
  | .udivrem => m.wrappingUdivremAssign
  | .uremdiv => m.wrappingUremdivAssign
  | .sdivrem => m.wrappingSdivremAssign
  | .sremdiv => m.wrappingSremdivAssign

/-- `Ask.exec` on a machine. The calls are those cited at `Program.lean`, the changed functions
those cited above. -/
def ask (m : Machine) : Ask → ApInt → Run (Res Out)
  | .countOnes, x => tell .nat (m.countOnes x)
  | .countZeros, x => tell .nat (m.countZeros x)
  | .leadingZeros, x => tell .nat (m.leadingZeros x)
  | .trailingZeros, x => tell .nat (m.trailingZeros x)
  | q, x => q.exec x

/-- `Instr.exec` on a machine. The calls are those cited at `Program.lean`, the changed functions
those cited above. -/
def exec (m : Machine) (i : Instr) (b : Bank) : Run (Res Out × Bank) :=
  let one (x : Nat) (k : ApInt → Run (Res Out × Bank)) : Run (Res Out × Bank) :=
    match b[x]? with
    | some a => k a
    | none => pure (.ok .unit, b)
  let two (x y : Nat) (k : ApInt → ApInt → Run (Res Out × Bank)) : Run (Res Out × Bank) :=
    match b[x]?, b[y]? with
    | some a, some c => k a c
    | _, _ => pure (.ok .unit, b)
  match i with
  | .make k => pushRes b (m.make k)
  | .un o x => one x fun a => storeRes b x (m.un o a)
  | .intoUn o x => one x fun a => pushRes b (do let a ← a.clone; m.intoUn o a)
  | .bin o x y => two x y fun a c => storeRes b x (m.bin o a c)
  | .intoBin o x y => two x y fun a c => pushRes b (do let a ← a.clone; m.intoBin o a c)
  | .opAssign o x y => two x y fun a c => storeRes b x (done (m.opAssign o a c))
  | .op o x y => two x y fun a c => pushRes b (do let a ← a.clone; fine (m.op o a c))
  | .pair o x y => two x y fun a c => do
      let (e, a, c) ← m.pair o a c
      pure (e.map fun _ => .unit, (b.set x a).set y c)
  | .ask q x => one x fun a => do
      let r ← m.ask q a
      pure (r, b)
  | i => i.exec b

/-- `run` on a machine. Client code, not in `/repo`. -/
def run (m : Machine) : List Instr → Bank → List (Res Out) × Run Bank
  | [], b => ([], .ok b)
  | i :: is, b =>
    match m.exec i b with
    | .ok (r, b) =>
      let (rs, e) := m.run is b
      (r :: rs, e)
    | .error f => ([], .error f)

end Machine

end Verif
