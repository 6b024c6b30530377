import Verif.Model.Casting

/-!
# Bit operations (`/repo/src/apint/bitwise.rs`) and the remaining constructors
(`/repo/src/apint/constructors.rs`)
-/

namespace Verif

namespace ApInt

/-! ## Whole-value bit operations -/

/-- `bitnot`, `/repo/src/apint/bitwise.rs:20-23`. -/
def bitnot (self : ApInt) : Run ApInt := do
  let self ← self.modifyDigits Digit.notInplace
  self.clearUnusedBits

/-- `into_bitnot`, `/repo/src/apint/bitwise.rs:15-17`. -/
def intoBitnot (self : ApInt) : Run ApInt := forwardMutImpl self bitnot

/-- `bitand_assign`, `/repo/src/apint/bitwise.rs:42-44`. -/
def bitandAssign (self rhs : ApInt) : Run (Res Unit × ApInt) :=
  self.modifyZippedDigits rhs Digit.bitand

/-- `into_bitand`, `/repo/src/apint/bitwise.rs:31-33`. -/
def intoBitand (self rhs : ApInt) : Run (Res ApInt) := tryForwardBinMutImpl self rhs bitandAssign

/-- `bitor_assign`, `/repo/src/apint/bitwise.rs:63-65`. -/
def bitorAssign (self rhs : ApInt) : Run (Res Unit × ApInt) :=
  self.modifyZippedDigits rhs Digit.bitor

/-- `into_bitor`, `/repo/src/apint/bitwise.rs:52-54`. -/
def intoBitor (self rhs : ApInt) : Run (Res ApInt) := tryForwardBinMutImpl self rhs bitorAssign

/-- `bitxor_assign`, `/repo/src/apint/bitwise.rs:84-86`. -/
def bitxorAssign (self rhs : ApInt) : Run (Res Unit × ApInt) :=
  self.modifyZippedDigits rhs Digit.bitxor

/-- `into_bitxor`, `/repo/src/apint/bitwise.rs:73-75`. -/
def intoBitxor (self rhs : ApInt) : Run (Res ApInt) := tryForwardBinMutImpl self rhs bitxorAssign

/-! ## Single bits -/

/-- `get_bit_at`, `/repo/src/apint/bitwise.rs:96-109`. -/
def getBitAt (self : ApInt) (pos : Nat) : Run (Res Bool) :=
  match verifyBitAccess self.width pos with
  | .error e => .ok (.error e)
  | .ok () => do
    match ← self.accessData with
    | .inl digit => Digit.get digit pos
    | .ext digits =>
      let (digitPos, bitPos) := toDigitAndBitPos pos
      let d ← idx digits digitPos
      Digit.get d bitPos

/-- The common shape of `set_bit_at`, `unset_bit_at` and `flip_bit_at`,
`/repo/src/apint/bitwise.rs:116-174`: the three bodies differ only in the `Digit` method
called. -/
def modifyBitAt (self : ApInt) (pos : Nat) (op : Digit → Nat → Run (Res Unit × Digit)) :
    Run (Res Unit × ApInt) :=
  match verifyBitAccess self.width pos with
  | .error e => .ok (.error e, self)
  | .ok () => do
    match ← self.accessData with
    | .inl digit => do
      let (r, d) ← op digit pos
      .ok (r, { self with data := .inl d })
    | .ext digits => do
      let (digitPos, bitPos) := toDigitAndBitPos pos
      let d ← idx digits digitPos
      let (r, d) ← op d bitPos
      let digits ← upd digits digitPos d
      .ok (r, { self with data := .ext digits })

/-- `set_bit_at`, `/repo/src/apint/bitwise.rs:116-129`. -/
def setBitAt (self : ApInt) (pos : Nat) : Run (Res Unit × ApInt) := self.modifyBitAt pos Digit.set

/-- `unset_bit_at`, `/repo/src/apint/bitwise.rs:136-149`. -/
def unsetBitAt (self : ApInt) (pos : Nat) : Run (Res Unit × ApInt) :=
  self.modifyBitAt pos Digit.unset

/-- `flip_bit_at`, `/repo/src/apint/bitwise.rs:161-174`. -/
def flipBitAt (self : ApInt) (pos : Nat) : Run (Res Unit × ApInt) :=
  self.modifyBitAt pos Digit.flip

/-! ## All bits, sign bit -/

/-- `set_all`, `/repo/src/apint/bitwise.rs:177-180`. -/
def setAll (self : ApInt) : Run ApInt := do
  let self ← self.modifyDigits Digit.setAll
  self.clearUnusedBits

/-- `is_all_set`, `/repo/src/apint/bitwise.rs:183-191`. -/
def isAllSet (self : ApInt) : Run Bool := do
  let (msb, rest) ← self.splitMostSignificantDigit
  match self.width.excessBits with
  | some excessBits =>
    if countOnes64 msb ≠ excessBits then .ok false
    else .ok (rest.all fun d => d == Digit.ONES)
  | none => .ok (rest.all fun d => d == Digit.ONES)

/-- `unset_all`, `/repo/src/apint/bitwise.rs:194-196`. -/
def unsetAll (self : ApInt) : Run ApInt := self.modifyDigits Digit.unsetAll

/-- `is_all_unset`, `/repo/src/apint/bitwise.rs:199-201`. -/
def isAllUnset (self : ApInt) : Run Bool := self.isZero

/-- `flip_all`, `/repo/src/apint/bitwise.rs:204-208`. -/
def flipAll (self : ApInt) : Run ApInt := do
  let self ← self.modifyDigits Digit.flipAll
  self.clearUnusedBits

/-- `set_msb`, `/repo/src/apint/bitwise.rs:211-217`. -/
def setMsb (self : ApInt) : Run ApInt := do
  let msbPos := self.width.msbPos
  let (r, self) ← self.setBitAt msbPos
  let () ← expect r
  pure self

/-- `unset_msb`, `/repo/src/apint/bitwise.rs:220-226`. -/
def unsetMsb (self : ApInt) : Run ApInt := do
  let msbPos := self.width.msbPos
  let (r, self) ← self.unsetBitAt msbPos
  let () ← expect r
  pure self

/-- `flip_msb`, `/repo/src/apint/bitwise.rs:236-242`. -/
def flipMsb (self : ApInt) : Run ApInt := do
  let msbPos := self.width.msbPos
  let (r, self) ← self.flipBitAt msbPos
  let () ← expect r
  pure self

/-! ## Bit counts -/

/-- `Digit::BITS - self.width().excess_bits().unwrap_or(Digit::BITS)`: the number of unused bits
of the most significant digit, `/repo/src/apint/bitwise.rs:266-267,281-282,297-298`. -/
def unusedBits (self : ApInt) : Run Nat := csub 64 (self.width.excessBits.getD 64)

/-- `count_ones`, `/repo/src/apint/bitwise.rs:248-253`. -/
def countOnes (self : ApInt) : Run Nat := do
  let ds ← self.asDigitSlice
  pure ((ds.map countOnes64).sum)

/-- `count_zeros`, `/repo/src/apint/bitwise.rs:257-268`. -/
def countZeros (self : ApInt) : Run Nat := do
  let ds ← self.asDigitSlice
  let zeros := (ds.map countZeros64).sum
  let unused ← self.unusedBits
  csub zeros unused

/-- The loops of `leading_zeros` and `trailing_zeros`
(`/repo/src/apint/bitwise.rs:273-280,288-295`): add up the counts of the digits and stop after
the first digit whose count is not 64. -/
def zerosLoop (count : Digit → Nat) : List Digit → Nat → Nat
  | [], zeros => zeros
  | d :: rest, zeros =>
    let n := count d
    let zeros := zeros + n
    if n ≠ 64 then zeros else zerosLoop count rest zeros

/-- `leading_zeros`, `/repo/src/apint/bitwise.rs:272-283`. -/
def leadingZeros (self : ApInt) : Run Nat := do
  let ds ← self.asDigitSlice
  let zeros := zerosLoop leadingZeros64 ds.reverse 0
  let unused ← self.unusedBits
  csub zeros unused

/-- `trailing_zeros`, `/repo/src/apint/bitwise.rs:287-301`. -/
def trailingZeros (self : ApInt) : Run Nat := do
  let ds ← self.asDigitSlice
  let zeros := zerosLoop trailingZeros64 ds 0
  if zeros ≥ self.width.toUsize then do
    let unused ← self.unusedBits
    csub zeros unused
  else pure zeros

/-! ## Constructors -/

/-- `from_bool`, `/repo/src/apint/constructors.rs:90-92` (and `From<bool>`, 296-301). -/
def fromBool (bit : Bool) : Run ApInt := newInl BitWidth.w1 (if bit then 1#64 else 0#64)

/-- `from_u8`, `/repo/src/apint/constructors.rs:102-104`. -/
def fromU8 (val : BitVec 8) : Run ApInt := newInl BitWidth.w8 (val.setWidth 64)

/-- `from_i8`, `/repo/src/apint/constructors.rs:96-98`: `val as u8` keeps the bits. -/
def fromI8 (val : BitVec 8) : Run ApInt := fromU8 val

/-- `from_u16`, `/repo/src/apint/constructors.rs:114-116`. -/
def fromU16 (val : BitVec 16) : Run ApInt := newInl BitWidth.w16 (val.setWidth 64)

/-- `from_i16`, `/repo/src/apint/constructors.rs:108-110`. -/
def fromI16 (val : BitVec 16) : Run ApInt := fromU16 val

/-- `from_u32`, `/repo/src/apint/constructors.rs:126-128`. -/
def fromU32 (val : BitVec 32) : Run ApInt := newInl BitWidth.w32 (val.setWidth 64)

/-- `from_i32`, `/repo/src/apint/constructors.rs:120-122`. -/
def fromI32 (val : BitVec 32) : Run ApInt := fromU32 val

/-- `from_u64`, `/repo/src/apint/constructors.rs:138-140`. -/
def fromU64 (val : BitVec 64) : Run ApInt := newInl BitWidth.w64 val

/-- `from_i64`, `/repo/src/apint/constructors.rs:132-134`. -/
def fromI64 (val : BitVec 64) : Run ApInt := fromU64 val

/-- `From<[u64; n]>` (and `From<[i64; n]>`, a transmute), `/repo/src/apint/constructors.rs:374-406`:
most significant word first.  The crate instantiates `n = 2..8, 16, 32`; the model takes any
list. -/
def fromArray (val : List (BitVec 64)) : Run ApInt := do
  let r ← fromIter val.reverse
  expect r

/-- `from_u128`, `/repo/src/apint/constructors.rs:149-153`. -/
def fromU128 (val : BitVec 128) : Run ApInt :=
  let hi := (val >>> 64).setWidth 64
  let lo := (val &&& ((1#128 <<< 64) - 1#128)).setWidth 64
  fromArray [hi, lo]

/-- `from_i128`, `/repo/src/apint/constructors.rs:144-146`. -/
def fromI128 (val : BitVec 128) : Run ApInt := fromU128 val

/-- `repeat_digit`, `/repo/src/apint/constructors.rs:220-243`. -/
def repeatDigit (targetWidth : BitWidth) (digit : Digit) : Run ApInt := do
  let reqDigits := targetWidth.requiredDigits
  let r ← fromIter (List.replicate reqDigits digit)
  let a ← expect r
  let r ← a.intoTruncate targetWidth
  expect r

/-- `zero`, `/repo/src/apint/constructors.rs:246-248`. -/
def zero (width : BitWidth) : Run ApInt := repeatDigit width Digit.ZERO

/-- `one`, `/repo/src/apint/constructors.rs:251-253`. -/
def one (width : BitWidth) : Run ApInt := do
  let a ← fromU64 1#64
  a.intoZeroResize width

/-- `all_unset`, `/repo/src/apint/constructors.rs:258-260`. -/
def allUnset (width : BitWidth) : Run ApInt := zero width

/-- `all_set`, `/repo/src/apint/constructors.rs:263-265`. -/
def allSet (width : BitWidth) : Run ApInt := repeatDigit width Digit.ONES

/-- `unsigned_min_value`, `/repo/src/apint/constructors.rs:269-271`. -/
def unsignedMinValue (width : BitWidth) : Run ApInt := zero width

/-- `unsigned_max_value`, `/repo/src/apint/constructors.rs:275-277`. -/
def unsignedMaxValue (width : BitWidth) : Run ApInt := allSet width

/-- `signed_min_value`, `/repo/src/apint/constructors.rs:281-285`. -/
def signedMinValue (width : BitWidth) : Run ApInt := do
  let result ← zero width
  result.setMsb

/-- `signed_max_value`, `/repo/src/apint/constructors.rs:289-293`. -/
def signedMaxValue (width : BitWidth) : Run ApInt := do
  let result ← allSet width
  result.unsetMsb

end ApInt

end Verif
