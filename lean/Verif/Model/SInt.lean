import Verif.Model.UInt

/-!
# The signed wrapper type `Int` (`/repo/src/int.rs`)

Generated by `/verif/tools/gen_wrappers.py`.
-/

namespace Verif

/-- `struct Int`, `/repo/src/int.rs:28`.  (Named `SInt` here because `Int` is Lean's type of integers.) -/
structure SInt where
  value : ApInt
  deriving DecidableEq

namespace SInt

/-- `From<ApInt> for Int`, `/repo/src/int.rs:33-35`, under a function that
returns an `ApInt`. -/
def lift (r : Run ApInt) : Run SInt := do
  let a ← r
  pure ⟨a⟩

/-- `.map(Int::from)` on a result. As in `/repo/src/int.rs:1009-1011`. -/
def mapRes : Res ApInt → Res SInt
  | .ok a => .ok ⟨a⟩
  | .error e => .error e

/-- `.map(Int::from)` after a function that returns a result. As in `/repo/src/int.rs:1009-1011`. -/
def liftRes (r : Run (Res ApInt)) : Run (Res SInt) := do
  let a ← r
  pure (mapRes a)

/-- A method called on the field: `self.value.f(…)` with `&mut self` that may fail. As in
`/repo/src/int.rs:1020-1022`. -/
def liftMut (r : Run (Res Unit × ApInt)) : Run (Res Unit × SInt) := do
  let (x, a) ← r
  pure (x, ⟨a⟩)

/-- `Int::width`, `/repo/src/int.rs:39-41`. -/
def width (self : SInt) : BitWidth :=
  self.value.width

/-- `Int::into_apint`, `/repo/src/int.rs:46-48`. -/
def intoApint (self : SInt) : ApInt :=
  self.value

/-! ## Constructors -/

/-- `Int::from_bool`, `/repo/src/int.rs:62-64`. -/
def fromBool (bit : Bool) : Run SInt :=
  lift (ApInt.fromBool bit)

/-- `Int::from_i8`, `/repo/src/int.rs:68-70`. -/
def fromI8 (val : BitVec 8) : Run SInt :=
  lift (ApInt.fromI8 val)

/-- `Int::from_i16`, `/repo/src/int.rs:74-76`. -/
def fromI16 (val : BitVec 16) : Run SInt :=
  lift (ApInt.fromI16 val)

/-- `Int::from_i32`, `/repo/src/int.rs:80-82`. -/
def fromI32 (val : BitVec 32) : Run SInt :=
  lift (ApInt.fromI32 val)

/-- `Int::from_i64`, `/repo/src/int.rs:86-88`. -/
def fromI64 (val : BitVec 64) : Run SInt :=
  lift (ApInt.fromI64 val)

/-- `Int::from_i128`, `/repo/src/int.rs:91-93`. -/
def fromI128 (val : BitVec 128) : Run SInt :=
  lift (ApInt.fromI128 val)

/-- `Int::zero`, `/repo/src/int.rs:96-98`. -/
def zero (width : BitWidth) : Run SInt :=
  lift (ApInt.zero width)

/-- `Int::one`, `/repo/src/int.rs:103-109`. -/
def one (width : BitWidth) : Run (Option SInt) :=
  if width = BitWidth.w1 then .ok none
  else do
    let a ← lift (ApInt.one width)
    pure (some a)

/-- `Int::all_unset`, `/repo/src/int.rs:114-116`. -/
def allUnset (width : BitWidth) : Run SInt :=
  SInt.zero width

/-- `Int::all_set`, `/repo/src/int.rs:123-125`. -/
def allSet (width : BitWidth) : Run SInt :=
  lift (ApInt.allSet width)

/-- `Int::min_value`, `/repo/src/int.rs:129-131`. -/
def minValue (width : BitWidth) : Run SInt :=
  lift (ApInt.signedMinValue width)

/-- `Int::max_value`, `/repo/src/int.rs:135-137`. -/
def maxValue (width : BitWidth) : Run SInt :=
  lift (ApInt.signedMaxValue width)

/-- `impl From<[i64; $n]> for Int`, `from`, `/repo/src/int.rs:180-182`. -/
def fromArray (val : List (BitVec 64)) : Run SInt :=
  lift (ApInt.fromArray val)

/-! ## Predicates -/

/-- `Int::is_zero`, `/repo/src/int.rs:205-207`. -/
def isZero (self : SInt) : Run Bool :=
  self.value.isZero

/-- `Int::is_one`, `/repo/src/int.rs:217-223`. -/
def isOne (self : SInt) : Run Bool :=
  if self.width = BitWidth.w1 then .ok false else self.value.isOne

/-- `Int::is_even`, `/repo/src/int.rs:226-228`. -/
def isEven (self : SInt) : Run Bool :=
  self.value.isEven

/-- `Int::is_odd`, `/repo/src/int.rs:231-233`. -/
def isOdd (self : SInt) : Run Bool :=
  self.value.isOdd

/-- `Int::msb`, `/repo/src/int.rs:941-943`. -/
def msb (self : SInt) : Run Bool :=
  self.value.msb

/-- `Int::wrapping_neg`, `/repo/src/int.rs:998-1000`. -/
def wrappingNeg (self : SInt) : Run SInt :=
  lift self.value.wrappingNeg

/-- `Int::is_positive`, `/repo/src/int.rs:236-238`. -/
def isPositive (self : SInt) : Run Bool :=
  do
  let b ← self.msb
  pure (!b)

/-- `Int::is_negative`, `/repo/src/int.rs:241-243`. -/
def isNegative (self : SInt) : Run Bool :=
  do
  let b ← self.isPositive
  pure (!b)

/-- `Int::signum`, `/repo/src/int.rs:250-258`. -/
def signum (self : SInt) : Run Int :=
  do
  let z ← self.isZero
  if z then .ok 0
  else do
    let n ← self.isNegative
    if n then .ok (-1) else .ok 1

/-- `Int::wrapping_abs`, `/repo/src/int.rs:273-277`. -/
def wrappingAbs (self : SInt) : Run SInt :=
  do
  let b ← self.msb
  if b then self.wrappingNeg else .ok self

/-- `Int::into_abs`, `/repo/src/int.rs:266-268`. -/
def intoAbs (self : SInt) : Run SInt :=
  forwardMutImpl self wrappingAbs

/-! ## Comparison -/

/-- `Int::checked_lt`, `/repo/src/int.rs:293-295`. -/
def checkedLt (self rhs : SInt) : Run (Res Bool) :=
  self.value.checkedSlt rhs.value

/-- `Int::checked_le`, `/repo/src/int.rs:309-311`. -/
def checkedLe (self rhs : SInt) : Run (Res Bool) :=
  self.value.checkedSle rhs.value

/-- `Int::checked_gt`, `/repo/src/int.rs:325-327`. -/
def checkedGt (self rhs : SInt) : Run (Res Bool) :=
  self.value.checkedSgt rhs.value

/-- `Int::checked_ge`, `/repo/src/int.rs:341-343`. -/
def checkedGe (self rhs : SInt) : Run (Res Bool) :=
  self.value.checkedSge rhs.value

/-- `impl PartialOrd for Int`, `partial_cmp`, `/repo/src/int.rs:350-361`. -/
def partialCmp (self rhs : SInt) : Run (Option Ordering) :=
  if self.width ≠ rhs.width then .ok none
  else do
    let r ← self.checkedLt rhs
    let lt ← expect r
    if lt then .ok (some .lt)
    else do
      let e ← self.value.eq rhs.value
      if e then .ok (some .eq) else .ok (some .gt)

/-- `Result::unwrap_or(false)`. `/repo/src/int.rs:363-377`. -/
def unwrapOrFalse : Res Bool → Bool
  | .ok b => b
  | .error _ => false

/-- `impl PartialOrd for Int`, `lt`, `/repo/src/int.rs:363-365`. -/
def lt (self rhs : SInt) : Run Bool :=
  do
  let r ← self.checkedLt rhs
  pure (unwrapOrFalse r)

/-- `impl PartialOrd for Int`, `le`, `/repo/src/int.rs:367-369`. -/
def le (self rhs : SInt) : Run Bool :=
  do
  let r ← self.checkedLe rhs
  pure (unwrapOrFalse r)

/-- `impl PartialOrd for Int`, `gt`, `/repo/src/int.rs:371-373`. -/
def gt (self rhs : SInt) : Run Bool :=
  do
  let r ← self.checkedGt rhs
  pure (unwrapOrFalse r)

/-- `impl PartialOrd for Int`, `ge`, `/repo/src/int.rs:375-377`. -/
def ge (self rhs : SInt) : Run Bool :=
  do
  let r ← self.checkedGe rhs
  pure (unwrapOrFalse r)

/-! ## Primitive conversions -/

/-- `Int::resize_to_bool`, `/repo/src/int.rs:391-393`. -/
def resizeToBool (self : SInt) : Run Bool :=
  self.value.resizeToBool

/-- `Int::resize_to_i8`, `/repo/src/int.rs:401-403`. -/
def resizeToI8 (self : SInt) : Run (BitVec 8) :=
  self.value.resizeToI8

/-- `Int::resize_to_i16`, `/repo/src/int.rs:411-413`. -/
def resizeToI16 (self : SInt) : Run (BitVec 16) :=
  self.value.resizeToI16

/-- `Int::resize_to_i32`, `/repo/src/int.rs:421-423`. -/
def resizeToI32 (self : SInt) : Run (BitVec 32) :=
  self.value.resizeToI32

/-- `Int::resize_to_i64`, `/repo/src/int.rs:431-433`. -/
def resizeToI64 (self : SInt) : Run (BitVec 64) :=
  self.value.resizeToI64

/-- `Int::resize_to_i128`, `/repo/src/int.rs:441-443`. -/
def resizeToI128 (self : SInt) : Run (BitVec 128) :=
  self.value.resizeToI128

/-- `Int::try_to_bool`, `/repo/src/int.rs:460-462`. -/
def tryToBool (self : SInt) : Run (Res Bool) :=
  self.value.tryToBool

/-- `Int::try_to_i8`, `/repo/src/int.rs:475-477`. -/
def tryToI8 (self : SInt) : Run (Res (BitVec 8)) :=
  self.value.tryToI8

/-- `Int::try_to_i16`, `/repo/src/int.rs:490-492`. -/
def tryToI16 (self : SInt) : Run (Res (BitVec 16)) :=
  self.value.tryToI16

/-- `Int::try_to_i32`, `/repo/src/int.rs:505-507`. -/
def tryToI32 (self : SInt) : Run (Res (BitVec 32)) :=
  self.value.tryToI32

/-- `Int::try_to_i64`, `/repo/src/int.rs:520-522`. -/
def tryToI64 (self : SInt) : Run (Res (BitVec 64)) :=
  self.value.tryToI64

/-- `Int::try_to_i128`, `/repo/src/int.rs:539-541`. -/
def tryToI128 (self : SInt) : Run (Res (BitVec 128)) :=
  self.value.tryToI128

/-! ## Shifts -/

/-- `Int::wrapping_shl_assign`, `/repo/src/int.rs:554-559`. -/
def wrappingShlAssign (self : SInt) (s : Nat) : Run (Res Unit × SInt) :=
  liftMut (self.value.wrappingShlAssign s)

/-- `Int::into_wrapping_shl`, `/repo/src/int.rs:570-575`. -/
def intoWrappingShl (self : SInt) (s : Nat) : Run (Res SInt) :=
  liftRes (self.value.intoWrappingShl s)

/-- `Int::wrapping_shr_assign`, `/repo/src/int.rs:585-590`. -/
def wrappingShrAssign (self : SInt) (s : Nat) : Run (Res Unit × SInt) :=
  liftMut (self.value.wrappingAshrAssign s)

/-- `Int::into_wrapping_shr`, `/repo/src/int.rs:601-606`. -/
def intoWrappingShr (self : SInt) (s : Nat) : Run (Res SInt) :=
  liftRes (self.value.intoWrappingAshr s)

/-! ## Random values -/

/-- `Int::random_with_width_using`, `/repo/src/int.rs:621-626`. -/
def randomWithWidthUsing (width : BitWidth) (rng : Rng) : Run (SInt × Rng) :=
  do
  let (a, rng) ← ApInt.randomWithWidthUsing width rng
  pure (⟨a⟩, rng)

/-- `Int::randomize_using`, `/repo/src/int.rs:639-644`. -/
def randomizeUsing (self : SInt) (rng : Rng) : Run (SInt × Rng) :=
  do
  let (a, rng) ← self.value.randomizeUsing rng
  pure (⟨a⟩, rng)

/-! ## Assignment and width changes -/

/-- `Int::assign`, `/repo/src/int.rs:654-656`. -/
def assign (self rhs : SInt) : Run SInt :=
  lift (self.value.assign rhs.value)

/-- `Int::strict_assign`, `/repo/src/int.rs:669-671`. -/
def strictAssign (self rhs : SInt) : Run (Res Unit × SInt) :=
  liftMut (self.value.strictAssign rhs.value)

/-- `Int::truncate`, `/repo/src/int.rs:706-711`. -/
def truncate (self : SInt) (targetWidth : BitWidth) : Run (Res Unit × SInt) :=
  liftMut (self.value.truncate targetWidth)

/-- `Int::into_truncate`, `/repo/src/int.rs:688-693`. -/
def intoTruncate (self : SInt) (targetWidth : BitWidth) : Run (Res SInt) :=
  tryForwardBinMutImpl self targetWidth truncate

/-- `Int::extend`, `/repo/src/int.rs:744-749`. -/
def extend (self : SInt) (targetWidth : BitWidth) : Run (Res Unit × SInt) :=
  liftMut (self.value.signExtend targetWidth)

/-- `Int::into_extend`, `/repo/src/int.rs:726-731`. -/
def intoExtend (self : SInt) (targetWidth : BitWidth) : Run (Res SInt) :=
  tryForwardBinMutImpl self targetWidth extend

/-- `Int::resize`, `/repo/src/int.rs:776-781`. -/
def resize (self : SInt) (targetWidth : BitWidth) : Run SInt :=
  lift (self.value.signResize targetWidth)

/-- `Int::into_resize`, `/repo/src/int.rs:760-765`. -/
def intoResize (self : SInt) (targetWidth : BitWidth) : Run SInt :=
  forwardBinMutImpl self targetWidth resize

/-! ## Bitwise operations -/

/-- `Int::bitnot`, `/repo/src/int.rs:792-794`. -/
def bitnot (self : SInt) : Run SInt :=
  lift self.value.bitnot

/-- `Int::into_bitnot`, `/repo/src/int.rs:787-789`. -/
def intoBitnot (self : SInt) : Run SInt :=
  forwardMutImpl self bitnot

/-- `Int::bitand_assign`, `/repo/src/int.rs:813-815`. -/
def bitandAssign (self rhs : SInt) : Run (Res Unit × SInt) :=
  liftMut (self.value.bitandAssign rhs.value)

/-- `Int::into_bitand`, `/repo/src/int.rs:802-804`. -/
def intoBitand (self rhs : SInt) : Run (Res SInt) :=
  tryForwardBinMutImpl self rhs bitandAssign

/-- `Int::bitor_assign`, `/repo/src/int.rs:834-836`. -/
def bitorAssign (self rhs : SInt) : Run (Res Unit × SInt) :=
  liftMut (self.value.bitorAssign rhs.value)

/-- `Int::into_bitor`, `/repo/src/int.rs:823-825`. -/
def intoBitor (self rhs : SInt) : Run (Res SInt) :=
  tryForwardBinMutImpl self rhs bitorAssign

/-- `Int::bitxor_assign`, `/repo/src/int.rs:855-857`. -/
def bitxorAssign (self rhs : SInt) : Run (Res Unit × SInt) :=
  liftMut (self.value.bitxorAssign rhs.value)

/-- `Int::into_bitxor`, `/repo/src/int.rs:844-846`. -/
def intoBitxor (self rhs : SInt) : Run (Res SInt) :=
  tryForwardBinMutImpl self rhs bitxorAssign

/-- `Int::get_bit_at`, `/repo/src/int.rs:867-872`. -/
def getBitAt (self : SInt) (pos : Nat) : Run (Res Bool) :=
  self.value.getBitAt pos

/-- `Int::set_bit_at`, `/repo/src/int.rs:879-884`. -/
def setBitAt (self : SInt) (pos : Nat) : Run (Res Unit × SInt) :=
  liftMut (self.value.setBitAt pos)

/-- `Int::unset_bit_at`, `/repo/src/int.rs:891-896`. -/
def unsetBitAt (self : SInt) (pos : Nat) : Run (Res Unit × SInt) :=
  liftMut (self.value.unsetBitAt pos)

/-- `Int::flip_bit_at`, `/repo/src/int.rs:908-913`. -/
def flipBitAt (self : SInt) (pos : Nat) : Run (Res Unit × SInt) :=
  liftMut (self.value.flipBitAt pos)

/-- `Int::set_all`, `/repo/src/int.rs:916-918`. -/
def setAll (self : SInt) : Run SInt :=
  lift self.value.setAll

/-- `Int::is_all_set`, `/repo/src/int.rs:921-923`. -/
def isAllSet (self : SInt) : Run Bool :=
  self.value.isAllSet

/-- `Int::unset_all`, `/repo/src/int.rs:926-928`. -/
def unsetAll (self : SInt) : Run SInt :=
  lift self.value.unsetAll

/-- `Int::is_all_unset`, `/repo/src/int.rs:931-933`. -/
def isAllUnset (self : SInt) : Run Bool :=
  self.value.isAllUnset

/-- `Int::flip_all`, `/repo/src/int.rs:936-938`. -/
def flipAll (self : SInt) : Run SInt :=
  lift self.value.flipAll

/-- `Int::set_msb`, `/repo/src/int.rs:946-948`. -/
def setMsb (self : SInt) : Run SInt :=
  lift self.value.setMsb

/-- `Int::unset_msb`, `/repo/src/int.rs:951-953`. -/
def unsetMsb (self : SInt) : Run SInt :=
  lift self.value.unsetMsb

/-- `Int::flip_msb`, `/repo/src/int.rs:956-958`. -/
def flipMsb (self : SInt) : Run SInt :=
  lift self.value.flipMsb

/-- `Int::count_ones`, `/repo/src/int.rs:964-966`. -/
def countOnes (self : SInt) : Run Nat :=
  self.value.countOnes

/-- `Int::count_zeros`, `/repo/src/int.rs:969-971`. -/
def countZeros (self : SInt) : Run Nat :=
  self.value.countZeros

/-- `Int::leading_zeros`, `/repo/src/int.rs:975-977`. -/
def leadingZeros (self : SInt) : Run Nat :=
  self.value.leadingZeros

/-- `Int::trailing_zeros`, `/repo/src/int.rs:981-983`. -/
def trailingZeros (self : SInt) : Run Nat :=
  self.value.trailingZeros

/-! ## Arithmetic -/

/-- `Int::into_wrapping_neg`, `/repo/src/int.rs:991-993`. -/
def intoWrappingNeg (self : SInt) : Run SInt :=
  forwardMutImpl self wrappingNeg

/-- `Int::wrapping_add_assign`, `/repo/src/int.rs:1020-1022`. -/
def wrappingAddAssign (self rhs : SInt) : Run (Res Unit × SInt) :=
  liftMut (self.value.wrappingAddAssign rhs.value)

/-- `Int::into_wrapping_add`, `/repo/src/int.rs:1009-1011`. -/
def intoWrappingAdd (self rhs : SInt) : Run (Res SInt) :=
  tryForwardBinMutImpl self rhs wrappingAddAssign

/-- `Int::wrapping_sub_assign`, `/repo/src/int.rs:1050-1052`. -/
def wrappingSubAssign (self rhs : SInt) : Run (Res Unit × SInt) :=
  liftMut (self.value.wrappingSubAssign rhs.value)

/-- `Int::into_wrapping_sub`, `/repo/src/int.rs:1035-1037`. -/
def intoWrappingSub (self rhs : SInt) : Run (Res SInt) :=
  tryForwardBinMutImpl self rhs wrappingSubAssign

/-- `Int::wrapping_mul_assign`, `/repo/src/int.rs:1080-1082`. -/
def wrappingMulAssign (self rhs : SInt) : Run (Res Unit × SInt) :=
  liftMut (self.value.wrappingMulAssign rhs.value)

/-- `Int::into_wrapping_mul`, `/repo/src/int.rs:1065-1067`. -/
def intoWrappingMul (self rhs : SInt) : Run (Res SInt) :=
  tryForwardBinMutImpl self rhs wrappingMulAssign

/-- `Int::wrapping_div_assign`, `/repo/src/int.rs:1112-1114`. -/
def wrappingDivAssign (self rhs : SInt) : Run (Res Unit × SInt) :=
  liftMut (self.value.wrappingSdivAssign rhs.value)

/-- `Int::into_wrapping_div`, `/repo/src/int.rs:1096-1098`. -/
def intoWrappingDiv (self rhs : SInt) : Run (Res SInt) :=
  tryForwardBinMutImpl self rhs wrappingDivAssign

/-- `Int::wrapping_rem_assign`, `/repo/src/int.rs:1145-1147`. -/
def wrappingRemAssign (self rhs : SInt) : Run (Res Unit × SInt) :=
  liftMut (self.value.wrappingSremAssign rhs.value)

/-- `Int::into_wrapping_rem`, `/repo/src/int.rs:1129-1131`. -/
def intoWrappingRem (self rhs : SInt) : Run (Res SInt) :=
  tryForwardBinMutImpl self rhs wrappingRemAssign

/-! ## Formatting -/

/-- `impl fmt::Binary for Int`, `fmt`, `/repo/src/int.rs:1157-1159`. -/
def fmtBinary (self : SInt) : Run (List Char) :=
  self.value.fmtBinary

/-- `impl fmt::Octal for Int`, `fmt`, `/repo/src/int.rs:1163-1165`. -/
def fmtOctal (self : SInt) : Run (List Char) :=
  self.value.fmtOctal

/-- `impl fmt::LowerHex for Int`, `fmt`, `/repo/src/int.rs:1169-1171`. -/
def fmtLowerHex (self : SInt) : Run (List Char) :=
  self.value.fmtLowerHex

/-- `impl fmt::UpperHex for Int`, `fmt`, `/repo/src/int.rs:1175-1177`. -/
def fmtUpperHex (self : SInt) : Run (List Char) :=
  self.value.fmtUpperHex

end SInt

/-- `Int::into_unsigned`, `/repo/src/int.rs:51-53`. -/
def SInt.intoUnsigned (self : SInt) : UInt := ⟨self.value⟩

/-- `UInt::into_signed`, `/repo/src/uint.rs:51-53`. -/
def UInt.intoSigned (self : UInt) : SInt := ⟨self.value⟩

end Verif
