import Verif.Model.Div
import Verif.Model.ToPrim
import Verif.Model.Strings
import Verif.Model.Rand

/-!
# The unsigned wrapper type `UInt` (`/repo/src/uint.rs`)

Generated by `/verif/tools/gen_wrappers.py`.
-/

namespace Verif

/-- `struct UInt`, `/repo/src/uint.rs:28`. -/
structure UInt where
  value : ApInt
  deriving DecidableEq

namespace UInt

/-- `From<ApInt> for UInt`, `/repo/src/uint.rs:33-35`, under a function that
returns an `ApInt`. -/
def lift (r : Run ApInt) : Run UInt := do
  let a ← r
  pure ⟨a⟩

/-- `.map(UInt::from)` on a result. As in `/repo/src/uint.rs:933-935`. -/
def mapRes : Res ApInt → Res UInt
  | .ok a => .ok ⟨a⟩
  | .error e => .error e

/-- `.map(UInt::from)` after a function that returns a result. As in `/repo/src/uint.rs:933-935`. -/
def liftRes (r : Run (Res ApInt)) : Run (Res UInt) := do
  let a ← r
  pure (mapRes a)

/-- A method called on the field: `self.value.f(…)` with `&mut self` that may fail. As in
`/repo/src/uint.rs:944-946`. -/
def liftMut (r : Run (Res Unit × ApInt)) : Run (Res Unit × UInt) := do
  let (x, a) ← r
  pure (x, ⟨a⟩)

/-- `UInt::width`, `/repo/src/uint.rs:39-41`. -/
def width (self : UInt) : BitWidth :=
  self.value.width

/-- `UInt::into_apint`, `/repo/src/uint.rs:46-48`. -/
def intoApint (self : UInt) : ApInt :=
  self.value

/-! ## Constructors -/

/-- `UInt::from_bool`, `/repo/src/uint.rs:60-62`. -/
def fromBool (bit : Bool) : Run UInt :=
  lift (ApInt.fromBool bit)

/-- `UInt::from_u8`, `/repo/src/uint.rs:66-68`. -/
def fromU8 (val : BitVec 8) : Run UInt :=
  lift (ApInt.fromU8 val)

/-- `UInt::from_u16`, `/repo/src/uint.rs:72-74`. -/
def fromU16 (val : BitVec 16) : Run UInt :=
  lift (ApInt.fromU16 val)

/-- `UInt::from_u32`, `/repo/src/uint.rs:78-80`. -/
def fromU32 (val : BitVec 32) : Run UInt :=
  lift (ApInt.fromU32 val)

/-- `UInt::from_u64`, `/repo/src/uint.rs:84-86`. -/
def fromU64 (val : BitVec 64) : Run UInt :=
  lift (ApInt.fromU64 val)

/-- `UInt::from_u128`, `/repo/src/uint.rs:89-91`. -/
def fromU128 (val : BitVec 128) : Run UInt :=
  lift (ApInt.fromU128 val)

/-- `UInt::zero`, `/repo/src/uint.rs:94-96`. -/
def zero (width : BitWidth) : Run UInt :=
  lift (ApInt.zero width)

/-- `UInt::one`, `/repo/src/uint.rs:99-101`. -/
def one (width : BitWidth) : Run UInt :=
  lift (ApInt.one width)

/-- `UInt::all_unset`, `/repo/src/uint.rs:106-108`. -/
def allUnset (width : BitWidth) : Run UInt :=
  UInt.zero width

/-- `UInt::all_set`, `/repo/src/uint.rs:115-117`. -/
def allSet (width : BitWidth) : Run UInt :=
  lift (ApInt.allSet width)

/-- `UInt::min_value`, `/repo/src/uint.rs:121-123`. -/
def minValue (width : BitWidth) : Run UInt :=
  lift (ApInt.unsignedMinValue width)

/-- `UInt::max_value`, `/repo/src/uint.rs:127-129`. -/
def maxValue (width : BitWidth) : Run UInt :=
  lift (ApInt.unsignedMaxValue width)

/-- `impl From<[u64; $n]> for UInt`, `from`, `/repo/src/uint.rs:172-174`. -/
def fromArray (val : List (BitVec 64)) : Run UInt :=
  lift (ApInt.fromArray val)

/-! ## Predicates -/

/-- `UInt::is_zero`, `/repo/src/uint.rs:198-200`. -/
def isZero (self : UInt) : Run Bool :=
  self.value.isZero

/-- `UInt::is_one`, `/repo/src/uint.rs:208-210`. -/
def isOne (self : UInt) : Run Bool :=
  self.value.isOne

/-- `UInt::is_even`, `/repo/src/uint.rs:213-215`. -/
def isEven (self : UInt) : Run Bool :=
  self.value.isEven

/-- `UInt::is_odd`, `/repo/src/uint.rs:218-220`. -/
def isOdd (self : UInt) : Run Bool :=
  self.value.isOdd

/-! ## Comparison -/

/-- `UInt::checked_lt`, `/repo/src/uint.rs:235-237`. -/
def checkedLt (self rhs : UInt) : Run (Res Bool) :=
  self.value.checkedUlt rhs.value

/-- `UInt::checked_le`, `/repo/src/uint.rs:251-253`. -/
def checkedLe (self rhs : UInt) : Run (Res Bool) :=
  self.value.checkedUle rhs.value

/-- `UInt::checked_gt`, `/repo/src/uint.rs:267-269`. -/
def checkedGt (self rhs : UInt) : Run (Res Bool) :=
  self.value.checkedUgt rhs.value

/-- `UInt::checked_ge`, `/repo/src/uint.rs:283-285`. -/
def checkedGe (self rhs : UInt) : Run (Res Bool) :=
  self.value.checkedUge rhs.value

/-- `impl PartialOrd for UInt`, `partial_cmp`, `/repo/src/uint.rs:292-303`. -/
def partialCmp (self rhs : UInt) : Run (Option Ordering) :=
  if self.width ≠ rhs.width then .ok none
  else do
    let r ← self.checkedLt rhs
    let lt ← expect r
    if lt then .ok (some .lt)
    else do
      let e ← self.value.eq rhs.value
      if e then .ok (some .eq) else .ok (some .gt)

/-- `Result::unwrap_or(false)`. `/repo/src/uint.rs:305-319`. -/
def unwrapOrFalse : Res Bool → Bool
  | .ok b => b
  | .error _ => false

/-- `impl PartialOrd for UInt`, `lt`, `/repo/src/uint.rs:305-307`. -/
def lt (self rhs : UInt) : Run Bool :=
  do
  let r ← self.checkedLt rhs
  pure (unwrapOrFalse r)

/-- `impl PartialOrd for UInt`, `le`, `/repo/src/uint.rs:309-311`. -/
def le (self rhs : UInt) : Run Bool :=
  do
  let r ← self.checkedLe rhs
  pure (unwrapOrFalse r)

/-- `impl PartialOrd for UInt`, `gt`, `/repo/src/uint.rs:313-315`. -/
def gt (self rhs : UInt) : Run Bool :=
  do
  let r ← self.checkedGt rhs
  pure (unwrapOrFalse r)

/-- `impl PartialOrd for UInt`, `ge`, `/repo/src/uint.rs:317-319`. -/
def ge (self rhs : UInt) : Run Bool :=
  do
  let r ← self.checkedGe rhs
  pure (unwrapOrFalse r)

/-! ## Primitive conversions -/

/-- `UInt::resize_to_bool`, `/repo/src/uint.rs:333-335`. -/
def resizeToBool (self : UInt) : Run Bool :=
  self.value.resizeToBool

/-- `UInt::resize_to_u8`, `/repo/src/uint.rs:343-345`. -/
def resizeToU8 (self : UInt) : Run (BitVec 8) :=
  self.value.resizeToU8

/-- `UInt::resize_to_u16`, `/repo/src/uint.rs:353-355`. -/
def resizeToU16 (self : UInt) : Run (BitVec 16) :=
  self.value.resizeToU16

/-- `UInt::resize_to_u32`, `/repo/src/uint.rs:363-365`. -/
def resizeToU32 (self : UInt) : Run (BitVec 32) :=
  self.value.resizeToU32

/-- `UInt::resize_to_u64`, `/repo/src/uint.rs:373-375`. -/
def resizeToU64 (self : UInt) : Run (BitVec 64) :=
  self.value.resizeToU64

/-- `UInt::resize_to_u128`, `/repo/src/uint.rs:383-385`. -/
def resizeToU128 (self : UInt) : Run (BitVec 128) :=
  self.value.resizeToU128

/-- `UInt::try_to_bool`, `/repo/src/uint.rs:402-404`. -/
def tryToBool (self : UInt) : Run (Res Bool) :=
  self.value.tryToBool

/-- `UInt::try_to_u8`, `/repo/src/uint.rs:417-419`. -/
def tryToU8 (self : UInt) : Run (Res (BitVec 8)) :=
  self.value.tryToU8

/-- `UInt::try_to_u16`, `/repo/src/uint.rs:432-434`. -/
def tryToU16 (self : UInt) : Run (Res (BitVec 16)) :=
  self.value.tryToU16

/-- `UInt::try_to_u32`, `/repo/src/uint.rs:447-449`. -/
def tryToU32 (self : UInt) : Run (Res (BitVec 32)) :=
  self.value.tryToU32

/-- `UInt::try_to_u64`, `/repo/src/uint.rs:462-464`. -/
def tryToU64 (self : UInt) : Run (Res (BitVec 64)) :=
  self.value.tryToU64

/-- `UInt::try_to_u128`, `/repo/src/uint.rs:481-483`. -/
def tryToU128 (self : UInt) : Run (Res (BitVec 128)) :=
  self.value.tryToU128

/-! ## Shifts -/

/-- `UInt::wrapping_shl_assign`, `/repo/src/uint.rs:496-501`. -/
def wrappingShlAssign (self : UInt) (s : Nat) : Run (Res Unit × UInt) :=
  liftMut (self.value.wrappingShlAssign s)

/-- `UInt::into_wrapping_shl`, `/repo/src/uint.rs:512-517`. -/
def intoWrappingShl (self : UInt) (s : Nat) : Run (Res UInt) :=
  liftRes (self.value.intoWrappingShl s)

/-- `UInt::wrapping_shr_assign`, `/repo/src/uint.rs:527-532`. -/
def wrappingShrAssign (self : UInt) (s : Nat) : Run (Res Unit × UInt) :=
  liftMut (self.value.wrappingLshrAssign s)

/-- `UInt::into_wrapping_shr`, `/repo/src/uint.rs:543-548`. -/
def intoWrappingShr (self : UInt) (s : Nat) : Run (Res UInt) :=
  liftRes (self.value.intoWrappingLshr s)

/-! ## Random values -/

/-- `UInt::random_with_width_using`, `/repo/src/uint.rs:563-568`. -/
def randomWithWidthUsing (width : BitWidth) (rng : Rng) : Run (UInt × Rng) :=
  do
  let (a, rng) ← ApInt.randomWithWidthUsing width rng
  pure (⟨a⟩, rng)

/-- `UInt::randomize_using`, `/repo/src/uint.rs:581-586`. -/
def randomizeUsing (self : UInt) (rng : Rng) : Run (UInt × Rng) :=
  do
  let (a, rng) ← self.value.randomizeUsing rng
  pure (⟨a⟩, rng)

/-! ## Assignment and width changes -/

/-- `UInt::assign`, `/repo/src/uint.rs:596-598`. -/
def assign (self rhs : UInt) : Run UInt :=
  lift (self.value.assign rhs.value)

/-- `UInt::strict_assign`, `/repo/src/uint.rs:611-613`. -/
def strictAssign (self rhs : UInt) : Run (Res Unit × UInt) :=
  liftMut (self.value.strictAssign rhs.value)

/-- `UInt::truncate`, `/repo/src/uint.rs:648-653`. -/
def truncate (self : UInt) (targetWidth : BitWidth) : Run (Res Unit × UInt) :=
  liftMut (self.value.truncate targetWidth)

/-- `UInt::into_truncate`, `/repo/src/uint.rs:630-635`. -/
def intoTruncate (self : UInt) (targetWidth : BitWidth) : Run (Res UInt) :=
  tryForwardBinMutImpl self targetWidth truncate

/-- `UInt::extend`, `/repo/src/uint.rs:686-691`. -/
def extend (self : UInt) (targetWidth : BitWidth) : Run (Res Unit × UInt) :=
  liftMut (self.value.zeroExtend targetWidth)

/-- `UInt::into_extend`, `/repo/src/uint.rs:668-673`. -/
def intoExtend (self : UInt) (targetWidth : BitWidth) : Run (Res UInt) :=
  tryForwardBinMutImpl self targetWidth extend

/-- `UInt::resize`, `/repo/src/uint.rs:718-723`. -/
def resize (self : UInt) (targetWidth : BitWidth) : Run UInt :=
  lift (self.value.zeroResize targetWidth)

/-- `UInt::into_resize`, `/repo/src/uint.rs:702-707`. -/
def intoResize (self : UInt) (targetWidth : BitWidth) : Run UInt :=
  forwardBinMutImpl self targetWidth resize

/-! ## Bitwise operations -/

/-- `UInt::bitnot`, `/repo/src/uint.rs:734-736`. -/
def bitnot (self : UInt) : Run UInt :=
  lift self.value.bitnot

/-- `UInt::into_bitnot`, `/repo/src/uint.rs:729-731`. -/
def intoBitnot (self : UInt) : Run UInt :=
  forwardMutImpl self bitnot

/-- `UInt::bitand_assign`, `/repo/src/uint.rs:755-757`. -/
def bitandAssign (self rhs : UInt) : Run (Res Unit × UInt) :=
  liftMut (self.value.bitandAssign rhs.value)

/-- `UInt::into_bitand`, `/repo/src/uint.rs:744-746`. -/
def intoBitand (self rhs : UInt) : Run (Res UInt) :=
  tryForwardBinMutImpl self rhs bitandAssign

/-- `UInt::bitor_assign`, `/repo/src/uint.rs:776-778`. -/
def bitorAssign (self rhs : UInt) : Run (Res Unit × UInt) :=
  liftMut (self.value.bitorAssign rhs.value)

/-- `UInt::into_bitor`, `/repo/src/uint.rs:765-767`. -/
def intoBitor (self rhs : UInt) : Run (Res UInt) :=
  tryForwardBinMutImpl self rhs bitorAssign

/-- `UInt::bitxor_assign`, `/repo/src/uint.rs:797-799`. -/
def bitxorAssign (self rhs : UInt) : Run (Res Unit × UInt) :=
  liftMut (self.value.bitxorAssign rhs.value)

/-- `UInt::into_bitxor`, `/repo/src/uint.rs:786-788`. -/
def intoBitxor (self rhs : UInt) : Run (Res UInt) :=
  tryForwardBinMutImpl self rhs bitxorAssign

/-- `UInt::get_bit_at`, `/repo/src/uint.rs:809-814`. -/
def getBitAt (self : UInt) (pos : Nat) : Run (Res Bool) :=
  self.value.getBitAt pos

/-- `UInt::set_bit_at`, `/repo/src/uint.rs:821-826`. -/
def setBitAt (self : UInt) (pos : Nat) : Run (Res Unit × UInt) :=
  liftMut (self.value.setBitAt pos)

/-- `UInt::unset_bit_at`, `/repo/src/uint.rs:833-838`. -/
def unsetBitAt (self : UInt) (pos : Nat) : Run (Res Unit × UInt) :=
  liftMut (self.value.unsetBitAt pos)

/-- `UInt::flip_bit_at`, `/repo/src/uint.rs:850-855`. -/
def flipBitAt (self : UInt) (pos : Nat) : Run (Res Unit × UInt) :=
  liftMut (self.value.flipBitAt pos)

/-- `UInt::set_all`, `/repo/src/uint.rs:858-860`. -/
def setAll (self : UInt) : Run UInt :=
  lift self.value.setAll

/-- `UInt::is_all_set`, `/repo/src/uint.rs:863-865`. -/
def isAllSet (self : UInt) : Run Bool :=
  self.value.isAllSet

/-- `UInt::unset_all`, `/repo/src/uint.rs:868-870`. -/
def unsetAll (self : UInt) : Run UInt :=
  lift self.value.unsetAll

/-- `UInt::is_all_unset`, `/repo/src/uint.rs:873-875`. -/
def isAllUnset (self : UInt) : Run Bool :=
  self.value.isAllUnset

/-- `UInt::flip_all`, `/repo/src/uint.rs:878-880`. -/
def flipAll (self : UInt) : Run UInt :=
  lift self.value.flipAll

/-- `UInt::count_ones`, `/repo/src/uint.rs:886-888`. -/
def countOnes (self : UInt) : Run Nat :=
  self.value.countOnes

/-- `UInt::count_zeros`, `/repo/src/uint.rs:891-893`. -/
def countZeros (self : UInt) : Run Nat :=
  self.value.countZeros

/-- `UInt::leading_zeros`, `/repo/src/uint.rs:897-899`. -/
def leadingZeros (self : UInt) : Run Nat :=
  self.value.leadingZeros

/-- `UInt::trailing_zeros`, `/repo/src/uint.rs:903-905`. -/
def trailingZeros (self : UInt) : Run Nat :=
  self.value.trailingZeros

/-! ## Arithmetic -/

/-- `UInt::wrapping_neg`, `/repo/src/uint.rs:914-916`. -/
def wrappingNeg (self : UInt) : Run UInt :=
  lift self.value.wrappingNeg

/-- `UInt::into_wrapping_neg`, `/repo/src/uint.rs:922-924`. -/
def intoWrappingNeg (self : UInt) : Run UInt :=
  forwardMutImpl self wrappingNeg

/-- `UInt::wrapping_add_assign`, `/repo/src/uint.rs:944-946`. -/
def wrappingAddAssign (self rhs : UInt) : Run (Res Unit × UInt) :=
  liftMut (self.value.wrappingAddAssign rhs.value)

/-- `UInt::into_wrapping_add`, `/repo/src/uint.rs:933-935`. -/
def intoWrappingAdd (self rhs : UInt) : Run (Res UInt) :=
  tryForwardBinMutImpl self rhs wrappingAddAssign

/-- `UInt::wrapping_sub_assign`, `/repo/src/uint.rs:974-976`. -/
def wrappingSubAssign (self rhs : UInt) : Run (Res Unit × UInt) :=
  liftMut (self.value.wrappingSubAssign rhs.value)

/-- `UInt::into_wrapping_sub`, `/repo/src/uint.rs:959-961`. -/
def intoWrappingSub (self rhs : UInt) : Run (Res UInt) :=
  tryForwardBinMutImpl self rhs wrappingSubAssign

/-- `UInt::wrapping_mul_assign`, `/repo/src/uint.rs:1004-1006`. -/
def wrappingMulAssign (self rhs : UInt) : Run (Res Unit × UInt) :=
  liftMut (self.value.wrappingMulAssign rhs.value)

/-- `UInt::into_wrapping_mul`, `/repo/src/uint.rs:989-991`. -/
def intoWrappingMul (self rhs : UInt) : Run (Res UInt) :=
  tryForwardBinMutImpl self rhs wrappingMulAssign

/-- `UInt::wrapping_div_assign`, `/repo/src/uint.rs:1036-1038`. -/
def wrappingDivAssign (self rhs : UInt) : Run (Res Unit × UInt) :=
  liftMut (self.value.wrappingUdivAssign rhs.value)

/-- `UInt::into_wrapping_div`, `/repo/src/uint.rs:1020-1022`. -/
def intoWrappingDiv (self rhs : UInt) : Run (Res UInt) :=
  tryForwardBinMutImpl self rhs wrappingDivAssign

/-- `UInt::wrapping_rem_assign`, `/repo/src/uint.rs:1069-1071`. -/
def wrappingRemAssign (self rhs : UInt) : Run (Res Unit × UInt) :=
  liftMut (self.value.wrappingUremAssign rhs.value)

/-- `UInt::into_wrapping_rem`, `/repo/src/uint.rs:1053-1055`. -/
def intoWrappingRem (self rhs : UInt) : Run (Res UInt) :=
  tryForwardBinMutImpl self rhs wrappingRemAssign

/-! ## Formatting -/

/-- `impl fmt::Binary for UInt`, `fmt`, `/repo/src/uint.rs:1081-1083`. -/
def fmtBinary (self : UInt) : Run (List Char) :=
  self.value.fmtBinary

/-- `impl fmt::Octal for UInt`, `fmt`, `/repo/src/uint.rs:1087-1089`. -/
def fmtOctal (self : UInt) : Run (List Char) :=
  self.value.fmtOctal

/-- `impl fmt::LowerHex for UInt`, `fmt`, `/repo/src/uint.rs:1093-1095`. -/
def fmtLowerHex (self : UInt) : Run (List Char) :=
  self.value.fmtLowerHex

/-- `impl fmt::UpperHex for UInt`, `fmt`, `/repo/src/uint.rs:1099-1101`. -/
def fmtUpperHex (self : UInt) : Run (List Char) :=
  self.value.fmtUpperHex

end UInt

end Verif
