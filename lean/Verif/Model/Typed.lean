import Verif.TInstr
import Verif.Model.Program

/-!
# Programs over `UInt` and `Int`: what the modelled code does

Every call is forwarded to the model of the method it stands for; the citations are beside those
models.  The bank is the list of the live integers of the program.  A call its integer does not
have, such as `abs` on a `UInt`, or a call with a `UInt` and an `Int`, is not a Rust program; the
machine then does nothing and answers `unit`, as for a register that does not exist.
-/

namespace Verif

/-- A live integer: `UInt` (`/repo/src/uint.rs:28`) or `Int` (`/repo/src/int.rs:28`). -/
inductive WInt where
  | u (x : UInt)
  | s (x : SInt)

/-- `derive(Clone)` of `UInt` and `Int`, `/repo/src/uint.rs:25`, `/repo/src/int.rs:25`. -/
def WInt.clone : WInt → Run WInt
  | .u x => do let c ← x.value.clone; pure (.u ⟨c⟩)
  | .s x => do let c ← x.value.clone; pure (.s ⟨c⟩)

section

variable {α : Type}

/-- An in-place method that may report an error. Not in `/repo` (brings the results of all methods
to one form). -/
def putMut (f : α → WInt) (r : Run (Res Unit × α)) : Run (Res Unit × WInt) := do
  let (e, c) ← r
  pure (e, f c)

/-- An in-place method that cannot report an error. Not in `/repo` (brings the results of all
methods to one form). -/
def putDone (f : α → WInt) (r : Run α) : Run (Res Unit × WInt) := do
  let c ← r
  pure (.ok (), f c)

/-- A consuming method that may report an error. Not in `/repo` (brings the results of all methods
to one form). -/
def putRes (f : α → WInt) (r : Run (Res α)) : Run (Res WInt) := do
  match ← r with
  | .ok c => pure (.ok (f c))
  | .error e => pure (.error e)

/-- A consuming method that cannot report an error. Not in `/repo` (brings the results of all
methods to one form). -/
def putNew (f : α → WInt) (r : Run α) : Run (Res WInt) := do
  let c ← r
  pure (.ok (f c))

end

/-- Constructors of `UInt` and `Int`, `/repo/src/uint.rs:50-166`, `/repo/src/int.rs:50-174`. -/
def TMake.exec : TMake → Run (Res WInt)
  | .zero .unsigned t => putNew .u (UInt.zero t)
  | .zero .signed t => putNew .s (SInt.zero t)
  | .one t => putNew .u (UInt.one t)
  | .allUnset .unsigned t => putNew .u (UInt.allUnset t)
  | .allUnset .signed t => putNew .s (SInt.allUnset t)
  | .allSet .unsigned t => putNew .u (UInt.allSet t)
  | .allSet .signed t => putNew .s (SInt.allSet t)
  | .min .unsigned t => putNew .u (UInt.minValue t)
  | .min .signed t => putNew .s (SInt.minValue t)
  | .max .unsigned t => putNew .u (UInt.maxValue t)
  | .max .signed t => putNew .s (SInt.maxValue t)
  | .bool .unsigned b => putNew .u (UInt.fromBool b)
  | .bool .signed b => putNew .s (SInt.fromBool b)
  | .u8 v => putNew .u (UInt.fromU8 v)
  | .u16 v => putNew .u (UInt.fromU16 v)
  | .u32 v => putNew .u (UInt.fromU32 v)
  | .u64 v => putNew .u (UInt.fromU64 v)
  | .u128 v => putNew .u (UInt.fromU128 v)
  | .i8 v => putNew .s (SInt.fromI8 v)
  | .i16 v => putNew .s (SInt.fromI16 v)
  | .i32 v => putNew .s (SInt.fromI32 v)
  | .i64 v => putNew .s (SInt.fromI64 v)
  | .i128 v => putNew .s (SInt.fromI128 v)
  | .array .unsigned v vs => putNew .u (UInt.fromArray (v :: vs))
  | .array .signed v vs => putNew .s (SInt.fromArray (v :: vs))
  | .parse .unsigned n s => putRes .u (UInt.liftRes (ApInt.fromStrRadix (2 ^ (n.val + 1)) s))
  | .parse .signed n s => putRes .s (SInt.liftRes (ApInt.fromStrRadix (2 ^ (n.val + 1)) s))
  | .random .unsigned t rng =>
      putNew .u (do let (c, _) ← UInt.randomWithWidthUsing t rng; pure c)
  | .random .signed t rng =>
      putNew .s (do let (c, _) ← SInt.randomWithWidthUsing t rng; pure c)

/-- In-place unary methods; `none` when the integer has no such method. `/repo/src/uint.rs:496-922`,
`/repo/src/int.rs:266-1003`. -/
def TUn.exec : TUn → WInt → Option (Run (Res Unit × WInt))
  | .not, .u x => some (putDone .u x.bitnot)
  | .not, .s x => some (putDone .s x.bitnot)
  | .neg, .u x => some (putDone .u x.wrappingNeg)
  | .neg, .s x => some (putDone .s x.wrappingNeg)
  | .abs, .u _ => none
  | .abs, .s x => some (putDone .s x.wrappingAbs)
  | .shl n, .u x => some (putMut .u (x.wrappingShlAssign n))
  | .shl n, .s x => some (putMut .s (x.wrappingShlAssign n))
  | .shr n, .u x => some (putMut .u (x.wrappingShrAssign n))
  | .shr n, .s x => some (putMut .s (x.wrappingShrAssign n))
  | .truncate t, .u x => some (putMut .u (x.truncate t))
  | .truncate t, .s x => some (putMut .s (x.truncate t))
  | .extend t, .u x => some (putMut .u (x.extend t))
  | .extend t, .s x => some (putMut .s (x.extend t))
  | .resize t, .u x => some (putDone .u (x.resize t))
  | .resize t, .s x => some (putDone .s (x.resize t))

/-- Consuming unary methods (`into_*`). `/repo/src/uint.rs:512-924`, `/repo/src/int.rs:266-996`. -/
def TUn.execInto : TUn → WInt → Option (Run (Res WInt))
  | .not, .u x => some (putNew .u x.intoBitnot)
  | .not, .s x => some (putNew .s x.intoBitnot)
  | .neg, .u x => some (putNew .u x.intoWrappingNeg)
  | .neg, .s x => some (putNew .s x.intoWrappingNeg)
  | .abs, .u _ => none
  | .abs, .s x => some (putNew .s x.intoAbs)
  | .shl n, .u x => some (putRes .u (x.intoWrappingShl n))
  | .shl n, .s x => some (putRes .s (x.intoWrappingShl n))
  | .shr n, .u x => some (putRes .u (x.intoWrappingShr n))
  | .shr n, .s x => some (putRes .s (x.intoWrappingShr n))
  | .truncate t, .u x => some (putRes .u (x.intoTruncate t))
  | .truncate t, .s x => some (putRes .s (x.intoTruncate t))
  | .extend t, .u x => some (putRes .u (x.intoExtend t))
  | .extend t, .s x => some (putRes .s (x.intoExtend t))
  | .resize t, .u x => some (putNew .u (x.intoResize t))
  | .resize t, .s x => some (putNew .s (x.intoResize t))

/-- Operators of one integer, `/repo/src/std_ops.rs`. -/
def TUnOp.exec : TUnOp → WInt → Run (Res WInt)
  | .not, .u x => putNew .u x.opNot
  | .not, .s x => putNew .s x.opNot
  | .neg, .u x => putNew .u x.opNeg
  | .neg, .s x => putNew .s x.opNeg
  | .shl n, .u x => putNew .u (x.opShl n)
  | .shl n, .s x => putNew .s (x.opShl n)
  | .shr n, .u x => putNew .u (x.opShr n)
  | .shr n, .s x => putNew .s (x.opShr n)

/-- Assigning operators of one integer, `/repo/src/std_ops.rs`. -/
def TShift.exec : TShift → WInt → Run (Res Unit × WInt)
  | .shl n, .u x => putDone .u (x.opShlAssign n)
  | .shl n, .s x => putDone .s (x.opShlAssign n)
  | .shr n, .u x => putDone .u (x.opShrAssign n)
  | .shr n, .s x => putDone .s (x.opShrAssign n)

/-- Bit level methods. `/repo/src/uint.rs:821-880`, `/repo/src/int.rs:879-958`. -/
def TAlter.exec : TAlter → WInt → Option (Run (Res Unit × WInt))
  | .setAll, .u x => some (putDone .u x.setAll)
  | .setAll, .s x => some (putDone .s x.setAll)
  | .unsetAll, .u x => some (putDone .u x.unsetAll)
  | .unsetAll, .s x => some (putDone .s x.unsetAll)
  | .flipAll, .u x => some (putDone .u x.flipAll)
  | .flipAll, .s x => some (putDone .s x.flipAll)
  | .setMsb, .s x => some (putDone .s x.setMsb)
  | .unsetMsb, .s x => some (putDone .s x.unsetMsb)
  | .flipMsb, .s x => some (putDone .s x.flipMsb)
  | .setMsb, .u _ | .unsetMsb, .u _ | .flipMsb, .u _ => none
  | .setBit p, .u x => some (putMut .u (x.setBitAt p))
  | .setBit p, .s x => some (putMut .s (x.setBitAt p))
  | .unsetBit p, .u x => some (putMut .u (x.unsetBitAt p))
  | .unsetBit p, .s x => some (putMut .s (x.unsetBitAt p))
  | .flipBit p, .u x => some (putMut .u (x.flipBitAt p))
  | .flipBit p, .s x => some (putMut .s (x.flipBitAt p))
  | .randomize rng, .u x => some (putDone .u (do let (c, _) ← x.randomizeUsing rng; pure c))
  | .randomize rng, .s x => some (putDone .s (do let (c, _) ← x.randomizeUsing rng; pure c))

/-- The method behind a binary call on two `UInt`s: in place, consuming, operator, assigning
operator. `/repo/src/uint.rs:744-799`, `/repo/src/uint.rs:933-1074`, `/repo/src/std_ops.rs`. -/
def TBin.unsigned : TBin → (UInt → UInt → Run (Res Unit × UInt)) × (UInt → UInt → Run (Res UInt)) ×
    (UInt → UInt → Run UInt) × (UInt → UInt → Run UInt)
  | .add => (UInt.wrappingAddAssign, UInt.intoWrappingAdd, UInt.opAdd, UInt.opAddAssign)
  | .sub => (UInt.wrappingSubAssign, UInt.intoWrappingSub, UInt.opSub, UInt.opSubAssign)
  | .mul => (UInt.wrappingMulAssign, UInt.intoWrappingMul, UInt.opMul, UInt.opMulAssign)
  | .and => (UInt.bitandAssign, UInt.intoBitand, UInt.opBitAnd, UInt.opBitAndAssign)
  | .or => (UInt.bitorAssign, UInt.intoBitor, UInt.opBitOr, UInt.opBitOrAssign)
  | .xor => (UInt.bitxorAssign, UInt.intoBitxor, UInt.opBitXor, UInt.opBitXorAssign)
  | .div => (UInt.wrappingDivAssign, UInt.intoWrappingDiv, UInt.opDiv, UInt.opDivAssign)
  | .rem => (UInt.wrappingRemAssign, UInt.intoWrappingRem, UInt.opRem, UInt.opRemAssign)

/-- The same on two `Int`s. `/repo/src/int.rs:802-857`, `/repo/src/int.rs:1009-1150`,
`/repo/src/std_ops.rs`. -/
def TBin.signed : TBin → (SInt → SInt → Run (Res Unit × SInt)) × (SInt → SInt → Run (Res SInt)) ×
    (SInt → SInt → Run SInt) × (SInt → SInt → Run SInt)
  | .add => (SInt.wrappingAddAssign, SInt.intoWrappingAdd, SInt.opAdd, SInt.opAddAssign)
  | .sub => (SInt.wrappingSubAssign, SInt.intoWrappingSub, SInt.opSub, SInt.opSubAssign)
  | .mul => (SInt.wrappingMulAssign, SInt.intoWrappingMul, SInt.opMul, SInt.opMulAssign)
  | .and => (SInt.bitandAssign, SInt.intoBitand, SInt.opBitAnd, SInt.opBitAndAssign)
  | .or => (SInt.bitorAssign, SInt.intoBitor, SInt.opBitOr, SInt.opBitOrAssign)
  | .xor => (SInt.bitxorAssign, SInt.intoBitxor, SInt.opBitXor, SInt.opBitXorAssign)
  | .div => (SInt.wrappingDivAssign, SInt.intoWrappingDiv, SInt.opDiv, SInt.opDivAssign)
  | .rem => (SInt.wrappingRemAssign, SInt.intoWrappingRem, SInt.opRem, SInt.opRemAssign)

/-- In-place binary methods. `/repo/src/uint.rs:744-1074`, `/repo/src/int.rs:802-1150`. -/
def TBin.exec (o : TBin) : WInt → WInt → Option (Run (Res Unit × WInt))
  | .u x, .u y => some (putMut .u (o.unsigned.1 x y))
  | .s x, .s y => some (putMut .s (o.signed.1 x y))
  | _, _ => none

/-- Consuming binary methods. `/repo/src/uint.rs:744-1074`, `/repo/src/int.rs:802-1150`. -/
def TBin.execInto (o : TBin) : WInt → WInt → Option (Run (Res WInt))
  | .u x, .u y => some (putRes .u (o.unsigned.2.1 x y))
  | .s x, .s y => some (putRes .s (o.signed.2.1 x y))
  | _, _ => none

/-- Operators returning a value. `/repo/src/std_ops.rs:1-225`. -/
def TBin.execOp (o : TBin) : WInt → WInt → Option (Run (Res WInt))
  | .u x, .u y => some (putNew .u (o.unsigned.2.2.1 x y))
  | .s x, .s y => some (putNew .s (o.signed.2.2.1 x y))
  | _, _ => none

/-- Assigning operators. `/repo/src/std_ops.rs:1-225`. -/
def TBin.execOpAssign (o : TBin) : WInt → WInt → Option (Run (Res Unit × WInt))
  | .u x, .u y => some (putDone .u (o.unsigned.2.2.2 x y))
  | .s x, .s y => some (putDone .s (o.signed.2.2.2 x y))
  | _, _ => none

/-- An answer of a method that cannot report an error. Not in `/repo` (brings the results of all
methods to one form). -/
def say {α : Type} (f : α → Out) (r : Run α) : Run (Res TOut) := do
  let v ← r
  pure (.ok (.out (f v)))

/-- An answer of a method that may report an error. Not in `/repo` (brings the results of all
methods to one form). -/
def sayRes {α : Type} (f : α → Out) (r : Run (Res α)) : Run (Res TOut) := do
  match ← r with
  | .ok v => pure (.ok (.out (f v)))
  | .error e => pure (.error e)

/-- `UInt::resize_to_*`, `/repo/src/uint.rs:333-385`. -/
def UInt.resizeTo (x : UInt) : PrimitiveTy → Option (Run (Res TOut))
  | .bool => some (say .bool x.resizeToBool)
  | .u8 => some (say (fun v => .nat v.toNat) x.resizeToU8)
  | .u16 => some (say (fun v => .nat v.toNat) x.resizeToU16)
  | .u32 => some (say (fun v => .nat v.toNat) x.resizeToU32)
  | .u64 => some (say (fun v => .nat v.toNat) x.resizeToU64)
  | .u128 => some (say (fun v => .nat v.toNat) x.resizeToU128)
  | .i8 | .i16 | .i32 | .i64 | .i128 => none

/-- `UInt::try_to_*`, `/repo/src/uint.rs:402-483`. -/
def UInt.tryTo (x : UInt) : PrimitiveTy → Option (Run (Res TOut))
  | .bool => some (sayRes .bool x.tryToBool)
  | .u8 => some (sayRes (fun v => .nat v.toNat) x.tryToU8)
  | .u16 => some (sayRes (fun v => .nat v.toNat) x.tryToU16)
  | .u32 => some (sayRes (fun v => .nat v.toNat) x.tryToU32)
  | .u64 => some (sayRes (fun v => .nat v.toNat) x.tryToU64)
  | .u128 => some (sayRes (fun v => .nat v.toNat) x.tryToU128)
  | .i8 | .i16 | .i32 | .i64 | .i128 => none

/-- `Int::resize_to_*`, `/repo/src/int.rs:391-443`. -/
def SInt.resizeTo (x : SInt) : PrimitiveTy → Option (Run (Res TOut))
  | .bool => some (say .bool x.resizeToBool)
  | .i8 => some (say (fun v => .int v.toInt) x.resizeToI8)
  | .i16 => some (say (fun v => .int v.toInt) x.resizeToI16)
  | .i32 => some (say (fun v => .int v.toInt) x.resizeToI32)
  | .i64 => some (say (fun v => .int v.toInt) x.resizeToI64)
  | .i128 => some (say (fun v => .int v.toInt) x.resizeToI128)
  | .u8 | .u16 | .u32 | .u64 | .u128 => none

/-- Queries of one integer. `/repo/src/uint.rs:198-483`, `/repo/src/uint.rs:809-905`,
`/repo/src/uint.rs:1080-1102`, and the same in `/repo/src/int.rs`. -/
def TAsk.exec : TAsk → WInt → Option (Run (Res TOut))
  | .width, .u x => some (pure (.ok (.out (.nat x.width.toUsize))))
  | .width, .s x => some (pure (.ok (.out (.nat x.width.toUsize))))
  | .isZero, .u x => some (say .bool x.isZero)
  | .isZero, .s x => some (say .bool x.isZero)
  | .isAllUnset, .u x => some (say .bool x.isAllUnset)
  | .isAllUnset, .s x => some (say .bool x.isAllUnset)
  | .isEven, .u x => some (say .bool x.isEven)
  | .isEven, .s x => some (say .bool x.isEven)
  | .isOdd, .u x => some (say .bool x.isOdd)
  | .isOdd, .s x => some (say .bool x.isOdd)
  | .isNegative, .s x => some (say .bool x.isNegative)
  | .isPositive, .s x => some (say .bool x.isPositive)
  | .signum, .s x => some (say .int x.signum)
  | .msb, .s x => some (say .bool x.msb)
  | .isNegative, .u _ | .isPositive, .u _ | .signum, .u _ | .msb, .u _ => none
  | .bit p, .u x => some (sayRes .bool (x.getBitAt p))
  | .bit p, .s x => some (sayRes .bool (x.getBitAt p))
  | .countOnes, .u x => some (say .nat x.countOnes)
  | .countOnes, .s x => some (say .nat x.countOnes)
  | .countZeros, .u x => some (say .nat x.countZeros)
  | .countZeros, .s x => some (say .nat x.countZeros)
  | .leadingZeros, .u x => some (say .nat x.leadingZeros)
  | .leadingZeros, .s x => some (say .nat x.leadingZeros)
  | .trailingZeros, .u x => some (say .nat x.trailingZeros)
  | .trailingZeros, .s x => some (say .nat x.trailingZeros)
  | .resize ty, .u x => x.resizeTo ty
  | .resize ty, .s x => x.resizeTo ty
  | .tryTo ty, .u x => x.tryTo ty
  | .tryTo _, .s _ => none
  | .binary, .u x => some (say .text x.fmtBinary)
  | .binary, .s x => some (say .text x.fmtBinary)
  | .lowerHex, .u x => some (say .text x.fmtLowerHex)
  | .lowerHex, .s x => some (say .text x.fmtLowerHex)
  | .upperHex, .u x => some (say .text x.fmtUpperHex)
  | .upperHex, .s x => some (say .text x.fmtUpperHex)
  | .octal, .u x => some (say .text x.fmtOctal)
  | .octal, .s x => some (say .text x.fmtOctal)

/-- Queries of two `UInt`s; `eq` is `derive(PartialEq)`, `/repo/src/uint.rs:25`. -/
def TAsk2.unsigned : TAsk2 → UInt → UInt → Run (Res TOut)
  | .eq, x, y => say .bool (x.value.eq y.value)
  | .checkedLt, x, y => sayRes .bool (x.checkedLt y)
  | .checkedLe, x, y => sayRes .bool (x.checkedLe y)
  | .checkedGt, x, y => sayRes .bool (x.checkedGt y)
  | .checkedGe, x, y => sayRes .bool (x.checkedGe y)
  | .lt, x, y => say .bool (x.lt y)
  | .le, x, y => say .bool (x.le y)
  | .gt, x, y => say .bool (x.gt y)
  | .ge, x, y => say .bool (x.ge y)
  | .partialCmp, x, y => do
      let o ← x.partialCmp y
      pure (.ok (.ord o))

/-- Queries of two `Int`s; `eq` is `derive(PartialEq)`, `/repo/src/int.rs:25`. -/
def TAsk2.signed : TAsk2 → SInt → SInt → Run (Res TOut)
  | .eq, x, y => say .bool (x.value.eq y.value)
  | .checkedLt, x, y => sayRes .bool (x.checkedLt y)
  | .checkedLe, x, y => sayRes .bool (x.checkedLe y)
  | .checkedGt, x, y => sayRes .bool (x.checkedGt y)
  | .checkedGe, x, y => sayRes .bool (x.checkedGe y)
  | .lt, x, y => say .bool (x.lt y)
  | .le, x, y => say .bool (x.le y)
  | .gt, x, y => say .bool (x.gt y)
  | .ge, x, y => say .bool (x.ge y)
  | .partialCmp, x, y => do
      let o ← x.partialCmp y
      pure (.ok (.ord o))

/-- Queries of two integers. `/repo/src/uint.rs:235-320`, `/repo/src/int.rs:293-378`. -/
def TAsk2.exec (q : TAsk2) : WInt → WInt → Option (Run (Res TOut))
  | .u x, .u y => some (q.unsigned x y)
  | .s x, .s y => some (q.signed x y)
  | _, _ => none

/-- `assign` of `UInt` and `Int`. `/repo/src/uint.rs:596-598`, `/repo/src/int.rs:654-656`. -/
def WInt.assign : WInt → WInt → Option (Run (Res Unit × WInt))
  | .u x, .u y => some (putDone .u (x.assign y))
  | .s x, .s y => some (putDone .s (x.assign y))
  | _, _ => none

/-- `strict_assign` of `UInt` and `Int`. `/repo/src/uint.rs:611-613`, `/repo/src/int.rs:669-671`. -/
def WInt.strictAssign : WInt → WInt → Option (Run (Res Unit × WInt))
  | .u x, .u y => some (putMut .u (x.strictAssign y))
  | .s x, .s y => some (putMut .s (x.strictAssign y))
  | _, _ => none

/-- `Int::into_unsigned`, `/repo/src/int.rs:51-53`. -/
def WInt.intoUnsigned : WInt → Option (Run (Res WInt))
  | .s x => some (pure (.ok (.u x.intoUnsigned)))
  | .u _ => none

/-- `UInt::into_signed`, `/repo/src/uint.rs:51-53`. -/
def WInt.intoSigned : WInt → Option (Run (Res WInt))
  | .u x => some (pure (.ok (.s x.intoSigned)))
  | .s _ => none

/-- The live integers of a program. Client code, not in `/repo`. -/
abbrev TBank := List WInt

/-- Bind the result of a call that makes an integer. Client code, not in `/repo`. -/
def TBank.pushRes (b : TBank) (r : Run (Res WInt)) : Run (Res TOut × TBank) := do
  match ← r with
  | .ok c => pure (.ok (.out .unit), b ++ [c])
  | .error e => pure (.error e, b)

/-- Store the integer left behind by an in-place call, also when the call reports an error. Client
code, not in `/repo`. -/
def TBank.storeRes (b : TBank) (x : Nat) (r : Run (Res Unit × WInt)) : Run (Res TOut × TBank) := do
  let (e, c) ← r
  pure (e.map fun _ => .out .unit, b.set x c)

/-- A call that consumes the integer `x` and gives a new one, which takes its place; an error
leaves none. Client code, not in `/repo`. -/
def TBank.moveRes (b : TBank) (x : Nat) (r : Run (Res WInt)) : Run (Res TOut × TBank) := do
  match ← r with
  | .ok c => pure (.ok (.out .unit), b.set x c)
  | .error e => pure (.error e, b.eraseIdx x)

/-- Answer and change nothing. Client code, not in `/repo`. -/
def TBank.answer (b : TBank) (r : Run (Res TOut)) : Run (Res TOut × TBank) := do
  let v ← r
  pure (v, b)

/-- One call. The calls are those cited above; the rest is client code, not in `/repo`. -/
def TInstr.exec (i : TInstr) (b : TBank) : Run (Res TOut × TBank) :=
  let skip : Run (Res TOut × TBank) := pure (.ok (.out .unit), b)
  let one {α : Type} (x : Nat) (f : WInt → Option α) (k : α → Run (Res TOut × TBank)) :=
    match b[x]? with
    | some a =>
      match f a with
      | some r => k r
      | none => skip
    | none => skip
  let two {α : Type} (x y : Nat) (f : WInt → WInt → Option α) (k : α → Run (Res TOut × TBank)) :=
    match b[x]?, b[y]? with
    | some a, some c =>
      match f a c with
      | some r => k r
      | none => skip
    | _, _ => skip
  match i with
  | .make m => b.pushRes m.exec
  | .intOne t => do
      match ← SInt.one t with
      | some c => pure (.ok (.out (.bool true)), b ++ [.s c])
      | none => pure (.ok (.out (.bool false)), b)
  | .clone x => one x (fun a => some (putNew id a.clone)) b.pushRes
  | .drop x => pure (.ok (.out .unit), b.eraseIdx x)
  | .assign x y => two x y WInt.assign (b.storeRes x)
  | .strictAssign x y => two x y WInt.strictAssign (b.storeRes x)
  | .intoUnsigned x => one x WInt.intoUnsigned (b.moveRes x)
  | .intoSigned x => one x WInt.intoSigned (b.moveRes x)
  | .un o x => one x o.exec (b.storeRes x)
  | .intoUn o x => one x o.execInto (b.moveRes x)
  | .opUn o x => one x (fun a => some (o.exec a)) (b.moveRes x)
  | .opShift o x => one x (fun a => some (o.exec a)) (b.storeRes x)
  | .alter o x => one x o.exec (b.storeRes x)
  | .bin o x y => two x y o.exec (b.storeRes x)
  | .intoBin o x y => two x y o.execInto (b.moveRes x)
  | .op o x y => two x y o.execOp (b.moveRes x)
  | .opAssign o x y => two x y o.execOpAssign (b.storeRes x)
  | .ask q x => one x q.exec b.answer
  | .ask2 q x y => two x y q.exec b.answer

/-- A program: the answers of the calls that returned, and the bank at the end or the fault
that stopped the program. Client code, not in `/repo`. -/
def trun : List TInstr → TBank → List (Res TOut) × Run TBank
  | [], b => ([], .ok b)
  | i :: is, b =>
    match i.exec b with
    | .ok (r, b) =>
      let (rs, e) := trun is b
      (r :: rs, e)
    | .error f => ([], .error f)

end Verif
