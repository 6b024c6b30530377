import Verif.Instr
import Verif.Model.StdOps
import Verif.Model.Strings
import Verif.Model.Rand
import Verif.Model.ToPrim

/-!
# Programs over the API: what the modelled code does

Every call is forwarded to the model of the method it stands for; the citations are beside those
models.  The bank is the list of the live integers of the program.
-/

namespace Verif

open ApInt

/-- An in-place method that cannot report an error. Not in `/repo` (brings the results of all
methods to one form). -/
def done (r : Run ApInt) : Run (Res Unit × ApInt) := do
  let c ← r
  pure (.ok (), c)

/-- A method returning an integer that cannot report an error. Not in `/repo` (brings the results of
all methods to one form). -/
def fine {α : Type} (r : Run α) : Run (Res α) := do
  let c ← r
  pure (.ok c)

/-- A method answering something that cannot report an error. Not in `/repo` (brings the results of
all methods to one form). -/
def tell {α : Type} (f : α → Out) (r : Run α) : Run (Res Out) := do
  let v ← r
  pure (.ok (f v))

/-- A method answering something or reporting an error. Not in `/repo` (brings the results of all
methods to one form). -/
def tellRes {α : Type} (f : α → Out) (r : Run (Res α)) : Run (Res Out) := do
  match ← r with
  | .ok v => pure (.ok (f v))
  | .error e => pure (.error e)

/-- Constructors, `/repo/src/apint/constructors.rs:96-330`, `serialization.rs:18-90`,
`rand_impl.rs:14-40`. -/
def Make.exec : Make → Run (Res ApInt)
  | .zero t => fine (ApInt.zero t)
  | .one t => fine (ApInt.one t)
  | .allUnset t => fine (ApInt.allUnset t)
  | .allSet t => fine (ApInt.allSet t)
  | .unsignedMin t => fine (unsignedMinValue t)
  | .unsignedMax t => fine (unsignedMaxValue t)
  | .signedMin t => fine (signedMinValue t)
  | .signedMax t => fine (signedMaxValue t)
  | .bool b => fine (fromBool b)
  | .u8 v => fine (fromU8 v)
  | .i8 v => fine (fromI8 v)
  | .u16 v => fine (fromU16 v)
  | .i16 v => fine (fromI16 v)
  | .u32 v => fine (fromU32 v)
  | .i32 v => fine (fromI32 v)
  | .u64 v => fine (fromU64 v)
  | .i64 v => fine (fromI64 v)
  | .u128 v => fine (fromU128 v)
  | .i128 v => fine (fromI128 v)
  | .array v vs => fine (fromArray (v :: vs))
  | .digits ds => fromIter ds
  | .parse k s => fromStrRadix (2 ^ (k.val + 1)) s
  | .random t rng => fine (do let (c, _) ← randomWithWidthUsing t rng; pure c)

/-- In-place unary methods, `/repo/src/apint/{arithmetic,bitwise,shift,casting}.rs`. -/
def Un.exec : Un → ApInt → Run (Res Unit × ApInt)
  | .bitnot, x => done x.bitnot
  | .neg, x => done x.wrappingNeg
  | .inc, x => done x.wrappingInc
  | .dec, x => done x.wrappingDec
  | .shl s, x => x.wrappingShlAssign s
  | .lshr s, x => x.wrappingLshrAssign s
  | .ashr s, x => x.wrappingAshrAssign s
  | .truncate t, x => x.truncate t
  | .zeroExtend t, x => x.zeroExtend t
  | .signExtend t, x => x.signExtend t
  | .zeroResize t, x => done (x.zeroResize t)
  | .signResize t, x => done (x.signResize t)

/-- Consuming unary methods (`into_*`). `/repo/src/apint/arithmetic.rs:54-98`,
`/repo/src/apint/bitwise.rs:15-17`, `/repo/src/apint/shift.rs:132-297`,
`/repo/src/apint/casting.rs:119-435`. -/
def Un.execInto : Un → ApInt → Run (Res ApInt)
  | .bitnot, x => fine x.intoBitnot
  | .neg, x => fine x.intoWrappingNeg
  | .inc, x => fine x.intoWrappingInc
  | .dec, x => fine x.intoWrappingDec
  | .shl s, x => x.intoWrappingShl s
  | .lshr s, x => x.intoWrappingLshr s
  | .ashr s, x => x.intoWrappingAshr s
  | .truncate t, x => x.intoTruncate t
  | .zeroExtend t, x => x.intoZeroExtend t
  | .signExtend t, x => x.intoSignExtend t
  | .zeroResize t, x => fine (x.intoZeroResize t)
  | .signResize t, x => fine (x.intoSignResize t)

/-- Bit level methods, `/repo/src/apint/bitwise.rs:85-230`, `rand_impl.rs:50-80`. -/
def Alter.exec : Alter → ApInt → Run (Res Unit × ApInt)
  | .setAll, x => done x.setAll
  | .unsetAll, x => done x.unsetAll
  | .flipAll, x => done x.flipAll
  | .setMsb, x => done x.setMsb
  | .unsetMsb, x => done x.unsetMsb
  | .flipMsb, x => done x.flipMsb
  | .setBit p, x => x.setBitAt p
  | .unsetBit p, x => x.unsetBitAt p
  | .flipBit p, x => x.flipBitAt p
  | .randomize rng, x => done (do let (c, _) ← x.randomizeUsing rng; pure c)

/-- In-place binary methods. `/repo/src/apint/arithmetic.rs:105-1830`,
`/repo/src/apint/bitwise.rs:42-86`. -/
def Bin.exec : Bin → ApInt → ApInt → Run (Res Unit × ApInt)
  | .add => wrappingAddAssign
  | .sub => wrappingSubAssign
  | .mul => wrappingMulAssign
  | .and => bitandAssign
  | .or => bitorAssign
  | .xor => bitxorAssign
  | .udiv => wrappingUdivAssign
  | .urem => wrappingUremAssign
  | .sdiv => wrappingSdivAssign
  | .srem => wrappingSremAssign

/-- Consuming binary methods. `/repo/src/apint/arithmetic.rs:132-1841`,
`/repo/src/apint/bitwise.rs:31-77`. -/
def Bin.execInto : Bin → ApInt → ApInt → Run (Res ApInt)
  | .add => intoWrappingAdd
  | .sub => intoWrappingSub
  | .mul => intoWrappingMul
  | .and => intoBitand
  | .or => intoBitor
  | .xor => intoBitxor
  | .udiv => intoWrappingUdiv
  | .urem => intoWrappingUrem
  | .sdiv => intoWrappingSdiv
  | .srem => intoWrappingSrem

/-- Assigning operators, `/repo/src/std_ops.rs`. -/
def Op.execAssign : Op → ApInt → ApInt → Run ApInt
  | .add => opAddAssign
  | .sub => opSubAssign
  | .mul => opMulAssign
  | .and => opBitAndAssign
  | .or => opBitOrAssign
  | .xor => opBitXorAssign

/-- Operators returning a value, `/repo/src/std_ops.rs`. -/
def Op.exec : Op → ApInt → ApInt → Run ApInt
  | .add => opAdd
  | .sub => opSub
  | .mul => opMul
  | .and => opBitAnd
  | .or => opBitOr
  | .xor => opBitXor

/-- Divisions changing both operands. `/repo/src/apint/arithmetic.rs:1532-1585`,
`/repo/src/apint/arithmetic.rs:1667-1750`. -/
def Pair.exec : Pair → ApInt → ApInt → Run (Res Unit × ApInt × ApInt)
  | .udivrem => wrappingUdivremAssign
  | .uremdiv => wrappingUremdivAssign
  | .sdivrem => wrappingSdivremAssign
  | .sremdiv => wrappingSremdivAssign

/-- `resize_to_*`, `/repo/src/apint/to_primitive.rs`. -/
def resizeTo (x : ApInt) : PrimitiveTy → Run (Res Out)
  | .bool => tell .bool x.resizeToBool
  | .i8 => tell (fun v => .int v.toInt) x.resizeToI8
  | .u8 => tell (fun v => .nat v.toNat) x.resizeToU8
  | .i16 => tell (fun v => .int v.toInt) x.resizeToI16
  | .u16 => tell (fun v => .nat v.toNat) x.resizeToU16
  | .i32 => tell (fun v => .int v.toInt) x.resizeToI32
  | .u32 => tell (fun v => .nat v.toNat) x.resizeToU32
  | .i64 => tell (fun v => .int v.toInt) x.resizeToI64
  | .u64 => tell (fun v => .nat v.toNat) x.resizeToU64
  | .i128 => tell (fun v => .int v.toInt) x.resizeToI128
  | .u128 => tell (fun v => .nat v.toNat) x.resizeToU128

/-- `try_to_*`, `/repo/src/apint/to_primitive.rs`. -/
def tryTo (x : ApInt) : PrimitiveTy → Run (Res Out)
  | .bool => tellRes .bool x.tryToBool
  | .i8 => tellRes (fun v => .int v.toInt) x.tryToI8
  | .u8 => tellRes (fun v => .nat v.toNat) x.tryToU8
  | .i16 => tellRes (fun v => .int v.toInt) x.tryToI16
  | .u16 => tellRes (fun v => .nat v.toNat) x.tryToU16
  | .i32 => tellRes (fun v => .int v.toInt) x.tryToI32
  | .u32 => tellRes (fun v => .nat v.toNat) x.tryToU32
  | .i64 => tellRes (fun v => .int v.toInt) x.tryToI64
  | .u64 => tellRes (fun v => .nat v.toNat) x.tryToU64
  | .i128 => tellRes (fun v => .int v.toInt) x.tryToI128
  | .u128 => tellRes (fun v => .nat v.toNat) x.tryToU128

/-- Queries of one integer. `/repo/src/apint/utils.rs:86-427`, `/repo/src/apint/bitwise.rs:96-302`,
`/repo/src/apint/to_primitive.rs:148-573`, `/repo/src/apint/serialization.rs:30-98`. -/
def Ask.exec : Ask → ApInt → Run (Res Out)
  | .width, x => pure (.ok (.nat x.width.toUsize))
  | .isZero, x => tell .bool x.isZero
  | .isAllUnset, x => tell .bool x.isAllUnset
  | .isEven, x => tell .bool x.isEven
  | .isOdd, x => tell .bool x.isOdd
  | .msb, x => tell .bool x.msb
  | .lsb, x => tell .bool x.lsb
  | .bit p, x => tellRes .bool (x.getBitAt p)
  | .countOnes, x => tell .nat x.countOnes
  | .countZeros, x => tell .nat x.countZeros
  | .leadingZeros, x => tell .nat x.leadingZeros
  | .trailingZeros, x => tell .nat x.trailingZeros
  | .resize ty, x => resizeTo x ty
  | .tryTo ty, x => Verif.tryTo x ty
  | .binary, x => tell .text x.fmtBinary
  | .lowerHex, x => tell .text x.fmtLowerHex
  | .upperHex, x => tell .text x.fmtUpperHex
  | .octal, x => tell .text x.fmtOctal

/-- Queries of two integers, `/repo/src/apint/relational.rs`. -/
def Ask2.exec : Ask2 → ApInt → ApInt → Run (Res Out)
  | .eq, x, y => tell .bool (x.eq y)
  | .ult, x, y => tellRes .bool (x.checkedUlt y)
  | .ule, x, y => tellRes .bool (x.checkedUle y)
  | .ugt, x, y => tellRes .bool (x.checkedUgt y)
  | .uge, x, y => tellRes .bool (x.checkedUge y)
  | .slt, x, y => tellRes .bool (x.checkedSlt y)
  | .sle, x, y => tellRes .bool (x.checkedSle y)
  | .sgt, x, y => tellRes .bool (x.checkedSgt y)
  | .sge, x, y => tellRes .bool (x.checkedSge y)

/-- The live integers of a program. Client code, not in `/repo`. -/
abbrev Bank := List ApInt

/-- Bind the result of a call that makes an integer. Client code, not in `/repo`. -/
def pushRes (b : Bank) (r : Run (Res ApInt)) : Run (Res Out × Bank) := do
  match ← r with
  | .ok c => pure (.ok .unit, b ++ [c])
  | .error e => pure (.error e, b)

/-- Store the integer left behind by an in-place call, also when the call reports an error. Client
code, not in `/repo`. -/
def storeRes (b : Bank) (x : Nat) (r : Run (Res Unit × ApInt)) : Run (Res Out × Bank) := do
  let (e, c) ← r
  pure (e.map fun _ => .unit, b.set x c)

/-- One call.  A register that does not exist is not a Rust program; the machine then does
nothing and answers `unit`. The calls are those cited above; the rest is client code, not in
`/repo`. -/
def Instr.exec (i : Instr) (b : Bank) : Run (Res Out × Bank) :=
  let one (x : Nat) (k : ApInt → Run (Res Out × Bank)) : Run (Res Out × Bank) :=
    match b[x]? with
    | some a => k a
    | none => pure (.ok .unit, b)
  let two (x y : Nat) (k : ApInt → ApInt → Run (Res Out × Bank)) : Run (Res Out × Bank) :=
    match b[x]?, b[y]? with
    | some a, some c => k a c
    | _, _ => pure (.ok .unit, b)
  match i with
  | .make m => pushRes b m.exec
  | .clone x => one x fun a => pushRes b (fine a.clone)
  | .drop x => pure (.ok .unit, b.eraseIdx x)
  | .assign x y => two x y fun a c => storeRes b x (done (a.assign c))
  | .strictAssign x y => two x y fun a c => storeRes b x (a.strictAssign c)
  | .un o x => one x fun a => storeRes b x (o.exec a)
  | .intoUn o x => one x fun a => pushRes b (do let a ← a.clone; o.execInto a)
  | .alter o x => one x fun a => storeRes b x (o.exec a)
  | .bin o x y => two x y fun a c => storeRes b x (o.exec a c)
  | .intoBin o x y => two x y fun a c => pushRes b (do let a ← a.clone; o.execInto a c)
  | .opAssign o x y => two x y fun a c => storeRes b x (done (o.execAssign a c))
  | .op o x y => two x y fun a c => pushRes b (do let a ← a.clone; fine (o.exec a c))
  | .opShlAssign s x => one x fun a => storeRes b x (done (a.opShlAssign s))
  | .opShl s x => one x fun a => pushRes b (do let a ← a.clone; fine (a.opShl s))
  | .pair o x y => two x y fun a c => do
      let (e, a, c) ← o.exec a c
      pure (e.map fun _ => .unit, (b.set x a).set y c)
  | .ask q x => one x fun a => do
      let r ← q.exec a
      pure (r, b)
  | .ask2 q x y => two x y fun a c => do
      let r ← q.exec a c
      pure (r, b)

/-- A program: the answers of the calls that returned, and the bank at the end or the fault
that stopped the program. Client code, not in `/repo`. -/
def run : List Instr → Bank → List (Res Out) × Run Bank
  | [], b => ([], .ok b)
  | i :: is, b =>
    match i.exec b with
    | .ok (r, b) =>
      let (rs, e) := run is b
      (r :: rs, e)
    | .error f => ([], .error f)

end Verif
