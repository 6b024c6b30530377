import Verif.Model.WorkText
import Verif.Model.Trace
import Verif.Model.Program

/-!
# Counting the digits that a program touches

Every call of `Model/Program.lean`, with a count of the digits (and, for text, bytes) that it reads,
writes or allocates.  Multiplications and divisions are those of `Model/Work.lean`, parsing and
printing those of `Model/WorkText.lean`; for the calls of `Model/Trace.lean` the count is the length
of the trace.  The rest is here: constructors, random integers, comparisons, the position of the
first and last bit, and conversions to primitive types.
-/

namespace Verif

open ApInt Counted

namespace Count

/-- A traced call: what is counted is the length of the trace. Not in `/repo`. -/
def ofTrace {α : Type} (c : Watched α) : Counted α :=
  match c with
  | Except.ok (a, s) => Except.ok (a, s.length)
  | Except.error f => Except.error f

/-! ## Constructors -/

/-- `repeat_digit`, `/repo/src/apint/constructors.rs:220-243`. -/
def repeatDigit (targetWidth : BitWidth) (digit : Digit) : Counted ApInt := do
  let reqDigits := targetWidth.requiredDigits
  let r ← fromIter (List.replicate reqDigits digit)
  let a ← (expect r : Run ApInt)
  let r ← ofTrace (Trace.intoTruncate a targetWidth)
  (expect r : Run ApInt)

/-- `one`, `/repo/src/apint/constructors.rs:251-253`. -/
def one (width : BitWidth) : Counted ApInt := do
  let a ← charge 1 (fromU64 1#64)
  ofTrace (Trace.zeroResize a width)

/-- `signed_min_value`, `/repo/src/apint/constructors.rs:281-285`. -/
def signedMinValue (width : BitWidth) : Counted ApInt := do
  let result ← repeatDigit width Digit.ZERO
  ofTrace (Trace.modifyMsb result Digit.set)

/-- `signed_max_value`, `/repo/src/apint/constructors.rs:289-293`. -/
def signedMaxValue (width : BitWidth) : Counted ApInt := do
  let result ← repeatDigit width Digit.ONES
  ofTrace (Trace.modifyMsb result Digit.unset)

/-- `From<[u64; n]>`, `/repo/src/apint/constructors.rs:374-406`: the words are read and collected. -/
def fromArray (val : List (BitVec 64)) : Counted ApInt := do
  let ds ← charge val.length (.ok val.reverse)
  let r ← fromIter ds
  (expect r : Run ApInt)

/-- `from_u128`, `/repo/src/apint/constructors.rs:149-153`. -/
def fromU128 (val : BitVec 128) : Counted ApInt :=
  let hi := (val >>> 64).setWidth 64
  let lo := (val &&& ((1#128 <<< 64) - 1#128)).setWidth 64
  fromArray [hi, lo]

/-- `random_with_width_using`, `/repo/src/apint/rand_impl.rs:30-49`: a draw counts as one digit. -/
def randomWithWidthUsing (width : BitWidth) (rng : Rng) : Counted (ApInt × Rng) :=
  let requiredDigits := width.requiredDigits
  if ¬ (requiredDigits ≥ 1) then .error .panic
  else do
    let ds ← charge requiredDigits (.ok (rng.take requiredDigits))
    let r ← fromIter ds
    let a ← (expect r : Run ApInt)
    let r ← ofTrace (Trace.intoTruncate a width)
    let a ← (expect r : Run ApInt)
    .ok (a, rng.drop requiredDigits)

/-- `randomize_using`, `/repo/src/apint/rand_impl.rs:62-70`: a draw and a write for each digit. -/
def randomizeUsing (self : ApInt) (rng : Rng) : Counted (ApInt × Rng) := do
  let ds ← self.asDigitSlice
  let self ← charge (2 * ds.length) (self.writeDigitSlice (rng.take ds.length))
  let self ← ofTrace (Trace.clearUnusedBits self)
  .ok (self, rng.drop ds.length)

/-! ## Width changes -/

/-- `sign_resize`, `/repo/src/apint/casting.rs:472-490`. -/
def signResize (self : ApInt) (targetWidth : BitWidth) : Counted ApInt :=
  let actualWidth := self.width
  if targetWidth.toUsize ≤ actualWidth.toUsize then do
    let (r, self) ← ofTrace (Trace.truncate self targetWidth)
    let () ← (expect r : Run Unit)
    pure self
  else do
    let (r, self) ← ofTrace (Trace.signExtend self targetWidth)
    let () ← (expect r : Run Unit)
    pure self

/-! ## Comparisons -/

/-- `PartialEq for ApInt`, `/repo/src/apint/relational.rs:12-19`: comparing the slices reads at most
all digits of both. -/
def eq (self other : ApInt) : Counted Bool :=
  if self.lenBits ≠ other.lenBits then .ok false
  else do
    let l ← self.asDigitSlice
    let r ← other.asDigitSlice
    charge (l.length + r.length) (.ok (l == r))

/-- `checked_ult`, `/repo/src/apint/relational.rs:36-56`. -/
def checkedUlt (self rhs : ApInt) : Counted (Res Bool) := ofTrace (Trace.checkedUlt self rhs)

/-- `checked_ule`, `/repo/src/apint/relational.rs:70-78`. -/
def checkedUle (self rhs : ApInt) : Counted (Res Bool) := do
  let r ← checkedUlt rhs self
  pure (mapNot r)

/-- `checked_ugt`, `/repo/src/apint/relational.rs:92-100`. -/
def checkedUgt (self rhs : ApInt) : Counted (Res Bool) := checkedUlt rhs self

/-- `checked_uge`, `/repo/src/apint/relational.rs:114-122`. -/
def checkedUge (self rhs : ApInt) : Counted (Res Bool) := do
  let r ← checkedUlt self rhs
  pure (mapNot r)

/-- `checked_slt`, `/repo/src/apint/relational.rs:135-163`. -/
def checkedSlt (self rhs : ApInt) : Counted (Res Bool) := do
  match ← self.zipAccessData rhs with
  | .error e => .ok (.error e)
  | .ok (.inl l r) => do
    let infateAbs ← csub 64 self.width.toUsize
    let l ← charge 1 (rawShl l infateAbs)
    let r ← charge 1 (rawShl r infateAbs)
    .ok (.ok (l.toInt < r.toInt))
  | .ok (.ext _ _) => do
    let lm ← charge 1 self.msb
    let rm ← charge 1 rhs.msb
    match lm, rm with
    | false, false => checkedUlt self rhs
    | false, true => .ok (.ok false)
    | true, false => .ok (.ok true)
    | true, true => checkedUgt rhs self

/-- `checked_sle`, `/repo/src/apint/relational.rs:177-185`. -/
def checkedSle (self rhs : ApInt) : Counted (Res Bool) := do
  let r ← checkedSlt rhs self
  pure (mapNot r)

/-- `checked_sgt`, `/repo/src/apint/relational.rs:199-207`. -/
def checkedSgt (self rhs : ApInt) : Counted (Res Bool) := checkedSlt rhs self

/-- `checked_sge`, `/repo/src/apint/relational.rs:221-229`. -/
def checkedSge (self rhs : ApInt) : Counted (Res Bool) := do
  let r ← checkedSlt self rhs
  pure (mapNot r)

/-! ## Positions of bits -/

/-- The loops of `leading_zeros` and `trailing_zeros`, `/repo/src/apint/bitwise.rs:272-301`: they end
at the first digit that is not zero. -/
def zerosLoop (count : Digit → Nat) : List Digit → Nat → Counted Nat
  | [], zeros => .ok zeros
  | d :: rest, zeros => do
    let d ← charge 1 (.ok d)
    let n := count d
    let zeros := zeros + n
    if n ≠ 64 then .ok zeros else zerosLoop count rest zeros

/-- `leading_zeros`, `/repo/src/apint/bitwise.rs:272-283`. -/
def leadingZeros (self : ApInt) : Counted Nat := do
  let ds ← self.asDigitSlice
  let zeros ← zerosLoop leadingZeros64 ds.reverse 0
  let unused ← self.unusedBits
  (csub zeros unused : Run Nat)

/-- `trailing_zeros`, `/repo/src/apint/bitwise.rs:287-301`. -/
def trailingZeros (self : ApInt) : Counted Nat := do
  let ds ← self.asDigitSlice
  let zeros ← zerosLoop trailingZeros64 ds 0
  if zeros ≥ self.width.toUsize then do
    let unused ← self.unusedBits
    (csub zeros unused : Run Nat)
  else pure zeros

/-! ## Conversions to primitive types -/

/-- `resize_to_*`, `/repo/src/apint/to_primitive.rs:117-288`: the least significant digit is read, for
the types of 128 bits the two least significant digits; there are no loops. -/
def resizeTo (x : ApInt) (ty : PrimitiveTy) : Counted (Res Out) :=
  charge (if ty = .i128 ∨ ty = .u128 then 2 else 1) (Verif.resizeTo x ty)

/-- `rest.iter().any(|d| d.repr() != 0)`, `/repo/src/apint/to_primitive.rs:313`, `:518`, `:563`. -/
def anyNonzero : List Digit → Counted Bool
  | [] => .ok false
  | d :: ds => do
    let d ← charge 1 (.ok d)
    if d != 0#64 then .ok true else anyNonzero ds

/-- The condition of `/repo/src/apint/to_primitive.rs:312-313`: the digits above are looked at when the
lowest one is valid. -/
def unfit (valid : Bool) (rest : List Digit) : Counted Bool :=
  if !valid then .ok true else anyNonzero rest

/-- `try_cast_to_primitive_ty`, `/repo/src/apint/to_primitive.rs:308-339`. -/
def tryCastToPrimitiveTy (self : ApInt) (primTy : PrimitiveTy) : Counted (Res Digit) :=
  if primTy = .u128 ∨ primTy = .i128 then .error .overflow
  else do
    let (lsd, rest) ← charge 1 self.splitLeastSignificantDigit
    let bad ← unfit (primTy.isValidRepr lsd.toNat) rest
    if bad then do
      let c ← clone self
      .ok (.error (.valueUnrepresentable c primTy))
    else if primTy.isSigned then
      let actualWidth := self.width
      let targetWidth := primTy.associatedWidth
      if actualWidth.toUsize < targetWidth.toUsize then do
        let (r, lsd) ← Digit.signExtendFrom lsd actualWidth
        let () ← (expect r : Run Unit)
        if targetWidth.toUsize < BitWidth.w64.toUsize then do
          let (r, lsd) ← Digit.truncateTo lsd targetWidth
          let () ← (expect r : Run Unit)
          .ok (.ok lsd)
        else .ok (.ok lsd)
      else .ok (.ok lsd)
    else .ok (.ok lsd)

/-- `try_to_bool`, `/repo/src/apint/to_primitive.rs:353-359`. -/
def tryToBool (self : ApInt) : Counted (Res Bool) := do
  match ← tryCastToPrimitiveTy self .bool with
  | .error e => .ok (.error e)
  | .ok d => if d = 0#64 then .ok (.ok false) else if d = 1#64 then .ok (.ok true) else .error .panic

/-- `try_to_i8` and the like, `/repo/src/apint/to_primitive.rs:375-499`. -/
def tryToBits (self : ApInt) (ty : PrimitiveTy) (n : Nat) : Counted (Res (BitVec n)) := do
  let r ← tryCastToPrimitiveTy self ty
  pure (mapAs n r)

/-- `try_to_i128`, `/repo/src/apint/to_primitive.rs:515-543`. -/
def tryToI128 (self : ApInt) : Counted (Res (BitVec 128)) := do
  let (lsd0, rest) ← charge 1 self.splitLeastSignificantDigit
  let (lsd1, rest) ← charge 1 (.ok (splitFirstOr rest))
  let bad ← anyNonzero rest
  if bad then do
    let c ← clone self
    .ok (.error (.valueUnrepresentable c .i128))
  else do
    let hi ← rawShl (lsd1.setWidth 128) 64
    let result ← caddI128 hi (lsd0.setWidth 128)
    let actualWidth := self.width
    let targetWidth := BitWidth.w128
    if actualWidth.toUsize < targetWidth.toUsize then do
      let b := actualWidth.toUsize
      let n ← csub b 1
      let m ← rawShl (1#128) n
      .ok (.ok ((result ^^^ m) - m))
    else .ok (.ok result)

/-- `try_to_u128`, `/repo/src/apint/to_primitive.rs:560-573`. -/
def tryToU128 (self : ApInt) : Counted (Res (BitVec 128)) := do
  let (lsd0, rest) ← charge 1 self.splitLeastSignificantDigit
  let (lsd1, rest) ← charge 1 (.ok (splitFirstOr rest))
  let bad ← anyNonzero rest
  if bad then do
    let c ← clone self
    .ok (.error (.valueUnrepresentable c .u128))
  else do
    let hi ← rawShl (lsd1.setWidth 128) 64
    let result ← caddU128 hi (lsd0.setWidth 128)
    .ok (.ok result)

/-! ## Calls -/

/-- As `done` of `Model/Program.lean`. Not in `/repo`. -/
def done (r : Counted ApInt) : Counted (Res Unit × ApInt) := do
  let c ← r
  pure (.ok (), c)

/-- As `fine` of `Model/Program.lean`. Not in `/repo`. -/
def fine {α : Type} (r : Counted α) : Counted (Res α) := do
  let c ← r
  pure (.ok c)

/-- As `tell` of `Model/Program.lean`. Not in `/repo`. -/
def tell {α : Type} (f : α → Out) (r : Counted α) : Counted (Res Out) := do
  let v ← r
  pure (.ok (f v))

/-- As `tellRes` of `Model/Program.lean`. Not in `/repo`. -/
def tellRes {α : Type} (f : α → Out) (r : Counted (Res α)) : Counted (Res Out) := do
  match ← r with
  | .ok v => pure (.ok (f v))
  | .error e => pure (.error e)

/-- `try_forward_bin_mut_impl`, `/repo/src/utils.rs:30-37`. -/
def into (r : Counted (Res Unit × ApInt)) : Counted (Res ApInt) := do
  let (r, this) ← r
  match r with
  | .error e => .ok (.error e)
  | .ok () => .ok (.ok this)

/-- `.unwrap()` of an in-place call, as in the assigning operators of `/repo/src/std_ops.rs`. -/
def unwrapMut (r : Counted (Res Unit × ApInt)) : Counted ApInt := do
  let (r, x) ← r
  let () ← (expect r : Run Unit)
  pure x

/-- `.unwrap()`, as in the operators of `/repo/src/std_ops.rs`. -/
def unwrap (r : Counted (Res ApInt)) : Counted ApInt := do
  let r ← r
  (expect r : Run ApInt)

/-- As `Make.exec` of `Model/Program.lean`; a primitive value counts as one digit.
`/repo/src/apint/constructors.rs:90-406`, `/repo/src/apint/serialization.rs:129-196`,
`/repo/src/apint/rand_impl.rs:30-49`. -/
def make : Make → Counted (Res ApInt)
  | .zero t => fine (repeatDigit t Digit.ZERO)
  | .one t => fine (one t)
  | .allUnset t => fine (repeatDigit t Digit.ZERO)
  | .allSet t => fine (repeatDigit t Digit.ONES)
  | .unsignedMin t => fine (repeatDigit t Digit.ZERO)
  | .unsignedMax t => fine (repeatDigit t Digit.ONES)
  | .signedMin t => fine (signedMinValue t)
  | .signedMax t => fine (signedMaxValue t)
  | .bool b => fine (charge 1 (fromBool b))
  | .u8 v => fine (charge 1 (fromU8 v))
  | .i8 v => fine (charge 1 (fromI8 v))
  | .u16 v => fine (charge 1 (fromU16 v))
  | .i16 v => fine (charge 1 (fromI16 v))
  | .u32 v => fine (charge 1 (fromU32 v))
  | .i32 v => fine (charge 1 (fromI32 v))
  | .u64 v => fine (charge 1 (fromU64 v))
  | .i64 v => fine (charge 1 (fromI64 v))
  | .u128 v => fine (fromU128 v)
  | .i128 v => fine (fromU128 v)
  | .array v vs => fine (fromArray (v :: vs))
  | .digits ds => fromIter ds
  | .parse k s => fromStrRadix (2 ^ (k.val + 1)) s
  | .random t rng => fine (do let (c, _) ← randomWithWidthUsing t rng; pure c)

/-- As `Un.exec` of `Model/Program.lean`. `/repo/src/apint/arithmetic.rs:32-98`,
`/repo/src/apint/bitwise.rs:20-25`, `/repo/src/apint/shift.rs:15-300`,
`/repo/src/apint/casting.rs:137-490`. -/
def un : Un → ApInt → Counted (Res Unit × ApInt)
  | .bitnot, x => done (ofTrace (Trace.bitnot x))
  | .neg, x => done (ofTrace (Trace.wrappingNeg x))
  | .inc, x => done (ofTrace (Trace.wrappingInc x))
  | .dec, x => done (ofTrace (Trace.wrappingDec x))
  | .shl s, x => ofTrace (Trace.wrappingShlAssign x s)
  | .lshr s, x => ofTrace (Trace.wrappingLshrAssign x s)
  | .ashr s, x => ofTrace (Trace.wrappingAshrAssign x s)
  | .truncate t, x => ofTrace (Trace.truncate x t)
  | .zeroExtend t, x => ofTrace (Trace.zeroExtend x t)
  | .signExtend t, x => ofTrace (Trace.signExtend x t)
  | .zeroResize t, x => done (ofTrace (Trace.zeroResize x t))
  | .signResize t, x => done (signResize x t)

/-- As `Alter.exec` of `Model/Program.lean`. `/repo/src/apint/bitwise.rs:85-230`,
`/repo/src/apint/rand_impl.rs:50-80`. -/
def alter : Alter → ApInt → Counted (Res Unit × ApInt)
  | .setAll, x => done (ofTrace (Trace.setAll x))
  | .unsetAll, x => done (ofTrace (Trace.unsetAll x))
  | .flipAll, x => done (ofTrace (Trace.flipAll x))
  | .setMsb, x => done (ofTrace (Trace.modifyMsb x Digit.set))
  | .unsetMsb, x => done (ofTrace (Trace.modifyMsb x Digit.unset))
  | .flipMsb, x => done (ofTrace (Trace.modifyMsb x Digit.flip))
  | .setBit p, x => ofTrace (Trace.modifyBitAt x p Digit.set)
  | .unsetBit p, x => ofTrace (Trace.modifyBitAt x p Digit.unset)
  | .flipBit p, x => ofTrace (Trace.modifyBitAt x p Digit.flip)
  | .randomize rng, x => done (do let (c, _) ← randomizeUsing x rng; pure c)

/-- As `Bin.exec` of `Model/Program.lean`. `/repo/src/apint/arithmetic.rs:105-1830`,
`/repo/src/apint/bitwise.rs:42-86`. -/
def bin : Bin → ApInt → ApInt → Counted (Res Unit × ApInt)
  | .add, x, y => ofTrace (Trace.wrappingAddAssign x y)
  | .sub, x, y => ofTrace (Trace.wrappingSubAssign x y)
  | .mul, x, y => wrappingMulAssign x y
  | .and, x, y => ofTrace (Trace.bitandAssign x y)
  | .or, x, y => ofTrace (Trace.bitorAssign x y)
  | .xor, x, y => ofTrace (Trace.bitxorAssign x y)
  | .udiv, x, y => wrappingUdivAssign x y
  | .urem, x, y => wrappingUremAssign x y
  | .sdiv, x, y => wrappingSdivAssign x y
  | .srem, x, y => wrappingSremAssign x y

/-- As `Pair.exec` of `Model/Program.lean`. `/repo/src/apint/arithmetic.rs:1532-1750`. -/
def pair : Pair → ApInt → ApInt → Counted (Res Unit × ApInt × ApInt)
  | .udivrem => wrappingUdivremAssign
  | .uremdiv => wrappingUremdivAssign
  | .sdivrem => wrappingSdivremAssign
  | .sremdiv => wrappingSremdivAssign

/-- As `tryTo` of `Model/Program.lean`. `/repo/src/apint/to_primitive.rs:308-573`. -/
def tryTo (x : ApInt) : PrimitiveTy → Counted (Res Out)
  | .bool => tellRes .bool (tryToBool x)
  | .i8 => tellRes (fun v => .int v.toInt) (tryToBits x .i8 8)
  | .u8 => tellRes (fun v => .nat v.toNat) (tryToBits x .u8 8)
  | .i16 => tellRes (fun v => .int v.toInt) (tryToBits x .i16 16)
  | .u16 => tellRes (fun v => .nat v.toNat) (tryToBits x .u16 16)
  | .i32 => tellRes (fun v => .int v.toInt) (tryToBits x .i32 32)
  | .u32 => tellRes (fun v => .nat v.toNat) (tryToBits x .u32 32)
  | .i64 => tellRes (fun v => .int v.toInt) (tryToBits x .i64 64)
  | .u64 => tellRes (fun v => .nat v.toNat) (tryToBits x .u64 64)
  | .i128 => tellRes (fun v => .int v.toInt) (tryToI128 x)
  | .u128 => tellRes (fun v => .nat v.toNat) (tryToU128 x)

/-- As `Ask.exec` of `Model/Program.lean`. `/repo/src/apint/utils.rs:86-427`,
`/repo/src/apint/bitwise.rs:96-302`, `/repo/src/apint/to_primitive.rs:148-573`,
`/repo/src/apint/serialization.rs:30-98`. -/
def ask : Ask → ApInt → Counted (Res Out)
  | .width, x => pure (.ok (.nat x.width.toUsize))
  | .isZero, x => tell .bool (ofTrace (Trace.isZero x))
  | .isAllUnset, x => tell .bool (ofTrace (Trace.isZero x))
  | .isEven, x => tell .bool (ofTrace (Trace.isEven x))
  | .isOdd, x => tell .bool (ofTrace (Trace.lsb x))
  | .msb, x => tell .bool (ofTrace (Trace.msb x))
  | .lsb, x => tell .bool (ofTrace (Trace.lsb x))
  | .bit p, x => tellRes .bool (ofTrace (Trace.getBitAt x p))
  | .countOnes, x => tell .nat (ofTrace (Trace.countOnes x))
  | .countZeros, x => tell .nat (ofTrace (Trace.countZeros x))
  | .leadingZeros, x => tell .nat (leadingZeros x)
  | .trailingZeros, x => tell .nat (trailingZeros x)
  | .resize ty, x => resizeTo x ty
  | .tryTo ty, x => tryTo x ty
  | .binary, x => tell .text (fmtBinary x)
  | .lowerHex, x => tell .text (fmtLowerHex x)
  | .upperHex, x => tell .text (fmtUpperHex x)
  | .octal, x => tell .text (fmtOctal x)

/-- As `Ask2.exec` of `Model/Program.lean`. `/repo/src/apint/relational.rs:12-229`. -/
def ask2 : Ask2 → ApInt → ApInt → Counted (Res Out)
  | .eq, x, y => tell .bool (eq x y)
  | .ult, x, y => tellRes .bool (checkedUlt x y)
  | .ule, x, y => tellRes .bool (checkedUle x y)
  | .ugt, x, y => tellRes .bool (checkedUgt x y)
  | .uge, x, y => tellRes .bool (checkedUge x y)
  | .slt, x, y => tellRes .bool (checkedSlt x y)
  | .sle, x, y => tellRes .bool (checkedSle x y)
  | .sgt, x, y => tellRes .bool (checkedSgt x y)
  | .sge, x, y => tellRes .bool (checkedSge x y)

/-- As `pushRes` of `Model/Program.lean`. Client code, not in `/repo`. -/
def pushRes (b : Bank) (r : Counted (Res ApInt)) : Counted (Res Out × Bank) := do
  match ← r with
  | .ok c => pure (.ok .unit, b ++ [c])
  | .error e => pure (.error e, b)

/-- As `storeRes` of `Model/Program.lean`. Client code, not in `/repo`. -/
def storeRes (b : Bank) (x : Nat) (r : Counted (Res Unit × ApInt)) : Counted (Res Out × Bank) := do
  let (e, c) ← r
  pure (e.map fun _ => .unit, b.set x c)

/-- The method behind an operator, `/repo/src/std_ops.rs:15-230`. -/
def opBin : Op → Bin
  | .add => .add
  | .sub => .sub
  | .mul => .mul
  | .and => .and
  | .or => .or
  | .xor => .xor

/-- One call.  As `Instr.exec` of `Model/Program.lean`.  The calls are those cited above; the rest is
client code, not in `/repo`. -/
def exec (i : Instr) (b : Bank) : Counted (Res Out × Bank) :=
  let one (x : Nat) (k : ApInt → Counted (Res Out × Bank)) : Counted (Res Out × Bank) :=
    match b[x]? with
    | some a => k a
    | none => pure (.ok .unit, b)
  let two (x y : Nat) (k : ApInt → ApInt → Counted (Res Out × Bank)) : Counted (Res Out × Bank) :=
    match b[x]?, b[y]? with
    | some a, some c => k a c
    | _, _ => pure (.ok .unit, b)
  match i with
  | .make m => pushRes b (make m)
  | .clone x => one x fun a => pushRes b (fine (ofTrace (Trace.clone a)))
  | .drop x => pure (.ok .unit, b.eraseIdx x)
  | .assign x y => two x y fun a c => storeRes b x (done (ofTrace (Trace.assign a c)))
  | .strictAssign x y => two x y fun a c => storeRes b x (ofTrace (Trace.strictAssign a c))
  | .un o x => one x fun a => storeRes b x (un o a)
  | .intoUn o x => one x fun a => pushRes b (do
      let a ← ofTrace (Trace.clone a)
      into (un o a))
  | .alter o x => one x fun a => storeRes b x (alter o a)
  | .bin o x y => two x y fun a c => storeRes b x (bin o a c)
  | .intoBin o x y => two x y fun a c => pushRes b (do
      let a ← ofTrace (Trace.clone a)
      into (bin o a c))
  | .opAssign o x y => two x y fun a c => storeRes b x (done (unwrapMut (bin (opBin o) a c)))
  | .op o x y => two x y fun a c => pushRes b (do
      let a ← ofTrace (Trace.clone a)
      fine (unwrap (into (bin (opBin o) a c))))
  | .opShlAssign s x => one x fun a =>
      storeRes b x (done (unwrapMut (ofTrace (Trace.wrappingShlAssign a s))))
  | .opShl s x => one x fun a => pushRes b (do
      let a ← ofTrace (Trace.clone a)
      fine (unwrap (into (ofTrace (Trace.wrappingShlAssign a s)))))
  | .pair o x y => two x y fun a c => do
      let (e, a, c) ← pair o a c
      pure (e.map fun _ => .unit, (b.set x a).set y c)
  | .ask q x => one x fun a => do
      let r ← ask q a
      pure (r, b)
  | .ask2 q x y => two x y fun a c => do
      let r ← ask2 q a c
      pure (r, b)

/-- A program: the answers, the bank at the end or the fault that stopped it, and the number of digits
and bytes touched by the calls that returned. Client code, not in `/repo`. -/
def run : List Instr → Bank → List (Res Out) × Run Bank × Nat
  | [], b => ([], .ok b, 0)
  | i :: is, b =>
    match exec i b with
    | Except.ok ((r, b), n) =>
      let (rs, e, m) := run is b
      (r :: rs, e, n + m)
    | Except.error f => ([], .error f, 0)

end Count

end Verif
