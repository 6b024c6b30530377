import Verif.Model.Trace
import Verif.Model.ToPrim

/-!
# What an observer sees of the conversions to primitive types

`try_to_*` looks at the least significant digit or the two least significant digits and then walks
through the others until it meets one that is not zero.  `resize_to_*` looks at fixed digits.  Sign
extension and truncation of a digit have no branch on its bits
(`/repo/src/digit.rs`, `sign_extend_from`, `truncate_to`).
-/

namespace Verif

namespace Trace

open ApInt Watched

/-- The branches of `is_valid_repr`, `/repo/src/apint/to_primitive.rs:43-52`, and of the `!` before its
call, `:312`.  `||` of `bool` looks at its right side only if the left one is false.  For all other
types there is one test. -/
def validSeen (ty : PrimitiveTy) (v : Nat) : List Sight :=
  match ty with
  | .bool => .test (v == 0) :: if v == 0 then [] else [.test (v == 1)]
  | _ => [.test (ty.isValidRepr v)]

/-- The refusal: clone the integer into the error. `/repo/src/apint/to_primitive.rs:315-319,520-524,565-569`. -/
def refuse {α : Type} (self : ApInt) (ty : PrimitiveTy) : Watched (Res α) := do
  let c ← clone self
  .ok (.error (.valueUnrepresentable c ty))

/-- `rest.iter().any(|d| d.repr() != 0)` from digit `i` and the branch on it,
`/repo/src/apint/to_primitive.rs:313,519,564`.  `any` stops at the first digit that is not zero,
as `all` of `is_zero` does, so its loop is that of `is_zero` from digit `i`. -/
def restZero {α : Type} (i : Nat) (rest : List Digit) (good bad : Watched α) : Watched α := do
  let z ← zeroLoop i rest
  if z then good else bad

/-- The sign extension, `/repo/src/apint/to_primitive.rs:321-338`.  It branches on widths only. -/
def castTail (self : ApInt) (primTy : PrimitiveTy) (lsd : Digit) : Run (Res Digit) :=
  if primTy.isSigned then
    let actualWidth := self.width
    let targetWidth := primTy.associatedWidth
    if actualWidth.toUsize < targetWidth.toUsize then do
      let (r, lsd) ← Digit.signExtendFrom lsd actualWidth
      let () ← expect r
      if targetWidth.toUsize < BitWidth.w64.toUsize then do
        let (r, lsd) ← Digit.truncateTo lsd targetWidth
        let () ← expect r
        .ok (.ok lsd)
      else .ok (.ok lsd)
    else .ok (.ok lsd)
  else .ok (.ok lsd)

/-- `||` of the refusal: the other digits are looked at only if the first one fits,
`/repo/src/apint/to_primitive.rs:312-338`. -/
def castRest (self : ApInt) (ty : PrimitiveTy) (lsd : Digit) (rest : List Digit) (valid : Bool) :
    Watched (Res Digit) :=
  if valid then restZero 1 rest (castTail self ty lsd : Run (Res Digit)) (refuse self ty)
  else refuse self ty

/-- `try_cast_to_primitive_ty`, `/repo/src/apint/to_primitive.rs:308-339`. -/
def tryCastToPrimitiveTy (self : ApInt) (primTy : PrimitiveTy) : Watched (Res Digit) :=
  if primTy = .u128 ∨ primTy = .i128 then (Except.error .overflow : Run (Res Digit))
  else do
    let (lsd, rest) ← self.splitLeastSignificantDigit
    let () ← note (.read .self 0 :: validSeen primTy lsd.toNat)
    castRest self primTy lsd rest (primTy.isValidRepr lsd.toNat)

/-- The `match` of `try_to_bool`, `/repo/src/apint/to_primitive.rs:354-358`. -/
def boolTail : Res Digit → Watched (Res Bool)
  | .error e => .ok (.error e)
  | .ok d => do
    let () ← note (.test (d == 0#64) :: if d == 0#64 then [] else [.test (d == 1#64)])
    if d = 0#64 then .ok (.ok false) else if d = 1#64 then .ok (.ok true)
    else (Except.error .panic : Run (Res Bool))

/-- `try_to_bool`, `/repo/src/apint/to_primitive.rs:353-359`. -/
def tryToBool (self : ApInt) : Watched (Res Bool) := do
  let r ← tryCastToPrimitiveTy self .bool
  boolTail r

/-- `try_to_i8` to `try_to_u64`, `/repo/src/apint/to_primitive.rs:375-499`: the cast and a `map`
without branches on the digit. -/
def tryToBits (self : ApInt) (ty : PrimitiveTy) (n : Nat) : Watched (Res (BitVec n)) := do
  let r ← tryCastToPrimitiveTy self ty
  pure (mapAs n r)

/-- The reads of the two least significant digits, `/repo/src/apint/to_primitive.rs:516-517,561-562`.
`split_first` branches on the length. -/
def lowReads : List Digit → List Sight
  | [] => [.read .self 0]
  | _ :: _ => [.read .self 0, .read .self 1]

/-- The end of `try_to_i128`, `/repo/src/apint/to_primitive.rs:526-542`. -/
def i128Tail (self : ApInt) (lsd0 lsd1 : Digit) : Run (Res (BitVec 128)) := do
  let hi ← rawShl (lsd1.setWidth 128) 64
  let result ← caddI128 hi (lsd0.setWidth 128)
  let actualWidth := self.width
  let targetWidth := BitWidth.w128
  if actualWidth.toUsize < targetWidth.toUsize then do
    let b := actualWidth.toUsize
    let n ← csub b 1
    let m ← rawShl (1#128) n
    .ok (.ok ((result ^^^ m) - m))
  else .ok (.ok result)

/-- `try_to_i128`, `/repo/src/apint/to_primitive.rs:515-543`. -/
def tryToI128 (self : ApInt) : Watched (Res (BitVec 128)) := do
  let (lsd0, rest) ← self.splitLeastSignificantDigit
  let () ← note (lowReads rest)
  restZero 2 (splitFirstOr rest).2 (i128Tail self lsd0 (splitFirstOr rest).1 : Run (Res (BitVec 128)))
    (refuse self .i128)

/-- The end of `try_to_u128`, `/repo/src/apint/to_primitive.rs:570-572`. -/
def u128Tail (lsd0 lsd1 : Digit) : Run (Res (BitVec 128)) := do
  let hi ← rawShl (lsd1.setWidth 128) 64
  let result ← caddU128 hi (lsd0.setWidth 128)
  .ok (.ok result)

/-- `try_to_u128`, `/repo/src/apint/to_primitive.rs:560-573`. -/
def tryToU128 (self : ApInt) : Watched (Res (BitVec 128)) := do
  let (lsd0, rest) ← self.splitLeastSignificantDigit
  let () ← note (lowReads rest)
  restZero 2 (splitFirstOr rest).2 (u128Tail lsd0 (splitFirstOr rest).1 : Run (Res (BitVec 128)))
    (refuse self .u128)

/-- `resize_to_i8` to `resize_to_u64`, `/repo/src/apint/to_primitive.rs:117-137,161-242`: the least
significant digit is read; all branches are on widths.  `r` is the conversion. -/
def resizeLow {α : Type} (r : Run α) : Watched α := show' [.read .self 0] r

/-- `resize_to_i128`, `resize_to_u128`, `/repo/src/apint/to_primitive.rs:253-288`: the two least
significant digits are read.  `r` is the conversion. -/
def resizeWide {α : Type} (self : ApInt) (r : Run α) : Watched α := do
  let (_, rest) ← self.splitLeastSignificantDigit
  let () ← note (lowReads rest)
  r

/-- As `resizeTo` of `Model/Program.lean`. `/repo/src/apint/to_primitive.rs:148-288`. -/
def resizeTo (x : ApInt) : PrimitiveTy → Watched (Res Out)
  | .bool => tell .bool (lsb x)
  | .i8 => tell (fun v => .int v.toInt) (resizeLow x.resizeToI8)
  | .u8 => tell (fun v => .nat v.toNat) (resizeLow x.resizeToU8)
  | .i16 => tell (fun v => .int v.toInt) (resizeLow x.resizeToI16)
  | .u16 => tell (fun v => .nat v.toNat) (resizeLow x.resizeToU16)
  | .i32 => tell (fun v => .int v.toInt) (resizeLow x.resizeToI32)
  | .u32 => tell (fun v => .nat v.toNat) (resizeLow x.resizeToU32)
  | .i64 => tell (fun v => .int v.toInt) (resizeLow x.resizeToI64)
  | .u64 => tell (fun v => .nat v.toNat) (resizeLow x.resizeToU64)
  | .i128 => tell (fun v => .int v.toInt) (resizeWide x x.resizeToI128)
  | .u128 => tell (fun v => .nat v.toNat) (resizeWide x x.resizeToU128)

/-- As `tryTo` of `Model/Program.lean`. `/repo/src/apint/to_primitive.rs:353-573`. -/
def tryTo (x : ApInt) : PrimitiveTy → Watched (Res Out)
  | .bool => tellRes .bool (tryToBool x)
  | .i8 => tellRes (fun v => .int v.toInt) (tryToBits x .i8 8)
  | .u8 => tellRes (fun v => .nat v.toNat) (tryToBits x .u8 8)
  | .i16 => tellRes (fun v => .int v.toInt) (tryToBits x .i16 16)
  | .u16 => tellRes (fun v => .nat v.toNat) (tryToBits x .u16 16)
  | .i32 => tellRes (fun v => .int v.toInt) (tryToBits x .i32 32)
  | .u32 => tellRes (fun v => .nat v.toNat) (tryToBits x .u32 32)
  | .i64 => tellRes (fun v => .int v.toInt) (tryToBits x .i64 64)
  | .u64 => tellRes (fun v => .nat v.toNat) (tryToBits x .u64 64)
  | .i128 => tellRes (fun v => .int v.toInt) (tryToI128 x)
  | .u128 => tellRes (fun v => .nat v.toNat) (tryToU128 x)

end Trace

end Verif
