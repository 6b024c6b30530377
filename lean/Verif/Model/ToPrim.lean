import Verif.Model.Relational

/-!
# Conversion to primitive integers (`/repo/src/apint/to_primitive.rs`)

A value of a primitive type `uN` or `iN` is a `BitVec N`; the casts `as iN` / `as uN` between
integer types of one size keep the bits, those to a smaller size drop the high bits.
-/

namespace Verif

namespace PrimitiveTy

/-- `PrimitiveTy::is_valid_repr`, `/repo/src/apint/to_primitive.rs:43-52`. -/
def isValidRepr (self : PrimitiveTy) (value : Nat) : Bool :=
  match self with
  | .bool => value == 0 || value == 1
  | .i8 | .u8 => value < 2 ^ 8
  | .i16 | .u16 => value < 2 ^ 16
  | .i32 | .u32 => value < 2 ^ 32
  | .i64 | .u64 | .i128 | .u128 => true

/-- `PrimitiveTy::is_signed`, `/repo/src/apint/to_primitive.rs:82-85`. -/
def isSigned : PrimitiveTy → Bool
  | .i8 | .i16 | .i32 | .i64 | .i128 => true
  | _ => false

/-- `PrimitiveTy::associated_width`, `/repo/src/apint/to_primitive.rs:94-104`. -/
def associatedWidth : PrimitiveTy → BitWidth
  | .bool => BitWidth.w1
  | .i8 | .u8 => BitWidth.w8
  | .i16 | .u16 => BitWidth.w16
  | .i32 | .u32 => BitWidth.w32
  | .i64 | .u64 => BitWidth.w64
  | .i128 | .u128 => BitWidth.w128

end PrimitiveTy

/-- Checked `+` on `i128`: overflow is a fault. As in `/repo/src/apint/to_primitive.rs:253-275`. -/
def caddI128 (a b : BitVec 128) : Run (BitVec 128) :=
  if -2 ^ 127 ≤ a.toInt + b.toInt ∧ a.toInt + b.toInt < 2 ^ 127 then .ok (a + b) else .error .overflow

/-- Checked `-` on `i128`: overflow is a fault. As in `/repo/src/apint/to_primitive.rs:253-275`. -/
def csubI128 (a b : BitVec 128) : Run (BitVec 128) :=
  if -2 ^ 127 ≤ a.toInt - b.toInt ∧ a.toInt - b.toInt < 2 ^ 127 then .ok (a - b) else .error .overflow

/-- Checked `+` on `u128`: overflow is a fault. As in `/repo/src/apint/to_primitive.rs:282-289`. -/
def caddU128 (a b : BitVec 128) : Run (BitVec 128) :=
  if a.toNat + b.toNat < 2 ^ 128 then .ok (a + b) else .error .overflow

namespace ApInt

/-! ## Resizing conversions -/

/-- `resize_to_primitive_ty`, `/repo/src/apint/to_primitive.rs:117-137`. -/
def resizeToPrimitiveTy (self : ApInt) (primTy : PrimitiveTy) : Run Digit :=
  if primTy = .u128 ∨ primTy = .i128 then .error .overflow
  else do
    let lsd ← self.leastSignificantDigit
    let actualWidth := self.width
    let targetWidth := primTy.associatedWidth
    let lsd ←
      if primTy.isSigned && actualWidth.toUsize < targetWidth.toUsize then do
        let (r, lsd) ← Digit.signExtendFrom lsd actualWidth
        let () ← expect r
        .ok lsd
      else .ok lsd
    if targetWidth.toUsize < BitWidth.w64.toUsize then do
      let (r, lsd) ← Digit.truncateTo lsd targetWidth
      let () ← expect r
      .ok lsd
    else .ok lsd

/-- `resize_to_bool`, `/repo/src/apint/to_primitive.rs:148-150`. -/
def resizeToBool (self : ApInt) : Run Bool := self.lsb

/-- `resize_to_i8`, `/repo/src/apint/to_primitive.rs:161-163`. -/
def resizeToI8 (self : ApInt) : Run (BitVec 8) := do
  let d ← self.resizeToPrimitiveTy .i8
  pure (d.setWidth 8)

/-- `resize_to_u8`, `/repo/src/apint/to_primitive.rs:171-173`. -/
def resizeToU8 (self : ApInt) : Run (BitVec 8) := do
  let d ← self.resizeToPrimitiveTy .u8
  pure (d.setWidth 8)

/-- `resize_to_i16`, `/repo/src/apint/to_primitive.rs:184-186`. -/
def resizeToI16 (self : ApInt) : Run (BitVec 16) := do
  let d ← self.resizeToPrimitiveTy .i16
  pure (d.setWidth 16)

/-- `resize_to_u16`, `/repo/src/apint/to_primitive.rs:194-196`. -/
def resizeToU16 (self : ApInt) : Run (BitVec 16) := do
  let d ← self.resizeToPrimitiveTy .u16
  pure (d.setWidth 16)

/-- `resize_to_i32`, `/repo/src/apint/to_primitive.rs:207-209`. -/
def resizeToI32 (self : ApInt) : Run (BitVec 32) := do
  let d ← self.resizeToPrimitiveTy .i32
  pure (d.setWidth 32)

/-- `resize_to_u32`, `/repo/src/apint/to_primitive.rs:217-219`. -/
def resizeToU32 (self : ApInt) : Run (BitVec 32) := do
  let d ← self.resizeToPrimitiveTy .u32
  pure (d.setWidth 32)

/-- `resize_to_i64`, `/repo/src/apint/to_primitive.rs:230-232`. -/
def resizeToI64 (self : ApInt) : Run (BitVec 64) := self.resizeToPrimitiveTy .i64

/-- `resize_to_u64`, `/repo/src/apint/to_primitive.rs:240-242`. -/
def resizeToU64 (self : ApInt) : Run (BitVec 64) := self.resizeToPrimitiveTy .u64

/-- `rest.split_first().unwrap_or((&Digit(0), &[]))`,
`/repo/src/apint/to_primitive.rs:255,284,517,562`. -/
def splitFirstOr : List Digit → Digit × List Digit
  | [] => (0#64, [])
  | d :: rest => (d, rest)

/-- `resize_to_i128`, `/repo/src/apint/to_primitive.rs:253-274`. -/
def resizeToI128 (self : ApInt) : Run (BitVec 128) := do
  let (lsd0, rest) ← self.splitLeastSignificantDigit
  let (lsd1, _) := splitFirstOr rest
  let hi ← rawShl (lsd1.setWidth 128) 64
  let result ← caddI128 hi (lsd0.setWidth 128)
  let actualWidth := self.width
  let targetWidth := BitWidth.w128
  if actualWidth.toUsize < targetWidth.toUsize then do
    let b := actualWidth.toUsize
    let n ← csub b 1
    let m ← rawShl (1#128) n
    csubI128 (result ^^^ m) m
  else .ok result

/-- `resize_to_u128`, `/repo/src/apint/to_primitive.rs:282-288`. -/
def resizeToU128 (self : ApInt) : Run (BitVec 128) := do
  let (lsd0, rest) ← self.splitLeastSignificantDigit
  let (lsd1, _) := splitFirstOr rest
  let hi ← rawShl (lsd1.setWidth 128) 64
  caddU128 hi (lsd0.setWidth 128)

/-! ## Checked conversions -/

/-- `try_cast_to_primitive_ty`, `/repo/src/apint/to_primitive.rs:308-339`. -/
def tryCastToPrimitiveTy (self : ApInt) (primTy : PrimitiveTy) : Run (Res Digit) :=
  if primTy = .u128 ∨ primTy = .i128 then .error .overflow
  else do
    let (lsd, rest) ← self.splitLeastSignificantDigit
    if !primTy.isValidRepr lsd.toNat || rest.any fun d => d != 0#64 then do
      let c ← self.clone
      .ok (.error (.valueUnrepresentable c primTy))
    else if primTy.isSigned then
      let actualWidth := self.width
      let targetWidth := primTy.associatedWidth
      if actualWidth.toUsize < targetWidth.toUsize then do
        let (r, lsd) ← Digit.signExtendFrom lsd actualWidth
        let () ← expect r
        if targetWidth.toUsize < BitWidth.w64.toUsize then do
          let (r, lsd) ← Digit.truncateTo lsd targetWidth
          let () ← expect r
          .ok (.ok lsd)
        else .ok (.ok lsd)
      else .ok (.ok lsd)
    else .ok (.ok lsd)

/-- `try_to_bool`, `/repo/src/apint/to_primitive.rs:353-359`. -/
def tryToBool (self : ApInt) : Run (Res Bool) := do
  match ← self.tryCastToPrimitiveTy .bool with
  | .error e => .ok (.error e)
  | .ok d => if d = 0#64 then .ok (.ok false) else if d = 1#64 then .ok (.ok true) else .error .panic

/-- `Result::map(|d| d.repr() as T)` for a primitive type `T` of `n` bits. As in
`/repo/src/apint/to_primitive.rs:375-377`. -/
def mapAs (n : Nat) : Res Digit → Res (BitVec n)
  | .ok d => .ok (d.setWidth n)
  | .error e => .error e

/-- `try_to_i8`, `/repo/src/apint/to_primitive.rs:375-378`. -/
def tryToI8 (self : ApInt) : Run (Res (BitVec 8)) := do
  let r ← self.tryCastToPrimitiveTy .i8
  pure (mapAs 8 r)

/-- `try_to_u8`, `/repo/src/apint/to_primitive.rs:391-394`. -/
def tryToU8 (self : ApInt) : Run (Res (BitVec 8)) := do
  let r ← self.tryCastToPrimitiveTy .u8
  pure (mapAs 8 r)

/-- `try_to_i16`, `/repo/src/apint/to_primitive.rs:410-413`. -/
def tryToI16 (self : ApInt) : Run (Res (BitVec 16)) := do
  let r ← self.tryCastToPrimitiveTy .i16
  pure (mapAs 16 r)

/-- `try_to_u16`, `/repo/src/apint/to_primitive.rs:426-429`. -/
def tryToU16 (self : ApInt) : Run (Res (BitVec 16)) := do
  let r ← self.tryCastToPrimitiveTy .u16
  pure (mapAs 16 r)

/-- `try_to_i32`, `/repo/src/apint/to_primitive.rs:445-448`. -/
def tryToI32 (self : ApInt) : Run (Res (BitVec 32)) := do
  let r ← self.tryCastToPrimitiveTy .i32
  pure (mapAs 32 r)

/-- `try_to_u32`, `/repo/src/apint/to_primitive.rs:461-464`. -/
def tryToU32 (self : ApInt) : Run (Res (BitVec 32)) := do
  let r ← self.tryCastToPrimitiveTy .u32
  pure (mapAs 32 r)

/-- `try_to_i64`, `/repo/src/apint/to_primitive.rs:480-483`. -/
def tryToI64 (self : ApInt) : Run (Res (BitVec 64)) := do
  let r ← self.tryCastToPrimitiveTy .i64
  pure (mapAs 64 r)

/-- `try_to_u64`, `/repo/src/apint/to_primitive.rs:496-499`. -/
def tryToU64 (self : ApInt) : Run (Res (BitVec 64)) := do
  let r ← self.tryCastToPrimitiveTy .u64
  pure (mapAs 64 r)

/-- `try_to_i128`, `/repo/src/apint/to_primitive.rs:515-543`. -/
def tryToI128 (self : ApInt) : Run (Res (BitVec 128)) := do
  let (lsd0, rest) ← self.splitLeastSignificantDigit
  let (lsd1, rest) := splitFirstOr rest
  if rest.any fun d => d != 0#64 then do
    let c ← self.clone
    .ok (.error (.valueUnrepresentable c .i128))
  else do
    let hi ← rawShl (lsd1.setWidth 128) 64
    let result ← caddI128 hi (lsd0.setWidth 128)
    let actualWidth := self.width
    let targetWidth := BitWidth.w128
    if actualWidth.toUsize < targetWidth.toUsize then do
      let b := actualWidth.toUsize
      let n ← csub b 1
      let m ← rawShl (1#128) n
      .ok (.ok ((result ^^^ m) - m))
    else .ok (.ok result)

/-- `try_to_u128`, `/repo/src/apint/to_primitive.rs:560-573`. -/
def tryToU128 (self : ApInt) : Run (Res (BitVec 128)) := do
  let (lsd0, rest) ← self.splitLeastSignificantDigit
  let (lsd1, rest) := splitFirstOr rest
  if rest.any fun d => d != 0#64 then do
    let c ← self.clone
    .ok (.error (.valueUnrepresentable c .u128))
  else do
    let hi ← rawShl (lsd1.setWidth 128) 64
    let result ← caddU128 hi (lsd0.setWidth 128)
    .ok (.ok result)

end ApInt

end Verif
