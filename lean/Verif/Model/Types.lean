import Verif.Model.Base

/-!
# Data types of the crate

Accessors of the wrappers around primitive types are the identity here: `repr`, `repr_mut`
(`/repo/src/digit.rs:172-174`, `:225-233`), `to_usize`, `to_u8`, `new` and `From`
(`/repo/src/bitpos.rs:18-55`, `/repo/src/bitwidth.rs:117-119`, `/repo/src/radix.rs:47-49`,
`/repo/src/apint/shift.rs:22-24`, `:61-63`, `/repo/src/errors.rs:390-392`).  `width` of the trait
`Width` (`/repo/src/width.rs:6`) is 64 and 128 for digits (`/repo/src/digit.rs:387-395`).  The
iterators over digits (`/repo/src/digit_seq.rs:15-55`) are the lists they run through.
`Error::description` (`/repo/src/errors.rs:403-405`) is the message.
-/

namespace Verif

/-- `Digit(u64)`, `/repo/src/digit.rs:27,48-49`. -/
abbrev Digit := BitVec 64

/-- `DoubleDigit(u128)`, `/repo/src/digit.rs:28,85-86`. -/
abbrev DDigit := BitVec 128

/-- `BitWidth(NonZeroUsize)`, `/repo/src/bitwidth.rs:20-21`. -/
structure BitWidth where
  toUsize : Nat
  pos : 0 < toUsize
  deriving DecidableEq

/-- `union ApIntData`, `/repo/src/apint/mod.rs:33-38`.  The model records which variant was
written last, and for the heap variant the digits of the buffer instead of its address. -/
inductive Data where
  | inl (d : Digit)
  | ext (ds : List Digit)
  deriving DecidableEq

/-- `struct ApInt`, `/repo/src/apint/mod.rs:26-31`. -/
structure ApInt where
  len : BitWidth
  data : Data
  deriving DecidableEq

/-- `enum DivOp`, `/repo/src/errors.rs:101-118`. -/
inductive DivOp where
  | unsignedDivRem
  | unsignedRemDiv
  | signedDivRem
  | signedRemDiv
  | unsignedDiv
  | unsignedRem
  | signedDiv
  | signedRem
  deriving DecidableEq

/-- `enum PrimitiveTy`, `/repo/src/apint/to_primitive.rs:8-31`. -/
inductive PrimitiveTy where
  | bool | i8 | u8 | i16 | u16 | i32 | u32 | i64 | u64 | i128 | u128
  deriving DecidableEq

/-- `Radix(u8)`, `/repo/src/radix.rs:21-22`. -/
structure Radix where
  toU8 : Nat
  deriving DecidableEq

/-- `enum ErrorKind`, `/repo/src/errors.rs:17-97`.  The human readable `message` and
`annotation` strings of `struct Error` (`errors.rs:125-130`) are in `Model/Errors.lean`. Strings
are lists of characters. -/
inductive Err where
  | invalidRadix (r : Nat)
  | invalidStringRepr (input : List Char) (radix : Radix) (posChar : Option (Nat × Char))
  | invalidBitAccess (pos : Nat) (width : BitWidth)
  | invalidShiftAmount (shiftAmount : Nat) (width : BitWidth)
  | valueUnrepresentable (value : ApInt) (destinationTy : PrimitiveTy)
  | unmatchingBitwidth (lhs rhs : BitWidth)
  | invalidBitWidth (w : Nat)
  | truncationBitWidthTooLarge (target current : BitWidth)
  | extensionBitWidthTooSmall (target current : BitWidth)
  | divisionByZero (op : DivOp) (lhs : ApInt)
  | expectedNonEmptyDigits
  deriving DecidableEq

/-- `Result<T>` of the crate, `/repo/src/errors.rs` (`pub type Result<T>`). -/
abbrev Res (α : Type) := Except Err α

/-- `Result::unwrap` / `Result::expect`: panics on `Err`. As in
`/repo/src/apint/constructors.rs:170-200`. -/
def expect {α : Type} : Res α → Run α
  | .ok a => .ok a
  | .error _ => .error .panic

@[simp] theorem expect_ok {α : Type} (a : α) : expect (.ok a : Res α) = .ok a := rfl
@[simp] theorem expect_error {α : Type} (e : Err) : expect (.error e : Res α) = .error .panic :=
  rfl

end Verif
