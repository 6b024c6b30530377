import Verif.Instr

/-!
# Programs over `UInt` and `Int`: syntax

The calls a program can make on a bank of `UInt`s and `Int`s.  A register is a position in the
bank.  Only the names of the calls and their arguments are fixed here; `Model/Typed.lean` says what
the modelled code does for each of them and `SpecTyped.lean` says what should happen.

Left out: `is_one` and `is_all_set` (properties C36 and C37), `Int::try_to_*` (C33) and parsing in
a radix that is not a power of two (C41), which do not compute what their names say; their exact
behaviour is stated under those properties.
-/

namespace Verif

/-- The two types. -/
inductive Kind where
  | unsigned | signed
  deriving DecidableEq

/-- Calls that make a new integer. -/
inductive TMake where
  | zero (k : Kind) (t : BitWidth)
  /-- `UInt::one` -/
  | one (t : BitWidth)
  | allUnset (k : Kind) (t : BitWidth) | allSet (k : Kind) (t : BitWidth)
  | min (k : Kind) (t : BitWidth) | max (k : Kind) (t : BitWidth)
  | bool (k : Kind) (b : Bool)
  | u8 (v : BitVec 8) | u16 (v : BitVec 16) | u32 (v : BitVec 32) | u64 (v : BitVec 64)
  | u128 (v : BitVec 128)
  | i8 (v : BitVec 8) | i16 (v : BitVec 16) | i32 (v : BitVec 32) | i64 (v : BitVec 64)
  | i128 (v : BitVec 128)
  /-- from an array of 64-bit words, most significant first -/
  | array (k : Kind) (v : BitVec 64) (vs : List (BitVec 64))
  /-- `ApInt::from_str_radix(2 ^ (n + 1), s).map(UInt::from)`, or `Int::from` -/
  | parse (k : Kind) (n : Fin 5) (s : List Char)
  /-- a random integer, drawing from the given stream of words -/
  | random (k : Kind) (t : BitWidth) (rng : Nat → Digit)

/-- Calls that change one integer and exist both as in-place and as consuming method. -/
inductive TUn where
  | not | neg
  /-- only `Int` has it -/
  | abs
  | shl (s : Nat) | shr (s : Nat)
  | truncate (t : BitWidth) | extend (t : BitWidth) | resize (t : BitWidth)

/-- Operators of one integer: `!x`, `-x`, `x << s`, `x >> s`. -/
inductive TUnOp where
  | not | neg | shl (s : Nat) | shr (s : Nat)

/-- Assigning operators of one integer: `x <<= s`, `x >>= s`. -/
inductive TShift where
  | shl (s : Nat) | shr (s : Nat)

/-- Calls that change single bits or all bits of one integer. -/
inductive TAlter where
  | setAll | unsetAll | flipAll
  /-- only `Int` has these three -/
  | setMsb | unsetMsb | flipMsb
  | setBit (p : Nat) | unsetBit (p : Nat) | flipBit (p : Nat)
  | randomize (rng : Nat → Digit)

/-- Calls with two integers of the same type. -/
inductive TBin where
  | add | sub | mul | and | or | xor | div | rem

/-- Questions about one integer. -/
inductive TAsk where
  | width | isZero | isAllUnset | isEven | isOdd
  /-- only `Int` has these four -/
  | isNegative | isPositive | signum | msb
  | bit (p : Nat)
  | countOnes | countZeros | leadingZeros | trailingZeros
  /-- `UInt` has the unsigned targets, `Int` the signed ones, both have `bool` -/
  | resize (ty : PrimitiveTy)
  /-- only asked of `UInt` -/
  | tryTo (ty : PrimitiveTy)
  | binary | lowerHex | upperHex | octal

/-- Questions about two integers of the same type. -/
inductive TAsk2 where
  | eq | checkedLt | checkedLe | checkedGt | checkedGe
  /-- `x < y` and so on -/
  | lt | le | gt | ge
  | partialCmp

/-- One call. -/
inductive TInstr where
  /-- `let z = make();` -/
  | make (m : TMake)
  /-- `let z = Int::one(t);`, no new integer when that is `None` -/
  | intOne (t : BitWidth)
  /-- `let z = x.clone();` -/
  | clone (x : Nat)
  /-- `drop(x);` -/
  | drop (x : Nat)
  /-- `x.assign(&y);` -/
  | assign (x y : Nat)
  /-- `x.strict_assign(&y);` -/
  | strictAssign (x y : Nat)
  /-- `let x = x.into_unsigned();` -/
  | intoUnsigned (x : Nat)
  /-- `let x = x.into_signed();` -/
  | intoSigned (x : Nat)
  /-- `x.op();` -/
  | un (o : TUn) (x : Nat)
  /-- `let x = x.into_op()?;`, the integer is gone when an error is reported -/
  | intoUn (o : TUn) (x : Nat)
  /-- `let x = -x;` -/
  | opUn (o : TUnOp) (x : Nat)
  /-- `x <<= s;` -/
  | opShift (o : TShift) (x : Nat)
  /-- `x.op();` -/
  | alter (o : TAlter) (x : Nat)
  /-- `x.op_assign(&y);` -/
  | bin (o : TBin) (x y : Nat)
  /-- `let x = x.into_op(&y)?;`, the integer is gone when an error is reported -/
  | intoBin (o : TBin) (x y : Nat)
  /-- `let x = x + &y;` -/
  | op (o : TBin) (x y : Nat)
  /-- `x += &y;` -/
  | opAssign (o : TBin) (x y : Nat)
  | ask (q : TAsk) (x : Nat)
  | ask2 (q : TAsk2) (x y : Nat)

/-- What a call answers. -/
inductive TOut where
  | out (o : Out)
  | ord (o : Option Ordering)
  deriving DecidableEq

end Verif
