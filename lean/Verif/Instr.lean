import Verif.Model.Types

/-!
# Programs over the API: syntax

The calls a program can make on a bank of integers.  A register is a position in the bank.
Only the names of the calls and their arguments are fixed here; `Model/Program.lean` says what
the modelled code does for each of them and `SpecProgram.lean` says what should happen.

Left out: `is_one` and `is_all_set`, which do not compute what their names say for every width
(properties C36 and C37), and parsing in a radix that is not a power of two (C41).
-/

namespace Verif

/-- Calls that make a new integer. -/
inductive Make where
  | zero (t : BitWidth) | one (t : BitWidth)
  | allUnset (t : BitWidth) | allSet (t : BitWidth)
  | unsignedMin (t : BitWidth) | unsignedMax (t : BitWidth)
  | signedMin (t : BitWidth) | signedMax (t : BitWidth)
  | bool (b : Bool)
  | u8 (v : BitVec 8) | i8 (v : BitVec 8) | u16 (v : BitVec 16) | i16 (v : BitVec 16)
  | u32 (v : BitVec 32) | i32 (v : BitVec 32) | u64 (v : BitVec 64) | i64 (v : BitVec 64)
  | u128 (v : BitVec 128) | i128 (v : BitVec 128)
  /-- from an array of 64-bit words, most significant first -/
  | array (v : BitVec 64) (vs : List (BitVec 64))
  /-- from digits, least significant first -/
  | digits (ds : List Digit)
  /-- from text in the radix `2 ^ (k + 1)` -/
  | parse (k : Fin 5) (s : List Char)
  /-- a random integer, drawing from the given stream of words -/
  | random (t : BitWidth) (rng : Nat → Digit)

/-- Calls that change one integer and exist both as in-place and as consuming method. -/
inductive Un where
  | bitnot | neg | inc | dec
  | shl (s : Nat) | lshr (s : Nat) | ashr (s : Nat)
  | truncate (t : BitWidth) | zeroExtend (t : BitWidth) | signExtend (t : BitWidth)
  | zeroResize (t : BitWidth) | signResize (t : BitWidth)

/-- Calls that change single bits or all bits of one integer. -/
inductive Alter where
  | setAll | unsetAll | flipAll
  | setMsb | unsetMsb | flipMsb
  | setBit (p : Nat) | unsetBit (p : Nat) | flipBit (p : Nat)
  | randomize (rng : Nat → Digit)

/-- Calls that change one integer by another one, in place or consuming. -/
inductive Bin where
  | add | sub | mul | and | or | xor | udiv | urem | sdiv | srem

/-- Operators (`+`, `+=`, …), which panic when the call behind them reports an error. -/
inductive Op where
  | add | sub | mul | and | or | xor

/-- Divisions that change both integers. -/
inductive Pair where
  | udivrem | uremdiv | sdivrem | sremdiv

/-- Questions about one integer. -/
inductive Ask where
  | width | isZero | isAllUnset | isEven | isOdd | msb | lsb
  | bit (p : Nat)
  | countOnes | countZeros | leadingZeros | trailingZeros
  | resize (ty : PrimitiveTy) | tryTo (ty : PrimitiveTy)
  | binary | lowerHex | upperHex | octal

/-- Questions about two integers. -/
inductive Ask2 where
  | eq | ult | ule | ugt | uge | slt | sle | sgt | sge

/-- One call. -/
inductive Instr where
  /-- `let z = make();` -/
  | make (m : Make)
  /-- `let z = x.clone();` -/
  | clone (x : Nat)
  /-- `drop(x);` -/
  | drop (x : Nat)
  /-- `x.assign(&y);` -/
  | assign (x y : Nat)
  /-- `x.strict_assign(&y);` -/
  | strictAssign (x y : Nat)
  /-- `x.op();` -/
  | un (o : Un) (x : Nat)
  /-- `let z = x.clone().into_op();`, no new integer when an error is reported -/
  | intoUn (o : Un) (x : Nat)
  /-- `x.op();` -/
  | alter (o : Alter) (x : Nat)
  /-- `x.op_assign(&y);` -/
  | bin (o : Bin) (x y : Nat)
  /-- `let z = x.clone().into_op(&y);`, no new integer when an error is reported -/
  | intoBin (o : Bin) (x y : Nat)
  /-- `x += &y;` -/
  | opAssign (o : Op) (x y : Nat)
  /-- `let z = &x + &y;` -/
  | op (o : Op) (x y : Nat)
  /-- `x <<= s;` -/
  | opShlAssign (s x : Nat)
  /-- `let z = x.clone() << s;` -/
  | opShl (s x : Nat)
  /-- `ApInt::wrapping_udivrem_assign(&mut x, &mut y);` with two different integers -/
  | pair (o : Pair) (x y : Nat)
  | ask (q : Ask) (x : Nat)
  | ask2 (q : Ask2) (x y : Nat)

/-- What a call answers. -/
inductive Out where
  | unit
  | bool (b : Bool)
  | nat (n : Nat)
  | int (z : Int)
  | text (s : List Char)
  deriving DecidableEq

end Verif
