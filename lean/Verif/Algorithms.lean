import Verif.Model.StdOps

/-!
# Textbook algorithms in client code

Functions that a user of the library writes with `UInt` and `Int`.  They use only what the library
exports: constructors, operators, comparisons, casts and single bits.  None of them is in `/repo`;
the calls they make are modelled in `Model/UInt.lean`, `Model/SInt.lean` and `Model/StdOps.lean`.
A `while` loop gets a number of rounds and stops with the fault `diverge` when it runs out of them.
-/

namespace Verif.Algo

/-- `while !y.is_zero() { x %= &y; swap(&mut x, &mut y) }`.  Client code, not in `/repo`. -/
def gcd : Nat → UInt → UInt → Run UInt
  | 0, _, _ => .error .diverge
  | n + 1, x, y => do
    if ← y.isZero then pure x
    else
      let r ← x.opRemAssign y
      gcd n y r

/-- `while e > 0 { if e % 2 == 1 { r *= &x } x *= &x.clone(); e /= 2 }`.  Client code, not in
`/repo`. -/
def powLoop : Nat → UInt → UInt → Nat → Run UInt
  | 0, _, _, _ => .error .diverge
  | n + 1, r, x, e => do
    if e = 0 then pure r
    else
      let r ← if e % 2 = 1 then r.opMulAssign x else pure r
      let x ← x.opMulAssign x
      powLoop n r x (e / 2)

/-- Powers by repeated squaring.  Client code, not in `/repo`. -/
def pow (n : Nat) (x : UInt) (e : Nat) : Run UInt := do
  powLoop n (← UInt.one x.width) x e

/-- `x * y % m` computed with width `t`.  Client code, not in `/repo`. -/
def mulMod (t : BitWidth) (x y m : UInt) : Run UInt := do
  let x' ← unwrapRes (x.intoExtend t)
  let y' ← unwrapRes (y.intoExtend t)
  let m' ← unwrapRes (m.intoExtend t)
  let p ← x'.opMul y'
  let r ← p.opRem m'
  unwrapRes (r.intoTruncate m.width)

/-- The loop of `powLoop` with `mulMod` for the products.  Client code, not in `/repo`. -/
def powModLoop (t : BitWidth) (m : UInt) : Nat → UInt → UInt → Nat → Run UInt
  | 0, _, _, _ => .error .diverge
  | n + 1, r, x, e => do
    if e = 0 then pure r
    else
      let r ← if e % 2 = 1 then mulMod t r x m else pure r
      let x ← mulMod t x x m
      powModLoop t m n r x (e / 2)

/-- `x ^ e % m`.  Client code, not in `/repo`. -/
def powMod (t : BitWidth) (n : Nat) (x : UInt) (e : Nat) (m : UInt) : Run UInt := do
  let one ← UInt.one m.width
  powModLoop t m n (← one.opRem m) x e

/-- Push the last decimal digit of `x` and go on with `x / 10`.  Client code, not in `/repo`. -/
def decimalLoop (ten : UInt) : Nat → UInt → List Char → Run (List Char)
  | 0, _, _ => .error .diverge
  | n + 1, x, s => do
    let d ← x.opRem ten
    let c ← d.resizeToU8
    let q ← x.opDiv ten
    let s := Char.ofNat (48 + c.toNat) :: s
    if ← q.isZero then pure s else decimalLoop ten n q s

/-- The decimal text of an unsigned integer, computed with width `t`.  Client code, not in `/repo`. -/
def decimal (t : BitWidth) (n : Nat) (x : UInt) : Run (List Char) := do
  let ten ← (← UInt.fromU8 10#8).intoResize t
  decimalLoop ten n (← unwrapRes (x.intoExtend t)) []

/-- The decimal text of a signed integer: the sign, then the magnitude as an unsigned integer.
Client code, not in `/repo`. -/
def signedDecimal (t : BitWidth) (n : Nat) (x : SInt) : Run (List Char) := do
  if ← x.isNegative then
    let s ← decimal t n (← x.intoAbs).intoUnsigned
    pure ('-' :: s)
  else decimal t n x.intoUnsigned

/-- `x = x * 10 + digit` for the characters from left to right.  Client code, not in `/repo`. -/
def parseLoop (ten : UInt) : List Char → UInt → Run UInt
  | [], x => pure x
  | c :: cs, x => do
    let d ← (← UInt.fromU8 (BitVec.ofNat 8 (c.toNat - 48))).intoResize ten.width
    let x ← x.opMulAssign ten
    let x ← x.opAddAssign d
    parseLoop ten cs x

/-- The number of width `t` with the given decimal digits.  Client code, not in `/repo`. -/
def parseDecimal (t : BitWidth) (s : List Char) : Run UInt := do
  let ten ← (← UInt.fromU8 10#8).intoResize t
  parseLoop ten s (← UInt.zero t)

/-- Decide the bits of the root from position `p - 1` downwards.  Client code, not in `/repo`. -/
def sqrtLoop (x : UInt) : Nat → UInt → Run UInt
  | 0, r => pure r
  | p + 1, r => do
    let c ← unwrapMut (r.setBitAt p)
    let q ← x.opDiv c
    if ← c.le q then sqrtLoop x p c else sqrtLoop x p r

/-- The integer square root.  Client code, not in `/repo`. -/
def sqrt (x : UInt) : Run UInt := do
  sqrtLoop x ((x.width.toUsize + 1) / 2) (← UInt.zero x.width)

/-- `n` rounds of `x *= 2 - a * x`.  Client code, not in `/repo`. -/
def inverseLoop (a two : UInt) : Nat → UInt → Run UInt
  | 0, x => pure x
  | n + 1, x => do
    let p ← a.opMul x
    let d ← two.opSub p
    let x ← x.opMulAssign d
    inverseLoop a two n x

/-- The inverse of an odd number modulo `2 ^ w`.  Client code, not in `/repo`. -/
def inverse (n : Nat) (a : UInt) : Run UInt := do
  let one ← UInt.one a.width
  let two ← one.opAdd one
  inverseLoop a two n one

/-- `a + b`, or `None` when it does not fit.  Client code, not in `/repo`. -/
def addOrNone (a b : UInt) : Run (Option UInt) := do
  let s ← a.opAdd b
  if ← s.lt a then pure none else pure (some s)

/-- `a - b`, or `None` when it is negative.  Client code, not in `/repo`. -/
def subOrNone (a b : UInt) : Run (Option UInt) := do
  if ← a.lt b then pure none else pure (some (← a.opSub b))

/-- `a * b`, or `None` when it does not fit.  Client code, not in `/repo`. -/
def mulOrNone (a b : UInt) : Run (Option UInt) := do
  if ← a.isZero then pure (some a)
  else
    let p ← a.opMul b
    let q ← p.opDiv a
    if ← q.value.eq b.value then pure (some p) else pure none

/-- `a + b`, or `None` when it does not fit: the sum has another sign than both operands.  Client
code, not in `/repo`. -/
def signedAddOrNone (a b : SInt) : Run (Option SInt) := do
  let s ← a.opAdd b
  let x ← a.opBitXor s
  let y ← b.opBitXor s
  let o ← x.opBitAnd y
  if ← o.isNegative then pure none else pure (some s)

/-- The high and the low half of a product, computed with width `t`.  Client code, not in `/repo`. -/
def wideMul (t : BitWidth) (x y : UInt) : Run (UInt × UInt) := do
  let x' ← unwrapRes (x.intoExtend t)
  let y' ← unwrapRes (y.intoExtend t)
  let p ← x'.opMul y'
  let lo ← unwrapRes (p.intoTruncate x.width)
  let p ← p.opShr x.width.toUsize
  let hi ← unwrapRes (p.intoTruncate x.width)
  pure (hi, lo)

/-- Put `x` before the first element that is not smaller, asking with `le`.  Client code, not in
`/repo`. -/
def insert {α : Type} (le : α → α → Run Bool) (x : α) : List α → Run (List α)
  | [] => pure [x]
  | y :: ys => do
    if ← le x y then pure (x :: y :: ys)
    else
      let zs ← insert le x ys
      pure (y :: zs)

/-- Insertion sort.  Client code, not in `/repo`. -/
def sort {α : Type} (le : α → α → Run Bool) : List α → Run (List α)
  | [] => pure []
  | x :: xs => do
    let ys ← sort le xs
    insert le x ys

end Verif.Algo
