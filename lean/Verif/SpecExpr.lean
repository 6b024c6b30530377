import Verif.Instr
import Verif.Spec

/-!
# Expressions over the API, read as bit-vector terms

The specification side of C56.  An expression is built from variables, constants, the unary and
binary calls of the API, bit changes, casts between widths and conditionals on comparisons.  Its
meaning is a term of Lean's `BitVec`, the fixed-width integers of the SMT-LIB theory, and does not
mention the model.  An expression has no meaning (`none`) when the API documents an error: a
divisor is zero, a shift amount or bit position is not below the width, a truncation targets a
larger or an extension a smaller width.
-/

namespace Verif

/-- The width of the result of a unary call on an integer of width `w`. -/
def Un.target : Un → BitWidth → BitWidth
  | .truncate t, _ => t
  | .zeroExtend t, _ => t
  | .signExtend t, _ => t
  | .zeroResize t, _ => t
  | .signResize t, _ => t
  | .bitnot, w => w
  | .neg, w => w
  | .inc, w => w
  | .dec, w => w
  | .shl _, w => w
  | .lshr _, w => w
  | .ashr _, w => w

/-- Constants of a width. -/
inductive Const where
  | zero | one | allSet | unsignedMin | unsignedMax | signedMin | signedMax

/-- Expressions of width `w` over variables `i` of width `Γ i`. -/
inductive Expr {ι : Type} (Γ : ι → BitWidth) : BitWidth → Type where
  | var (i : ι) : Expr Γ (Γ i)
  | const (c : Const) (w : BitWidth) : Expr Γ w
  /-- `e.into_op()` -/
  | un (o : Un) {w : BitWidth} (e : Expr Γ w) : Expr Γ (o.target w)
  /-- `let mut z = e; z.op(); z` -/
  | alter (o : Alter) {w : BitWidth} (e : Expr Γ w) : Expr Γ w
  /-- `e.into_op(&f)` -/
  | bin (o : Bin) {w : BitWidth} (e f : Expr Γ w) : Expr Γ w
  /-- `if l.cmp(&r) { e } else { f }` -/
  | pick (q : Ask2) {v w : BitWidth} (l r : Expr Γ v) (e f : Expr Γ w) : Expr Γ w

def Const.bv : Const → (n : Nat) → BitVec n
  | .zero, n => 0#n
  | .one, n => 1#n
  | .allSet, n => BitVec.allOnes n
  | .unsignedMin, n => 0#n
  | .unsignedMax, n => BitVec.allOnes n
  | .signedMin, n => BitVec.intMin n
  | .signedMax, n => BitVec.intMax n

def Un.bv (o : Un) {w : BitWidth} (x : BitVec w.toUsize) : Option (BitVec (o.target w).toUsize) :=
  match o with
  | .bitnot => some (~~~x)
  | .neg => some (-x)
  | .inc => some (x + 1#w.toUsize)
  | .dec => some (x - 1#w.toUsize)
  | .shl s => if s < w.toUsize then some (x <<< s) else none
  | .lshr s => if s < w.toUsize then some (x >>> s) else none
  | .ashr s => if s < w.toUsize then some (x.sshiftRight s) else none
  | .truncate t => if t.toUsize ≤ w.toUsize then some (x.setWidth t.toUsize) else none
  | .zeroExtend t => if w.toUsize ≤ t.toUsize then some (x.setWidth t.toUsize) else none
  | .signExtend t => if w.toUsize ≤ t.toUsize then some (x.signExtend t.toUsize) else none
  | .zeroResize t => some (x.setWidth t.toUsize)
  | .signResize t => some (x.signExtend t.toUsize)

def Alter.bv (o : Alter) {n : Nat} (x : BitVec n) : Option (BitVec n) :=
  match o with
  | .setAll => some (BitVec.allOnes n)
  | .unsetAll => some 0#n
  | .flipAll => some (~~~x)
  | .setMsb => some (x ||| BitVec.twoPow n (n - 1))
  | .unsetMsb => some (x &&& ~~~BitVec.twoPow n (n - 1))
  | .flipMsb => some (x ^^^ BitVec.twoPow n (n - 1))
  | .setBit p => if p < n then some (x ||| BitVec.twoPow n p) else none
  | .unsetBit p => if p < n then some (x &&& ~~~BitVec.twoPow n p) else none
  | .flipBit p => if p < n then some (x ^^^ BitVec.twoPow n p) else none
  | .randomize rng => some (BitVec.ofNat n (val ((List.range ((n + 63) / 64)).map rng)))

def Bin.bv (o : Bin) {n : Nat} (x y : BitVec n) : Option (BitVec n) :=
  match o with
  | .add => some (x + y)
  | .sub => some (x - y)
  | .mul => some (x * y)
  | .and => some (x &&& y)
  | .or => some (x ||| y)
  | .xor => some (x ^^^ y)
  | .udiv => if y = 0#n then none else some (x / y)
  | .urem => if y = 0#n then none else some (x % y)
  | .sdiv => if y = 0#n then none else some (x.sdiv y)
  | .srem => if y = 0#n then none else some (x.srem y)

def Ask2.bv (q : Ask2) {n : Nat} (x y : BitVec n) : Bool :=
  match q with
  | .eq => x == y
  | .ult => x.ult y
  | .ule => x.ule y
  | .ugt => y.ult x
  | .uge => y.ule x
  | .slt => x.slt y
  | .sle => x.sle y
  | .sgt => y.slt x
  | .sge => y.sle x

namespace Expr

variable {ι : Type} {Γ : ι → BitWidth}

/-- The meaning of an expression: a bit-vector, or nothing where an error is due. -/
def den (β : (i : ι) → BitVec (Γ i).toUsize) : {w : BitWidth} → Expr Γ w → Option (BitVec w.toUsize)
  | _, .var i => some (β i)
  | w, .const c _ => some (c.bv w.toUsize)
  | _, .un o e => (e.den β).bind o.bv
  | _, .alter o e => (e.den β).bind o.bv
  | _, .bin o e f => (e.den β).bind fun x => (f.den β).bind fun y => o.bv x y
  | _, .pick q l r e f =>
      (l.den β).bind fun x => (r.den β).bind fun y => if q.bv x y then e.den β else f.den β

end Expr

end Verif
