import Verif.SpecExpr

/-!
# Writing expressions

Infix notation for the expressions of `SpecExpr.lean`, so that laws read like laws.  Nothing here
has a meaning of its own: `x + y` is `x.into_checked_add(&y)`, `~~~x` is `x.into_bitnot()`,
`x <<< s` is `x.into_checked_shl(s)`, `x >>> s` is `x.into_checked_lshr(s)` and so on.
-/

namespace Verif

namespace Expr

variable {ι : Type} {Γ : ι → BitWidth} {w : BitWidth}

instance : Add (Expr Γ w) := ⟨.bin .add⟩
instance : Sub (Expr Γ w) := ⟨.bin .sub⟩
instance : Mul (Expr Γ w) := ⟨.bin .mul⟩
instance : AndOp (Expr Γ w) := ⟨.bin .and⟩
instance : OrOp (Expr Γ w) := ⟨.bin .or⟩
instance : XorOp (Expr Γ w) := ⟨.bin .xor⟩
instance : Neg (Expr Γ w) := ⟨fun e => .un .neg e⟩
instance : Complement (Expr Γ w) := ⟨fun e => .un .bitnot e⟩
instance : HShiftLeft (Expr Γ w) Nat (Expr Γ w) := ⟨fun e s => .un (.shl s) e⟩
instance : HShiftRight (Expr Γ w) Nat (Expr Γ w) := ⟨fun e s => .un (.lshr s) e⟩

def ashr (e : Expr Γ w) (s : Nat) : Expr Γ w := .un (.ashr s) e
def inc (e : Expr Γ w) : Expr Γ w := .un .inc e
def dec (e : Expr Γ w) : Expr Γ w := .un .dec e
def udiv (e f : Expr Γ w) : Expr Γ w := .bin .udiv e f
def urem (e f : Expr Γ w) : Expr Γ w := .bin .urem e f
def sdiv (e f : Expr Γ w) : Expr Γ w := .bin .sdiv e f
def srem (e f : Expr Γ w) : Expr Γ w := .bin .srem e f
def trunc (t : BitWidth) (e : Expr Γ w) : Expr Γ t := .un (.truncate t) e
def zext (t : BitWidth) (e : Expr Γ w) : Expr Γ t := .un (.zeroExtend t) e
def sext (t : BitWidth) (e : Expr Γ w) : Expr Γ t := .un (.signExtend t) e
def zresize (t : BitWidth) (e : Expr Γ w) : Expr Γ t := .un (.zeroResize t) e
def sresize (t : BitWidth) (e : Expr Γ w) : Expr Γ t := .un (.signResize t) e
def flipMsb (e : Expr Γ w) : Expr Γ w := .alter .flipMsb e
def setBit (e : Expr Γ w) (p : Nat) : Expr Γ w := .alter (.setBit p) e
def unsetBit (e : Expr Γ w) (p : Nat) : Expr Γ w := .alter (.unsetBit p) e
def flipBit (e : Expr Γ w) (p : Nat) : Expr Γ w := .alter (.flipBit p) e
def zero : Expr Γ w := .const .zero w
def one : Expr Γ w := .const .one w
def allSet : Expr Γ w := .const .allSet w
def smin : Expr Γ w := .const .signedMin w
def smax : Expr Γ w := .const .signedMax w

variable (β : (i : ι) → BitVec (Γ i).toUsize) (e f : Expr Γ w)

@[simp] theorem den_add : (e + f).den β =
    (e.den β).bind fun x => (f.den β).bind fun y => some (x + y) := rfl
@[simp] theorem den_sub : (e - f).den β =
    (e.den β).bind fun x => (f.den β).bind fun y => some (x - y) := rfl
@[simp] theorem den_mul : (e * f).den β =
    (e.den β).bind fun x => (f.den β).bind fun y => some (x * y) := rfl
@[simp] theorem den_and : (e &&& f).den β =
    (e.den β).bind fun x => (f.den β).bind fun y => some (x &&& y) := rfl
@[simp] theorem den_or : (e ||| f).den β =
    (e.den β).bind fun x => (f.den β).bind fun y => some (x ||| y) := rfl
@[simp] theorem den_xor : (e ^^^ f).den β =
    (e.den β).bind fun x => (f.den β).bind fun y => some (x ^^^ y) := rfl
@[simp] theorem den_neg : (-e).den β = (e.den β).bind fun x => some (-x) := rfl
@[simp] theorem den_not : (~~~e).den β = (e.den β).bind fun x => some (~~~x) := rfl
@[simp] theorem den_inc : e.inc.den β = (e.den β).bind fun x => some (x + 1#w.toUsize) := rfl
@[simp] theorem den_dec : e.dec.den β = (e.den β).bind fun x => some (x - 1#w.toUsize) := rfl
@[simp] theorem den_shl (s : Nat) : (e <<< s).den β =
    (e.den β).bind fun x => if s < w.toUsize then some (x <<< s) else none := rfl
@[simp] theorem den_lshr (s : Nat) : (e >>> s).den β =
    (e.den β).bind fun x => if s < w.toUsize then some (x >>> s) else none := rfl
@[simp] theorem den_ashr (s : Nat) : (e.ashr s).den β =
    (e.den β).bind fun x => if s < w.toUsize then some (x.sshiftRight s) else none := rfl
@[simp] theorem den_udiv : (e.udiv f).den β = (e.den β).bind fun x => (f.den β).bind fun y =>
    if y = 0#w.toUsize then none else some (x / y) := rfl
@[simp] theorem den_urem : (e.urem f).den β = (e.den β).bind fun x => (f.den β).bind fun y =>
    if y = 0#w.toUsize then none else some (x % y) := rfl
@[simp] theorem den_sdiv : (e.sdiv f).den β = (e.den β).bind fun x => (f.den β).bind fun y =>
    if y = 0#w.toUsize then none else some (x.sdiv y) := rfl
@[simp] theorem den_srem : (e.srem f).den β = (e.den β).bind fun x => (f.den β).bind fun y =>
    if y = 0#w.toUsize then none else some (x.srem y) := rfl
@[simp] theorem den_trunc (t : BitWidth) : (e.trunc t).den β = (e.den β).bind fun x =>
    if t.toUsize ≤ w.toUsize then some (x.setWidth t.toUsize) else none := rfl
@[simp] theorem den_zext (t : BitWidth) : (e.zext t).den β = (e.den β).bind fun x =>
    if w.toUsize ≤ t.toUsize then some (x.setWidth t.toUsize) else none := rfl
@[simp] theorem den_sext (t : BitWidth) : (e.sext t).den β = (e.den β).bind fun x =>
    if w.toUsize ≤ t.toUsize then some (x.signExtend t.toUsize) else none := rfl
@[simp] theorem den_zresize (t : BitWidth) : (e.zresize t).den β = (e.den β).bind fun x =>
    some (x.setWidth t.toUsize) := rfl
@[simp] theorem den_sresize (t : BitWidth) : (e.sresize t).den β = (e.den β).bind fun x =>
    some (x.signExtend t.toUsize) := rfl
@[simp] theorem den_flipMsb : e.flipMsb.den β = (e.den β).bind fun x =>
    some (x ^^^ BitVec.twoPow w.toUsize (w.toUsize - 1)) := rfl
@[simp] theorem den_setBit (p : Nat) : (e.setBit p).den β = (e.den β).bind fun x =>
    if p < w.toUsize then some (x ||| BitVec.twoPow w.toUsize p) else none := rfl
@[simp] theorem den_unsetBit (p : Nat) : (e.unsetBit p).den β = (e.den β).bind fun x =>
    if p < w.toUsize then some (x &&& ~~~BitVec.twoPow w.toUsize p) else none := rfl
@[simp] theorem den_flipBit (p : Nat) : (e.flipBit p).den β = (e.den β).bind fun x =>
    if p < w.toUsize then some (x ^^^ BitVec.twoPow w.toUsize p) else none := rfl
@[simp] theorem den_zero : (zero : Expr Γ w).den β = some 0#w.toUsize := rfl
@[simp] theorem den_one : (one : Expr Γ w).den β = some 1#w.toUsize := rfl
@[simp] theorem den_allSet : (allSet : Expr Γ w).den β = some (BitVec.allOnes w.toUsize) := rfl
@[simp] theorem den_smin : (smin : Expr Γ w).den β = some (BitVec.intMin w.toUsize) := rfl
@[simp] theorem den_smax : (smax : Expr Γ w).den β = some (BitVec.intMax w.toUsize) := rfl
@[simp] theorem den_pick (q : Ask2) {v : BitWidth} (l r : Expr Γ v) :
    (Expr.pick q l r e f).den β = (l.den β).bind fun x => (r.den β).bind fun y =>
      if q.bv x y then e.den β else f.den β := rfl

end Expr

end Verif
