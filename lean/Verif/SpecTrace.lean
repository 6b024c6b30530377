import Verif.Model.TraceAsk
import Verif.Spec
import Mathlib.Data.Nat.Size

/-!
# What an observer may learn

Facts about numbers that calls show by the digits they touch.  Nothing here mentions a trace.
-/

namespace Verif.ToldBy

open ApInt

/-- As many whole digits at the low end are zero in `u` as in `v`. -/
def SameLowZeros (u v : Nat) : Prop := ∀ k, 2 ^ (64 * k) ∣ u ↔ 2 ^ (64 * k) ∣ v

/-- As many whole digits at the high end are zero in `u` as in `v`. -/
def SameHighZeros (u v : Nat) : Prop := ∀ k, u < 2 ^ (64 * k) ↔ v < 2 ^ (64 * k)

/-- `u` and `v` agree in as many low digits as `u'` and `v'`. -/
def SameLowMatch (u v u' v' : Nat) : Prop :=
  ∀ k, u % 2 ^ (64 * k) = v % 2 ^ (64 * k) ↔ u' % 2 ^ (64 * k) = v' % 2 ^ (64 * k)

/-- `u` and `v` are ordered as `u'` and `v'`, and agree in as many high digits. -/
def SameUOrder (u v u' v' : Nat) : Prop :=
  (u < v ↔ u' < v') ∧ (v < u ↔ v' < u') ∧
    ∀ k, u / 2 ^ (64 * k) = v / 2 ^ (64 * k) ↔ u' / 2 ^ (64 * k) = v' / 2 ^ (64 * k)

/-- The same sign. -/
def SameSign (a a' : ApInt) : Prop := a.sval < 0 ↔ a'.sval < 0

/-- What a unary call shows is the same of `a` and `a'`. -/
def un : Trace.LUn → ApInt → ApInt → Prop
  | .inc, a, a' => a.w ≤ 64 ∨ SameLowZeros (a.uval + 1) (a'.uval + 1)
  | .dec, a, a' => a.w ≤ 64 ∨ SameLowZeros a.uval a'.uval
  | .neg, a, a' => a.w ≤ 64 ∨ SameLowZeros a.uval a'.uval
  | .ashr _, a, a' => SameSign a a'
  | .signExtend t, a, a' | .signResize t, a, a' => t.toUsize ≤ a.w ∨ SameSign a a'

/-- What a checked conversion to a type of at most 64 bits whose largest value is `m` shows is the
same of `u` and `v`: whether the low digit fits, and if so how many digits above it are zero before the
first that is not. -/
def SameFit (m u v : Nat) : Prop :=
  (u % 2 ^ 64 ≤ m ↔ v % 2 ^ 64 ≤ m) ∧ (u % 2 ^ 64 ≤ m → SameLowZeros (u / 2 ^ 64) (v / 2 ^ 64))

/-- What a checked conversion shows is the same of `u` and `v`. -/
def tryTo : PrimitiveTy → Nat → Nat → Prop
  | .bool, u, v => (u % 2 ^ 64 = 0 ↔ v % 2 ^ 64 = 0) ∧ SameFit 1 u v
  | .i8, u, v | .u8, u, v => SameFit 255 u v
  | .i16, u, v | .u16, u, v => SameFit 65535 u v
  | .i32, u, v | .u32, u, v => SameFit 4294967295 u v
  | .i64, u, v | .u64, u, v => SameLowZeros (u / 2 ^ 64) (v / 2 ^ 64)
  | .i128, u, v | .u128, u, v => SameLowZeros (u / 2 ^ 128) (v / 2 ^ 128)

/-- What a question shows is the same of `a` and `a'`. -/
def ask : Trace.LAsk → ApInt → ApInt → Prop
  | .isZero, a, a' => a.w ≤ 64 ∨ SameLowZeros a.uval a'.uval
  | .isAllUnset, a, a' => a.w ≤ 64 ∨ SameLowZeros a.uval a'.uval
  | .leadingZeros, a, a' => SameHighZeros a.uval a'.uval
  | .trailingZeros, a, a' => SameLowZeros a.uval a'.uval
  | .resize _, _, _ => True
  | .tryTo ty, a, a' => tryTo ty a.uval a'.uval
  | .binary, a, a' | .lowerHex, a, a' | .upperHex, a, a' =>
    SameHighZeros a.uval a'.uval ∧ (a.w ≤ 64 ∨ SameLowZeros a.uval a'.uval)

/-- What a comparison shows is the same of `a`, `c` and `a'`, `c'`. -/
def ask2 (q : Ask2) (a c a' c' : ApInt) : Prop :=
  a.w ≠ c.w ∨
    match q with
    | .eq => SameLowMatch a.uval c.uval a'.uval c'.uval
    | .ult | .ule | .ugt | .uge => a.w ≤ 64 ∨ SameUOrder a.uval c.uval a'.uval c'.uval
    | .slt | .sle | .sgt | .sge => a.w ≤ 64 ∨
        (SameSign a a' ∧ SameSign c c' ∧ SameUOrder a.uval c.uval a'.uval c'.uval)

/-- What a multiplication shows is the same of `a`, `c` and `a'`, `c'`: how many high digits of the
argument are zero, unless it is zero also of the receiver, and if both have more than one digit whether
the digits have room for the sum of the bit lengths. -/
def mul (a c a' c' : ApInt) : Prop :=
  a.w ≠ c.w ∨ a.w ≤ 64 ∨
    (SameHighZeros c.uval c'.uval ∧ (c.uval ≠ 0 → SameHighZeros a.uval a'.uval) ∧
      (2 ^ 64 ≤ a.uval → 2 ^ 64 ≤ c.uval →
        (Nat.size a.uval + Nat.size c.uval ≤ 64 * ((a.w + 63) / 64) ↔
          Nat.size a'.uval + Nat.size c'.uval ≤ 64 * ((a.w + 63) / 64))))

/-- What one call shows is the same in both banks. -/
def call (i : Trace.Loud) (b b' : Bank) : Prop :=
  match i with
  | .quiet _ => True
  | .un o x | .intoUn o x => ∀ a ∈ b[x]?, ∀ a' ∈ b'[x]?, un o a a'
  | .ask q x => ∀ a ∈ b[x]?, ∀ a' ∈ b'[x]?, ask q a a'
  | .ask2 q x y => ∀ a ∈ b[x]?, ∀ c ∈ b[y]?, ∀ a' ∈ b'[x]?, ∀ c' ∈ b'[y]?, ask2 q a c a' c'
  | .mul x y | .intoMul x y | .opMulAssign x y | .opMul x y =>
    ∀ a ∈ b[x]?, ∀ c ∈ b[y]?, ∀ a' ∈ b'[x]?, ∀ c' ∈ b'[y]?, mul a c a' c'

/-- What every call of a program shows is the same in a run from `b` and in one from `b'`. -/
def program : List Trace.Loud → Bank → Bank → Prop
  | [], _, _ => True
  | i :: is, b, b' => call i b b' ∧
      match i.instr.exec b, i.instr.exec b' with
      | .ok (_, c), .ok (_, c') => program is c c'
      | _, _ => True

end Verif.ToldBy
