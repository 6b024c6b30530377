import Verif.Model.SInt

/-!
# Operators (`/repo/src/std_ops.rs`)

Generated by `/verif/tools/gen_wrappers.py`.  The owned and borrowed forms of an operator differ
only in who owns the left operand.  Inherent methods take precedence over trait methods of the
same name, so `bitand_assign` inside `impl BitAndAssign` is the inherent one.
-/

namespace Verif

/-- `*self.f(…).unwrap()` for an assigning operator: panics when the method reports an error. As in
`/repo/src/std_ops.rs:123`. -/
def unwrapMut {α : Type} (r : Run (Res Unit × α)) : Run α := do
  let (x, a) ← r
  let () ← expect x
  pure a

/-- `self.f(…).unwrap()` for an operator that returns a value. As in `/repo/src/std_ops.rs:62-112`.
-/
def unwrapRes {α : Type} (r : Run (Res α)) : Run α := do
  let x ← r
  expect x

/-! ## `ApInt` -/

/-- `Not` for `ApInt`, `/repo/src/std_ops.rs:37-43`. -/
def ApInt.opNot (self : ApInt) : Run ApInt := self.intoBitnot

/-- `Neg` for `ApInt`, `/repo/src/std_ops.rs:47-53`. -/
def ApInt.opNeg (self : ApInt) : Run ApInt := self.intoWrappingNeg

/-- `<S> Shl<S>` for `ApInt`, `/repo/src/std_ops.rs:55-64`. -/
def ApInt.opShl (self : ApInt) (s : Nat) : Run ApInt := unwrapRes (self.intoWrappingShl s)

/-- `<S> ShlAssign<S>` for `ApInt`, `/repo/src/std_ops.rs:118-125`. -/
def ApInt.opShlAssign (self : ApInt) (s : Nat) : Run ApInt := unwrapMut (self.wrappingShlAssign s)

/-- `BitAnd<&'` for `ApInt`, `/repo/src/std_ops.rs:68-74`. -/
def ApInt.opBitAnd (self rhs : ApInt) : Run ApInt := unwrapRes (self.intoBitand rhs)

/-- `BitAndAssign<&'` for `ApInt`, `/repo/src/std_ops.rs:127-131`. -/
def ApInt.opBitAndAssign (self rhs : ApInt) : Run ApInt := unwrapMut (self.bitandAssign rhs)

/-- `BitOr<&'` for `ApInt`, `/repo/src/std_ops.rs:76-82`. -/
def ApInt.opBitOr (self rhs : ApInt) : Run ApInt := unwrapRes (self.intoBitor rhs)

/-- `BitOrAssign<&'` for `ApInt`, `/repo/src/std_ops.rs:133-137`. -/
def ApInt.opBitOrAssign (self rhs : ApInt) : Run ApInt := unwrapMut (self.bitorAssign rhs)

/-- `BitXor<&'` for `ApInt`, `/repo/src/std_ops.rs:84-90`. -/
def ApInt.opBitXor (self rhs : ApInt) : Run ApInt := unwrapRes (self.intoBitxor rhs)

/-- `BitXorAssign<&'` for `ApInt`, `/repo/src/std_ops.rs:139-143`. -/
def ApInt.opBitXorAssign (self rhs : ApInt) : Run ApInt := unwrapMut (self.bitxorAssign rhs)

/-- `Add<&'` for `ApInt`, `/repo/src/std_ops.rs:92-98`. -/
def ApInt.opAdd (self rhs : ApInt) : Run ApInt := unwrapRes (self.intoWrappingAdd rhs)

/-- `AddAssign<&'` for `ApInt`, `/repo/src/std_ops.rs:145-149`. -/
def ApInt.opAddAssign (self rhs : ApInt) : Run ApInt := unwrapMut (self.wrappingAddAssign rhs)

/-- `Sub<&'` for `ApInt`, `/repo/src/std_ops.rs:100-106`. -/
def ApInt.opSub (self rhs : ApInt) : Run ApInt := unwrapRes (self.intoWrappingSub rhs)

/-- `SubAssign<&'` for `ApInt`, `/repo/src/std_ops.rs:151-155`. -/
def ApInt.opSubAssign (self rhs : ApInt) : Run ApInt := unwrapMut (self.wrappingSubAssign rhs)

/-- `Mul<&'` for `ApInt`, `/repo/src/std_ops.rs:108-114`. -/
def ApInt.opMul (self rhs : ApInt) : Run ApInt := unwrapRes (self.intoWrappingMul rhs)

/-- `MulAssign<&'` for `ApInt`, `/repo/src/std_ops.rs:157-161`. -/
def ApInt.opMulAssign (self rhs : ApInt) : Run ApInt := unwrapMut (self.wrappingMulAssign rhs)

/-! ## `UInt` -/

/-- `Not` for `UInt`, `/repo/src/std_ops.rs:37-43`. -/
def UInt.opNot (self : UInt) : Run UInt := self.intoBitnot

/-- `Neg` for `UInt`, `/repo/src/std_ops.rs:47-53`. -/
def UInt.opNeg (self : UInt) : Run UInt := self.intoWrappingNeg

/-- `<S> Shl<S>` for `UInt`, `/repo/src/std_ops.rs:55-64`. -/
def UInt.opShl (self : UInt) (s : Nat) : Run UInt := unwrapRes (self.intoWrappingShl s)

/-- `<S> ShlAssign<S>` for `UInt`, `/repo/src/std_ops.rs:118-125`. -/
def UInt.opShlAssign (self : UInt) (s : Nat) : Run UInt := unwrapMut (self.wrappingShlAssign s)

/-- `BitAnd<&'` for `UInt`, `/repo/src/std_ops.rs:68-74`. -/
def UInt.opBitAnd (self rhs : UInt) : Run UInt := unwrapRes (self.intoBitand rhs)

/-- `BitAndAssign<&'` for `UInt`, `/repo/src/std_ops.rs:127-131`. -/
def UInt.opBitAndAssign (self rhs : UInt) : Run UInt := unwrapMut (self.bitandAssign rhs)

/-- `BitOr<&'` for `UInt`, `/repo/src/std_ops.rs:76-82`. -/
def UInt.opBitOr (self rhs : UInt) : Run UInt := unwrapRes (self.intoBitor rhs)

/-- `BitOrAssign<&'` for `UInt`, `/repo/src/std_ops.rs:133-137`. -/
def UInt.opBitOrAssign (self rhs : UInt) : Run UInt := unwrapMut (self.bitorAssign rhs)

/-- `BitXor<&'` for `UInt`, `/repo/src/std_ops.rs:84-90`. -/
def UInt.opBitXor (self rhs : UInt) : Run UInt := unwrapRes (self.intoBitxor rhs)

/-- `BitXorAssign<&'` for `UInt`, `/repo/src/std_ops.rs:139-143`. -/
def UInt.opBitXorAssign (self rhs : UInt) : Run UInt := unwrapMut (self.bitxorAssign rhs)

/-- `Add<&'` for `UInt`, `/repo/src/std_ops.rs:92-98`. -/
def UInt.opAdd (self rhs : UInt) : Run UInt := unwrapRes (self.intoWrappingAdd rhs)

/-- `AddAssign<&'` for `UInt`, `/repo/src/std_ops.rs:145-149`. -/
def UInt.opAddAssign (self rhs : UInt) : Run UInt := unwrapMut (self.wrappingAddAssign rhs)

/-- `Sub<&'` for `UInt`, `/repo/src/std_ops.rs:100-106`. -/
def UInt.opSub (self rhs : UInt) : Run UInt := unwrapRes (self.intoWrappingSub rhs)

/-- `SubAssign<&'` for `UInt`, `/repo/src/std_ops.rs:151-155`. -/
def UInt.opSubAssign (self rhs : UInt) : Run UInt := unwrapMut (self.wrappingSubAssign rhs)

/-- `Mul<&'` for `UInt`, `/repo/src/std_ops.rs:108-114`. -/
def UInt.opMul (self rhs : UInt) : Run UInt := unwrapRes (self.intoWrappingMul rhs)

/-- `MulAssign<&'` for `UInt`, `/repo/src/std_ops.rs:157-161`. -/
def UInt.opMulAssign (self rhs : UInt) : Run UInt := unwrapMut (self.wrappingMulAssign rhs)

/-- `<S> Shr<S>` for `UInt`, `/repo/src/std_ops.rs:172-181`. -/
def UInt.opShr (self : UInt) (s : Nat) : Run UInt := unwrapRes (self.intoWrappingShr s)

/-- `<S> ShrAssign<S>` for `UInt`, `/repo/src/std_ops.rs:199-206`. -/
def UInt.opShrAssign (self : UInt) (s : Nat) : Run UInt := unwrapMut (self.wrappingShrAssign s)

/-- `Div<&'` for `UInt`, `/repo/src/std_ops.rs:183-189`. -/
def UInt.opDiv (self rhs : UInt) : Run UInt := unwrapRes (self.intoWrappingDiv rhs)

/-- `DivAssign<&'` for `UInt`, `/repo/src/std_ops.rs:208-212`. -/
def UInt.opDivAssign (self rhs : UInt) : Run UInt := unwrapMut (self.wrappingDivAssign rhs)

/-- `Rem<&'` for `UInt`, `/repo/src/std_ops.rs:191-197`. -/
def UInt.opRem (self rhs : UInt) : Run UInt := unwrapRes (self.intoWrappingRem rhs)

/-- `RemAssign<&'` for `UInt`, `/repo/src/std_ops.rs:214-218`. -/
def UInt.opRemAssign (self rhs : UInt) : Run UInt := unwrapMut (self.wrappingRemAssign rhs)

/-! ## `Int` -/

/-- `Not` for `Int`, `/repo/src/std_ops.rs:37-43`. -/
def SInt.opNot (self : SInt) : Run SInt := self.intoBitnot

/-- `Neg` for `Int`, `/repo/src/std_ops.rs:47-53`. -/
def SInt.opNeg (self : SInt) : Run SInt := self.intoWrappingNeg

/-- `<S> Shl<S>` for `Int`, `/repo/src/std_ops.rs:55-64`. -/
def SInt.opShl (self : SInt) (s : Nat) : Run SInt := unwrapRes (self.intoWrappingShl s)

/-- `<S> ShlAssign<S>` for `Int`, `/repo/src/std_ops.rs:118-125`. -/
def SInt.opShlAssign (self : SInt) (s : Nat) : Run SInt := unwrapMut (self.wrappingShlAssign s)

/-- `BitAnd<&'` for `Int`, `/repo/src/std_ops.rs:68-74`. -/
def SInt.opBitAnd (self rhs : SInt) : Run SInt := unwrapRes (self.intoBitand rhs)

/-- `BitAndAssign<&'` for `Int`, `/repo/src/std_ops.rs:127-131`. -/
def SInt.opBitAndAssign (self rhs : SInt) : Run SInt := unwrapMut (self.bitandAssign rhs)

/-- `BitOr<&'` for `Int`, `/repo/src/std_ops.rs:76-82`. -/
def SInt.opBitOr (self rhs : SInt) : Run SInt := unwrapRes (self.intoBitor rhs)

/-- `BitOrAssign<&'` for `Int`, `/repo/src/std_ops.rs:133-137`. -/
def SInt.opBitOrAssign (self rhs : SInt) : Run SInt := unwrapMut (self.bitorAssign rhs)

/-- `BitXor<&'` for `Int`, `/repo/src/std_ops.rs:84-90`. -/
def SInt.opBitXor (self rhs : SInt) : Run SInt := unwrapRes (self.intoBitxor rhs)

/-- `BitXorAssign<&'` for `Int`, `/repo/src/std_ops.rs:139-143`. -/
def SInt.opBitXorAssign (self rhs : SInt) : Run SInt := unwrapMut (self.bitxorAssign rhs)

/-- `Add<&'` for `Int`, `/repo/src/std_ops.rs:92-98`. -/
def SInt.opAdd (self rhs : SInt) : Run SInt := unwrapRes (self.intoWrappingAdd rhs)

/-- `AddAssign<&'` for `Int`, `/repo/src/std_ops.rs:145-149`. -/
def SInt.opAddAssign (self rhs : SInt) : Run SInt := unwrapMut (self.wrappingAddAssign rhs)

/-- `Sub<&'` for `Int`, `/repo/src/std_ops.rs:100-106`. -/
def SInt.opSub (self rhs : SInt) : Run SInt := unwrapRes (self.intoWrappingSub rhs)

/-- `SubAssign<&'` for `Int`, `/repo/src/std_ops.rs:151-155`. -/
def SInt.opSubAssign (self rhs : SInt) : Run SInt := unwrapMut (self.wrappingSubAssign rhs)

/-- `Mul<&'` for `Int`, `/repo/src/std_ops.rs:108-114`. -/
def SInt.opMul (self rhs : SInt) : Run SInt := unwrapRes (self.intoWrappingMul rhs)

/-- `MulAssign<&'` for `Int`, `/repo/src/std_ops.rs:157-161`. -/
def SInt.opMulAssign (self rhs : SInt) : Run SInt := unwrapMut (self.wrappingMulAssign rhs)

/-- `<S> Shr<S>` for `Int`, `/repo/src/std_ops.rs:172-181`. -/
def SInt.opShr (self : SInt) (s : Nat) : Run SInt := unwrapRes (self.intoWrappingShr s)

/-- `<S> ShrAssign<S>` for `Int`, `/repo/src/std_ops.rs:199-206`. -/
def SInt.opShrAssign (self : SInt) (s : Nat) : Run SInt := unwrapMut (self.wrappingShrAssign s)

/-- `Div<&'` for `Int`, `/repo/src/std_ops.rs:183-189`. -/
def SInt.opDiv (self rhs : SInt) : Run SInt := unwrapRes (self.intoWrappingDiv rhs)

/-- `DivAssign<&'` for `Int`, `/repo/src/std_ops.rs:208-212`. -/
def SInt.opDivAssign (self rhs : SInt) : Run SInt := unwrapMut (self.wrappingDivAssign rhs)

/-- `Rem<&'` for `Int`, `/repo/src/std_ops.rs:191-197`. -/
def SInt.opRem (self rhs : SInt) : Run SInt := unwrapRes (self.intoWrappingRem rhs)

/-- `RemAssign<&'` for `Int`, `/repo/src/std_ops.rs:214-218`. -/
def SInt.opRemAssign (self rhs : SInt) : Run SInt := unwrapMut (self.wrappingRemAssign rhs)

end Verif
