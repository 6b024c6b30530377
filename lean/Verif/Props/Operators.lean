import Verif.Props.WrapSigned

/-!
# Operators against methods (C48)

`OpFollows` and `OpAssignFollows` (in `Verif/SpecWrap.lean`) say what it means for an operator to
stand for a method.
-/

namespace Verif.Props

open ApInt Ex

/-- C48, `ApInt`: every operator returns what its method returns and panics exactly when the
method reports an error (or panics itself). -/
theorem C48_apint_operators (a b : ApInt) (s : Nat) :
    OpFollows (a.intoBitand b) (a.opBitAnd b) ∧
    OpAssignFollows (a.bitandAssign b) (a.opBitAndAssign b) ∧
    OpFollows (a.intoBitor b) (a.opBitOr b) ∧
    OpAssignFollows (a.bitorAssign b) (a.opBitOrAssign b) ∧
    OpFollows (a.intoBitxor b) (a.opBitXor b) ∧
    OpAssignFollows (a.bitxorAssign b) (a.opBitXorAssign b) ∧
    OpFollows (a.intoWrappingAdd b) (a.opAdd b) ∧
    OpAssignFollows (a.wrappingAddAssign b) (a.opAddAssign b) ∧
    OpFollows (a.intoWrappingSub b) (a.opSub b) ∧
    OpAssignFollows (a.wrappingSubAssign b) (a.opSubAssign b) ∧
    OpFollows (a.intoWrappingMul b) (a.opMul b) ∧
    OpAssignFollows (a.wrappingMulAssign b) (a.opMulAssign b) ∧
    OpFollows (a.intoWrappingShl s) (a.opShl s) ∧
    OpAssignFollows (a.wrappingShlAssign s) (a.opShlAssign s) ∧
    a.opNot = a.intoBitnot ∧ a.opNeg = a.intoWrappingNeg :=
  ⟨opFollows_unwrapRes _, opAssignFollows_unwrapMut _, opFollows_unwrapRes _,
    opAssignFollows_unwrapMut _, opFollows_unwrapRes _, opAssignFollows_unwrapMut _,
    opFollows_unwrapRes _, opAssignFollows_unwrapMut _, opFollows_unwrapRes _,
    opAssignFollows_unwrapMut _, opFollows_unwrapRes _, opAssignFollows_unwrapMut _,
    opFollows_unwrapRes _, opAssignFollows_unwrapMut _, rfl, rfl⟩

/-- C48, `UInt`: every operator returns what its method returns and panics exactly when the
method reports an error (or panics itself). -/
theorem C48_unsigned_operators (a b : UInt) (s : Nat) :
    OpFollows (a.intoBitand b) (a.opBitAnd b) ∧
    OpAssignFollows (a.bitandAssign b) (a.opBitAndAssign b) ∧
    OpFollows (a.intoBitor b) (a.opBitOr b) ∧
    OpAssignFollows (a.bitorAssign b) (a.opBitOrAssign b) ∧
    OpFollows (a.intoBitxor b) (a.opBitXor b) ∧
    OpAssignFollows (a.bitxorAssign b) (a.opBitXorAssign b) ∧
    OpFollows (a.intoWrappingAdd b) (a.opAdd b) ∧
    OpAssignFollows (a.wrappingAddAssign b) (a.opAddAssign b) ∧
    OpFollows (a.intoWrappingSub b) (a.opSub b) ∧
    OpAssignFollows (a.wrappingSubAssign b) (a.opSubAssign b) ∧
    OpFollows (a.intoWrappingMul b) (a.opMul b) ∧
    OpAssignFollows (a.wrappingMulAssign b) (a.opMulAssign b) ∧
    OpFollows (a.intoWrappingDiv b) (a.opDiv b) ∧
    OpAssignFollows (a.wrappingDivAssign b) (a.opDivAssign b) ∧
    OpFollows (a.intoWrappingRem b) (a.opRem b) ∧
    OpAssignFollows (a.wrappingRemAssign b) (a.opRemAssign b) ∧
    OpFollows (a.intoWrappingShl s) (a.opShl s) ∧
    OpAssignFollows (a.wrappingShlAssign s) (a.opShlAssign s) ∧
    OpFollows (a.intoWrappingShr s) (a.opShr s) ∧
    OpAssignFollows (a.wrappingShrAssign s) (a.opShrAssign s) ∧
    a.opNot = a.intoBitnot ∧ a.opNeg = a.intoWrappingNeg :=
  ⟨opFollows_unwrapRes _, opAssignFollows_unwrapMut _, opFollows_unwrapRes _,
    opAssignFollows_unwrapMut _, opFollows_unwrapRes _, opAssignFollows_unwrapMut _,
    opFollows_unwrapRes _, opAssignFollows_unwrapMut _, opFollows_unwrapRes _,
    opAssignFollows_unwrapMut _, opFollows_unwrapRes _, opAssignFollows_unwrapMut _,
    opFollows_unwrapRes _, opAssignFollows_unwrapMut _, opFollows_unwrapRes _,
    opAssignFollows_unwrapMut _, opFollows_unwrapRes _, opAssignFollows_unwrapMut _,
    opFollows_unwrapRes _, opAssignFollows_unwrapMut _, rfl, rfl⟩

/-- C48, `Int`: every operator returns what its method returns and panics exactly when the
method reports an error (or panics itself). -/
theorem C48_signed_operators (a b : SInt) (s : Nat) :
    OpFollows (a.intoBitand b) (a.opBitAnd b) ∧
    OpAssignFollows (a.bitandAssign b) (a.opBitAndAssign b) ∧
    OpFollows (a.intoBitor b) (a.opBitOr b) ∧
    OpAssignFollows (a.bitorAssign b) (a.opBitOrAssign b) ∧
    OpFollows (a.intoBitxor b) (a.opBitXor b) ∧
    OpAssignFollows (a.bitxorAssign b) (a.opBitXorAssign b) ∧
    OpFollows (a.intoWrappingAdd b) (a.opAdd b) ∧
    OpAssignFollows (a.wrappingAddAssign b) (a.opAddAssign b) ∧
    OpFollows (a.intoWrappingSub b) (a.opSub b) ∧
    OpAssignFollows (a.wrappingSubAssign b) (a.opSubAssign b) ∧
    OpFollows (a.intoWrappingMul b) (a.opMul b) ∧
    OpAssignFollows (a.wrappingMulAssign b) (a.opMulAssign b) ∧
    OpFollows (a.intoWrappingDiv b) (a.opDiv b) ∧
    OpAssignFollows (a.wrappingDivAssign b) (a.opDivAssign b) ∧
    OpFollows (a.intoWrappingRem b) (a.opRem b) ∧
    OpAssignFollows (a.wrappingRemAssign b) (a.opRemAssign b) ∧
    OpFollows (a.intoWrappingShl s) (a.opShl s) ∧
    OpAssignFollows (a.wrappingShlAssign s) (a.opShlAssign s) ∧
    OpFollows (a.intoWrappingShr s) (a.opShr s) ∧
    OpAssignFollows (a.wrappingShrAssign s) (a.opShrAssign s) ∧
    a.opNot = a.intoBitnot ∧ a.opNeg = a.intoWrappingNeg :=
  ⟨opFollows_unwrapRes _, opAssignFollows_unwrapMut _, opFollows_unwrapRes _,
    opAssignFollows_unwrapMut _, opFollows_unwrapRes _, opAssignFollows_unwrapMut _,
    opFollows_unwrapRes _, opAssignFollows_unwrapMut _, opFollows_unwrapRes _,
    opAssignFollows_unwrapMut _, opFollows_unwrapRes _, opAssignFollows_unwrapMut _,
    opFollows_unwrapRes _, opAssignFollows_unwrapMut _, opFollows_unwrapRes _,
    opAssignFollows_unwrapMut _, opFollows_unwrapRes _, opAssignFollows_unwrapMut _,
    opFollows_unwrapRes _, opAssignFollows_unwrapMut _, rfl, rfl⟩

/-- C48, `ApInt`: on unmatched widths the binary operators panic; a shift by the width or more makes
`<<` panic.  On equal widths and smaller shifts they return (C04, C05, C07, C15, C19). -/
theorem C48_apint_failures (a b : ApInt) :
    (a.len ≠ b.len →
      let e := Err.unmatchingBitwidth a.len b.len
      Fails a (a.wrappingAddAssign b) (a.intoWrappingAdd b) (a.opAdd b) (a.opAddAssign b) e ∧
      Fails a (a.wrappingSubAssign b) (a.intoWrappingSub b) (a.opSub b) (a.opSubAssign b) e ∧
      Fails a (a.wrappingMulAssign b) (a.intoWrappingMul b) (a.opMul b) (a.opMulAssign b) e ∧
      Fails a (a.bitandAssign b) (a.intoBitand b) (a.opBitAnd b) (a.opBitAndAssign b) e ∧
      Fails a (a.bitorAssign b) (a.intoBitor b) (a.opBitOr b) (a.opBitOrAssign b) e ∧
      Fails a (a.bitxorAssign b) (a.intoBitxor b) (a.opBitXor b) (a.opBitXorAssign b) e) ∧
    (∀ s, a.w ≤ s →
      Fails a (a.wrappingShlAssign s) (a.intoWrappingShl s) (a.opShl s) (a.opShlAssign s)
        (.invalidShiftAmount s a.len)) := by
  constructor
  · intro h
    obtain ⟨h1, h2, h3, h4, h5, h6⟩ := C13_in_place h
    exact ⟨fails_of (f := ApInt.wrappingAddAssign) rfl h1,
      fails_of (f := ApInt.wrappingSubAssign) rfl h2,
      fails_of (f := ApInt.wrappingMulAssign) rfl h3,
      fails_of (f := ApInt.bitandAssign) rfl h4,
      fails_of (f := ApInt.bitorAssign) rfl h5,
      fails_of (f := ApInt.bitxorAssign) rfl h6⟩
  · intro s hs
    exact fails_of (f := ApInt.wrappingShlAssign) rfl (wrappingShlAssign_err hs)

example : a7.opAdd b65 = .error .panic := ((C48_apint_failures a7 b65).1 (by decide)).1.2.2.1
example : a7.opShl 7 = .error .panic := ((C48_apint_failures a7 b65).2 7 (by decide)).2.2.1

end Verif.Props
