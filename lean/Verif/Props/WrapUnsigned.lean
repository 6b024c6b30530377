import Verif.Proof.Wrap
import Verif.Props.Arith
import Verif.Props.Bits
import Verif.Props.Casts
import Verif.Props.Compare
import Verif.Props.Construct
import Verif.Props.Shifts
import Verif.Props.Div
import Verif.Props.Errors
import Verif.Props.Tests

/-!
# The unsigned wrapper type (C29, C49 and the operators of C48 for `UInt`)

All results are about the unsigned value of the wrapped integer.
-/

namespace Verif.Props

open ApInt Ex

variable {a b : UInt} {s : Nat}

/-- C49, `UInt`: arithmetic on equal widths, in all four forms, is arithmetic of the unsigned
values modulo `2 ^ w`. -/
theorem C49_unsigned_arith (ha : a.value.WF) (hb : b.value.WF) (h : a.value.len = b.value.len) :
    Gives (a.wrappingAddAssign b) (a.intoWrappingAdd b) (a.opAdd b) (a.opAddAssign b)
      (UInt.Is a.value.len ((a.value.uval + b.value.uval) % 2 ^ a.value.w)) ∧
    Gives (a.wrappingSubAssign b) (a.intoWrappingSub b) (a.opSub b) (a.opSubAssign b)
      (UInt.Is a.value.len (wrap a.value.w (a.value.uval - b.value.uval))) ∧
    Gives (a.wrappingMulAssign b) (a.intoWrappingMul b) (a.opMul b) (a.opMulAssign b)
      (UInt.Is a.value.len ((a.value.uval * b.value.uval) % 2 ^ a.value.w)) := by
  obtain ⟨c1, e1, p1⟩ := UInt.liftMut_ok (C04_add ha hb h).1
  obtain ⟨c2, e2, p2⟩ := UInt.liftMut_ok (C05_sub ha hb h).1
  obtain ⟨c3, e3, p3⟩ := UInt.liftMut_ok (C07_mul ha hb h).1
  exact ⟨gives_of (f := UInt.wrappingAddAssign) rfl e1 p1,
    gives_of (f := UInt.wrappingSubAssign) rfl e2 p2,
    gives_of (f := UInt.wrappingMulAssign) rfl e3 p3⟩

example : Gives ((UInt.mk a7).wrappingAddAssign ⟨b7⟩) ((UInt.mk a7).intoWrappingAdd ⟨b7⟩)
    ((UInt.mk a7).opAdd ⟨b7⟩) ((UInt.mk a7).opAddAssign ⟨b7⟩) (UInt.Is (bw 7) 32) :=
  (C49_unsigned_arith (a := ⟨a7⟩) (b := ⟨b7⟩) a7_wf b7_wf rfl).1

/-- C49, `UInt`: negation. -/
theorem C49_unsigned_neg (ha : a.value.WF) :
    Yields a.wrappingNeg (UInt.Is a.value.len (wrap a.value.w (-a.value.uval))) ∧
    a.intoWrappingNeg = a.wrappingNeg ∧ a.opNeg = a.wrappingNeg :=
  ⟨UInt.lift_ok (C06_inc_dec_neg ha).2.2.2.2.1, forwardMutImpl_eq _ _, forwardMutImpl_eq _ _⟩

example : Yields (UInt.mk a7).wrappingNeg (UInt.Is (bw 7) 28) :=
  (C49_unsigned_neg (a := ⟨a7⟩) a7_wf).1

/-- C49, `UInt`: `/` and `%` are the unsigned quotient and remainder. -/
theorem C49_unsigned_div (ha : a.value.WF) (hb : b.value.WF) (h : a.value.len = b.value.len)
    (hz : b.value.uval ≠ 0) :
    Gives (a.wrappingDivAssign b) (a.intoWrappingDiv b) (a.opDiv b) (a.opDivAssign b)
      (UInt.Is a.value.len (a.value.uval / b.value.uval)) ∧
    Gives (a.wrappingRemAssign b) (a.intoWrappingRem b) (a.opRem b) (a.opRemAssign b)
      (UInt.Is a.value.len (a.value.uval % b.value.uval)) := by
  obtain ⟨-, -, h1, h2⟩ := C09_unsigned_division ha hb h hz
  obtain ⟨c1, e1, p1⟩ := UInt.liftMut_ok h1
  obtain ⟨c2, e2, p2⟩ := UInt.liftMut_ok h2
  exact ⟨gives_of (f := UInt.wrappingDivAssign) rfl e1 p1,
    gives_of (f := UInt.wrappingRemAssign) rfl e2 p2⟩

example : Gives ((UInt.mk a7).wrappingDivAssign ⟨b7⟩) ((UInt.mk a7).intoWrappingDiv ⟨b7⟩)
    ((UInt.mk a7).opDiv ⟨b7⟩) ((UInt.mk a7).opDivAssign ⟨b7⟩) (UInt.Is (bw 7) 1) :=
  (C49_unsigned_div (a := ⟨a7⟩) (b := ⟨b7⟩) a7_wf b7_wf rfl (by decide)).1

/-- C49, `UInt`: `<<` multiplies, `>>` divides by a power of two and fills with zeros. -/
theorem C49_unsigned_shift (ha : a.value.WF) (hs : s < a.value.w) :
    Gives (a.wrappingShlAssign s) (a.intoWrappingShl s) (a.opShl s) (a.opShlAssign s)
      (UInt.Is a.value.len ((a.value.uval * 2 ^ s) % 2 ^ a.value.w)) ∧
    Gives (a.wrappingShrAssign s) (a.intoWrappingShr s) (a.opShr s) (a.opShrAssign s)
      (UInt.Is a.value.len (a.value.uval / 2 ^ s)) := by
  obtain ⟨c1, e1, p1⟩ := UInt.liftMut_ok (C15_shl ha hs).1
  obtain ⟨c2, e2, p2⟩ := UInt.liftMut_ok (C16_lshr ha hs).1
  exact ⟨gives_of (f := UInt.wrappingShlAssign) (UInt.liftRes_tryForward a s _) e1 p1,
    gives_of (f := UInt.wrappingShrAssign) (UInt.liftRes_tryForward a s _) e2 p2⟩

example : Gives ((UInt.mk a7).wrappingShrAssign 3) ((UInt.mk a7).intoWrappingShr 3)
    ((UInt.mk a7).opShr 3) ((UInt.mk a7).opShrAssign 3) (UInt.Is (bw 7) 12) :=
  (C49_unsigned_shift (a := ⟨a7⟩) (s := 3) a7_wf (by decide)).2

/-- C49, `UInt`: truncation keeps the low bits, extension keeps the unsigned value, resizing is
one or the other; the wrong direction is an error. -/
theorem C49_unsigned_width (ha : a.value.WF) (t : BitWidth) :
    (t.toUsize ≤ a.value.w →
      GivesM (a.truncate t) (a.intoTruncate t) (UInt.Is t (a.value.uval % 2 ^ t.toUsize))) ∧
    (a.value.w < t.toUsize →
      FailsM a (a.truncate t) (a.intoTruncate t) (.truncationBitWidthTooLarge t a.value.len)) ∧
    (a.value.w ≤ t.toUsize → GivesM (a.extend t) (a.intoExtend t) (UInt.Is t a.value.uval)) ∧
    (t.toUsize < a.value.w →
      FailsM a (a.extend t) (a.intoExtend t) (.extensionBitWidthTooSmall t a.value.len)) ∧
    Yields (a.resize t) (UInt.Is t (a.value.uval % 2 ^ t.toUsize)) ∧
    a.intoResize t = a.resize t := by
  refine ⟨fun h => ?_, fun h => ?_, fun h => ?_, fun h => ?_, ?_, forwardBinMutImpl_eq _ _ _⟩
  · obtain ⟨c, e, p⟩ := UInt.liftMut_ok (C23_truncate ha h).1
    exact givesM_of (f := UInt.truncate) e p
  · exact failsM_of (f := UInt.truncate) (UInt.liftMut_err (C23_truncate_err h).1)
  · obtain ⟨c, e, p⟩ := UInt.liftMut_ok (C24_zero_extend ha h).1
    exact givesM_of (f := UInt.extend) e p
  · exact failsM_of (f := UInt.extend) (UInt.liftMut_err (C24_zero_extend_err h).1)
  · exact UInt.lift_ok (zeroResize_ok ha t)

example : Yields ((UInt.mk a7).resize (bw 70)) (UInt.Is (bw 70) 100) :=
  (C49_unsigned_width (a := ⟨a7⟩) a7_wf (bw 70)).2.2.2.2.1

/-- C49, `UInt`: the checked comparisons order by unsigned value, and report unmatched widths. -/
theorem C49_unsigned_compare (ha : a.value.WF) (hb : b.value.WF) (h : a.value.len = b.value.len) :
    a.checkedLt b = .ok (.ok (decide (a.value.uval < b.value.uval))) ∧
    a.checkedLe b = .ok (.ok (decide (a.value.uval ≤ b.value.uval))) ∧
    a.checkedGt b = .ok (.ok (decide (a.value.uval > b.value.uval))) ∧
    a.checkedGe b = .ok (.ok (decide (a.value.uval ≥ b.value.uval))) :=
  C27_unsigned ha hb h

example : (UInt.mk a7).checkedLt ⟨b7⟩ = .ok (.ok false) :=
  (C49_unsigned_compare (a := ⟨a7⟩) (b := ⟨b7⟩) a7_wf b7_wf rfl).1

/-- The order of two integers as a value of `Ordering`. -/
def ordOf (x y : Int) : Ordering := if x < y then .lt else if x = y then .eq else .gt

/-- C29, `UInt`: `partial_cmp` is the order of the unsigned values on equal widths and `None`
otherwise. -/
theorem C29_unsigned_partial_cmp (ha : a.value.WF) (hb : b.value.WF) :
    a.partialCmp b =
      .ok (if a.value.w = b.value.w then some (ordOf a.value.uval b.value.uval) else none) := by
  unfold UInt.partialCmp UInt.width ApInt.width
  by_cases h : a.value.len = b.value.len
  · have hw : a.value.w = b.value.w := by unfold w; rw [h]
    simp only [h, ne_eq, not_true_eq_false, if_false, (C49_unsigned_compare ha hb h).1,
      C03_eq ha hb, hw, true_and, if_true, run_bind_ok, expect, ordOf]
    by_cases h1 : a.value.uval < b.value.uval
    · simp [h1]
    · by_cases h2 : a.value.uval = b.value.uval
      · simp [h2]
      · simp [h1, h2]
  · have hw : a.value.w ≠ b.value.w := fun e => h (BitWidth.eq_iff.2 e)
    simp [h, hw]

example : (UInt.mk a7).partialCmp ⟨b7⟩ = .ok (some .gt) :=
  C29_unsigned_partial_cmp (a := ⟨a7⟩) (b := ⟨b7⟩) a7_wf b7_wf
example : (UInt.mk a7).partialCmp ⟨b65⟩ = .ok none :=
  C29_unsigned_partial_cmp (a := ⟨a7⟩) (b := ⟨b65⟩) a7_wf b65_wf

/-- C29, `UInt`: `<`, `<=`, `>`, `>=` are the order of the unsigned values on equal widths; all
are false on different widths. -/
theorem C29_unsigned_operators (ha : a.value.WF) (hb : b.value.WF) :
    a.lt b = .ok (decide (a.value.w = b.value.w ∧ a.value.uval < b.value.uval)) ∧
    a.le b = .ok (decide (a.value.w = b.value.w ∧ a.value.uval ≤ b.value.uval)) ∧
    a.gt b = .ok (decide (a.value.w = b.value.w ∧ a.value.uval > b.value.uval)) ∧
    a.ge b = .ok (decide (a.value.w = b.value.w ∧ a.value.uval ≥ b.value.uval)) := by
  unfold UInt.lt UInt.le UInt.gt UInt.ge
  by_cases h : a.value.len = b.value.len
  · have hw : a.value.w = b.value.w := by unfold w; rw [h]
    obtain ⟨h1, h2, h3, h4⟩ := C49_unsigned_compare ha hb h
    simp [h1, h2, h3, h4, UInt.unwrapOrFalse, hw]
  · have hw : a.value.w ≠ b.value.w := fun e => h (BitWidth.eq_iff.2 e)
    obtain ⟨h1, h2, h3, h4, -⟩ := C13_compare h
    simp [UInt.checkedLt, UInt.checkedLe, UInt.checkedGt, UInt.checkedGe, h1, h2, h3, h4,
      UInt.unwrapOrFalse, hw]

example : (UInt.mk a7).ge ⟨b7⟩ = .ok true :=
  (C29_unsigned_operators (a := ⟨a7⟩) (b := ⟨b7⟩) a7_wf b7_wf).2.2.2

/-- C29, `UInt`: the operators agree with `partial_cmp`. -/
theorem C29_unsigned_agree (ha : a.value.WF) (hb : b.value.WF) :
    ∃ o, a.partialCmp b = .ok o ∧
      a.lt b = .ok (decide (o = some .lt)) ∧
      a.le b = .ok (decide (o = some .lt ∨ o = some .eq)) ∧
      a.gt b = .ok (decide (o = some .gt)) ∧
      a.ge b = .ok (decide (o = some .gt ∨ o = some .eq)) := by
  obtain ⟨h1, h2, h3, h4⟩ := C29_unsigned_operators ha hb
  refine ⟨_, C29_unsigned_partial_cmp ha hb, ?_⟩
  rw [h1, h2, h3, h4]
  by_cases hw : a.value.w = b.value.w
  · rcases Nat.lt_trichotomy a.value.uval b.value.uval with h | h | h
    · have e : ordOf a.value.uval b.value.uval = .lt := by simp [ordOf, h]
      rw [if_pos hw, e]
      simp [hw, h, h.le, Nat.not_lt.2 h.le, Nat.not_le.2 h]
    · have e : ordOf a.value.uval b.value.uval = .eq := by simp [ordOf, h]
      rw [if_pos hw, e]
      simp [hw, h]
    · have e : ordOf a.value.uval b.value.uval = .gt := by
        simp [ordOf, Nat.not_lt.2 h.le, Nat.ne_of_gt h]
      rw [if_pos hw, e]
      simp [hw, h, h.le, Nat.not_lt.2 h.le, Nat.not_le.2 h]
  · simp [hw]

/-- C49, `UInt`: constructors hold the intended unsigned value. -/
theorem C49_unsigned_construct (t : BitWidth) (v : Bool) (v8 : BitVec 8) (v16 : BitVec 16)
    (v32 : BitVec 32) (v64 : BitVec 64) (v128 : BitVec 128) :
    Yields (UInt.zero t) (UInt.Is t 0) ∧ Yields (UInt.one t) (UInt.Is t 1) ∧
    Yields (UInt.allUnset t) (UInt.Is t 0) ∧
    Yields (UInt.allSet t) (UInt.Is t (2 ^ t.toUsize - 1)) ∧
    Yields (UInt.minValue t) (UInt.Is t 0) ∧
    Yields (UInt.maxValue t) (UInt.Is t (2 ^ t.toUsize - 1)) ∧
    Yields (UInt.fromBool v) (UInt.Is BitWidth.w1 (if v then 1 else 0)) ∧
    Yields (UInt.fromU8 v8) (UInt.Is BitWidth.w8 v8.toNat) ∧
    Yields (UInt.fromU16 v16) (UInt.Is BitWidth.w16 v16.toNat) ∧
    Yields (UInt.fromU32 v32) (UInt.Is BitWidth.w32 v32.toNat) ∧
    Yields (UInt.fromU64 v64) (UInt.Is BitWidth.w64 v64.toNat) ∧
    Yields (UInt.fromU128 v128) (UInt.Is BitWidth.w128 v128.toNat) := by
  obtain ⟨h1, h2, h3, h4, h5, h6, -⟩ := C30_constants t
  obtain ⟨g1, g2, -, g3, -, g4, -, g5, -, g6, -⟩ := C30_from_primitive v v8 v16 v32 v64 v128
  exact ⟨UInt.lift_ok h1, UInt.lift_ok h2, UInt.lift_ok h1, UInt.lift_ok h4, UInt.lift_ok h5,
    UInt.lift_ok h6, UInt.lift_ok g1, UInt.lift_ok g2, UInt.lift_ok g3, UInt.lift_ok g4,
    UInt.lift_ok g5, UInt.lift_ok g6⟩

example : Yields (UInt.maxValue (bw 70)) (UInt.Is (bw 70) (2 ^ 70 - 1)) :=
  (C49_unsigned_construct (bw 70) true 0 0 0 0 0).2.2.2.2.2.1

/-- C49, `UInt`: the bitwise operators act on every bit position. -/
theorem C49_unsigned_bitwise (ha : a.value.WF) (hb : b.value.WF) (h : a.value.len = b.value.len) :
    Gives (a.bitandAssign b) (a.intoBitand b) (a.opBitAnd b) (a.opBitAndAssign b)
      (UInt.Is a.value.len (a.value.uval &&& b.value.uval)) ∧
    Gives (a.bitorAssign b) (a.intoBitor b) (a.opBitOr b) (a.opBitOrAssign b)
      (UInt.Is a.value.len (a.value.uval ||| b.value.uval)) ∧
    Gives (a.bitxorAssign b) (a.intoBitxor b) (a.opBitXor b) (a.opBitXorAssign b)
      (UInt.Is a.value.len (a.value.uval ^^^ b.value.uval)) ∧
    Yields a.bitnot (UInt.Is a.value.len (2 ^ a.value.w - 1 - a.value.uval)) ∧
    a.intoBitnot = a.bitnot ∧ a.opNot = a.bitnot := by
  obtain ⟨c1, e1, p1⟩ := UInt.liftMut_ok (bitandAssign_ok ha hb h)
  obtain ⟨c2, e2, p2⟩ := UInt.liftMut_ok (bitorAssign_ok ha hb h)
  obtain ⟨c3, e3, p3⟩ := UInt.liftMut_ok (bitxorAssign_ok ha hb h)
  exact ⟨gives_of (f := UInt.bitandAssign) rfl e1 p1, gives_of (f := UInt.bitorAssign) rfl e2 p2,
    gives_of (f := UInt.bitxorAssign) rfl e3 p3, UInt.lift_ok (bitnot_ok ha),
    forwardMutImpl_eq _ _, forwardMutImpl_eq _ _⟩

example : Gives ((UInt.mk a7).bitxorAssign ⟨b7⟩) ((UInt.mk a7).intoBitxor ⟨b7⟩)
    ((UInt.mk a7).opBitXor ⟨b7⟩) ((UInt.mk a7).opBitXorAssign ⟨b7⟩) (UInt.Is (bw 7) 88) :=
  (C49_unsigned_bitwise (a := ⟨a7⟩) (b := ⟨b7⟩) a7_wf b7_wf rfl).2.2.1

/-- C48, `UInt`: on unmatched widths every binary method reports the widths and every binary
operator panics. -/
theorem C48_unsigned_mismatch (h : a.value.len ≠ b.value.len) :
    let e := Err.unmatchingBitwidth a.value.len b.value.len
    Fails a (a.wrappingAddAssign b) (a.intoWrappingAdd b) (a.opAdd b) (a.opAddAssign b) e ∧
    Fails a (a.wrappingSubAssign b) (a.intoWrappingSub b) (a.opSub b) (a.opSubAssign b) e ∧
    Fails a (a.wrappingMulAssign b) (a.intoWrappingMul b) (a.opMul b) (a.opMulAssign b) e ∧
    Fails a (a.wrappingDivAssign b) (a.intoWrappingDiv b) (a.opDiv b) (a.opDivAssign b) e ∧
    Fails a (a.wrappingRemAssign b) (a.intoWrappingRem b) (a.opRem b) (a.opRemAssign b) e ∧
    Fails a (a.bitandAssign b) (a.intoBitand b) (a.opBitAnd b) (a.opBitAndAssign b) e ∧
    Fails a (a.bitorAssign b) (a.intoBitor b) (a.opBitOr b) (a.opBitOrAssign b) e ∧
    Fails a (a.bitxorAssign b) (a.intoBitxor b) (a.opBitXor b) (a.opBitXorAssign b) e := by
  obtain ⟨h1, h2, h3, h4, h5, h6⟩ := C13_in_place h
  obtain ⟨-, -, h7, h8, -⟩ := C13_unsigned_division h
  exact ⟨fails_of (f := UInt.wrappingAddAssign) rfl (UInt.liftMut_err h1),
    fails_of (f := UInt.wrappingSubAssign) rfl (UInt.liftMut_err h2),
    fails_of (f := UInt.wrappingMulAssign) rfl (UInt.liftMut_err h3),
    fails_of (f := UInt.wrappingDivAssign) rfl (UInt.liftMut_err h7),
    fails_of (f := UInt.wrappingRemAssign) rfl (UInt.liftMut_err h8),
    fails_of (f := UInt.bitandAssign) rfl (UInt.liftMut_err h4),
    fails_of (f := UInt.bitorAssign) rfl (UInt.liftMut_err h5),
    fails_of (f := UInt.bitxorAssign) rfl (UInt.liftMut_err h6)⟩

example : (UInt.mk a7).opAdd ⟨b65⟩ = .error .panic :=
  (C48_unsigned_mismatch (a := ⟨a7⟩) (b := ⟨b65⟩) (by decide)).1.2.2.1

/-- C48, `UInt`: a zero divisor is an error and makes `/` and `%` panic; a shift amount that
reaches the width is an error and makes `<<` and `>>` panic. -/
theorem C48_unsigned_div_shift (ha : a.value.WF) :
    (∀ b : UInt, b.value.WF → a.value.len = b.value.len → b.value.uval = 0 →
      Fails a (a.wrappingDivAssign b) (a.intoWrappingDiv b) (a.opDiv b) (a.opDivAssign b)
        (.divisionByZero .unsignedDiv a.value) ∧
      Fails a (a.wrappingRemAssign b) (a.intoWrappingRem b) (a.opRem b) (a.opRemAssign b)
        (.divisionByZero .unsignedRem a.value)) ∧
    (∀ s, a.value.w ≤ s →
      Fails a (a.wrappingShlAssign s) (a.intoWrappingShl s) (a.opShl s) (a.opShlAssign s)
        (.invalidShiftAmount s a.value.len) ∧
      Fails a (a.wrappingShrAssign s) (a.intoWrappingShr s) (a.opShr s) (a.opShrAssign s)
        (.invalidShiftAmount s a.value.len)) := by
  constructor
  · intro b hb h hz
    obtain ⟨-, -, h1, h2, -⟩ := C12_division_by_zero ha hb h hz
    exact ⟨fails_of (f := UInt.wrappingDivAssign) rfl (UInt.liftMut_err h1),
      fails_of (f := UInt.wrappingRemAssign) rfl (UInt.liftMut_err h2)⟩
  · intro s hs
    exact ⟨fails_of (f := UInt.wrappingShlAssign) (UInt.liftRes_tryForward a s _)
        (UInt.liftMut_err (wrappingShlAssign_err hs)),
      fails_of (f := UInt.wrappingShrAssign) (UInt.liftRes_tryForward a s _)
        (UInt.liftMut_err (wrappingLshrAssign_err hs))⟩

example : (UInt.mk a7).opShr 7 = .error .panic :=
  ((C48_unsigned_div_shift (a := ⟨a7⟩) a7_wf).2 7 (by decide)).2.2.2.1
example : (UInt.mk a7).opDiv ⟨⟨bw 7, .inl 0⟩⟩ = .error .panic :=
  ((C48_unsigned_div_shift (a := ⟨a7⟩) a7_wf).1 ⟨⟨bw 7, .inl 0⟩⟩ (by decide) rfl
    (by decide)).1.2.2.1

end Verif.Props
