import Verif.Props.WrapUnsigned

/-!
# The signed wrapper type (C29, C35, C38, C49, C50 and the operators of C48 for `Int`)

All results are about the signed value of the wrapped integer.  `Int.bmod z (2 ^ w)` is the number
in `[-2^(w-1), 2^(w-1))` that is congruent to `z` modulo `2 ^ w`.
-/

namespace Verif.Props

open ApInt Ex

variable {a b : SInt} {s : Nat}

/-- C49, `Int`: arithmetic on equal widths, in all four forms, is arithmetic of the signed values
reduced to the signed range. -/
theorem C49_signed_arith (ha : a.value.WF) (hb : b.value.WF) (h : a.value.len = b.value.len) :
    Gives (a.wrappingAddAssign b) (a.intoWrappingAdd b) (a.opAdd b) (a.opAddAssign b)
      (SInt.Is a.value.len (Int.bmod (a.value.sval + b.value.sval) (2 ^ a.value.w))) ∧
    Gives (a.wrappingSubAssign b) (a.intoWrappingSub b) (a.opSub b) (a.opSubAssign b)
      (SInt.Is a.value.len (Int.bmod (a.value.sval - b.value.sval) (2 ^ a.value.w))) ∧
    Gives (a.wrappingMulAssign b) (a.intoWrappingMul b) (a.opMul b) (a.opMulAssign b)
      (SInt.Is a.value.len (Int.bmod (a.value.sval * b.value.sval) (2 ^ a.value.w))) := by
  have h1 := (C04_add ha hb h).1
  have h2 := (C05_sub ha hb h).1
  have h3 := (C07_mul ha hb h).1
  rw [add_wrap h] at h1
  rw [sub_wrap h] at h2
  rw [mul_wrap h] at h3
  obtain ⟨c1, e1, p1⟩ := SInt.liftMut_ok h1
  obtain ⟨c2, e2, p2⟩ := SInt.liftMut_ok h2
  obtain ⟨c3, e3, p3⟩ := SInt.liftMut_ok h3
  exact ⟨gives_of (f := SInt.wrappingAddAssign) rfl e1 p1,
    gives_of (f := SInt.wrappingSubAssign) rfl e2 p2,
    gives_of (f := SInt.wrappingMulAssign) rfl e3 p3⟩

example : Gives ((SInt.mk a7).wrappingSubAssign ⟨b7⟩) ((SInt.mk a7).intoWrappingSub ⟨b7⟩)
    ((SInt.mk a7).opSub ⟨b7⟩) ((SInt.mk a7).opSubAssign ⟨b7⟩) (SInt.Is (bw 7) 40) :=
  (C49_signed_arith (a := ⟨a7⟩) (b := ⟨b7⟩) a7_wf b7_wf rfl).2.1

/-- C49, `Int`: negation. -/
theorem C49_signed_neg (ha : a.value.WF) :
    Yields a.wrappingNeg (SInt.Is a.value.len (Int.bmod (-a.value.sval) (2 ^ a.value.w))) ∧
    a.intoWrappingNeg = a.wrappingNeg ∧ a.opNeg = a.wrappingNeg := by
  have h := (C06_inc_dec_neg ha).2.2.2.2.1
  rw [neg_wrap] at h
  exact ⟨SInt.lift_ok h, forwardMutImpl_eq _ _, forwardMutImpl_eq _ _⟩

example : Yields (SInt.mk a7).wrappingNeg (SInt.Is (bw 7) 28) :=
  (C49_signed_neg (a := ⟨a7⟩) a7_wf).1

/-- C49, `Int`: `/` rounds toward zero and `%` is the matching remainder; the one quotient out of
range (the minimum by -1) wraps to the minimum. -/
theorem C49_signed_div (ha : a.value.WF) (hb : b.value.WF) (h : a.value.len = b.value.len)
    (hz : b.value.sval ≠ 0) :
    Gives (a.wrappingDivAssign b) (a.intoWrappingDiv b) (a.opDiv b) (a.opDivAssign b)
      (SInt.Is a.value.len (if a.value.sval = -2 ^ (a.value.w - 1) ∧ b.value.sval = -1
        then a.value.sval else a.value.sval.tdiv b.value.sval)) ∧
    Gives (a.wrappingRemAssign b) (a.intoWrappingRem b) (a.opRem b) (a.opRemAssign b)
      (SInt.Is a.value.len (a.value.sval.tmod b.value.sval)) := by
  have hz' : b.value.uval ≠ 0 := by
    intro h0
    apply hz
    have : (0:Nat) < 2 ^ (b.value.w - 1) := by positivity
    unfold sval
    rw [h0, if_pos this]; rfl
  have hrange := sval_range ha
  obtain ⟨-, -, h1, h2, -⟩ := C11_signed_division ha hb h hz'
  obtain ⟨c1, e1, p1⟩ := SInt.liftMut_ok h1
  obtain ⟨c2, e2, p2⟩ := SInt.liftMut_ok h2
  refine ⟨gives_of (f := SInt.wrappingDivAssign) rfl e1 ?_,
    gives_of (f := SInt.wrappingRemAssign) rfl e2 ?_⟩
  · convert p1 using 1
    have hp : (0:Int) < 2 ^ (a.value.w - 1) := by positivity
    have hq := Int.natAbs_tdiv a.value.sval b.value.sval
    by_cases hm : a.value.sval = -2 ^ (a.value.w - 1) ∧ b.value.sval = -1
    · rw [if_pos hm, hm.1, hm.2]
      have h2p := two_pow_pred a.value.pos_w
      have e : (-2 ^ (a.value.w - 1) : Int).tdiv (-1) = -2 ^ (a.value.w - 1) + ((2 ^ a.value.w : Nat) : Int) := by
        rw [Int.tdiv_neg, Int.tdiv_one, h2p]
        push_cast; ring
      show _ = Int.bmod ((-2 ^ (a.value.w - 1) : Int).tdiv (-1)) (2 ^ a.value.w)
      rw [e, Int.add_bmod_right]
      exact (bmod_of_range a.value.pos_w (le_refl _) (by omega)).symm
    · rw [if_neg hm]
      symm
      have habs : (a.value.sval.tdiv b.value.sval).natAbs =
        a.value.sval.natAbs / b.value.sval.natAbs := Int.natAbs_tdiv _ _
      have hle := Nat.div_le_self a.value.sval.natAbs b.value.sval.natAbs
      apply bmod_of_range a.value.pos_w
      · generalize (2:Int) ^ (a.value.w - 1) = P at *
        omega
      · by_cases hb1 : b.value.sval.natAbs = 1
        · rcases Int.natAbs_eq b.value.sval with hbe | hbe
          · rw [hbe, hb1]; simp only [Nat.cast_one, Int.tdiv_one]; exact hrange.2
          · rw [hbe, hb1]; simp only [Nat.cast_one, Int.tdiv_neg, Int.tdiv_one]
            rw [hb1] at hbe
            have : a.value.sval ≠ -2 ^ (a.value.w - 1) := fun h => hm ⟨h, by simpa using hbe⟩
            omega
        · by_cases ha0 : a.value.sval = 0
          · rw [ha0, Int.zero_tdiv]; exact hp
          · have : a.value.sval.natAbs / b.value.sval.natAbs < a.value.sval.natAbs :=
              Nat.div_lt_self (by omega) (by omega)
            generalize (2:Int) ^ (a.value.w - 1) = P at *
            omega
  · convert p2 using 1
    symm
    have hq : (a.value.sval.tmod b.value.sval).natAbs =
      a.value.sval.natAbs % b.value.sval.natAbs := Int.natAbs_tmod _ _
    have hle := Nat.mod_le a.value.sval.natAbs b.value.sval.natAbs
    apply bmod_of_range a.value.pos_w
    · generalize (2:Int) ^ (a.value.w - 1) = P at *
      omega
    · by_cases hn : 0 ≤ a.value.sval
      · generalize (2:Int) ^ (a.value.w - 1) = P at *
        omega
      · have : a.value.sval.tmod b.value.sval ≤ 0 := by
          have := Int.tmod_nonneg b.value.sval (a := -a.value.sval) (by omega)
          rw [Int.neg_tmod] at this
          omega
        have hp : (0:Int) < 2 ^ (a.value.w - 1) := by positivity
        omega

example : Gives ((SInt.mk a7).wrappingDivAssign ⟨b7⟩) ((SInt.mk a7).intoWrappingDiv ⟨b7⟩)
    ((SInt.mk a7).opDiv ⟨b7⟩) ((SInt.mk a7).opDivAssign ⟨b7⟩) (SInt.Is (bw 7) 0) :=
  (C49_signed_div (a := ⟨a7⟩) (b := ⟨b7⟩) a7_wf b7_wf rfl (by decide)).1
example : Gives ((SInt.mk b150).wrappingRemAssign ⟨a150⟩) ((SInt.mk b150).intoWrappingRem ⟨a150⟩)
    ((SInt.mk b150).opRem ⟨a150⟩) ((SInt.mk b150).opRemAssign ⟨a150⟩)
    (SInt.Is (bw 150) (-2722258935367505558495291575627996463104)) :=
  (C49_signed_div (a := ⟨b150⟩) (b := ⟨a150⟩) b150_wf a150_wf rfl (by decide)).2

/-- C49, `Int`: `<<` multiplies by a power of two in the signed range, `>>` divides by one rounding
toward minus infinity. -/
theorem C49_signed_shift (ha : a.value.WF) (hs : s < a.value.w) :
    Gives (a.wrappingShlAssign s) (a.intoWrappingShl s) (a.opShl s) (a.opShlAssign s)
      (SInt.Is a.value.len (Int.bmod (a.value.sval * 2 ^ s) (2 ^ a.value.w))) ∧
    Gives (a.wrappingShrAssign s) (a.intoWrappingShr s) (a.opShr s) (a.opShrAssign s)
      (SInt.Is a.value.len (a.value.sval / 2 ^ s)) := by
  have h1 := (C15_shl ha hs).1
  rw [shl_wrap] at h1
  obtain ⟨c1, e1, p1⟩ := SInt.liftMut_ok h1
  obtain ⟨c2, e2, -, p2⟩ := C17_ashr ha hs
  obtain ⟨c2, e2, p2⟩ := SInt.liftMut_P (P := fun c => c.WF ∧ c.len = a.value.len ∧
    c.sval = a.value.sval / 2 ^ s) ⟨c2, e2, p2⟩
  exact ⟨gives_of (f := SInt.wrappingShlAssign) (SInt.liftRes_tryForward a s _) e1 p1,
    gives_of (f := SInt.wrappingShrAssign) (SInt.liftRes_tryForward a s _) e2 p2⟩

example : Gives ((SInt.mk a7).wrappingShrAssign 3) ((SInt.mk a7).intoWrappingShr 3)
    ((SInt.mk a7).opShr 3) ((SInt.mk a7).opShrAssign 3) (SInt.Is (bw 7) (-4)) :=
  (C49_signed_shift (a := ⟨a7⟩) (s := 3) a7_wf (by decide)).2

/-- C49, `Int`: truncation reduces the signed value to the smaller signed range, extension keeps
it, resizing is one or the other; the wrong direction is an error. -/
theorem C49_signed_width (ha : a.value.WF) (t : BitWidth) :
    (t.toUsize ≤ a.value.w → GivesM (a.truncate t) (a.intoTruncate t)
      (SInt.Is t (Int.bmod a.value.sval (2 ^ t.toUsize)))) ∧
    (a.value.w < t.toUsize →
      FailsM a (a.truncate t) (a.intoTruncate t) (.truncationBitWidthTooLarge t a.value.len)) ∧
    (a.value.w ≤ t.toUsize → GivesM (a.extend t) (a.intoExtend t) (SInt.Is t a.value.sval)) ∧
    (t.toUsize < a.value.w →
      FailsM a (a.extend t) (a.intoExtend t) (.extensionBitWidthTooSmall t a.value.len)) ∧
    Yields (a.resize t) (SInt.Is t (Int.bmod a.value.sval (2 ^ t.toUsize))) ∧
    a.intoResize t = a.resize t := by
  refine ⟨fun h => ?_, fun h => ?_, fun h => ?_, fun h => ?_, ?_, forwardBinMutImpl_eq _ _ _⟩
  · have h1 := (C23_truncate ha h).1
    rw [truncate_wrap h] at h1
    obtain ⟨c, e, p⟩ := SInt.liftMut_ok h1
    exact givesM_of (f := SInt.truncate) e p
  · exact failsM_of (f := SInt.truncate) (SInt.liftMut_err (C23_truncate_err h).1)
  · obtain ⟨c, e, -, p⟩ := C25_sign_extend ha h
    obtain ⟨c, e, p⟩ := SInt.liftMut_P (P := fun c => c.WF ∧ c.len = t ∧
      c.sval = a.value.sval) ⟨c, e, p⟩
    exact givesM_of (f := SInt.extend) e p
  · exact failsM_of (f := SInt.extend) (SInt.liftMut_err (C25_sign_extend_err h).1)
  · exact SInt.lift_ok (signResize_ok ha t)

example : Yields ((SInt.mk a7).resize (bw 70)) (SInt.Is (bw 70) (-28)) := by
  have h := (C49_signed_width (a := ⟨a7⟩) a7_wf (bw 70)).2.2.2.2.1
  have e : Int.bmod (SInt.mk a7).value.sval (2 ^ (bw 70).toUsize) = -28 := by decide +kernel
  rwa [e] at h

/-- C49, `Int`: the checked comparisons order by signed value. -/
theorem C49_signed_compare (ha : a.value.WF) (hb : b.value.WF) (h : a.value.len = b.value.len) :
    a.checkedLt b = .ok (.ok (decide (a.value.sval < b.value.sval))) ∧
    a.checkedLe b = .ok (.ok (decide (a.value.sval ≤ b.value.sval))) ∧
    a.checkedGt b = .ok (.ok (decide (a.value.sval > b.value.sval))) ∧
    a.checkedGe b = .ok (.ok (decide (a.value.sval ≥ b.value.sval))) :=
  C28_signed ha hb h

example : (SInt.mk a7).checkedLt ⟨b7⟩ = .ok (.ok true) :=
  (C49_signed_compare (a := ⟨a7⟩) (b := ⟨⟨bw 7, .inl 60⟩⟩) a7_wf b7_wf rfl).1

/-- C29, `Int`: `partial_cmp` is the order of the signed values on equal widths and `None`
otherwise. -/
theorem C29_signed_partial_cmp (ha : a.value.WF) (hb : b.value.WF) :
    a.partialCmp b =
      .ok (if a.value.w = b.value.w then some (ordOf a.value.sval b.value.sval) else none) := by
  unfold SInt.partialCmp SInt.width ApInt.width
  by_cases h : a.value.len = b.value.len
  · have hw : a.value.w = b.value.w := by unfold w; rw [h]
    have heq : (a.value.uval = b.value.uval) = (a.value.sval = b.value.sval) := by
      rw [(C28_total ha hb h).1, eq_iff_iff]
      exact ⟨fun e => ext_of_uval ha.1 hb.1 h e, fun e => by rw [e]⟩
    simp only [h, ne_eq, not_true_eq_false, if_false, (C49_signed_compare ha hb h).1,
      C03_eq ha hb, hw, true_and, if_true, run_bind_ok, expect, ordOf, heq]
    by_cases h1 : a.value.sval < b.value.sval
    · simp [h1]
    · by_cases h2 : a.value.sval = b.value.sval
      · simp [h2]
      · simp [h1, h2]
  · have hw : a.value.w ≠ b.value.w := fun e => h (BitWidth.eq_iff.2 e)
    simp [h, hw]

example : (SInt.mk a7).partialCmp ⟨b7⟩ = .ok (some .lt) :=
  C29_signed_partial_cmp (a := ⟨a7⟩) (b := ⟨b7⟩) a7_wf b7_wf
example : (SInt.mk a7).partialCmp ⟨b65⟩ = .ok none :=
  C29_signed_partial_cmp (a := ⟨a7⟩) (b := ⟨b65⟩) a7_wf b65_wf

/-- C29, `Int`: `<`, `<=`, `>`, `>=` are the order of the signed values on equal widths; all are
false on different widths. -/
theorem C29_signed_operators (ha : a.value.WF) (hb : b.value.WF) :
    a.lt b = .ok (decide (a.value.w = b.value.w ∧ a.value.sval < b.value.sval)) ∧
    a.le b = .ok (decide (a.value.w = b.value.w ∧ a.value.sval ≤ b.value.sval)) ∧
    a.gt b = .ok (decide (a.value.w = b.value.w ∧ a.value.sval > b.value.sval)) ∧
    a.ge b = .ok (decide (a.value.w = b.value.w ∧ a.value.sval ≥ b.value.sval)) := by
  unfold SInt.lt SInt.le SInt.gt SInt.ge
  by_cases h : a.value.len = b.value.len
  · have hw : a.value.w = b.value.w := by unfold w; rw [h]
    obtain ⟨h1, h2, h3, h4⟩ := C49_signed_compare ha hb h
    simp [h1, h2, h3, h4, SInt.unwrapOrFalse, hw]
  · have hw : a.value.w ≠ b.value.w := fun e => h (BitWidth.eq_iff.2 e)
    obtain ⟨-, -, -, -, h1, h2, h3, h4⟩ := C13_compare h
    simp [SInt.checkedLt, SInt.checkedLe, SInt.checkedGt, SInt.checkedGe, h1, h2, h3, h4,
      SInt.unwrapOrFalse, hw]

example : (SInt.mk a7).ge ⟨b7⟩ = .ok false :=
  (C29_signed_operators (a := ⟨a7⟩) (b := ⟨b7⟩) a7_wf b7_wf).2.2.2

/-- C29, `Int`: the operators agree with `partial_cmp`. -/
theorem C29_signed_agree (ha : a.value.WF) (hb : b.value.WF) :
    ∃ o, a.partialCmp b = .ok o ∧
      a.lt b = .ok (decide (o = some .lt)) ∧
      a.le b = .ok (decide (o = some .lt ∨ o = some .eq)) ∧
      a.gt b = .ok (decide (o = some .gt)) ∧
      a.ge b = .ok (decide (o = some .gt ∨ o = some .eq)) := by
  obtain ⟨h1, h2, h3, h4⟩ := C29_signed_operators ha hb
  refine ⟨_, C29_signed_partial_cmp ha hb, ?_⟩
  rw [h1, h2, h3, h4]
  by_cases hw : a.value.w = b.value.w
  · rcases lt_trichotomy a.value.sval b.value.sval with h | h | h
    · have e : ordOf a.value.sval b.value.sval = .lt := by simp [ordOf, h]
      rw [if_pos hw, e]
      simp [hw, h, h.le, not_lt.2 h.le, not_le.2 h]
    · have e : ordOf a.value.sval b.value.sval = .eq := by simp [ordOf, h]
      rw [if_pos hw, e]
      simp [hw, h]
    · have e : ordOf a.value.sval b.value.sval = .gt := by
        simp [ordOf, not_lt.2 h.le, ne_of_gt h]
      rw [if_pos hw, e]
      simp [hw, h, h.le, not_lt.2 h.le, not_le.2 h]
  · simp [hw]

/-! ## C35: sign tests -/

/-- C35: `is_negative` holds exactly for negative values, `is_positive` exactly for the others
(zero included), and `signum` is the sign. -/
theorem C35_sign (ha : a.value.WF) :
    a.isNegative = .ok (decide (a.value.sval < 0)) ∧
    a.isPositive = .ok (decide (0 ≤ a.value.sval)) ∧
    a.signum = .ok a.value.sval.sign := by
  have hz : a.isZero = .ok (decide (a.value.uval = 0)) := isZero_ok ha.1
  have hlt := ha.2
  zify at hlt
  rcases msb_sval ha with ⟨hm, hs⟩ | ⟨hm, hs, hp⟩
  · have h1 : a.isPositive = .ok true := by simp [SInt.isPositive, SInt.msb, hm]
    have h2 : a.isNegative = .ok false := by simp [SInt.isNegative, h1]
    refine ⟨?_, ?_, ?_⟩
    · rw [h2, decide_eq_false (by omega)]
    · rw [h1, decide_eq_true (by omega)]
    · simp only [SInt.signum, hz, h2, run_bind_ok]
      by_cases h0 : a.value.uval = 0
      · simp [h0, hs]
      · have : a.value.sval.sign = 1 := Int.sign_eq_one_of_pos (by omega)
        rw [this]; simp [h0]
  · have h1 : a.isPositive = .ok false := by simp [SInt.isPositive, SInt.msb, hm]
    have h2 : a.isNegative = .ok true := by simp [SInt.isNegative, h1]
    refine ⟨?_, ?_, ?_⟩
    · rw [h2, decide_eq_true (by omega)]
    · rw [h1, decide_eq_false (by omega)]
    · have : a.value.sval.sign = -1 := Int.sign_eq_neg_one_of_neg (by omega)
      rw [this]
      simp only [SInt.signum, hz, h2, run_bind_ok]
      simp [Nat.pos_iff_ne_zero.1 hp]

example : (SInt.mk a7).signum = .ok (-1) ∧ (SInt.mk b7).signum = .ok 1 :=
  ⟨(C35_sign (a := ⟨a7⟩) a7_wf).2.2, (C35_sign (a := ⟨b7⟩) b7_wf).2.2⟩

/-- C35: zero and parity tests of the wrappers. -/
theorem C35_wrappers (ha : a.value.WF) {u : UInt} (hu : u.value.WF) :
    a.isZero = .ok (decide (a.value.sval = 0)) ∧
    a.isEven = .ok (decide (a.value.sval % 2 = 0)) ∧
    a.isOdd = .ok (decide (a.value.sval % 2 = 1)) ∧
    u.isZero = .ok (decide (u.value.uval = 0)) ∧
    u.isEven = .ok (decide (u.value.uval % 2 = 0)) ∧
    u.isOdd = .ok (decide (u.value.uval % 2 = 1)) := by
  obtain ⟨h1, -, h2, h3⟩ := C35_zero_parity ha
  obtain ⟨g1, -, g2, g3⟩ := C35_zero_parity hu
  have hlt := ha.2
  have hp := two_pow_pred a.value.pos_w
  zify at hlt hp
  have hpos : (0:Int) < 2 ^ (a.value.w - 1) := by positivity
  have hz : (a.value.uval = 0) = (a.value.sval = 0) := by
    rw [eq_iff_iff]; unfold sval
    zify
    split <;> omega
  have hmod : a.value.sval % 2 = ((a.value.uval % 2 : Nat) : Int) := by
    unfold sval
    split <;> omega
  refine ⟨?_, ?_, ?_, g1, g2, g3⟩
  · simp only [← hz]; exact h1
  · rw [hmod]
    show a.value.isEven = _
    rw [h2]; congr 2; simp; omega
  · rw [hmod]
    show a.value.isOdd = _
    rw [h3]; congr 2; simp; omega

example : (SInt.mk b150).isEven = .ok true := (C35_wrappers (a := ⟨b150⟩) (u := ⟨a7⟩) b150_wf a7_wf).2.1

/-! ## C38: absolute value -/

/-- C38: `wrapping_abs` is the absolute value reduced to the signed range: non-negative values
stay, the minimum maps to itself, every other result is non-negative. -/
theorem C38_abs (ha : a.value.WF) :
    Yields a.wrappingAbs
      (SInt.Is a.value.len (Int.bmod |a.value.sval| (2 ^ a.value.w))) ∧
    a.intoAbs = a.wrappingAbs ∧
    (0 ≤ a.value.sval → a.wrappingAbs = .ok a) ∧
    (a.value.sval = -2 ^ (a.value.w - 1) → a.wrappingAbs = .ok a) ∧
    (a.value.sval ≠ -2 ^ (a.value.w - 1) →
      Yields a.wrappingAbs (SInt.Is a.value.len |a.value.sval|)) := by
  have hr := sval_range ha
  have hlt := ha.2
  zify at hlt
  have hpos : (0:Int) < 2 ^ (a.value.w - 1) := by positivity
  have hnn : 0 ≤ a.value.sval → a.wrappingAbs = .ok a := by
    intro h
    rcases msb_sval ha with ⟨hm, -⟩ | ⟨hm, hs, -⟩
    · simp [SInt.wrappingAbs, SInt.msb, hm]
    · omega
  have hneg : a.value.sval < 0 → a.wrappingAbs = a.wrappingNeg := by
    intro h
    rcases msb_sval ha with ⟨hm, hs⟩ | ⟨hm, -⟩
    · omega
    · simp [SInt.wrappingAbs, SInt.msb, hm]
  have main : Yields a.wrappingAbs
      (SInt.Is a.value.len (Int.bmod |a.value.sval| (2 ^ a.value.w))) := by
    by_cases h : 0 ≤ a.value.sval
    · exact ⟨a, hnn h, ha, rfl, by rw [abs_of_nonneg h, bmod_sval ha]⟩
    · rw [hneg (by omega), abs_of_neg (by omega)]
      exact (C49_signed_neg ha).1
  refine ⟨main, forwardMutImpl_eq _ _, hnn, ?_, ?_⟩
  · intro hmin
    obtain ⟨c, e, h1, h2, h3⟩ := main
    rw [e]
    congr 1
    have hw : c.value.w = a.value.w := by unfold w; rw [h2]
    have e1 : |a.value.sval| = a.value.sval + ((2 ^ a.value.w : Nat) : Int) := by
      rw [abs_of_neg (by omega), hmin, two_pow_pred a.value.pos_w]
      push_cast; ring
    rw [e1, Int.add_bmod_right, bmod_sval ha] at h3
    have : c.value = a.value := (C28_total h1 ha h2).1.1 h3
    cases c; cases a; simp_all
  · intro hmin
    obtain ⟨c, e, h1, h2, h3⟩ := main
    refine ⟨c, e, h1, h2, ?_⟩
    rw [h3]
    have habs : |a.value.sval| < 2 ^ (a.value.w - 1) := by
      rw [abs_lt]; omega
    exact bmod_of_range a.value.pos_w (by have := abs_nonneg a.value.sval; omega) habs

example : Yields (SInt.mk a7).wrappingAbs (SInt.Is (bw 7) 28) :=
  (C38_abs (a := ⟨a7⟩) a7_wf).2.2.2.2 (by decide)
example : (SInt.mk ⟨bw 7, .inl 64⟩).wrappingAbs = .ok ⟨⟨bw 7, .inl 64⟩⟩ :=
  (C38_abs (a := ⟨⟨bw 7, .inl 64⟩⟩) (by decide)).2.2.2.1 (by decide)

/-! ## C50: one -/

/-- C50: `Int::one` is `None` exactly at width 1 and otherwise holds the signed value 1. -/
theorem C50_one (t : BitWidth) :
    (t.toUsize = 1 → SInt.one t = .ok none) ∧
    (t.toUsize ≠ 1 → ∃ c, SInt.one t = .ok (some c) ∧ SInt.Is t 1 c) := by
  unfold SInt.one
  constructor
  · intro h
    have : t = BitWidth.w1 := BitWidth.eq_iff.2 h
    rw [if_pos this]
  · intro h
    have h1 : t ≠ BitWidth.w1 := fun e => h (by rw [e]; rfl)
    obtain ⟨c, e, p1, p2, p3⟩ := (C30_constants t).2.1
    rw [if_neg h1]
    refine ⟨⟨c⟩, by simp [e, SInt.lift], p1, p2, ?_⟩
    have hw : c.w = t.toUsize := by unfold w; rw [p2]
    have hpos := t.pos
    unfold sval
    rw [p3, hw, if_pos]
    · rfl
    · exact Nat.one_lt_two_pow (by omega)

example : SInt.one (bw 1) = .ok none := (C50_one (bw 1)).1 rfl
example : ∃ c, SInt.one (bw 2) = .ok (some c) ∧ SInt.Is (bw 2) 1 c :=
  (C50_one (bw 2)).2 (by decide)

/-- C50: `Int::is_one` is false at width 1, where one is not representable, and right for widths
2 to 64.  (Above 64 bits it inherits the defect of C36.) -/
theorem C50_is_one (ha : a.value.WF) (h : a.value.w ≤ 64) :
    a.isOne = .ok (decide (a.value.sval = 1)) := by
  have hlt := ha.2
  have hp := two_pow_pred a.value.pos_w
  have hpos := a.value.pos_w
  unfold SInt.isOne SInt.width ApInt.width
  by_cases h1 : a.value.len = BitWidth.w1
  · have hw : a.value.w = 1 := by unfold w; rw [h1]; rfl
    rw [if_pos h1, decide_eq_false]
    have := (sval_range ha).2
    rw [hw] at this
    simp at this
    omega
  · have hw : a.value.w ≠ 1 := fun e => h1 (BitWidth.eq_iff.2 e)
    rw [if_neg h1, C36_is_one_partial ha h]
    have : 1 < 2 ^ (a.value.w - 1) := Nat.one_lt_two_pow (by omega)
    congr 2
    rw [eq_iff_iff]; unfold sval
    zify at *
    split <;> omega

example : (SInt.mk ⟨bw 1, .inl 1⟩).isOne = .ok false :=
  C50_is_one (a := ⟨⟨bw 1, .inl 1⟩⟩) (by decide) (by decide)

/-- C50: above 64 bits `is_one` does what `ApInt::is_one` does (C36), so it is wrong for one. -/
theorem C50_is_one_wide (ha : a.value.WF) (h : 64 < a.value.w) :
    a.isOne = .ok (decide (a.value.uval = 2 ^ (64 * ((a.value.w - 1) / 64)))) ∧
    (a.value.sval = 1 → a.isOne = .ok false) := by
  have h1 : a.value.len ≠ BitWidth.w1 := by
    intro e
    have hw : a.value.w = 1 := by unfold w; rw [e]; rfl
    omega
  have e : a.isOne = a.value.isOne := by
    unfold SInt.isOne SInt.width ApInt.width
    rw [if_neg h1]
  rw [e]
  obtain ⟨h2, h3⟩ := C36_wide ha h
  refine ⟨h2, fun hs => h3 ?_⟩
  have hlt := ha.2
  unfold sval at hs
  zify at *
  split at hs <;> omega

example : (SInt.mk b65).isOne = .ok false := by
  rw [(C50_is_one_wide (a := ⟨b65⟩) b65_wf (by decide)).1]
  decide

/-! ## C49: constructors, bitwise operations, conversions -/

/-- C49, `Int`: constructors hold the intended signed value. -/
theorem C49_signed_construct (t : BitWidth) (v8 : BitVec 8) (v16 : BitVec 16) (v32 : BitVec 32)
    (v64 : BitVec 64) (v128 : BitVec 128) :
    Yields (SInt.zero t) (SInt.Is t 0) ∧ Yields (SInt.allUnset t) (SInt.Is t 0) ∧
    Yields (SInt.allSet t) (SInt.Is t (-1)) ∧
    Yields (SInt.minValue t) (SInt.Is t (-2 ^ (t.toUsize - 1))) ∧
    Yields (SInt.maxValue t) (SInt.Is t (2 ^ (t.toUsize - 1) - 1)) ∧
    Yields (SInt.fromI8 v8) (SInt.Is BitWidth.w8 v8.toInt) ∧
    Yields (SInt.fromI16 v16) (SInt.Is BitWidth.w16 v16.toInt) ∧
    Yields (SInt.fromI32 v32) (SInt.Is BitWidth.w32 v32.toInt) ∧
    Yields (SInt.fromI64 v64) (SInt.Is BitWidth.w64 v64.toInt) ∧
    Yields (SInt.fromI128 v128) (SInt.Is BitWidth.w128 v128.toInt) := by
  have hpos : 0 < 2 ^ (t.toUsize - 1) := by positivity
  have hp := two_pow_pred t.pos
  have zero : Yields (SInt.zero t) (SInt.Is t 0) := by
    obtain ⟨c, e, p1, p2, p3⟩ := (C30_constants t).1
    refine ⟨⟨c⟩, by simp [SInt.zero, SInt.lift, e], p1, p2, ?_⟩
    unfold sval
    rw [p3, if_pos (by positivity)]; rfl
  obtain ⟨-, -, -, hs, -⟩ := C30_constants t
  obtain ⟨lo, hi, e1, e2, l1, l2, -⟩ := C30_signed_bounds t
  obtain ⟨-, -, g2, -, g3, -, g4, -, g5, -, g6⟩ := C30_from_primitive true v8 v16 v32 v64 v128
  refine ⟨zero, zero, ?_, ?_, ?_, ?_, ?_, ?_, ?_, ?_⟩
  · obtain ⟨c, e, p1, p2, p3⟩ := hs
    refine ⟨⟨c⟩, by simp [SInt.allSet, SInt.lift, e], p1, p2, ?_⟩
    have hw : c.w = t.toUsize := by unfold w; rw [p2]
    unfold sval
    rw [p3, hw, if_neg (by have := t.pos; omega), Nat.cast_sub (by omega)]
    push_cast; ring
  · obtain ⟨c, e, p1, p2, -⟩ := signedMinValue_ok t
    rw [e1] at e; cases e
    exact ⟨⟨lo⟩, by simp [SInt.minValue, SInt.lift, e1], p1, p2, l1⟩
  · obtain ⟨c, e, p1, p2, -⟩ := signedMaxValue_ok t
    rw [e2] at e; cases e
    exact ⟨⟨hi⟩, by simp [SInt.maxValue, SInt.lift, e2], p1, p2, l2⟩
  · obtain ⟨c, e, p1, p2, p3⟩ := g2
    exact ⟨⟨c⟩, by simp [SInt.fromI8, SInt.lift, e], p1, p2,
      sval_of_toNat (by unfold w; rw [p2]; rfl) p3⟩
  · obtain ⟨c, e, p1, p2, p3⟩ := g3
    exact ⟨⟨c⟩, by simp [SInt.fromI16, SInt.lift, e], p1, p2,
      sval_of_toNat (by unfold w; rw [p2]; rfl) p3⟩
  · obtain ⟨c, e, p1, p2, p3⟩ := g4
    exact ⟨⟨c⟩, by simp [SInt.fromI32, SInt.lift, e], p1, p2,
      sval_of_toNat (by unfold w; rw [p2]; rfl) p3⟩
  · obtain ⟨c, e, p1, p2, p3⟩ := g5
    exact ⟨⟨c⟩, by simp [SInt.fromI64, SInt.lift, e], p1, p2,
      sval_of_toNat (by unfold w; rw [p2]; rfl) p3⟩
  · obtain ⟨c, e, p1, p2, p3⟩ := g6
    exact ⟨⟨c⟩, by simp [SInt.fromI128, SInt.lift, e], p1, p2,
      sval_of_toNat (by unfold w; rw [p2]; rfl) p3⟩

example : Yields (SInt.minValue (bw 70)) (SInt.Is (bw 70) (-2 ^ 69)) :=
  (C49_signed_construct (bw 70) 0 0 0 0 0).2.2.2.1

/-- The `Int` is well-formed, has width `len` and the bit pattern `v`. -/
def SPat (len : BitWidth) (v : Nat) (c : SInt) : Prop :=
  c.value.WF ∧ c.value.len = len ∧ c.value.uval = v

/-- C49, `Int`: the bitwise operators act on the bit pattern. -/
theorem C49_signed_bitwise (ha : a.value.WF) (hb : b.value.WF) (h : a.value.len = b.value.len) :
    Gives (a.bitandAssign b) (a.intoBitand b) (a.opBitAnd b) (a.opBitAndAssign b)
      (SPat a.value.len (a.value.uval &&& b.value.uval)) ∧
    Gives (a.bitorAssign b) (a.intoBitor b) (a.opBitOr b) (a.opBitOrAssign b)
      (SPat a.value.len (a.value.uval ||| b.value.uval)) ∧
    Gives (a.bitxorAssign b) (a.intoBitxor b) (a.opBitXor b) (a.opBitXorAssign b)
      (SPat a.value.len (a.value.uval ^^^ b.value.uval)) ∧
    Yields a.bitnot (SInt.Is a.value.len (-1 - a.value.sval)) ∧
    a.intoBitnot = a.bitnot ∧ a.opNot = a.bitnot := by
  obtain ⟨c1, e1, p1⟩ := SInt.liftMut_P (bitandAssign_ok ha hb h)
  obtain ⟨c2, e2, p2⟩ := SInt.liftMut_P (bitorAssign_ok ha hb h)
  obtain ⟨c3, e3, p3⟩ := SInt.liftMut_P (bitxorAssign_ok ha hb h)
  refine ⟨gives_of (f := SInt.bitandAssign) rfl e1 p1, gives_of (f := SInt.bitorAssign) rfl e2 p2,
    gives_of (f := SInt.bitxorAssign) rfl e3 p3, ?_,
    forwardMutImpl_eq _ _, forwardMutImpl_eq _ _⟩
  obtain ⟨c, e, p1, p2, p3⟩ := bitnot_ok ha
  refine ⟨⟨c⟩, by simp [SInt.bitnot, SInt.lift, e], p1, p2, ?_⟩
  have hw : c.w = a.value.w := by unfold w; rw [p2]
  have hlt := ha.2
  have hp := two_pow_pred a.value.pos_w
  unfold sval
  rw [p3, hw]
  have hc : ((2 ^ a.value.w - 1 - a.value.uval : Nat) : Int) = 2 ^ a.value.w - 1 - a.value.uval := by
    rw [Nat.cast_sub (by omega), Nat.cast_sub (by omega)]; push_cast; ring
  rw [hc]
  have hp' : (2:Int) ^ a.value.w = 2 * 2 ^ (a.value.w - 1) := by exact_mod_cast hp
  by_cases h1 : a.value.uval < 2 ^ (a.value.w - 1)
  · rw [if_pos h1, if_neg (by omega)]; ring
  · rw [if_neg h1, if_pos (by omega)]; ring

example : Yields (SInt.mk a7).bitnot (SInt.Is (bw 7) 27) :=
  (C49_signed_bitwise (a := ⟨a7⟩) (b := ⟨b7⟩) a7_wf b7_wf rfl).2.2.2.1

/-- C49: converting between `Int`, `UInt` and `ApInt` keeps width and bit pattern, so converting
back gives the original. -/
theorem C49_conversions (a : SInt) (u : UInt) :
    a.intoUnsigned.value.len = a.value.len ∧ a.intoUnsigned.value.digits = a.value.digits ∧
    a.intoUnsigned.intoSigned = a ∧
    u.intoSigned.value.len = u.value.len ∧ u.intoSigned.value.digits = u.value.digits ∧
    u.intoSigned.intoUnsigned = u ∧
    (⟨a.intoApint⟩ : SInt) = a ∧ (⟨u.intoApint⟩ : UInt) = u :=
  ⟨rfl, rfl, rfl, rfl, rfl, rfl, rfl, rfl⟩

example : (SInt.mk a7).intoUnsigned.value.uval = 100 ∧ (SInt.mk a7).value.sval = -28 := by decide

/-! ## C48: failures -/

/-- C48, `Int`: on unmatched widths every binary method other than division reports the widths and
the operator panics; division panics or reports a zero divisor (C14), and `/` and `%` panic. -/
theorem C48_signed_mismatch (ha : a.value.WF) (hb : b.value.WF) (h : a.value.len ≠ b.value.len) :
    let e := Err.unmatchingBitwidth a.value.len b.value.len
    Fails a (a.wrappingAddAssign b) (a.intoWrappingAdd b) (a.opAdd b) (a.opAddAssign b) e ∧
    Fails a (a.wrappingSubAssign b) (a.intoWrappingSub b) (a.opSub b) (a.opSubAssign b) e ∧
    Fails a (a.wrappingMulAssign b) (a.intoWrappingMul b) (a.opMul b) (a.opMulAssign b) e ∧
    Fails a (a.bitandAssign b) (a.intoBitand b) (a.opBitAnd b) (a.opBitAndAssign b) e ∧
    Fails a (a.bitorAssign b) (a.intoBitor b) (a.opBitOr b) (a.opBitOrAssign b) e ∧
    Fails a (a.bitxorAssign b) (a.intoBitxor b) (a.opBitXor b) (a.opBitXorAssign b) e ∧
    a.opDiv b = .error .panic ∧ a.opDivAssign b = .error .panic ∧
    a.opRem b = .error .panic ∧ a.opRemAssign b = .error .panic := by
  obtain ⟨h1, h2, h3, h4, h5, h6⟩ := C13_in_place h
  refine ⟨fails_of (f := SInt.wrappingAddAssign) rfl (SInt.liftMut_err h1),
    fails_of (f := SInt.wrappingSubAssign) rfl (SInt.liftMut_err h2),
    fails_of (f := SInt.wrappingMulAssign) rfl (SInt.liftMut_err h3),
    fails_of (f := SInt.bitandAssign) rfl (SInt.liftMut_err h4),
    fails_of (f := SInt.bitorAssign) rfl (SInt.liftMut_err h5),
    fails_of (f := SInt.bitxorAssign) rfl (SInt.liftMut_err h6), ?_⟩
  by_cases hz : b.value.uval = 0
  · obtain ⟨-, -, h7, h8⟩ := (C14_behaviour ha hb h).2 hz
    have f1 := fails_of (f := SInt.wrappingDivAssign) rfl (SInt.liftMut_err h7)
    have f2 := fails_of (f := SInt.wrappingRemAssign) rfl (SInt.liftMut_err h8)
    exact ⟨f1.2.2.1, f1.2.2.2, f2.2.2.1, f2.2.2.2⟩
  · obtain ⟨-, -, h7, h8⟩ := (C14_behaviour ha hb h).1 hz
    simp [SInt.opDiv, SInt.opDivAssign, SInt.opRem, SInt.opRemAssign, SInt.intoWrappingDiv,
      SInt.intoWrappingRem, tryForwardBinMutImpl, SInt.wrappingDivAssign, SInt.wrappingRemAssign,
      h7, h8, SInt.liftMut, unwrapRes, unwrapMut]

example : (SInt.mk a7).opMul ⟨b65⟩ = .error .panic :=
  (C48_signed_mismatch (a := ⟨a7⟩) (b := ⟨b65⟩) a7_wf b65_wf (by decide)).2.2.1.2.2.1

/-- C48, `Int`: a zero divisor is an error and makes `/` and `%` panic; a shift amount that
reaches the width is an error and makes `<<` and `>>` panic. -/
theorem C48_signed_div_shift (ha : a.value.WF) :
    (∀ b : SInt, b.value.WF → a.value.len = b.value.len → b.value.uval = 0 →
      Fails a (a.wrappingDivAssign b) (a.intoWrappingDiv b) (a.opDiv b) (a.opDivAssign b)
        (.divisionByZero .signedDiv a.value) ∧
      Fails a (a.wrappingRemAssign b) (a.intoWrappingRem b) (a.opRem b) (a.opRemAssign b)
        (.divisionByZero .signedRem a.value)) ∧
    (∀ s, a.value.w ≤ s →
      Fails a (a.wrappingShlAssign s) (a.intoWrappingShl s) (a.opShl s) (a.opShlAssign s)
        (.invalidShiftAmount s a.value.len) ∧
      Fails a (a.wrappingShrAssign s) (a.intoWrappingShr s) (a.opShr s) (a.opShrAssign s)
        (.invalidShiftAmount s a.value.len)) := by
  constructor
  · intro b hb h hz
    obtain ⟨-, -, -, -, -, -, h1, h2⟩ := C12_division_by_zero ha hb h hz
    exact ⟨fails_of (f := SInt.wrappingDivAssign) rfl (SInt.liftMut_err h1),
      fails_of (f := SInt.wrappingRemAssign) rfl (SInt.liftMut_err h2)⟩
  · intro s hs
    exact ⟨fails_of (f := SInt.wrappingShlAssign) (SInt.liftRes_tryForward a s _)
        (SInt.liftMut_err (wrappingShlAssign_err hs)),
      fails_of (f := SInt.wrappingShrAssign) (SInt.liftRes_tryForward a s _)
        (SInt.liftMut_err (wrappingAshrAssign_err ha hs))⟩

example : (SInt.mk a7).opShr 7 = .error .panic :=
  ((C48_signed_div_shift (a := ⟨a7⟩) a7_wf).2 7 (by decide)).2.2.2.1

end Verif.Props
