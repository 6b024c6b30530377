import Verif.Proof.Ops
import Verif.Props.Witness

/-! # Shifts (C15 to C18) -/

namespace Verif.Props

open ApInt Ex

variable {a : ApInt} {s : Nat}

/-- C15: a left shift by less than the width multiplies by `2 ^ s` modulo `2 ^ w`. -/
theorem C15_shl (ha : a.WF) (hs : s < a.w) :
    Updates (a.wrappingShlAssign s) a.len ((a.uval * 2 ^ s) % 2 ^ a.w) ∧
    ReturnsOk (a.intoWrappingShl s) a.len ((a.uval * 2 ^ s) % 2 ^ a.w) ∧
    Returns (a.opShl s) a.len ((a.uval * 2 ^ s) % 2 ^ a.w) ∧
    Returns (a.opShlAssign s) a.len ((a.uval * 2 ^ s) % 2 ^ a.w) := by
  have h1 := wrappingShlAssign_ok ha.1 hs
  have h2 : ReturnsOk (a.intoWrappingShl s) _ _ := into_of_updates h1
  exact ⟨h1, h2, unwrapRes_ok h2, unwrapMut_ok h1⟩

example : Updates (a150.wrappingShlAssign 85) a150.len (2 ^ 148) := (C15_shl a150_wf (by decide)).1

/-- C15, bit by bit: below the width, bit `i` of the result is bit `i - s` of the operand. -/
theorem C15_shl_bits {c : ApInt} (ha : a.WF) (hs : s < a.w)
    (hc : a.wrappingShlAssign s = .ok (.ok (), c)) (i : Nat) :
    c.uval.testBit i = (decide (i < a.w) && decide (s ≤ i) && a.uval.testBit (i - s)) := by
  obtain ⟨c', e, h1, h2, h3⟩ := (C15_shl ha hs).1
  rw [e] at hc
  cases hc
  rw [h3, Nat.testBit_mod_two_pow, Nat.mul_comm, Nat.testBit_two_pow_mul]
  by_cases h : s ≤ i <;> simp [h]

example : ∃ c, a150.wrappingShlAssign 85 = .ok (.ok (), c) ∧ c.uval.testBit 148 = true ∧
    c.uval.testBit 147 = false := by
  obtain ⟨c, e, _⟩ := (C15_shl a150_wf (s := 85) (by decide)).1
  exact ⟨c, e, by rw [C15_shl_bits a150_wf (by decide) e]; decide,
    by rw [C15_shl_bits a150_wf (by decide) e]; decide⟩

/-- C16: a logical right shift by less than the width divides by `2 ^ s`. -/
theorem C16_lshr (ha : a.WF) (hs : s < a.w) :
    Updates (a.wrappingLshrAssign s) a.len (a.uval / 2 ^ s) ∧
    ReturnsOk (a.intoWrappingLshr s) a.len (a.uval / 2 ^ s) := by
  have h1 := wrappingLshrAssign_ok ha hs
  exact ⟨h1, into_of_updates h1⟩

example : Updates (b150.wrappingLshrAssign 64) b150.len (2 ^ 85 + 1) :=
  (C16_lshr b150_wf (by decide)).1

/-- C16, bit by bit: bit `i` of the result is bit `i + s` of the operand; in particular it is
zero when `i + s` reaches the width. -/
theorem C16_lshr_bits {c : ApInt} (ha : a.WF) (hs : s < a.w)
    (hc : a.wrappingLshrAssign s = .ok (.ok (), c)) (i : Nat) :
    c.uval.testBit i = a.uval.testBit (i + s) ∧ (a.w ≤ i + s → c.uval.testBit i = false) := by
  obtain ⟨c', e, h1, h2, h3⟩ := (C16_lshr ha hs).1
  rw [e] at hc
  cases hc
  have h4 : c.uval.testBit i = a.uval.testBit (i + s) := by
    rw [h3, Nat.testBit_div_two_pow]
  exact ⟨h4, fun h => by rw [h4]; exact ha.testBit_of_ge h⟩

example : ∃ c, b150.wrappingLshrAssign 64 = .ok (.ok (), c) ∧ c.uval.testBit 85 = true := by
  obtain ⟨c, e, _⟩ := (C16_lshr b150_wf (s := 64) (by decide)).1
  exact ⟨c, e, by rw [(C16_lshr_bits b150_wf (by decide) e 85).1]; decide⟩

/-- C17: an arithmetic right shift by less than the width divides the signed value by `2 ^ s`,
rounding toward minus infinity. -/
theorem C17_ashr (ha : a.WF) (hs : s < a.w) :
    ∃ c, a.wrappingAshrAssign s = .ok (.ok (), c) ∧ a.intoWrappingAshr s = .ok (.ok c) ∧
      c.WF ∧ c.len = a.len ∧ c.sval = a.sval / 2 ^ s := by
  obtain ⟨c, e, h1, h2, h3⟩ := wrappingAshrAssign_ok ha hs
  exact ⟨c, e, by simp [intoWrappingAshr, tryForwardBinMutImpl, e], h1, h2, ashr_sval ha h2 hs h3⟩

example : ∃ c, b150.wrappingAshrAssign 3 = .ok (.ok (), c) ∧ c.sval = -2 ^ 146 + 2 ^ 61 := by
  obtain ⟨c, e, -, -, -, h⟩ := C17_ashr b150_wf (s := 3) (by decide)
  exact ⟨c, e, by rw [h]; decide⟩

/-- C17, bit by bit: bit `i` comes from bit `i + s`, and from the sign bit `w - 1` when that
position is not below the width; nothing is set at or above the width. -/
theorem C17_ashr_bits {c : ApInt} (ha : a.WF) (hs : s < a.w)
    (hc : a.wrappingAshrAssign s = .ok (.ok (), c)) (i : Nat) :
    c.uval.testBit i =
      (decide (i < a.w) && a.uval.testBit (if i + s < a.w then i + s else a.w - 1)) := by
  obtain ⟨c', e, h1, h2, h3⟩ := wrappingAshrAssign_ok ha hs
  rw [e] at hc
  cases hc
  have hw := w_eq h2
  by_cases hi : i < a.w
  swap
  · rw [h1.testBit_of_ge (by omega)]; simp [hi]
  simp only [hi, decide_true, Bool.true_and]
  have htop := testBit_top a.pos_w ha.2
  by_cases hneg : a.uval < 2 ^ (a.w - 1)
  · rw [h3, if_pos hneg, Nat.testBit_div_two_pow]
    by_cases hlt : i + s < a.w
    · rw [if_pos hlt]
    · rw [if_neg hlt, ha.testBit_of_ge (by omega), htop]
      simp [hneg]
  · rw [h3, if_neg hneg]
    -- the shifted value fills the low `w - s` bits, ones fill the rest
    have hpw : 2 ^ a.w = 2 ^ (a.w - s) * 2 ^ s := by rw [← Nat.pow_add]; congr 1; omega
    have hq : a.uval / 2 ^ s < 2 ^ (a.w - s) := by
      rw [Nat.div_lt_iff_lt_mul (two_pow_w_pos s), ← hpw]; exact ha.2
    have e1 : a.uval / 2 ^ s + 2 ^ a.w - 2 ^ (a.w - s)
        = 2 ^ (a.w - s) * (2 ^ s - 1) + a.uval / 2 ^ s := by
      have hp := two_pow_w_pos s
      have : 2 ^ (a.w - s) ≤ 2 ^ (a.w - s) * 2 ^ s := Nat.le_mul_of_pos_right _ hp
      rw [hpw, Nat.mul_sub, Nat.mul_one]
      generalize a.uval / 2 ^ s = q
      omega
    rw [e1, Nat.testBit_two_pow_mul_add _ hq]
    by_cases hlt : i + s < a.w
    · rw [if_pos hlt, if_pos (by omega), Nat.testBit_div_two_pow]
    · rw [if_neg hlt, if_neg (by omega), Nat.testBit_two_pow_sub_one, htop]
      simp only [Nat.not_lt.mp hneg, decide_true, decide_eq_true_eq]
      omega

example : ∃ c, b150.wrappingAshrAssign 3 = .ok (.ok (), c) ∧ c.uval.testBit 148 = true ∧
    c.uval.testBit 150 = false := by
  obtain ⟨c, e, -⟩ := C17_ashr b150_wf (s := 3) (by decide)
  exact ⟨c, e, by rw [C17_ashr_bits b150_wf (by decide) e]; decide,
    by rw [C17_ashr_bits b150_wf (by decide) e]; decide⟩

/-- C18: each of the three shifts succeeds exactly when the amount is below the width; otherwise
it returns the shift-amount error with the amount and the width and changes nothing. -/
theorem C18_shift_errors (ha : a.WF) (s : Nat) :
    (s < a.w → (∃ c, a.wrappingShlAssign s = .ok (.ok (), c)) ∧
      (∃ c, a.wrappingLshrAssign s = .ok (.ok (), c)) ∧
      (∃ c, a.wrappingAshrAssign s = .ok (.ok (), c))) ∧
    (a.w ≤ s →
      a.wrappingShlAssign s = .ok (.error (.invalidShiftAmount s a.len), a) ∧
      a.wrappingLshrAssign s = .ok (.error (.invalidShiftAmount s a.len), a) ∧
      a.wrappingAshrAssign s = .ok (.error (.invalidShiftAmount s a.len), a) ∧
      a.intoWrappingShl s = .ok (.error (.invalidShiftAmount s a.len)) ∧
      a.intoWrappingLshr s = .ok (.error (.invalidShiftAmount s a.len)) ∧
      a.intoWrappingAshr s = .ok (.error (.invalidShiftAmount s a.len))) := by
  constructor
  · intro hs
    obtain ⟨c1, e1, -⟩ := (C15_shl ha hs).1
    obtain ⟨c2, e2, -⟩ := (C16_lshr ha hs).1
    obtain ⟨c3, e3, -⟩ := C17_ashr ha hs
    exact ⟨⟨c1, e1⟩, ⟨c2, e2⟩, ⟨c3, e3⟩⟩
  · intro hs
    have h1 := wrappingShlAssign_err hs
    have h2 := wrappingLshrAssign_err hs
    have h3 := wrappingAshrAssign_err ha hs
    exact ⟨h1, h2, h3, by simp [intoWrappingShl, tryForwardBinMutImpl, h1],
      by simp [intoWrappingLshr, tryForwardBinMutImpl, h2],
      by simp [intoWrappingAshr, tryForwardBinMutImpl, h3]⟩

example : b150.wrappingAshrAssign 150 = .ok (.error (.invalidShiftAmount 150 b150.len), b150) :=
  ((C18_shift_errors b150_wf 150).2 (by decide)).2.2.1
example : ∃ c, b150.wrappingAshrAssign 149 = .ok (.ok (), c) :=
  ((C18_shift_errors b150_wf 149).1 (by decide)).2.2

end Verif.Props
