import Verif.Proof.Counts
import Verif.Proof.Ops
import Verif.Props.Witness

/-! # Zero, one, parity, all-ones tests (C35 to C37) -/

namespace Verif.Props

open ApInt Ex

variable {a : ApInt}

/-- C35 for `ApInt`: zero and parity tests (sign tests are on `Int`, see `C35_sign`). -/
theorem C35_zero_parity (ha : a.WF) :
    a.isZero = .ok (decide (a.uval = 0)) ∧
    a.isAllUnset = .ok (decide (a.uval = 0)) ∧
    a.isEven = .ok (decide (a.uval % 2 = 0)) ∧
    a.isOdd = .ok (decide (a.uval % 2 = 1)) :=
  ⟨isZero_ok ha.1, isZero_ok ha.1, isEven_ok ha.1, isOdd_ok ha.1⟩

example : a150.isZero = .ok false ∧ a150.isEven = .ok true ∧ b65.isOdd = .ok true :=
  ⟨(C35_zero_parity a150_wf).1, (C35_zero_parity a150_wf).2.2.1, (C35_zero_parity b65_wf).2.2.2⟩

/-- What C36 claims: `is_one` holds exactly for the value one. -/
def C36_claim : Prop := ∀ a : ApInt, a.WF → a.isOne = .ok (decide (a.uval = 1))

/-- C36 is false: at 128 bits `is_one` rejects one. -/
theorem C36_false : ¬ C36_claim := by
  intro h
  have := h ⟨bw 128, .ext [1#64, 0#64]⟩ (by decide)
  revert this
  decide

/-- C36, the part that holds: widths up to 64.  Missing: wider integers, where the claim is false
(`C36_false`); what the code computes there is `C36_wide`. -/
theorem C36_is_one_partial (ha : a.WF) (h : a.w ≤ 64) : a.isOne = .ok (decide (a.uval = 1)) :=
  isOne_inl ha h

example : b64.isOne = .ok false := C36_is_one_partial b64_wf (by decide)

/-- C36, what happens above 64 bits: `is_one` holds exactly when the only bit set is the lowest
bit of the most significant digit, so never for one. -/
theorem C36_wide (ha : a.WF) (h : 64 < a.w) :
    a.isOne = .ok (decide (a.uval = 2 ^ (64 * ((a.w - 1) / 64)))) ∧
    (a.uval = 1 → a.isOne = .ok false) := by
  have h1 := isOne_ext ha h
  refine ⟨h1, ?_⟩
  intro h2
  rw [h1, h2]
  have : 1 < 2 ^ (64 * ((a.w - 1) / 64)) := Nat.one_lt_two_pow (by omega)
  simp only [Except.ok.injEq, decide_eq_false_iff_not]
  omega

example : ∃ a : ApInt, a.WF ∧ 64 < a.w ∧ a.uval = 2 ^ 64 ∧ a.isOne = .ok true :=
  ⟨⟨bw 128, .ext [0#64, 1#64]⟩, by decide, by decide, by decide, by decide⟩

/-- What C37 claims: `is_all_set` holds exactly when every bit is set. -/
def C37_claim : Prop := ∀ a : ApInt, a.WF → a.isAllSet = .ok (decide (a.uval = 2 ^ a.w - 1))

/-- C37 is false: at 64 bits `is_all_set` accepts zero. -/
theorem C37_false : ¬ C37_claim := by
  intro h
  have := h ⟨bw 64, .inl 0#64⟩ (by decide)
  revert this
  decide

/-- C37, the part that holds: widths that are not a multiple of 64.  Missing: multiples of 64,
where the claim is false (`C37_false`); what the code computes there is `C37_aligned`. -/
theorem C37_is_all_set_partial (ha : a.WF) (h : a.w % 64 ≠ 0) :
    a.isAllSet = .ok (decide (a.uval = 2 ^ a.w - 1)) :=
  isAllSet_excess ha h

example : a65.isAllSet = .ok true := C37_is_all_set_partial a65_wf (by decide)
example : b65.isAllSet = .ok false := C37_is_all_set_partial b65_wf (by decide)

/-- C37, what happens at multiples of 64: the top 64 bits are ignored, and an integer with all
bits set is still accepted. -/
theorem C37_aligned (ha : a.WF) (h : a.w % 64 = 0) :
    a.isAllSet = .ok (decide (a.uval % 2 ^ (a.w - 64) = 2 ^ (a.w - 64) - 1)) ∧
    (a.uval = 2 ^ a.w - 1 → a.isAllSet = .ok true) := by
  have h1 := isAllSet_aligned ha h
  refine ⟨h1, ?_⟩
  intro h2
  rw [h1, h2, ones_mod (by omega)]
  simp

example : a128.isAllSet = .ok true := (C37_aligned a128_wf (by decide)).1

end Verif.Props
