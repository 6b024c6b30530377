import Verif.Proof.Div
import Verif.Props.Witness

/-! # Unmatched widths (C13) -/

namespace Verif.Props

open ApInt Ex

variable {a b : ApInt}

/-- C13, in-place arithmetic and bitwise operations: the error carries both widths and the target
keeps its value. -/
theorem C13_in_place (h : a.len ≠ b.len) :
    a.wrappingAddAssign b = .ok (.error (.unmatchingBitwidth a.len b.len), a) ∧
    a.wrappingSubAssign b = .ok (.error (.unmatchingBitwidth a.len b.len), a) ∧
    a.wrappingMulAssign b = .ok (.error (.unmatchingBitwidth a.len b.len), a) ∧
    a.bitandAssign b = .ok (.error (.unmatchingBitwidth a.len b.len), a) ∧
    a.bitorAssign b = .ok (.error (.unmatchingBitwidth a.len b.len), a) ∧
    a.bitxorAssign b = .ok (.error (.unmatchingBitwidth a.len b.len), a) :=
  ⟨wrappingAddAssign_err h, wrappingSubAssign_err h, wrappingMulAssign_err h,
    modifyZippedDigits_err h _, modifyZippedDigits_err h _, modifyZippedDigits_err h _⟩

example : a7.wrappingMulAssign a64 = .ok (.error (.unmatchingBitwidth a7.len a64.len), a7) :=
  (C13_in_place (by decide)).2.2.1

/-- C13, consuming forms. -/
theorem C13_consuming (h : a.len ≠ b.len) :
    a.intoWrappingAdd b = .ok (.error (.unmatchingBitwidth a.len b.len)) ∧
    a.intoWrappingSub b = .ok (.error (.unmatchingBitwidth a.len b.len)) ∧
    a.intoWrappingMul b = .ok (.error (.unmatchingBitwidth a.len b.len)) ∧
    a.intoBitand b = .ok (.error (.unmatchingBitwidth a.len b.len)) ∧
    a.intoBitor b = .ok (.error (.unmatchingBitwidth a.len b.len)) ∧
    a.intoBitxor b = .ok (.error (.unmatchingBitwidth a.len b.len)) := by
  obtain ⟨h1, h2, h3, h4, h5, h6⟩ := C13_in_place h
  exact ⟨into_of_error h1, into_of_error h2, into_of_error h3, into_of_error h4,
    into_of_error h5, into_of_error h6⟩

example : a7.intoBitxor a64 = .ok (.error (.unmatchingBitwidth a7.len a64.len)) :=
  (C13_consuming (by decide)).2.2.2.2.2

/-- C13, unsigned division. -/
theorem C13_unsigned_division (h : a.len ≠ b.len) :
    a.wrappingUdivremAssign b = .ok (.error (.unmatchingBitwidth a.len b.len), a, b) ∧
    a.wrappingUremdivAssign b = .ok (.error (.unmatchingBitwidth a.len b.len), a, b) ∧
    a.wrappingUdivAssign b = .ok (.error (.unmatchingBitwidth a.len b.len), a) ∧
    a.wrappingUremAssign b = .ok (.error (.unmatchingBitwidth a.len b.len), a) ∧
    a.intoWrappingUdiv b = .ok (.error (.unmatchingBitwidth a.len b.len)) ∧
    a.intoWrappingUrem b = .ok (.error (.unmatchingBitwidth a.len b.len)) := by
  obtain ⟨h1, h2, h3, h4⟩ := udiv_mismatch h
  exact ⟨h1, h2, h3, h4, into_of_error h3, into_of_error h4⟩

example : a65.wrappingUdivAssign a64 =
    .ok (.error (.unmatchingBitwidth a65.len a64.len), a65) :=
  (C13_unsigned_division (by decide)).2.2.1

/-- C13, comparisons. -/
theorem C13_compare (h : a.len ≠ b.len) :
    a.checkedUlt b = .ok (.error (.unmatchingBitwidth a.len b.len)) ∧
    a.checkedUle b = .ok (.error (.unmatchingBitwidth b.len a.len)) ∧
    a.checkedUgt b = .ok (.error (.unmatchingBitwidth b.len a.len)) ∧
    a.checkedUge b = .ok (.error (.unmatchingBitwidth a.len b.len)) ∧
    a.checkedSlt b = .ok (.error (.unmatchingBitwidth a.len b.len)) ∧
    a.checkedSle b = .ok (.error (.unmatchingBitwidth b.len a.len)) ∧
    a.checkedSgt b = .ok (.error (.unmatchingBitwidth b.len a.len)) ∧
    a.checkedSge b = .ok (.error (.unmatchingBitwidth a.len b.len)) := by
  refine ⟨checkedUlt_err h, ?_, checkedUlt_err (Ne.symm h), ?_, checkedSlt_err h, ?_,
    checkedSlt_err (Ne.symm h), ?_⟩
  · simp [checkedUle, checkedUlt_err (Ne.symm h), mapNot]
  · simp [checkedUge, checkedUlt_err h, mapNot]
  · simp [checkedSle, checkedSlt_err (Ne.symm h), mapNot]
  · simp [checkedSge, checkedSlt_err h, mapNot]

example : a7.checkedUlt a64 = .ok (.error (.unmatchingBitwidth a7.len a64.len)) :=
  (C13_compare (by decide)).1

end Verif.Props
