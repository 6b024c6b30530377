import Verif.Proof.TraceLenRun
import Verif.Props.Trace
import Verif.Props.Work

/-!
# C90: the work of the other calls

Every digit that a call reads, writes or allocates, and every branch it takes on the contents of a
digit, is one entry of the traces of `Model/Trace.lean`.  The traces of the calls that neither
multiply nor divide are at most linear in the number of digits of the widths involved, so such calls
touch a number of digits that is linear in the width, whatever the values are.
-/

namespace Verif

open ApInt Ex Watched

variable {a b : ApInt} {W : Nat}

/-- The traced call `c` does what the call `r` does, faults included, and its trace has at most `N`
entries. -/
def Shows {α : Type} (c : Watched α) (r : Run α) (N : Nat) : Prop :=
  (∀ e, r = .error e → c = Except.error e) ∧
  ∀ v, r = .ok v → ∃ s, c = Except.ok (v, s) ∧ s.length ≤ N

theorem Shows.of {α : Type} {c : Watched α} {r : Run α} {N M : Nat} (h : Spans c N)
    (e : result c = r) (hN : N ≤ M) : Shows c r M := by
  subst e
  rcases c with f | ⟨x, s⟩
  · refine ⟨fun e he => ?_, fun v hv => ?_⟩
    · cases he
      rfl
    · cases hv
  · refine ⟨fun e he => ?_, fun v hv => ?_⟩
    · cases he
    · cases hv
      exact ⟨s, rfl, (h x s rfl).trans hN⟩

theorem lenDigits_eq_digitsOf (a : ApInt) : a.lenDigits = digitsOf a.w :=
  BitWidth.requiredDigits_eq a.len

/-- C90: a program of copies, assignments, additions, subtractions, bit operations, shifts,
truncations, zero extensions and questions, in which no integer is wider than `W` bits, touches at
most `8 * n + 6` digits for each call, where `n` is the number of digits of `W` bits. -/
theorem C90_programs (p : List Trace.Quiet) (hp : ∀ i ∈ p, i.Within W) {b : Bank}
    (hb : ∀ a ∈ b, a.WF ∧ a.w ≤ W) :
    (Trace.run p b).2.2.length ≤ p.length * (8 * digitsOf W + 6) := run_sees p hp hb

example : (Trace.run hushed [a150, b150]).2.2.length = 50 := by decide +kernel
example : (Trace.run hushed [a150, b150]).2.2.length ≤ 6 * 30 :=
  C90_programs (W := 150) hushed (by simp [hushed, Trace.Quiet.Within, Trace.QUn.Within, bw])
    (by simpa using ⟨⟨a150_wf, by decide⟩, ⟨b150_wf, by decide⟩⟩)

/-- C90: additions and subtractions touch three digits for each digit, and two more. -/
theorem C90_add_sub (a b : ApInt) :
    Shows (Trace.wrappingAddAssign a b) (wrappingAddAssign a b) (3 * digitsOf a.w + 2) ∧
    Shows (Trace.wrappingSubAssign a b) (wrappingSubAssign a b) (3 * digitsOf a.w + 2) := by
  rw [← lenDigits_eq_digitsOf]
  exact ⟨.of wrappingAddAssign_sees (result_wrappingAddAssign a b) (Nat.le_refl _),
    .of wrappingSubAssign_sees (result_wrappingSubAssign a b) (Nat.le_refl _)⟩

-- The bound is met.
example : (seen (Trace.wrappingAddAssign a150 b150)).map List.length = some (3 * digitsOf 150 + 2) := by
  decide +kernel

/-- C90: shifts, the arithmetic one included. -/
theorem C90_shifts (a : ApInt) (s : Nat) :
    Shows (Trace.wrappingShlAssign a s) (wrappingShlAssign a s) (4 * digitsOf a.w + 2) ∧
    Shows (Trace.wrappingLshrAssign a s) (wrappingLshrAssign a s) (4 * digitsOf a.w) ∧
    Shows (Trace.wrappingAshrAssign a s) (wrappingAshrAssign a s) (5 * digitsOf a.w + 8) := by
  rw [← lenDigits_eq_digitsOf]
  exact ⟨.of (wrappingShlAssign_sees s) (result_wrappingShlAssign a s) (Nat.le_refl _),
    .of (wrappingLshrAssign_sees s) (result_wrappingLshrAssign a s) (Nat.le_refl _),
    .of (wrappingAshrAssign_sees s) (result_wrappingAshrAssign a s) (Nat.le_refl _)⟩

example : (seen (Trace.wrappingAshrAssign b150 70)).map List.length = some 13 := by decide +kernel

/-- C90: increment, decrement and negation. -/
theorem C90_inc_dec_neg (h : a.WF) :
    Shows (Trace.wrappingInc a) a.wrappingInc (3 * digitsOf a.w + 2) ∧
    Shows (Trace.wrappingDec a) a.wrappingDec (3 * digitsOf a.w + 2) ∧
    Shows (Trace.wrappingNeg a) a.wrappingNeg (5 * digitsOf a.w + 4) := by
  rw [← lenDigits_eq_digitsOf]
  exact ⟨.of wrappingInc_sees (result_wrappingInc a) (Nat.le_refl _),
    .of wrappingDec_sees (result_wrappingDec a) (Nat.le_refl _),
    .of (wrappingNeg_sees h) (result_wrappingNeg a) (Nat.le_refl _)⟩

example : Shows (Trace.wrappingNeg a150) a150.wrappingNeg 19 := (C90_inc_dec_neg a150_wf).2.2

/-- C90: the test for zero and the unsigned comparison. -/
theorem C90_tests (a b : ApInt) :
    Shows (Trace.isZero a) a.isZero (2 * digitsOf a.w) ∧
    Shows (Trace.checkedUlt a b) (a.checkedUlt b) (4 * digitsOf a.w) := by
  rw [← lenDigits_eq_digitsOf]
  exact ⟨.of isZero_sees (result_isZero a) (Nat.le_refl _),
    .of checkedUlt_sees (result_checkedUlt a b) (Nat.le_refl _)⟩

-- The bound is met: all digits have to be looked at.
example : (seen (Trace.isZero zero256)).map List.length = some (2 * digitsOf 256) := by
  decide +kernel

/-- C90: truncation and the extensions are linear in the width asked for, whatever the width of the
integer is. -/
theorem C90_casts (a : ApInt) (t : BitWidth) :
    Shows (Trace.truncate a t) (a.truncate t) (4 * digitsOf t.toUsize + 4) ∧
    Shows (Trace.zeroExtend a t) (a.zeroExtend t) (6 * digitsOf t.toUsize + 5) ∧
    Shows (Trace.signExtend a t) (a.signExtend t) (6 * digitsOf t.toUsize + 11) := by
  have e : digitsOf t.toUsize = t.requiredDigits := (BitWidth.requiredDigits_eq t).symm
  rw [e]
  exact ⟨.of (truncate_sees t) (result_truncate a t) (Nat.le_refl _),
    .of (zeroExtend_sees t) (result_zeroExtend a t) (Nat.le_refl _),
    .of (signExtend_sees t) (result_signExtend a t) (Nat.le_refl _)⟩

example : (seen (Trace.truncate zero256 (bw 65))).map List.length = some 7 ∧
    (seen (Trace.signExtend b65 (bw 256))).map List.length = some 9 := by decide +kernel

/-- C90: copies, assignments and whole-integer bit operations. -/
theorem C90_copies (a b : ApInt) :
    Shows (Trace.clone a) a.clone (2 * digitsOf a.w + 1) ∧
    Shows (Trace.assign a b) (assign a b) (2 * max (digitsOf a.w) (digitsOf b.w) + 1) ∧
    Shows (Trace.strictAssign a b) (strictAssign a b) (2 * digitsOf a.w) ∧
    Shows (Trace.bitnot a) a.bitnot (2 * digitsOf a.w + 2) := by
  rw [← lenDigits_eq_digitsOf, ← lenDigits_eq_digitsOf]
  exact ⟨.of clone_sees (result_clone a) (Nat.le_refl _),
    .of (assign_sees (Nat.le_max_left _ _) (Nat.le_max_right _ _)) (result_assign a b)
      (Nat.le_refl _),
    .of strictAssign_sees (result_strictAssign a b) (Nat.le_refl _),
    .of (mapClear_sees _) (result_bitnot a) (Nat.le_refl _)⟩

-- The bound is met.
example : (seen (Trace.clone zero256)).map List.length = some (2 * digitsOf 256 + 1) := by
  decide +kernel

end Verif
