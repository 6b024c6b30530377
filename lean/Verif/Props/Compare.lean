import Verif.Proof.Ops
import Verif.Props.Witness

/-! # Equality, hashing and order (C03, C27, C28) -/

namespace Verif.Props

open ApInt Ex

variable {a b c : ApInt}

/-- C03: equality is equality of width and of value. -/
theorem C03_eq (ha : a.WF) (hb : b.WF) :
    a.eq b = .ok (decide (a.w = b.w ∧ a.uval = b.uval)) := by
  rw [eq_ok ha.1 hb.1]
  simp only [BitWidth.eq_iff]

example : a65.eq b65 = .ok false := C03_eq a65_wf b65_wf
example : a65.eq a65 = .ok true := C03_eq a65_wf a65_wf

/-- C03: equality is reflexive, symmetric and transitive, and holds only between integers that
are the same for every purpose. -/
theorem C03_equivalence (ha : a.WF) (hb : b.WF) (hc : c.WF) :
    a.eq a = .ok true ∧ a.eq b = b.eq a ∧
    (a.eq b = .ok true → b.eq c = .ok true → a.eq c = .ok true) ∧
    (a.eq b = .ok true ↔ a = b) := by
  simp only [C03_eq ha ha, C03_eq ha hb, C03_eq hb ha, C03_eq hb hc, C03_eq ha hc]
  refine ⟨by simp, ?_, ?_, ?_⟩
  · congr 1
    rw [decide_eq_decide]
    constructor <;> rintro ⟨h1, h2⟩ <;> exact ⟨h1.symm, h2.symm⟩
  · simp only [Except.ok.injEq, decide_eq_true_eq]
    rintro ⟨h1, h2⟩ ⟨h3, h4⟩
    exact ⟨h1.trans h3, h2.trans h4⟩
  · simp only [Except.ok.injEq, decide_eq_true_eq]
    constructor
    · rintro ⟨h1, h2⟩
      exact ext_of_uval ha.1 hb.1 (BitWidth.ext h1) h2
    · rintro rfl
      exact ⟨rfl, rfl⟩

example : a65.eq b65 = b65.eq a65 := (C03_equivalence a65_wf b65_wf a65_wf).2.1

/-- C03: the data fed to a hasher is the same exactly for equal integers. -/
theorem C03_hash (ha : a.WF) (hb : b.WF) :
    (∃ x y, a.hashInput = .ok x ∧ b.hashInput = .ok y ∧ (x = y ↔ a.eq b = .ok true)) := by
  refine ⟨_, _, by simp [hashInput, asDigitSlice_ok ha.1]; rfl,
    by simp [hashInput, asDigitSlice_ok hb.1]; rfl, ?_⟩
  rw [(C03_equivalence ha hb ha).2.2.2, Prod.mk.injEq]
  constructor
  · rintro ⟨h1, h2⟩
    exact eq_of_digits ha.1 hb.1 (BitWidth.ext h1) h2
  · rintro rfl
    exact ⟨rfl, rfl⟩

example : ∃ x y, a65.hashInput = .ok x ∧ b65.hashInput = .ok y ∧ (x = y ↔ a65.eq b65 = .ok true) :=
  C03_hash a65_wf b65_wf

/-- C27: the unsigned comparisons on equal widths compare the unsigned values. -/
theorem C27_unsigned (ha : a.WF) (hb : b.WF) (h : a.len = b.len) :
    a.checkedUlt b = .ok (.ok (decide (a.uval < b.uval))) ∧
    a.checkedUle b = .ok (.ok (decide (a.uval ≤ b.uval))) ∧
    a.checkedUgt b = .ok (.ok (decide (a.uval > b.uval))) ∧
    a.checkedUge b = .ok (.ok (decide (a.uval ≥ b.uval))) :=
  ⟨checkedUlt_ok ha.1 hb.1 h, checkedUle_ok ha.1 hb.1 h, checkedUgt_ok ha.1 hb.1 h,
    checkedUge_ok ha.1 hb.1 h⟩

example : a128.checkedUlt b128 = .ok (.ok false) := (C27_unsigned a128_wf b128_wf rfl).1

/-- C27: on equal widths exactly one of `<`, equality and `>` holds. -/
theorem C27_total (ha : a.WF) (hb : b.WF) (h : a.len = b.len) :
    (a.checkedUlt b = .ok (.ok true) ∧ a.eq b = .ok false ∧ a.checkedUgt b = .ok (.ok false)) ∨
    (a.checkedUlt b = .ok (.ok false) ∧ a.eq b = .ok true ∧ a.checkedUgt b = .ok (.ok false)) ∨
    (a.checkedUlt b = .ok (.ok false) ∧ a.eq b = .ok false ∧ a.checkedUgt b = .ok (.ok true)) := by
  obtain ⟨h1, -, h2, -⟩ := C27_unsigned ha hb h
  have hw := w_eq h
  rw [h1, h2, C03_eq ha hb]
  rcases Nat.lt_trichotomy a.uval b.uval with hlt | heq | hgt
  · left
    simp [hlt, Nat.ne_of_lt hlt, Nat.le_of_lt hlt]
  · right; left
    simp [heq, hw]
  · right; right
    simp [hgt, (Nat.ne_of_lt hgt).symm, Nat.le_of_lt hgt]

example := C27_total a128_wf b128_wf rfl

/-- C28: the signed comparisons on equal widths compare the two's complement values. -/
theorem C28_signed (ha : a.WF) (hb : b.WF) (h : a.len = b.len) :
    a.checkedSlt b = .ok (.ok (decide (a.sval < b.sval))) ∧
    a.checkedSle b = .ok (.ok (decide (a.sval ≤ b.sval))) ∧
    a.checkedSgt b = .ok (.ok (decide (a.sval > b.sval))) ∧
    a.checkedSge b = .ok (.ok (decide (a.sval ≥ b.sval))) :=
  ⟨checkedSlt_ok ha hb h, checkedSle_ok ha hb h, checkedSgt_ok ha hb h, checkedSge_ok ha hb h⟩

example : b150.checkedSlt a150 = .ok (.ok true) := by
  rw [(C28_signed b150_wf a150_wf rfl).1]; decide
example : b150.checkedUlt a150 = .ok (.ok false) := (C27_unsigned b150_wf a150_wf rfl).1

/-- C28: the signed value determines the integer: on equal widths, equal signed values are equal
integers, so the signed order is total. -/
theorem C28_total (ha : a.WF) (hb : b.WF) (h : a.len = b.len) :
    (a.sval = b.sval ↔ a = b) ∧
    (a.checkedSle b = .ok (.ok true) → a.checkedSge b = .ok (.ok true) → a = b) := by
  have hw := w_eq h
  have key : a.sval = b.sval ↔ a = b := by
    constructor
    · intro hs
      refine ext_of_uval ha.1 hb.1 h ?_
      rw [← wrap_sval ha, ← wrap_sval hb, hs, hw]
    · rintro rfl; rfl
  refine ⟨key, ?_⟩
  obtain ⟨-, h1, -, h2⟩ := C28_signed ha hb h
  rw [h1, h2]
  simp only [Except.ok.injEq, decide_eq_true_eq]
  intro h3 h4
  exact key.mp (le_antisymm h3 h4)

example : b150.sval = a150.sval ↔ b150 = a150 := (C28_total b150_wf a150_wf rfl).1

end Verif.Props
