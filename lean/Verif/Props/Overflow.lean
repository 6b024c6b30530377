import Verif.Proof.Overflow
import Verif.Props.Bits
import Verif.Props.Construct

/-! # Addition with overflow report (C54, C55) -/

namespace Verif.Props

open ApInt Ex

variable {a b : ApInt}

/-- What C54 claims about one pair of integers: the sum wraps at the width, and the report says
whether the exact sum reached `2 ^ w`. -/
def UaddCorrect (a b : ApInt) : Prop :=
  ∃ c, a.overflowingUaddAssign b = .ok (.ok (decide (2 ^ a.w ≤ a.uval + b.uval)), c) ∧
    c.WF ∧ c.len = a.len ∧ c.uval = (a.uval + b.uval) % 2 ^ a.w

/-- What C54 claims, at a width. -/
def C54_claim (len : BitWidth) : Prop :=
  ∀ a b : ApInt, a.WF → b.WF → a.len = len → b.len = len → UaddCorrect a b

/-- C54 is false: at 7 bits `100 + 60` is reported not to overflow, and the result has bits above
the width. -/
theorem C54_false : ¬ C54_claim (bw 7) := by
  intro h
  obtain ⟨c, e, -⟩ := h a7 b7 a7_wf b7_wf rfl rfl
  have : (a7.overflowingUaddAssign b7).map (fun r => r.1) = .ok (.ok true) := by rw [e]; rfl
  revert this
  decide +kernel

/-- C54, what the code computes at any width: the sum is cut, and the overflow found, not at the
width but after as many bits of the top digit as the width leaves unused. -/
theorem C54_behaviour (ha : a.WF) (hb : b.WF) (h : a.len = b.len) (k : Nat)
    (hk : k = if a.w % 64 = 0 then a.w else 64 * (a.w / 64) + (64 - a.w % 64)) :
    ∃ c, a.overflowingUaddAssign b = .ok (.ok (decide (2 ^ k ≤ a.uval + b.uval)), c) ∧
      c.Shape ∧ c.len = a.len ∧ c.uval = (a.uval + b.uval) % 2 ^ k := by
  subst hk
  exact overflowingUaddAssign_ok ha hb h

example : ∃ c, a150.overflowingUaddAssign b150 =
    .ok (.ok (decide (2 ^ 170 ≤ a150.uval + b150.uval)), c) ∧
    c.Shape ∧ c.len = a150.len ∧ c.uval = (a150.uval + b150.uval) % 2 ^ 170 :=
  C54_behaviour a150_wf b150_wf rfl 170 (by decide)

/-- C54, the part that holds: widths that leave no digit bits unused, or exactly half of a digit.
Missing: all other widths, where it is false (`C54_correct_iff`). -/
theorem C54_uadd_partial (ha : a.WF) (hb : b.WF) (h : a.len = b.len)
    (hw : a.w % 64 = 0 ∨ a.w % 64 = 32) : UaddCorrect a b := by
  obtain ⟨c, e, h1, h2, h3⟩ := C54_behaviour ha hb h a.w (by split <;> omega)
  refine ⟨c, e, ⟨h1, ?_⟩, h2, h3⟩
  rw [h3, show c.w = a.w by unfold w; rw [h2]]
  exact Nat.mod_lt _ (Nat.two_pow_pos _)

example : ∃ c, a64.overflowingUaddAssign b64 = .ok (.ok true, c) ∧ c.WF ∧ c.len = a64.len ∧
    c.uval = 1 := by
  have h := C54_uadd_partial a64_wf b64_wf rfl (by decide)
  exact h

/-- An integer of any width with exactly one bit set. -/
theorem exists_two_pow (len : BitWidth) {p : Nat} (hp : p < len.toUsize) :
    ∃ a : ApInt, a.WF ∧ a.len = len ∧ a.uval = 2 ^ p := by
  obtain ⟨z, -, h1, h2, h3⟩ := (C30_constants len).1
  obtain ⟨-, ⟨c, -, h4, h5, h6⟩, -⟩ := C20_bit_at (pos := p) h1
    (show p < z.len.toUsize by rw [h2]; exact hp)
  refine ⟨c, h4, h5.trans h2, ?_⟩
  apply Nat.eq_of_testBit_eq
  intro i
  rw [h6 i, h3, Nat.testBit_two_pow]
  by_cases hi : i = p
  · simp [hi]
  · simp [hi, Ne.symm hi]

/-- C54: the widths at which the claim holds. -/
theorem C54_correct_iff (len : BitWidth) :
    C54_claim len ↔ len.toUsize % 64 = 0 ∨ len.toUsize % 64 = 32 := by
  constructor
  · intro hc
    by_contra hn
    have hpos := len.pos
    obtain ⟨k, hk⟩ : ∃ k, k = if len.toUsize % 64 = 0 then len.toUsize
        else 64 * (len.toUsize / 64) + (64 - len.toUsize % 64) := ⟨_, rfl⟩
    have hk2 : k = 64 * (len.toUsize / 64) + (64 - len.toUsize % 64) := by
      rw [hk, if_neg (by omega)]
    have hkp : 0 < k := by omega
    have hne : k ≠ len.toUsize := by omega
    obtain ⟨a, h1, h2, h3⟩ := exists_two_pow len (p := min k len.toUsize - 1) (by omega)
    have hs : a.uval + a.uval = 2 ^ min k len.toUsize := by
      rw [h3, ← Nat.two_mul, ← Nat.pow_succ']
      congr 1
      omega
    obtain ⟨c, e, -⟩ := hc a a h1 h1 h2 h2
    obtain ⟨d, e', -⟩ := C54_behaviour h1 h1 rfl k (by unfold w; rw [h2]; exact hk)
    rw [e, hs] at e'
    unfold w at e'
    rw [h2] at e'
    simp only [Except.ok.injEq, Prod.mk.injEq, decide_eq_decide] at e'
    have e2 := e'.1
    rw [Nat.pow_le_pow_iff_right (by decide), Nat.pow_le_pow_iff_right (by decide)] at e2
    omega
  · intro hw a b ha hb h1 h2
    exact C54_uadd_partial ha hb (h1.trans h2.symm) (by unfold w; rw [h1]; exact hw)

/-- C55: signed addition with overflow report: the sum wraps at the width, and the report says
whether the exact sum of the signed values is outside the signed range. -/
theorem C55_sadd (ha : a.WF) (hb : b.WF) (h : a.len = b.len) :
    ∃ c, a.overflowingSaddAssign b = .ok (.ok (decide
        (a.sval + b.sval < -2 ^ (a.w - 1) ∨ 2 ^ (a.w - 1) ≤ a.sval + b.sval)), c) ∧
      c.WF ∧ c.len = a.len ∧ c.uval = (a.uval + b.uval) % 2 ^ a.w :=
  overflowingSaddAssign_ok ha hb h

example : ∃ c, a7.overflowingSaddAssign b7 = .ok (.ok false, c) ∧ c.WF ∧ c.len = a7.len ∧
    c.uval = 32 := by
  have h := C55_sadd a7_wf b7_wf rfl
  exact h

/-- C54, C55: unequal widths are reported by both and nothing changes. -/
theorem C55_mismatch (ha : a.WF) (hb : b.WF) (h : a.len ≠ b.len) :
    a.overflowingUaddAssign b = .ok (.error (.unmatchingBitwidth a.len b.len), a) ∧
    a.overflowingSaddAssign b = .ok (.error (.unmatchingBitwidth a.len b.len), a) :=
  ⟨overflowingUaddAssign_err h, overflowingSaddAssign_err ha hb h⟩

example : a7.overflowingUaddAssign b64 = .ok (.error (.unmatchingBitwidth a7.len b64.len), a7) :=
  (C55_mismatch a7_wf b64_wf (by decide)).1

/-- C51: the additions that report overflow never panic, whatever the widths. -/
theorem C51_overflowing (ha : a.WF) (hb : b.WF) :
    (∃ x, a.overflowingUaddAssign b = .ok x) ∧ ∃ x, a.overflowingSaddAssign b = .ok x := by
  by_cases h : a.len = b.len
  · obtain ⟨c, e, -⟩ := C54_behaviour ha hb h _ rfl
    obtain ⟨d, e', -⟩ := C55_sadd ha hb h
    exact ⟨⟨_, e⟩, ⟨_, e'⟩⟩
  · exact ⟨⟨_, (C55_mismatch ha hb h).1⟩, ⟨_, (C55_mismatch ha hb h).2⟩⟩

example : ∃ x, a7.overflowingUaddAssign b65 = .ok x := (C51_overflowing a7_wf b65_wf).1

end Verif.Props
