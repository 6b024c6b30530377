import Verif.Proof.Counts

/-! # Counting bits: helper lemmas -/

namespace Verif

open ApInt

/-- The number of ones among the lowest `w` bits of `v`. -/
def ones (w v : Nat) : Nat := (List.range w).countP fun i => v.testBit i

@[simp] theorem ones_zero_width (v : Nat) : ones 0 v = 0 := rfl

theorem ones_succ (w v : Nat) : ones (w + 1) v = ones w v + (v.testBit w).toNat := by
  unfold ones
  rw [List.range_succ, List.countP_append, List.countP_singleton]
  cases v.testBit w <;> rfl

theorem ones_low (w v : Nat) : ones (w + 1) v = v % 2 + ones w (v / 2) := by
  induction w with
  | zero =>
    rw [ones_succ, ones_zero_width, ones_zero_width, Nat.testBit_zero]
    rcases Nat.mod_two_eq_zero_or_one v with h | h <;> simp [h]
  | succ w ih =>
    rw [ones_succ, ih, ones_succ w (v / 2), Nat.testBit_div_two, Nat.add_assoc]

theorem ones_congr {w u v : Nat} (h : ∀ i, i < w → u.testBit i = v.testBit i) :
    ones w u = ones w v := by
  induction w with
  | zero => rfl
  | succ w ih =>
    rw [ones_succ, ones_succ, ih fun i hi => h i (by omega), h w (by omega)]

theorem ones_mod {w k v : Nat} (h : w ≤ k) : ones w (v % 2 ^ k) = ones w v :=
  ones_congr fun i hi => by
    rw [Nat.testBit_mod_two_pow, decide_eq_true (by omega : i < k), Bool.true_and]

theorem ones_le (w v : Nat) : ones w v ≤ w := by
  have := List.countP_le_length (l := List.range w) (p := fun i => v.testBit i)
  simpa [ones] using this

theorem ones_eq_zero {w v : Nat} (h : ones w v = 0) : ∀ i, i < w → v.testBit i = false := by
  intro i hi
  unfold ones at h
  rw [List.countP_eq_zero] at h
  simpa using h i (List.mem_range.mpr hi)

theorem ones_eq_width {w v : Nat} (h : ones w v = w) : ∀ i, i < w → v.testBit i = true := by
  intro i hi
  unfold ones at h
  have h2 : (List.range w).countP (fun i => v.testBit i) = (List.range w).length := by
    rw [h, List.length_range]
  rw [List.countP_eq_length] at h2
  simpa using h2 i (List.mem_range.mpr hi)

theorem ones_and_or (w u v : Nat) :
    ones w (u &&& v) + ones w (u ||| v) = ones w u + ones w v := by
  induction w with
  | zero => rfl
  | succ w ih =>
    simp only [ones_succ, Nat.testBit_and, Nat.testBit_or]
    cases u.testBit w <;> cases v.testBit w <;> simp <;> omega

theorem ones_xor (w u v : Nat) :
    ones w (u ^^^ v) + 2 * ones w (u &&& v) = ones w u + ones w v := by
  induction w with
  | zero => rfl
  | succ w ih =>
    simp only [ones_succ, Nat.testBit_and, Nat.testBit_xor]
    cases u.testBit w <;> cases v.testBit w <;> simp <;> omega

/-- A carry turns at least as many ones into zeros as it turns zeros into ones. -/
theorem ones_add_carry : ∀ (w u v c : Nat), c ≤ 1 → ones w (u + v + c) ≤ ones w u + ones w v + c
  | 0, _, _, _, _ => by simp
  | w + 1, u, v, c, hc => by
    simp only [ones_low]
    have h : (u + v + c) / 2 = u / 2 + v / 2 + (u % 2 + v % 2 + c) / 2 := by omega
    have ih := ones_add_carry w (u / 2) (v / 2) ((u % 2 + v % 2 + c) / 2) (by omega)
    rw [h]
    omega

theorem ones_add (w u v : Nat) : ones w (u + v) ≤ ones w u + ones w v :=
  ones_add_carry w u v 0 (by omega)

/-- Multiplication is repeated addition of shifted copies, one for each one of a factor. -/
theorem ones_double (w u : Nat) : ones w (2 * u) ≤ ones w u := by
  cases w with
  | zero => simp
  | succ w =>
    rw [ones_low, ones_succ, show 2 * u / 2 = u by omega]
    omega

theorem ones_mul : ∀ (w u v : Nat), ones w (u * v) ≤ ones w u * ones w v
  | 0, _, _ => by simp
  | w + 1, u, v => by
    have h2 : ones (w + 1) (2 * (u / 2 * v)) ≤ ones w (u / 2) * ones (w + 1) v := by
      rw [ones_low, show 2 * (u / 2 * v) % 2 = 0 by omega,
        show 2 * (u / 2 * v) / 2 = u / 2 * v by omega, Nat.zero_add]
      refine (ones_mul w (u / 2) v).trans (Nat.mul_le_mul_left _ ?_)
      rw [ones_succ]; omega
    have e : u * v = u % 2 * v + 2 * (u / 2 * v) := by
      conv_lhs => rw [← Nat.mod_add_div u 2]
      rw [Nat.add_mul, Nat.mul_assoc]
    have h3 : ones (w + 1) (u % 2 * v) = u % 2 * ones (w + 1) v := by
      rcases Nat.mod_two_eq_zero_or_one u with h | h
      · rw [h, Nat.zero_mul, Nat.zero_mul]
        unfold ones; simp
      · rw [h, Nat.one_mul, Nat.one_mul]
    rw [e, ones_low w u, Nat.add_mul, ← h3]
    exact (ones_add _ _ _).trans (by omega)

theorem ones_sum (w s v : Nat) : ones (s + w) (v * 2 ^ s) = ones w v := by
  induction s with
  | zero => simp
  | succ s ih =>
    rw [show s + 1 + w = (s + w) + 1 by omega, ones_low, Nat.pow_succ, ← Nat.mul_assoc,
      Nat.mul_mod_left, Nat.mul_div_cancel _ (by omega), ih, Nat.zero_add]

theorem ones_shr (w s v : Nat) : ones (s + w) v = ones s v + ones w (v / 2 ^ s) := by
  induction s generalizing v with
  | zero => simp
  | succ s ih =>
    rw [show s + 1 + w = (s + w) + 1 by omega, ones_low, ones_low, ih, Nat.div_div_eq_div_mul,
      Nat.pow_succ, Nat.mul_comm 2, Nat.add_assoc]

theorem ones_high {w t v : Nat} (h : w ≤ t) (hv : v < 2 ^ w) : ones t v = ones w v :=
  countP_range_of_false h fun _ hi =>
    Nat.testBit_lt_two_pow (Nat.lt_of_lt_of_le hv (Nat.pow_le_pow_right (by decide) hi))

theorem ones_pow {w k : Nat} (h : k < w) : ones w (2 ^ k) = 1 := by
  have h1 := ones_sum (w - k) k 1
  rw [Nat.one_mul, show k + (w - k) = w by omega] at h1
  rw [h1, show w - k = (w - k - 1) + 1 by omega, ones_low]
  simp only [Nat.reduceDiv]
  unfold ones; simp

/-- Exactly one bit is set in the powers of two only. -/
theorem ones_eq_one {w v : Nat} (hv : v < 2 ^ w) (h : ones w v = 1) : ∃ k, k < w ∧ v = 2 ^ k := by
  induction w generalizing v with
  | zero => simp at h
  | succ w ih =>
    rw [ones_low] at h
    rcases Nat.mod_two_eq_zero_or_one v with h0 | h0
    · obtain ⟨k, hk, e⟩ := ih (v := v / 2) (by rw [Nat.pow_succ] at hv; omega) (by omega)
      exact ⟨k + 1, by omega, by rw [Nat.pow_succ]; omega⟩
    · refine ⟨0, by omega, ?_⟩
      have h2 := ones_eq_zero (w := w) (v := v / 2) (by omega)
      have h3 : v / 2 = 0 := by
        apply Nat.eq_of_testBit_eq
        intro i
        rw [Nat.zero_testBit]
        by_cases hi : i < w
        · exact h2 i hi
        · refine Nat.testBit_lt_two_pow (Nat.lt_of_lt_of_le (m := 2 ^ w) ?_
            (Nat.pow_le_pow_right (by decide) (Nat.not_lt.mp hi)))
          rw [Nat.pow_succ] at hv; omega
      rw [Nat.pow_zero]; omega

/-- Clearing the lowest one removes exactly that one. -/
theorem ones_clear_lowest : ∀ {w v : Nat}, v ≠ 0 → v < 2 ^ w →
    ones w (v &&& (v - 1)) + 1 = ones w v
  | 0, v, h, hv => by rw [Nat.pow_zero] at hv; omega
  | w + 1, v, h, hv => by
    rw [Nat.pow_succ] at hv
    have hd : (v &&& (v - 1)) / 2 = (v / 2) &&& ((v - 1) / 2) := by
      rw [← Nat.shiftRight_one, Nat.shiftRight_and_distrib, Nat.shiftRight_one, Nat.shiftRight_one]
    have hm : (v &&& (v - 1)) % 2 = 0 := by
      have := Nat.and_mod_two_pow (a := v) (b := v - 1) (n := 1)
      rw [Nat.pow_one] at this
      rw [this]
      rcases Nat.mod_two_eq_zero_or_one v with h0 | h0
      · rw [h0, Nat.zero_and]
      · rw [show (v - 1) % 2 = 0 by omega, Nat.and_zero]
    rw [ones_low, ones_low, hd, hm]
    rcases Nat.mod_two_eq_zero_or_one v with h0 | h0
    · rw [show (v - 1) / 2 = v / 2 - 1 by omega, h0, Nat.zero_add, Nat.zero_add]
      exact ones_clear_lowest (by omega) (by omega)
    · rw [show (v - 1) / 2 = v / 2 by omega, Nat.and_self, h0]
      omega

/-! ## Leading and trailing zeros -/

section
variable {a : ApInt}

theorem pow_half {n : Nat} (h : 0 < n) : 2 ^ n = 2 * 2 ^ (n - 1) := by
  obtain ⟨m, rfl⟩ : ∃ m, n = m + 1 := ⟨n - 1, by omega⟩
  rw [Nat.pow_succ, Nat.mul_comm, Nat.add_sub_cancel]

theorem leadingZeros_eq (h : a.WF) {n : Nat} (h1 : n ≤ a.w) (h2 : a.uval < 2 ^ (a.w - n))
    (h3 : n < a.w → 2 ^ (a.w - n - 1) ≤ a.uval) : a.leadingZeros = .ok n := by
  obtain ⟨m, e, g1, g2, g3⟩ := leadingZeros_ok h
  rw [e]
  rcases Nat.lt_trichotomy m n with hlt | rfl | hlt
  · have := g3 (by omega)
    have h4 : 2 ^ (a.w - n) ≤ 2 ^ (a.w - m - 1) := Nat.pow_le_pow_right (by decide) (by omega)
    omega
  · rfl
  · have := h3 (by omega)
    have h4 : 2 ^ (a.w - m) ≤ 2 ^ (a.w - n - 1) := Nat.pow_le_pow_right (by decide) (by omega)
    omega

/-- An integer is zero, or an odd number shifted by its number of trailing zeros. -/
theorem trailingZeros_cases (h : a.WF) : (a.uval = 0 ∧ a.trailingZeros = .ok a.w) ∨
    ∃ n m, n < a.w ∧ a.uval = 2 ^ n * m ∧ m % 2 = 1 ∧ a.trailingZeros = .ok n := by
  obtain ⟨n, e, h1, h2, h3⟩ := trailingZeros_ok h
  have hd : a.uval % 2 ^ n = 0 := by
    apply Nat.eq_of_testBit_eq
    intro i
    rw [Nat.testBit_mod_two_pow, Nat.zero_testBit]
    by_cases hi : i < n
    · rw [h2 i hi, Bool.and_false]
    · rw [decide_eq_false hi, Bool.false_and]
  rcases Nat.lt_or_ge n a.w with hn | hn
  · right
    refine ⟨n, a.uval / 2 ^ n, hn, (Nat.mul_div_cancel' (Nat.dvd_of_mod_eq_zero hd)).symm, ?_, e⟩
    have := h3 hn
    rw [Nat.testBit_eq_decide_div_mod_eq] at this
    simpa using this
  · left
    obtain rfl : n = a.w := by omega
    rw [Nat.mod_eq_of_lt h.2] at hd
    exact ⟨hd, e⟩

theorem trailingZeros_eq (h : a.WF) {n m : Nat} (h1 : n < a.w) (h2 : a.uval = 2 ^ n * m)
    (h3 : m % 2 = 1) : a.trailingZeros = .ok n := by
  obtain ⟨k, e, g1, g2, g3⟩ := trailingZeros_ok h
  have hb : ∀ i, a.uval.testBit i = (decide (n ≤ i) && m.testBit (i - n)) := by
    intro i; rw [h2, Nat.testBit_two_pow_mul]
  have hn : a.uval.testBit n = true := by
    rw [hb, Nat.sub_self, Nat.testBit_zero, h3]; simp
  rw [e]
  rcases Nat.lt_trichotomy k n with hlt | rfl | hlt
  · have := g3 (by omega)
    rw [hb, decide_eq_false (by omega), Bool.false_and] at this
    cases this
  · rfl
  · rw [g2 n hlt] at hn; cases hn

theorem trailingZeros_zero (h : a.WF) (h0 : a.uval = 0) : a.trailingZeros = .ok a.w := by
  rcases trailingZeros_cases h with ⟨-, e⟩ | ⟨n, m, -, hv, hm, -⟩
  · exact e
  · rw [h0] at hv
    have := Nat.two_pow_pos n
    rcases Nat.mul_eq_zero.mp hv.symm with h | h
    · omega
    · rw [h] at hm; omega

end

end Verif
