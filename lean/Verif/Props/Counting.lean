import Verif.Proof.CountLaws
import Verif.Props.Bits
import Verif.Props.Arith
import Verif.Props.Shifts
import Verif.Props.Casts
import Verif.Props.Compare

/-!
# C71: laws of counting bits

How `count_ones`, `leading_zeros` and `trailing_zeros` of the result of an operation depend on
those of its operands.
-/

namespace Verif.Props

open ApInt Ex

variable {a b : ApInt} {s : Nat} {t : BitWidth}

theorem countOnes_ones (ha : a.WF) : a.countOnes = .ok (ones a.w a.uval) := countOnes_ok ha

theorem w_of {c : ApInt} {l : BitWidth} (h : c.len = l) : c.w = l.toUsize := by rw [ApInt.w, h]

/-- C71: the ones of a conjunction and of a disjunction together are those of the operands; an
exclusive or has those of the operands that are not shared. -/
theorem C71_and_or_xor (ha : a.WF) (hb : b.WF) (h : a.len = b.len) :
    ∃ x y z p q i u d, a.intoBitand b = .ok (.ok x) ∧ a.intoBitor b = .ok (.ok y) ∧
      a.intoBitxor b = .ok (.ok z) ∧ a.countOnes = .ok p ∧ b.countOnes = .ok q ∧
      x.countOnes = .ok i ∧ y.countOnes = .ok u ∧ z.countOnes = .ok d ∧
      i + u = p + q ∧ d + 2 * i = p + q ∧ d + i = u := by
  obtain ⟨⟨x, -, ex, -, -, wx, lx, bx⟩, ⟨y, -, ey, -, -, wy, ly, by'⟩,
    ⟨z, -, ez, -, -, wz, lz, bz⟩⟩ := C19_binary ha hb h
  have hx : x.uval = a.uval &&& b.uval := Nat.eq_of_testBit_eq fun i => by
    rw [bx, Nat.testBit_and]
  have hy : y.uval = a.uval ||| b.uval := Nat.eq_of_testBit_eq fun i => by
    rw [by', Nat.testBit_or]
  have hz : z.uval = a.uval ^^^ b.uval := Nat.eq_of_testBit_eq fun i => by
    rw [bz, Nat.testBit_xor]
  refine ⟨x, y, z, _, _, _, _, _, ex, ey, ez, countOnes_ones ha, countOnes_ones hb,
    countOnes_ones wx, countOnes_ones wy, countOnes_ones wz, ?_⟩
  have e1 := ones_and_or a.w a.uval b.uval
  have e2 := ones_xor a.w a.uval b.uval
  have wx' : x.w = a.w := w_of lx
  have wy' : y.w = a.w := w_of ly
  have wz' : z.w = a.w := w_of lz
  rw [hx, hy, hz, wx', wy', wz', ← w_eq h]
  omega

example : ∃ x y z p q i u d, a150.intoBitand b150 = .ok (.ok x) ∧
    a150.intoBitor b150 = .ok (.ok y) ∧ a150.intoBitxor b150 = .ok (.ok z) ∧
    a150.countOnes = .ok p ∧ b150.countOnes = .ok q ∧ x.countOnes = .ok i ∧ y.countOnes = .ok u ∧
    z.countOnes = .ok d ∧ i + u = p + q ∧ d + 2 * i = p + q ∧ d + i = u :=
  C71_and_or_xor a150_wf b150_wf rfl

/-- C71: the ones of the complement are the zeros of the operand, and the other way round. -/
theorem C71_not (ha : a.WF) : ∃ c p q, a.intoBitnot = .ok c ∧ a.countOnes = .ok p ∧
    a.countZeros = .ok q ∧ c.countOnes = .ok q ∧ c.countZeros = .ok p := by
  obtain ⟨c, -, e, -, wc, lc, bc⟩ := C19_bitnot ha
  refine ⟨c, _, _, e, countOnes_ok ha, countZeros_ok ha, ?_, ?_⟩
  · rw [countOnes_ok wc, w_of lc]
    congr 1
    refine List.countP_congr fun i hi => ?_
    have : i < a.w := List.mem_range.mp hi
    simp [bc, this]
  · rw [countZeros_ok wc, w_of lc]
    congr 1
    refine List.countP_congr fun i hi => ?_
    have : i < a.w := List.mem_range.mp hi
    simp [bc, this]

example : ∃ c p q, a65.intoBitnot = .ok c ∧ a65.countOnes = .ok p ∧ a65.countZeros = .ok q ∧
    c.countOnes = .ok q ∧ c.countZeros = .ok p := C71_not a65_wf

/-- C71: no ones means zero, all ones means `2 ^ w - 1`, a single one means a power of two. -/
theorem C71_extremes (ha : a.WF) :
    (a.countOnes = .ok 0 ↔ a.uval = 0) ∧ (a.countOnes = .ok a.w ↔ a.uval = 2 ^ a.w - 1) ∧
    (a.countOnes = .ok 1 ↔ ∃ k, k < a.w ∧ a.uval = 2 ^ k) := by
  rw [countOnes_ones ha]
  simp only [Except.ok.injEq]
  refine ⟨⟨fun h => ?_, fun h => ?_⟩, ⟨fun h => ?_, fun h => ?_⟩, ⟨ones_eq_one ha.2, ?_⟩⟩
  · apply Nat.eq_of_testBit_eq
    intro i
    rw [Nat.zero_testBit]
    by_cases hi : i < a.w
    · exact ones_eq_zero h i hi
    · exact ha.testBit_of_ge (Nat.not_lt.mp hi)
  · rw [h]; unfold ones; simp
  · apply Nat.eq_of_testBit_eq
    intro i
    rw [Nat.testBit_two_pow_sub_one]
    by_cases hi : i < a.w
    · rw [ones_eq_width h i hi, decide_eq_true hi]
    · rw [ha.testBit_of_ge (Nat.not_lt.mp hi), decide_eq_false hi]
  · unfold ones
    have : (List.range a.w).countP (fun i => a.uval.testBit i) = (List.range a.w).length := by
      rw [List.countP_eq_length]
      intro i hi
      rw [h, Nat.testBit_two_pow_sub_one, decide_eq_true (List.mem_range.mp hi)]
    rw [this, List.length_range]
  · rintro ⟨k, hk, e⟩
    rw [e]; exact ones_pow hk

example : a150.countOnes ≠ .ok 1 := by
  rw [Ne, (C71_extremes a150_wf).2.2]
  rintro ⟨k, hk, e⟩
  have h : ∀ k, k < 150 → a150.uval ≠ 2 ^ k := by decide +kernel
  exact h k hk e
example : a65.countOnes = .ok 65 := (C71_extremes a65_wf).2.1.mpr (by decide +kernel)

/-- C71: a sum has at most as many ones as its operands together, a product at most the product of
their numbers of ones. -/
theorem C71_arith (ha : a.WF) (hb : b.WF) (h : a.len = b.len) :
    ∃ x y p q r m, a.intoWrappingAdd b = .ok (.ok x) ∧ a.intoWrappingMul b = .ok (.ok y) ∧
      a.countOnes = .ok p ∧ b.countOnes = .ok q ∧ x.countOnes = .ok r ∧ y.countOnes = .ok m ∧
      r ≤ p + q ∧ m ≤ p * q := by
  obtain ⟨x, ex, wx, lx, vx⟩ := (C04_add ha hb h).2.1
  obtain ⟨y, ey, wy, ly, vy⟩ := (C07_mul ha hb h).2.1
  refine ⟨x, y, _, _, _, _, ex, ey, countOnes_ones ha, countOnes_ones hb, countOnes_ones wx,
    countOnes_ones wy, ?_, ?_⟩
  · rw [vx, w_of lx, ones_mod (Nat.le_refl _), ← w_eq h]; exact ones_add _ _ _
  · rw [vy, w_of ly, ones_mod (Nat.le_refl _), ← w_eq h]; exact ones_mul _ _ _

example : ∃ x y p q r m, a128.intoWrappingAdd b128 = .ok (.ok x) ∧
    a128.intoWrappingMul b128 = .ok (.ok y) ∧ a128.countOnes = .ok p ∧ b128.countOnes = .ok q ∧
    x.countOnes = .ok r ∧ y.countOnes = .ok m ∧ r ≤ p + q ∧ m ≤ p * q :=
  C71_arith a128_wf b128_wf rfl

/-- C71: `x & (x - 1)` has exactly one one less than a nonzero `x`. -/
theorem C71_clear_lowest (ha : a.WF) (h0 : a.uval ≠ 0) :
    ∃ d c p, a.intoWrappingDec = .ok d ∧ a.intoBitand d = .ok (.ok c) ∧
      a.countOnes = .ok (p + 1) ∧ c.countOnes = .ok p := by
  obtain ⟨d, ed, wd, ld, vd⟩ := (C06_inc_dec_neg ha).2.2.2.1
  obtain ⟨c, -, ec, -, -, wc, lc, bc⟩ := (C19_binary ha wd ld.symm).1
  have hd : d.uval = a.uval - 1 := by
    rw [vd, show (a.uval : Int) - 1 = ((a.uval - 1 : Nat) : Int) by omega, wrap_natCast,
      Nat.mod_eq_of_lt (by have := ha.2; omega)]
  have hc : c.uval = a.uval &&& (a.uval - 1) := Nat.eq_of_testBit_eq fun i => by
    rw [bc, hd, Nat.testBit_and]
  refine ⟨d, c, _, ed, ec, ?_, countOnes_ones wc⟩
  rw [countOnes_ones ha, hc, w_of lc]
  exact congrArg _ (ones_clear_lowest h0 ha.2).symm

example : ∃ d c p, a150.intoWrappingDec = .ok d ∧ a150.intoBitand d = .ok (.ok c) ∧
    a150.countOnes = .ok (p + 1) ∧ c.countOnes = .ok p :=
  C71_clear_lowest a150_wf (by decide +kernel)

/-- C71: the leading zeros say between which powers of two a nonzero value lies. -/
theorem C71_leading_bound (ha : a.WF) (n : Nat) : a.leadingZeros = .ok n ↔
    n = a.w ∧ a.uval = 0 ∨
    n < a.w ∧ 2 ^ (a.w - 1 - n) ≤ a.uval ∧ a.uval < 2 ^ (a.w - n) := by
  constructor
  · intro h
    obtain ⟨m, e, h1, h2, h3⟩ := leadingZeros_ok ha
    obtain rfl : m = n := by rw [e] at h; exact Except.ok.inj h
    rcases Nat.lt_or_ge m a.w with hm | hm
    · right
      rw [show a.w - 1 - m = a.w - m - 1 by omega]
      exact ⟨hm, h3 hm, h2⟩
    · left
      rw [show a.w - m = 0 by omega] at h2
      exact ⟨by omega, by simpa using h2⟩
  · rintro (⟨rfl, h0⟩ | ⟨h1, h2, h3⟩)
    · exact leadingZeros_eq ha (Nat.le_refl _) (by rw [h0]; exact Nat.two_pow_pos _)
        (fun h => absurd h (Nat.lt_irrefl _))
    · refine leadingZeros_eq ha (by omega) h3 fun _ => ?_
      rw [show a.w - n - 1 = a.w - 1 - n by omega]; exact h2

example : a150.leadingZeros = .ok 18 := (C71_leading_bound a150_wf 18).mpr (by decide +kernel)

/-- C71: of two integers of one width the smaller one has at least as many leading zeros. -/
theorem C71_leading_order (ha : a.WF) (hb : b.WF) (h : a.len = b.len)
    (hle : a.checkedUle b = .ok (.ok true)) :
    ∃ m n, a.leadingZeros = .ok m ∧ b.leadingZeros = .ok n ∧ n ≤ m := by
  rw [(C27_unsigned ha hb h).2.1] at hle
  have hle : a.uval ≤ b.uval := by
    have := Except.ok.inj (Except.ok.inj hle)
    simpa using this
  obtain ⟨m, e1, h1, h2, h3⟩ := leadingZeros_ok ha
  obtain ⟨n, e2, g1, g2, g3⟩ := leadingZeros_ok hb
  refine ⟨m, n, e1, e2, ?_⟩
  have hw := w_eq h
  by_contra hc
  have := h3 (by omega)
  have h4 : 2 ^ (b.w - n) ≤ 2 ^ (a.w - m - 1) := Nat.pow_le_pow_right (by decide) (by omega)
  omega

example : ∃ m n, a150.leadingZeros = .ok m ∧ b150.leadingZeros = .ok n ∧ n ≤ m :=
  C71_leading_order a150_wf b150_wf rfl (by
    rw [(C27_unsigned a150_wf b150_wf rfl).2.1]; decide +kernel)

/-- C71: the trailing zeros say by which power of two a nonzero value is divisible. -/
theorem C71_trailing_divides (ha : a.WF) (n : Nat) : a.trailingZeros = .ok n ↔
    n = a.w ∧ a.uval = 0 ∨ n < a.w ∧ 2 ^ n ∣ a.uval ∧ ¬ 2 ^ (n + 1) ∣ a.uval := by
  constructor
  · intro h
    rcases trailingZeros_cases ha with ⟨h0, e⟩ | ⟨k, m, hk, hv, hm, e⟩
    · left; rw [e] at h; exact ⟨(Except.ok.inj h).symm, h0⟩
    · right
      obtain rfl : k = n := by rw [e] at h; exact Except.ok.inj h
      refine ⟨hk, ⟨m, hv⟩, ?_⟩
      rw [hv, Nat.pow_succ]
      intro hd
      have := Nat.dvd_of_mul_dvd_mul_left (Nat.two_pow_pos k) hd
      omega
  · rintro (⟨rfl, h0⟩ | ⟨h1, ⟨m, hm⟩, h3⟩)
    · exact trailingZeros_zero ha h0
    · refine trailingZeros_eq ha h1 hm ?_
      rcases Nat.mod_two_eq_zero_or_one m with h | h
      · exfalso
        apply h3
        rw [hm, Nat.pow_succ]
        exact Nat.mul_dvd_mul_left _ (Nat.dvd_of_mod_eq_zero h)
      · exact h

example : a150.trailingZeros = .ok 63 := (C71_trailing_divides a150_wf 63).mpr (by decide +kernel)

theorem trailing_mul {w n m k l : Nat} (hm : m % 2 = 1) (hl : l % 2 = 1) (hw : n + k < w) :
    (2 ^ n * m * (2 ^ k * l)) % 2 ^ w = 2 ^ (n + k) * ((m * l) % 2 ^ (w - (n + k))) ∧
      ((m * l) % 2 ^ (w - (n + k))) % 2 = 1 := by
  constructor
  · have e : 2 ^ w = 2 ^ (n + k) * 2 ^ (w - (n + k)) := by
      rw [← Nat.pow_add]; congr 1; omega
    rw [e, show 2 ^ n * m * (2 ^ k * l) = 2 ^ (n + k) * (m * l) by rw [Nat.pow_add]; ring,
      Nat.mul_mod_mul_left]
  · rw [Nat.mod_mod_of_dvd _ ⟨2 ^ (w - (n + k) - 1), pow_half (by omega)⟩, Nat.mul_mod, hm, hl]

/-- C71: the trailing zeros of a wrapping product are those of the factors together, up to the
width. -/
theorem C71_trailing_mul (ha : a.WF) (hb : b.WF) (h : a.len = b.len) :
    ∃ c m n, a.intoWrappingMul b = .ok (.ok c) ∧ a.trailingZeros = .ok m ∧
      b.trailingZeros = .ok n ∧ c.trailingZeros = .ok (min a.w (m + n)) := by
  obtain ⟨c, ec, wc, lc, vc⟩ := (C07_mul ha hb h).2.1
  have hw : c.w = a.w := w_of lc
  have zero : c.uval = 0 → c.trailingZeros = .ok a.w := fun h => hw ▸ trailingZeros_zero wc h
  rcases trailingZeros_cases ha with ⟨h0, e1⟩ | ⟨n, m, hn, hv, hm, e1⟩
  · obtain ⟨k, e2, -⟩ := trailingZeros_ok hb
    refine ⟨c, _, _, ec, e1, e2, ?_⟩
    rw [Nat.min_eq_left (Nat.le_add_right _ _)]
    exact zero (by rw [vc, h0, Nat.zero_mul, Nat.zero_mod])
  rcases trailingZeros_cases hb with ⟨h0, e2⟩ | ⟨k, l, hk, hu, hl, e2⟩
  · refine ⟨c, _, _, ec, e1, e2, ?_⟩
    rw [← w_eq h, Nat.min_eq_left (Nat.le_add_left _ _)]
    exact zero (by rw [vc, h0, Nat.mul_zero, Nat.zero_mod])
  refine ⟨c, _, _, ec, e1, e2, ?_⟩
  rcases Nat.lt_or_ge (n + k) a.w with hlt | hge
  · rw [Nat.min_eq_right (by omega)]
    obtain ⟨h1, h2⟩ := trailing_mul hm hl hlt
    exact trailingZeros_eq wc (by omega) (by rw [vc, hv, hu]; exact h1) h2
  · rw [Nat.min_eq_left hge]
    refine zero ?_
    rw [vc, hv, hu, show 2 ^ n * m * (2 ^ k * l) = 2 ^ (n + k) * (m * l) by rw [Nat.pow_add]; ring]
    exact Nat.mod_eq_zero_of_dvd ((pow_dvd_pow 2 hge).mul_right _)

example : ∃ c m n, a150.intoWrappingMul b150 = .ok (.ok c) ∧ a150.trailingZeros = .ok m ∧
    b150.trailingZeros = .ok n ∧ c.trailingZeros = .ok (min 150 (m + n)) :=
  C71_trailing_mul a150_wf b150_wf rfl

/-- C71: negation keeps the trailing zeros, and `x & -x` is the lowest one alone. -/
theorem C71_lowest (ha : a.WF) :
    ∃ d c n, a.intoWrappingNeg = .ok d ∧ a.intoBitand d = .ok (.ok c) ∧ a.trailingZeros = .ok n ∧
      d.trailingZeros = .ok n ∧ c.uval = if a.uval = 0 then 0 else 2 ^ n := by
  obtain ⟨d, ed, wd, ld, vd⟩ := (C06_inc_dec_neg ha).2.2.2.2.2.1
  obtain ⟨c, -, ec, -, -, wc, lc, bc⟩ := (C19_binary ha wd ld.symm).1
  have hw : d.w = a.w := w_of ld
  rcases trailingZeros_cases ha with ⟨h0, e⟩ | ⟨n, m, hn, hv, hm, e⟩
  · have hd : d.uval = 0 := by rw [vd, h0]; simp [wrap]
    refine ⟨d, c, _, ed, ec, e, hw ▸ trailingZeros_zero wd hd, ?_⟩
    rw [if_pos h0]
    exact Nat.eq_of_testBit_eq fun i => by rw [bc, h0, Nat.zero_testBit, Bool.false_and]
  · have hp := Nat.two_pow_pos n
    have hpos : 0 < a.uval := by rw [hv]; exact Nat.mul_pos hp (by omega)
    have hlt := ha.2
    have hd : d.uval = 2 ^ a.w - a.uval := by
      have h1 : wrap a.w (-a.uval) = (2 ^ a.w - a.uval) % 2 ^ a.w :=
        (wrap_of_nat ⟨1, by push_cast [Nat.cast_sub (Nat.le_of_lt hlt)]; ring⟩).symm
      rw [vd, h1, Nat.mod_eq_of_lt (by omega)]
    have epow : 2 ^ a.w = 2 ^ n * 2 ^ (a.w - n) := by
      rw [← Nat.pow_add]; congr 1; omega
    have hml : m < 2 ^ (a.w - n) := by
      rw [hv, epow] at hlt
      exact Nat.lt_of_mul_lt_mul_left hlt
    have hd2 : d.uval = 2 ^ n * (2 ^ (a.w - n) - m) := by
      rw [hd, hv, epow, Nat.mul_sub]
    have hev : 2 ^ (a.w - n) = 2 * 2 ^ (a.w - n - 1) := pow_half (by omega)
    have hodd : (2 ^ (a.w - n) - m) % 2 = 1 := by omega
    refine ⟨d, c, n, ed, ec, e, trailingZeros_eq wd (by omega) hd2 hodd, ?_⟩
    rw [if_neg (by omega)]
    apply Nat.eq_of_testBit_eq
    intro i
    rw [bc, hv, hd2, Nat.testBit_two_pow_mul, Nat.testBit_two_pow_mul, Nat.testBit_two_pow]
    by_cases hi : n ≤ i
    · obtain ⟨j, rfl⟩ := Nat.exists_eq_add_of_le hi
      rw [decide_eq_true hi, Bool.true_and, Bool.true_and, Nat.add_sub_cancel_left]
      cases j with
      | zero => simp [Nat.testBit_zero, hm, hodd]
      | succ j =>
        rw [decide_eq_false (by omega : ¬ n = n + (j + 1))]
        rw [Nat.testBit_succ, Nat.testBit_succ]
        have : (2 ^ (a.w - n) - m) / 2 = 2 ^ (a.w - n - 1) - (m / 2 + 1) := by omega
        rw [this, Nat.testBit_two_pow_sub_succ (by omega)]
        cases (m / 2).testBit j <;> simp
    · rw [decide_eq_false hi, Bool.false_and, Bool.false_and, decide_eq_false (by omega)]

example : ∃ d c n, a150.intoWrappingNeg = .ok d ∧ a150.intoBitand d = .ok (.ok c) ∧
    a150.trailingZeros = .ok n ∧ d.trailingZeros = .ok n ∧
    c.uval = if a150.uval = 0 then 0 else 2 ^ n := C71_lowest a150_wf

/-- C71: a left shift by `s` adds `s` trailing zeros, up to the width, and drops the ones among
the highest `s` bits; a logical right shift adds `s` leading zeros, up to the width, and drops the
ones among the lowest `s` bits. -/
theorem C71_shifts (ha : a.WF) (hs : s < a.w) :
    ∃ x y m n, a.intoWrappingShl s = .ok (.ok x) ∧ a.intoWrappingLshr s = .ok (.ok y) ∧
      a.trailingZeros = .ok m ∧ a.leadingZeros = .ok n ∧
      x.trailingZeros = .ok (min a.w (m + s)) ∧ y.leadingZeros = .ok (min a.w (n + s)) ∧
      x.countOnes = .ok ((List.range (a.w - s)).countP fun i => a.uval.testBit i) ∧
      y.countOnes = .ok ((List.range (a.w - s)).countP fun i => a.uval.testBit (i + s)) := by
  obtain ⟨x, ex, wx, lx, vx⟩ := (C15_shl ha hs).2.1
  obtain ⟨y, ey, wy, ly, vy⟩ := (C16_lshr ha hs).2
  have hwx : x.w = a.w := w_of lx
  have hwy : y.w = a.w := w_of ly
  obtain ⟨n, en, hn1, hn2, hn3⟩ := leadingZeros_ok ha
  have hp := Nat.two_pow_pos s
  have hy : y.leadingZeros = .ok (min a.w (n + s)) := by
    refine leadingZeros_eq wy (by omega) ?_ ?_
    · rw [vy, hwy, Nat.div_lt_iff_lt_mul hp, ← Nat.pow_add]
      exact Nat.lt_of_lt_of_le hn2 (Nat.pow_le_pow_right (by decide) (by omega))
    · intro hlt
      rw [vy, hwy, Nat.le_div_iff_mul_le hp, ← Nat.pow_add]
      have := hn3 (by omega)
      rwa [show a.w - min a.w (n + s) - 1 + s = a.w - n - 1 by omega]
  have ox : x.countOnes = .ok (ones (a.w - s) a.uval) := by
    have h1 := ones_sum (a.w - s) s a.uval
    rw [show s + (a.w - s) = a.w by omega] at h1
    rw [countOnes_ones wx, hwx, vx, ones_mod (Nat.le_refl _), h1]
  have oy : y.countOnes = .ok ((List.range (a.w - s)).countP fun i => a.uval.testBit (i + s)) := by
    rw [countOnes_ones wy, hwy, vy, ones_high (w := a.w - s) (by omega)]
    · unfold ones
      simp only [Nat.testBit_div_two_pow]
    · rw [Nat.div_lt_iff_lt_mul hp, ← Nat.pow_add, show a.w - s + s = a.w by omega]
      exact ha.2
  rcases trailingZeros_cases ha with ⟨h0, e⟩ | ⟨k, m, hk, hv, hm, e⟩
  · refine ⟨x, y, _, n, ex, ey, e, en, ?_, hy, ox, oy⟩
    rw [Nat.min_eq_left (Nat.le_add_right _ _), ← hwx]
    exact trailingZeros_zero wx (by rw [vx, h0, Nat.zero_mul, Nat.zero_mod])
  · refine ⟨x, y, k, n, ex, ey, e, en, ?_, hy, ox, oy⟩
    have hmul : a.uval * 2 ^ s = 2 ^ k * m * (2 ^ s * 1) := by rw [hv, Nat.mul_one]
    rcases Nat.lt_or_ge (k + s) a.w with hlt | hge
    · rw [Nat.min_eq_right (by omega)]
      obtain ⟨h1, h2⟩ := trailing_mul (l := 1) hm rfl hlt
      exact trailingZeros_eq wx (by omega) (by rw [vx, hmul]; exact h1) h2
    · rw [Nat.min_eq_left hge, ← hwx]
      refine trailingZeros_zero wx ?_
      rw [vx, hmul, show 2 ^ k * m * (2 ^ s * 1) = 2 ^ (k + s) * m by rw [Nat.pow_add]; ring]
      exact Nat.mod_eq_zero_of_dvd ((pow_dvd_pow 2 hge).mul_right _)

example : ∃ x y m n, a150.intoWrappingShl 85 = .ok (.ok x) ∧
    a150.intoWrappingLshr 85 = .ok (.ok y) ∧ a150.trailingZeros = .ok m ∧
    a150.leadingZeros = .ok n ∧ x.trailingZeros = .ok (min 150 (m + 85)) ∧
    y.leadingZeros = .ok (min 150 (n + 85)) ∧
    x.countOnes = .ok ((List.range (150 - 85)).countP fun i => a150.uval.testBit i) ∧
    y.countOnes = .ok ((List.range (150 - 85)).countP fun i => a150.uval.testBit (i + 85)) :=
  C71_shifts a150_wf (by decide)

/-- C71: zero extension keeps the number of ones and adds the new bits to the leading zeros; it
keeps the trailing zeros of a nonzero integer. -/
theorem C71_zero_extend (ha : a.WF) (h : a.w ≤ t.toUsize) :
    ∃ c p m n, a.intoZeroExtend t = .ok (.ok c) ∧ a.countOnes = .ok p ∧ a.leadingZeros = .ok n ∧
      a.trailingZeros = .ok m ∧ c.countOnes = .ok p ∧
      c.leadingZeros = .ok (n + (t.toUsize - a.w)) ∧
      c.trailingZeros = .ok (if a.uval = 0 then t.toUsize else m) := by
  obtain ⟨c, ec, wc, lc, vc⟩ := (C24_zero_extend ha h).2
  have hw : c.w = t.toUsize := w_of lc
  obtain ⟨n, en, hn1, hn2, hn3⟩ := leadingZeros_ok ha
  have oc : c.countOnes = .ok (ones a.w a.uval) := by
    rw [countOnes_ones wc, hw, vc, ones_high h ha.2]
  have lz : c.leadingZeros = .ok (n + (t.toUsize - a.w)) := by
    refine leadingZeros_eq wc (by omega) ?_ fun hlt => ?_
    · rw [vc, hw, show t.toUsize - (n + (t.toUsize - a.w)) = a.w - n by omega]; exact hn2
    · rw [vc, hw, show t.toUsize - (n + (t.toUsize - a.w)) - 1 = a.w - n - 1 by omega]
      exact hn3 (by omega)
  rcases trailingZeros_cases ha with ⟨h0, e⟩ | ⟨k, m, hk, hv, hm, e⟩
  · refine ⟨c, _, _, n, ec, countOnes_ones ha, en, e, oc, lz, ?_⟩
    rw [if_pos h0, ← hw]
    exact trailingZeros_zero wc (by rw [vc, h0])
  · refine ⟨c, _, k, n, ec, countOnes_ones ha, en, e, oc, lz, ?_⟩
    have hpos : a.uval ≠ 0 := by
      rw [hv]
      exact Nat.mul_ne_zero (Nat.two_pow_pos k).ne' (by omega)
    rw [if_neg hpos]
    exact trailingZeros_eq wc (by omega) (vc.trans hv) hm

example : ∃ c p m n, a150.intoZeroExtend (bw 300) = .ok (.ok c) ∧ a150.countOnes = .ok p ∧
    a150.leadingZeros = .ok n ∧ a150.trailingZeros = .ok m ∧ c.countOnes = .ok p ∧
    c.leadingZeros = .ok (n + (300 - 150)) ∧
    c.trailingZeros = .ok (if a150.uval = 0 then 300 else m) :=
  C71_zero_extend a150_wf (by decide)

/-- C71: sign extension of a negative integer adds as many ones as there are new bits and keeps it
without leading zeros; otherwise it counts like zero extension. -/
theorem C71_sign_extend (ha : a.WF) (h : a.w ≤ t.toUsize) :
    ∃ c p n, a.intoSignExtend t = .ok (.ok c) ∧ a.countOnes = .ok p ∧ a.leadingZeros = .ok n ∧
      c.countOnes = .ok (if a.sval < 0 then p + (t.toUsize - a.w) else p) ∧
      c.leadingZeros = .ok (if a.sval < 0 then 0 else n + (t.toUsize - a.w)) := by
  obtain ⟨c, ec, wc, lc, vc⟩ : ReturnsOk (a.intoSignExtend t) t
      (if a.uval < 2 ^ (a.w - 1) then a.uval else a.uval + 2 ^ t.toUsize - 2 ^ a.w) :=
    into_of_updates (signExtend_ok ha h)
  have hw : c.w = t.toUsize := w_of lc
  have hlt := ha.2
  have hp := a.pos_w
  by_cases hn : a.uval < 2 ^ (a.w - 1)
  · rw [if_pos hn] at vc
    obtain ⟨d, p, m, n, ed, ep, en, -, od, ld, -⟩ := C71_zero_extend ha h
    obtain ⟨d', ed', wd, ld', vd⟩ := (C24_zero_extend ha h).2
    obtain rfl : d = d' := Except.ok.inj (Except.ok.inj (ed.symm.trans ed'))
    obtain rfl : c = d := ext_of_uval wc.1 wd.1 (lc.trans ld'.symm) (vc.trans vd.symm)
    have hs : ¬ a.sval < 0 := by unfold sval; rw [if_pos hn]; omega
    exact ⟨c, p, n, ec, ep, en, by rw [if_neg hs]; exact od, by rw [if_neg hs]; exact ld⟩
  · rw [if_neg hn] at vc
    obtain ⟨n, en, -⟩ := leadingZeros_ok ha
    have hs : a.sval < 0 := by
      unfold sval; rw [if_neg hn]
      have : (a.uval : Int) < ((2 ^ a.w : Nat) : Int) := by exact_mod_cast hlt
      push_cast at this
      omega
    have epow : 2 ^ t.toUsize = 2 ^ a.w * 2 ^ (t.toUsize - a.w) := by
      rw [← Nat.pow_add]; congr 1; omega
    have hq := Nat.two_pow_pos (t.toUsize - a.w)
    have hv : c.uval = a.uval + 2 ^ a.w * (2 ^ (t.toUsize - a.w) - 1) := by
      rw [vc, Nat.mul_sub, Nat.mul_one, ← epow]
      have : 2 ^ a.w ≤ 2 ^ t.toUsize := Nat.pow_le_pow_right (by decide) h
      omega
    refine ⟨c, _, n, ec, countOnes_ones ha, en, ?_, ?_⟩
    · rw [if_pos hs, countOnes_ones wc, hw]
      have h1 := ones_shr (t.toUsize - a.w) a.w c.uval
      rw [show a.w + (t.toUsize - a.w) = t.toUsize by omega] at h1
      have h2 : ones a.w c.uval = ones a.w a.uval := by
        rw [← ones_mod (Nat.le_refl a.w), hv, Nat.add_mul_mod_self_left, Nat.mod_eq_of_lt hlt]
      have h3 : c.uval / 2 ^ a.w = 2 ^ (t.toUsize - a.w) - 1 := by
        rw [hv, Nat.add_mul_div_left _ _ (Nat.two_pow_pos _), Nat.div_eq_of_lt hlt, Nat.zero_add]
      have h4 : ones (t.toUsize - a.w) (2 ^ (t.toUsize - a.w) - 1) = t.toUsize - a.w := by
        unfold ones
        have : (List.range (t.toUsize - a.w)).countP
            (fun i => (2 ^ (t.toUsize - a.w) - 1).testBit i) =
            (List.range (t.toUsize - a.w)).length := by
          rw [List.countP_eq_length]
          intro i hi
          rw [Nat.testBit_two_pow_sub_one, decide_eq_true (List.mem_range.mp hi)]
        rw [this, List.length_range]
      rw [h1, h2, h3, h4]
    · rw [if_pos hs]
      have h5 : 2 ^ a.w = 2 * 2 ^ (a.w - 1) := pow_half hp
      have h6 : 2 ^ t.toUsize = 2 * 2 ^ (t.toUsize - 1) := pow_half (by omega)
      have h7 : 2 ^ (a.w - 1) ≤ 2 ^ (t.toUsize - 1) :=
        Nat.pow_le_pow_right (by decide) (by omega)
      refine leadingZeros_eq wc (Nat.zero_le _) ?_ fun _ => ?_
      · rw [Nat.sub_zero]; exact wc.2
      · rw [vc, hw, Nat.sub_zero]; omega

example : ∃ c p n, b150.intoSignExtend (bw 300) = .ok (.ok c) ∧ b150.countOnes = .ok p ∧
    b150.leadingZeros = .ok n ∧ c.countOnes = .ok (if b150.sval < 0 then p + (300 - 150) else p) ∧
    c.leadingZeros = .ok (if b150.sval < 0 then 0 else n + (300 - 150)) :=
  C71_sign_extend b150_wf (by decide)
example : b150.sval < 0 := by decide +kernel

end Verif.Props
