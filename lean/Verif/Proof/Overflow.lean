import Verif.Proof.Arith
import Verif.Proof.Ops
import Verif.Proof.Shift
import Verif.Proof.Bitwise

/-! # `overflowing_uadd_assign` and `overflowing_sadd_assign` -/

namespace Verif

/-- Masking with `ONES >> e` keeps the low `64 - e` bits. -/
theorem and_shr_ones (d : Digit) {e : Nat} (h : e < 64) :
    (Digit.bitand d (Digit.shr Digit.ONES e)).toNat = d.toNat % 2 ^ (64 - e) := by
  have hm : (Digit.shr Digit.ONES e).toNat = 2 ^ (64 - e) - 1 := by
    rw [Digit.shr, BitVec.toNat_ushiftRight, Nat.mod_eq_of_lt h, Digit.ONES_toNat,
      Nat.shiftRight_eq_div_pow, B_split (Nat.le_of_lt h)]
    have h1 : 0 < 2 ^ e := Nat.two_pow_pos e
    have h2 : 0 < 2 ^ (64 - e) := Nat.two_pow_pos _
    generalize 2 ^ (64 - e) = q at *
    generalize 2 ^ e = p at *
    obtain ⟨q, rfl⟩ : ∃ k, q = k + 1 := ⟨q - 1, by omega⟩
    rw [show p * (q + 1) - 1 = (p - 1) + p * q by rw [Nat.mul_add]; omega,
      Nat.add_mul_div_left _ _ h1, Nat.div_eq_of_lt (by omega)]
    omega
  rw [Digit.bitand, BitVec.toNat_and, hm, Nat.and_two_pow_sub_one_eq_mod]

theorem digit_bne_iff (x y : Digit) : (x != y) = decide (x.toNat ≠ y.toNat) := by
  rw [Bool.eq_iff_iff]
  simp [bne_iff_ne, BitVec.toNat_inj]

theorem mod_ne_self_iff {x m : Nat} (hm : 0 < m) : x % m ≠ x ↔ m ≤ x := by
  constructor
  · intro h
    by_contra hc
    exact h (Nat.mod_eq_of_lt (by omega))
  · intro h hc
    have := Nat.mod_lt x hm
    omega

namespace ApInt

/-- Number of low bits of the exact sum that `overflowing_uadd_assign` keeps. -/
def keptBits (w : Nat) : Nat := if w % 64 = 0 then w else 64 * (w / 64) + (64 - w % 64)

theorem overflowingUaddAssign_ok {a b : ApInt} (ha : a.WF) (hb : b.WF) (h : a.len = b.len) :
    ∃ c, a.overflowingUaddAssign b =
        .ok (.ok (decide (2 ^ keptBits a.w ≤ a.uval + b.uval)), c) ∧
      c.Shape ∧ c.len = a.len ∧ c.uval = (a.uval + b.uval) % 2 ^ keptBits a.w := by
  have hbw : b.w = a.w := by unfold w; rw [h]
  have hal := ha.2
  have hbl := hb.2
  rw [hbw] at hbl
  have hs : a.uval + b.uval < 2 ^ (a.w + 1) := by rw [Nat.pow_succ]; omega
  have hpos := a.pos_w
  unfold overflowingUaddAssign
  rcases BitWidth.excessBits_cases a.len with ⟨h0, e0⟩ | ⟨h0, e0⟩
  · have hk : keptBits a.w = a.w := if_pos h0
    rw [hk]
    rcases zipAccessData_ok ha.1 hb.1 h with ⟨x, y, ex, ey, h1, e⟩ | ⟨xs, ys, ex, ey, h1, h2, h3, e⟩
    · have hw : a.w = 64 := by have := a.pos_w; unfold w at *; omega
      have eu : a.uval = x.toNat := by simp [uval, digits, ex]
      have eb : b.uval = y.toNat := by simp [uval, digits, ey]
      refine ⟨{ a with data := .inl (Digit.overflowingAdd x y).1 }, ?_, ?_, rfl, ?_⟩
      · simp only [width, e0, e, run_bind_ok, Digit.overflowingAdd_snd, eu, eb, hw, ← B_eq]
      · exact h1
      · rw [eu, eb, hw, ← B_eq]
        simp only [uval, digits, val_singleton]
        rw [Digit.overflowingAdd_fst]
        exact Digit.wrappingAdd_toNat x y
    · obtain ⟨s, es, hs1, hs2⟩ := addDigits_ok (lhs := xs) (rhs := ys) (hi := xs.length)
        (by rw [h2, h3]) (by omega) (by omega)
      rw [List.take_of_length_le (by omega)] at hs2
      have hw : 64 * xs.length = a.w := by unfold w at *; omega
      have eu : a.uval = val xs := by simp [uval, digits, ex]
      have eb : b.uval = val ys := by simp [uval, digits, ey]
      have hv := val_lt s.1
      rw [hs1, B_pow, hw] at hv
      rw [B_pow, hw, ← eu, ← eb] at hs2
      refine ⟨{ a with data := .ext s.1 }, ?_, ⟨h1, by rw [hs1, h2]⟩, rfl, ?_⟩
      · simp only [width, e0, e, run_bind_ok, es]
        congr 3
        rw [Bool.eq_iff_iff, Bool.not_eq_true', decide_eq_true_iff, ← hs2, ← Bool.not_eq_true,
          Digit.isZero_iff]
        constructor
        · intro hz
          exact le_trans (Nat.le_mul_of_pos_right _ (Nat.pos_of_ne_zero hz)) (Nat.le_add_left _ _)
        · intro hle hz
          rw [hz] at hle
          omega
      · rw [← hs2, Nat.add_mul_mod_self_left]
        exact (Nat.mod_eq_of_lt hv).symm
  · have he : a.w % 64 < 64 := Nat.mod_lt _ (by decide)
    have hk : keptBits a.w = 64 * (a.w / 64) + (64 - a.w % 64) := if_neg h0
    rw [hk]
    rcases zipAccessData_ok ha.1 hb.1 h with ⟨x, y, ex, ey, h1, e⟩ | ⟨xs, ys, ex, ey, h1, h2, h3, e⟩
    · have h64 : a.w < 64 := by unfold w at *; omega
      have hd : a.w / 64 = 0 := Nat.div_eq_of_lt h64
      have eu : a.uval = x.toNat := by simp [uval, digits, ex]
      have eb : b.uval = y.toNat := by simp [uval, digits, ey]
      have ht : (Digit.wrappingAdd x y).toNat = a.uval + b.uval := by
        rw [Digit.wrappingAdd_toNat, eu, eb, Nat.mod_eq_of_lt]
        rw [← eu, ← eb, B_eq]
        exact Nat.lt_of_lt_of_le hs (Nat.pow_le_pow_right (by decide) h64)
      refine ⟨{ a with data := .inl (Digit.bitand (Digit.wrappingAdd x y)
        (Digit.shr Digit.ONES (a.w % 64))) }, ?_, h1, rfl, ?_⟩
      · simp only [width, e0, e, run_bind_ok]
        congr 3
        rw [digit_bne_iff, and_shr_ones _ he, ht, hd, decide_eq_decide,
          mod_ne_self_iff (Nat.two_pow_pos _)]
        simp
      · simp only [uval, digits, val_singleton]
        rw [and_shr_ones _ he, ht, hd]
        simp [uval, digits]
    · have eu : a.uval = val xs := by simp [uval, digits, ex]
      have eb : b.uval = val ys := by simp [uval, digits, ey]
      have hn : xs.length = a.w / 64 + 1 := by unfold w at *; omega
      have hn1 : 1 ≤ a.w / 64 := by unfold w at *; omega
      have hyn : ys.length = a.w / 64 + 1 := by omega
      obtain ⟨s, es, hs1, hs2⟩ := addDigits_ok (lhs := xs) (rhs := ys) (hi := a.w / 64)
        (by rw [h2, h3]) hn1 (by omega)
      have hi1 : a.w / 64 < s.1.length := by omega
      have hi2 : a.w / 64 < ys.length := by omega
      have t1 := val_take_succ hi1
      have t2 := val_take_succ hi2
      rw [List.take_of_length_le (by omega)] at t1 t2
      have hlow : val (s.1.take (a.w / 64)) < B ^ (a.w / 64) := val_lt_of_le (by simp)
      have hB := B_pow_pos (a.w / 64)
      have htot : a.uval + b.uval = val (s.1.take (a.w / 64)) +
          B ^ (a.w / 64) * (s.1[a.w / 64].toNat + ys[a.w / 64].toNat + s.2.toNat) := by
        rw [eu, eb]
        linear_combination t1 + t2 - hs2
      have hdiv : (a.uval + b.uval) / B ^ (a.w / 64) =
          s.1[a.w / 64].toNat + ys[a.w / 64].toNat + s.2.toNat := by
        rw [htot, Nat.add_mul_div_left _ _ hB, Nat.div_eq_of_lt hlow, Nat.zero_add]
      have hmod : (a.uval + b.uval) % B ^ (a.w / 64) = val (s.1.take (a.w / 64)) := by
        rw [htot, Nat.add_mul_mod_self_left, Nat.mod_eq_of_lt hlow]
      have ht : (Digit.wrappingAdd (Digit.wrappingAdd s.1[a.w / 64] ys[a.w / 64]) s.2).toNat =
          (a.uval + b.uval) / B ^ (a.w / 64) := by
        rw [Digit.wrappingAdd_toNat, Digit.wrappingAdd_toNat, Nat.mod_add_mod, ← hdiv,
          Nat.mod_eq_of_lt]
        rw [Nat.div_lt_iff_lt_mul hB, B_eq, ← Nat.pow_mul, ← Nat.pow_add]
        refine Nat.lt_of_lt_of_le hs (Nat.pow_le_pow_right (by decide) ?_)
        omega
      have hp : (2:Nat) ^ (64 * (a.w / 64) + (64 - a.w % 64)) =
          B ^ (a.w / 64) * 2 ^ (64 - a.w % 64) := by rw [Nat.pow_add, B_pow]
      refine ⟨{ a with data := .ext (s.1.set (a.w / 64) (Digit.bitand (Digit.wrappingAdd
        (Digit.wrappingAdd s.1[a.w / 64] ys[a.w / 64]) s.2)
        (Digit.shr Digit.ONES (a.w % 64)))) }, ?_, ⟨h1, by simp [hs1, h2]⟩, rfl, ?_⟩
      · simp only [width, e0, e, run_bind_ok, hn, csub_ok (show 1 ≤ a.w / 64 + 1 by omega),
          Nat.add_sub_cancel, es, idx_ok hi1, idx_ok hi2, upd_ok hi1]
        congr 3
        rw [digit_bne_iff, and_shr_ones _ he, ht, decide_eq_decide,
          mod_ne_self_iff (Nat.two_pow_pos _), Nat.le_div_iff_mul_le hB, hp, Nat.mul_comm]
      · have hset := val_set hi1 (Digit.bitand (Digit.wrappingAdd
          (Digit.wrappingAdd s.1[a.w / 64] ys[a.w / 64]) s.2) (Digit.shr Digit.ONES (a.w % 64)))
        rw [and_shr_ones _ he, ht] at hset
        rw [hp, Nat.mod_mul, hmod]
        simp only [uval, digits] at hset ⊢
        linarith [hset, t1]

theorem overflowingUaddAssign_err {a b : ApInt} (h : a.len ≠ b.len) :
    a.overflowingUaddAssign b = .ok (.error (.unmatchingBitwidth a.len b.len), a) := by
  unfold overflowingUaddAssign
  cases a.width.excessBits <;> simp [zipAccessData_err h]

/-- The top bit tells which half of the range the value is in. -/
theorem msb_iff {a : ApInt} (ha : a.WF) :
    a.uval.testBit (a.w - 1) = decide (2 ^ (a.w - 1) ≤ a.uval) := by
  have hw := a.pos_w
  have h1 := ha.2
  have h2 : (2:Nat) ^ a.w = 2 * 2 ^ (a.w - 1) := by rw [← Nat.pow_succ']; congr 1; omega
  by_cases hc : 2 ^ (a.w - 1) ≤ a.uval
  · rw [decide_eq_true hc, Nat.testBit_eq_decide_div_mod_eq, decide_eq_true_iff]
    have : a.uval / 2 ^ (a.w - 1) = 1 := by
      rw [Nat.div_eq_iff (Nat.two_pow_pos _)]
      omega
    rw [this]
  · rw [decide_eq_false hc]
    exact Nat.testBit_lt_two_pow (by omega)

theorem overflowingSaddAssign_ok {a b : ApInt} (ha : a.WF) (hb : b.WF) (h : a.len = b.len) :
    ∃ c, a.overflowingSaddAssign b =
        .ok (.ok (decide (a.sval + b.sval < -2 ^ (a.w - 1) ∨ 2 ^ (a.w - 1) ≤ a.sval + b.sval)), c) ∧
      c.WF ∧ c.len = a.len ∧ c.uval = (a.uval + b.uval) % 2 ^ a.w := by
  obtain ⟨c, e, h1, h2, h3⟩ := wrappingAddAssign_ok ha.1 hb.1 h
  refine ⟨c, ?_, h1, h2, h3⟩
  unfold overflowingSaddAssign
  simp only [msb_ok ha.1, msb_ok hb.1, run_bind_ok, e, msb_ok h1.1, msb_iff ha, msb_iff hb,
    msb_iff h1]
  congr 3
  have hbw : b.w = a.w := by unfold w; rw [h]
  have hcw : c.w = a.w := by unfold w; rw [h2]
  have hal := ha.2
  have hbl := hb.2
  have hpos := a.pos_w
  unfold sval
  rw [hbw] at hbl ⊢
  rw [h3, hcw]
  have hpw : (2:Nat) ^ a.w = 2 * 2 ^ (a.w - 1) := by rw [← Nat.pow_succ']; congr 1; omega
  have hz1 : (2:Int) ^ (a.w - 1) = ((2 ^ (a.w - 1) : Nat) : Int) := by push_cast; rfl
  have hz2 : (2:Int) ^ a.w = ((2 ^ a.w : Nat) : Int) := by push_cast; rfl
  rw [hz1, hz2, hpw] 
  rw [hpw] at hal hbl
  generalize (2:Nat) ^ (a.w - 1) = P at *
  generalize a.uval = x at *
  generalize b.uval = y at *
  have hm : (x + y) % (2 * P) = if x + y < 2 * P then x + y else x + y - 2 * P := by
    split
    · rename_i hlt; exact Nat.mod_eq_of_lt hlt
    · rename_i hge
      rw [Nat.mod_eq_sub_mod (by omega), Nat.mod_eq_of_lt (by omega)]
  rw [hm, Bool.eq_iff_iff, Bool.and_eq_true, beq_iff_eq, bne_iff_ne, decide_eq_true_iff,
    decide_eq_decide, ne_eq, decide_eq_decide]
  split <;> split <;> split <;> omega

theorem overflowingSaddAssign_err {a b : ApInt} (ha : a.WF) (hb : b.WF) (h : a.len ≠ b.len) :
    a.overflowingSaddAssign b = .ok (.error (.unmatchingBitwidth a.len b.len), a) := by
  unfold overflowingSaddAssign
  simp only [msb_ok ha.1, msb_ok hb.1, run_bind_ok, wrappingAddAssign_err h]

end ApInt

end Verif
