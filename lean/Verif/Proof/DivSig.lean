import Verif.Proof.DivMacros

/-! # Leading bits of the dividend and divisor -/

namespace Verif

namespace ApInt

theorem dshl_ok {x : DDigit} {n : Nat} (h : n < 128) (hx : x.toNat * 2 ^ n < 2 ^ 128) :
    ∃ y, DDigit.shl x n = .ok y ∧ y.toNat = x.toNat * 2 ^ n := by
  refine ⟨x <<< n, by simp [DDigit.shl, h], ?_⟩
  rw [BitVec.toNat_shiftLeft, Nat.shiftLeft_eq, Nat.mod_eq_of_lt hx]

theorem dshr_ok (x : DDigit) {n : Nat} (h : n < 128) :
    ∃ y, DDigit.shr x n = .ok y ∧ y.toNat = x.toNat / 2 ^ n := by
  refine ⟨x >>> n, by simp [DDigit.shr, h], ?_⟩
  rw [BitVec.toNat_ushiftRight, Nat.shiftRight_eq_div_pow]

/-- `sigDD` extracts the 128 bits from the leading one. -/
theorem sigDD_ok {arr : List Digit} {sd lz : Nat} (hsd : sd < arr.length) (h2 : 2 ≤ sd)
    (hlz : lz < 64) (hv : val arr < 2 ^ (64 * (sd + 1) - lz)) :
    ∃ D, sigDD arr sd lz = .ok D ∧ D.toNat = val arr / 2 ^ (64 * (sd + 1) - lz - 128) := by
  have k1 : sd - 1 < arr.length := by omega
  have k0 : sd - 2 < arr.length := by omega
  have hB : val arr < B ^ (sd + 1) := by
    rw [B_pow]
    exact Nat.lt_of_lt_of_le hv (Nat.pow_le_pow_right (by decide) (by omega))
  have d2 : val (arr.drop sd) = (arr[sd]).toNat := by
    rw [List.drop_eq_getElem_cons hsd, val_cons, val_drop_of_lt hB (Nat.le_refl _), Nat.mul_zero,
      Nat.add_zero]
  have d1 : val (arr.drop (sd - 1)) = (arr[sd - 1]).toNat + B * (arr[sd]).toNat := by
    rw [List.drop_eq_getElem_cons k1, val_cons, show sd - 1 + 1 = sd by omega, d2]
  have d0 : val (arr.drop (sd - 2)) = (arr[sd - 2]).toNat + B * ((arr[sd - 1]).toNat
      + B * (arr[sd]).toNat) := by
    rw [List.drop_eq_getElem_cons k0, val_cons, show sd - 2 + 1 = sd - 1 by omega, d1]
  unfold sigDD
  by_cases h0 : lz = 0
  · rw [if_pos h0]
    simp only [csub_ok (show 1 ≤ sd by omega), run_bind_ok, idx_ok k1, idx_ok hsd]
    refine ⟨_, rfl, ?_⟩
    rw [DDigit.fromLoHi_toNat, ← d1, val_drop, B_pow,
      show 64 * (sd + 1) - lz - 128 = 64 * (sd - 1) by omega]
  · rw [if_neg h0]
    have hb : (arr[sd]).toNat < 2 ^ (64 - lz) := by
      rw [← d2, val_drop, B_pow]
      apply Nat.div_lt_of_lt_mul
      rw [← Nat.pow_add]
      exact Nat.lt_of_lt_of_le hv (Nat.pow_le_pow_right (by decide) (by omega))
    have e128 : (2:Nat) ^ 128 = 2 ^ (64 - lz) * 2 ^ (lz + 64) := by
      rw [← Nat.pow_add, show 64 - lz + (lz + 64) = 128 by omega]
    have e64 : (2:Nat) ^ (lz + 64) = 2 ^ 64 * 2 ^ lz := by
      rw [← Nat.pow_add, Nat.add_comm]
    obtain ⟨x, ex, hx⟩ := dshl_ok (x := Digit.dd arr[sd]) (n := lz + 64) (by omega) (by
      rw [Digit.dd_toNat, e128]
      exact Nat.mul_lt_mul_of_pos_right hb (two_pow_w_pos _))
    obtain ⟨y, ey, hy⟩ := dshl_ok (x := Digit.dd arr[sd - 1]) (n := lz) (by omega) (by
      rw [Digit.dd_toNat]
      have h1 : 2 ^ 64 * 2 ^ lz ≤ 2 ^ 128 := by
        rw [← Nat.pow_add]; exact Nat.pow_le_pow_right (by decide) (by omega)
      exact Nat.lt_of_lt_of_le
        (Nat.mul_lt_mul_of_pos_right (arr[sd - 1]).isLt (two_pow_w_pos _)) h1)
    obtain ⟨z, ez, hz⟩ := dshr_ok (Digit.dd arr[sd - 2]) (n := 64 - lz) (by omega)
    rw [Digit.dd_toNat] at hx hy hz
    simp only [csub_ok (show 1 ≤ sd by omega), csub_ok (show 2 ≤ sd by omega),
      csub_ok (show lz ≤ 64 by omega), run_bind_ok, idx_ok k1, idx_ok hsd, idx_ok k0, ex, ey, ez]
    refine ⟨_, rfl, ?_⟩
    have hz' : z.toNat < 2 ^ lz := by
      rw [hz]
      apply Nat.div_lt_of_lt_mul
      rw [← Nat.pow_add, show 64 - lz + lz = 64 by omega]
      exact (arr[sd - 2]).isLt
    have hy' : y.toNat < 2 ^ (lz + 64) := by
      rw [hy, e64]
      exact Nat.mul_lt_mul_of_pos_right (arr[sd - 1]).isLt (two_pow_w_pos _)
    unfold DDigit.bitor
    rw [BitVec.toNat_or, BitVec.toNat_or,
      or_eq_add (n := lz + 64) ⟨(arr[sd]).toNat, by rw [hx, Nat.mul_comm]⟩ hy',
      or_eq_add (n := lz) ⟨2 ^ 64 * (arr[sd]).toNat + (arr[sd - 1]).toNat, by
        rw [hx, hy, e64]; ring⟩ hz', hx, hy, hz]
    rw [show 64 * (sd + 1) - lz - 128 = 64 * (sd - 2) + (64 - lz) by omega,
      Nat.pow_add 2 (64 * (sd - 2)), ← B_pow, ← Nat.div_div_eq_div_mul, ← val_drop, d0]
    have hsplit : B = 2 ^ (64 - lz) * 2 ^ lz := by
      rw [← Nat.pow_add, B_eq, show 64 - lz + lz = 64 by omega]
    have : (arr[sd - 2]).toNat + B * ((arr[sd - 1]).toNat + B * (arr[sd]).toNat)
        = (arr[sd - 2]).toNat + 2 ^ (64 - lz) * (2 ^ lz * ((arr[sd - 1]).toNat
          + B * (arr[sd]).toNat)) := by
      linear_combination ((arr[sd - 1]).toNat + B * (arr[sd]).toNat) * hsplit
    rw [this, Nat.add_mul_div_left _ _ (two_pow_w_pos _), e64, B_eq]
    ring

end ApInt

end Verif
