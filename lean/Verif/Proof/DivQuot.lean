import Verif.Proof.DivSig

/-! # The "`mul` or `mul - 1`" step of division -/

namespace Verif

namespace ApInt

/-- The quotient of the leading parts exceeds the quotient by at most one. -/
theorem quot_est {U V P m : Nat} (hP : 0 < P) (hd : 0 < V / P) (hm : m = U / P / (V / P))
    (hle : m ≤ V / P + 1) : U < (m + 1) * V ∧ (m - 1) * V ≤ U := by
  have hD1 : P * (U / P) ≤ U := Nat.mul_div_le _ _
  have hD2 : U < P * (U / P + 1) := Nat.lt_mul_div_succ _ hP
  have hd1 : P * (V / P) ≤ V := Nat.mul_div_le _ _
  have hd2 : V < P * (V / P + 1) := Nat.lt_mul_div_succ _ hP
  have hm1 : (V / P) * m ≤ U / P := by rw [hm]; exact Nat.mul_div_le _ _
  have hm2 : U / P < (V / P) * (m + 1) := by rw [hm]; exact Nat.lt_mul_div_succ _ hd
  generalize U / P = D at *
  generalize V / P = d at *
  constructor
  · calc U < P * (D + 1) := hD2
      _ ≤ P * (d * (m + 1)) := Nat.mul_le_mul_left _ hm2
      _ = (m + 1) * (P * d) := by ring
      _ ≤ _ := Nat.mul_le_mul_left _ hd1
  · cases m with
    | zero => simp
    | succ k =>
      simp only [Nat.add_sub_cancel]
      calc k * V ≤ k * (P * (d + 1)) := Nat.mul_le_mul_left _ (Nat.le_of_lt hd2)
        _ = P * (d * k + k) := by ring
        _ ≤ P * (d * (k + 1)) := by
          apply Nat.mul_le_mul_left
          rw [Nat.mul_succ]
          omega
        _ ≤ P * D := Nat.mul_le_mul_left _ hm1
        _ ≤ U := hD1

theorem eq_of_congr {a b n : Nat} (ha : a < n) (hb : b < n) (h : ∃ k : ℤ, (a : ℤ) = b + n * k) :
    a = b := by
  have := modEq_of_int h
  rwa [Nat.mod_eq_of_lt ha, Nat.mod_eq_of_lt hb] at this

theorem take_self {l : List Digit} {n : Nat} (h : l.length = n) : l.take n = l :=
  List.take_of_length_le (by omega)

theorem sub_one_toNat {m : Digit} (h : 0 < m.toNat) :
    (Digit.wrappingSub m Digit.ONE).toNat = m.toNat - 1 := by
  have := m.isLt
  simp only [Digit.wrappingSub, Digit.ONE, BitVec.toNat_sub]
  rw [show (1#64).toNat = 1 from rfl]
  omega

theorem finishMul_ok {duo div sub : List Digit} {mul : Digit} {n r : Nat} (hn : 2 ≤ n)
    (h1 : duo.length = n) (h2 : div.length = n) (h3 : sub.length = n)
    (hs : ∃ k, val sub + B ^ n * k = mul.toNat * val div)
    (hr : mul.toNat * val div + r = val duo) :
    ∃ duo' div', finishMul n duo div sub mul = .ok (duo', div') ∧ duo'.length = n ∧
      div'.length = n ∧ val duo' = mul.toNat ∧ val div' = r := by
  obtain ⟨k0, hk0⟩ := hs
  obtain ⟨s1, e1, l1, -, k1, hk1⟩ := twosComplement_ok (l := sub) (n := n) (by omega)
  rw [take_self (by omega), take_self (by omega)] at hk1
  obtain ⟨u, v, e2, l2, l3, -, -, v1, k2, hk2⟩ := special0_ok (sum := duo) (sub := s1)
    (target := div) (n := n) hn (by omega) (by omega) (by omega) mul
  rw [take_self (by omega)] at v1
  rw [take_self (by omega), take_self (by omega), take_self (by omega)] at hk2
  refine ⟨u, v, ?_, by omega, by omega, v1, ?_⟩
  · simp only [finishMul, e1, e2, run_bind_ok]
  · refine eq_of_congr (n := B ^ n) (val_lt_of_le (by omega)) ?_ ⟨(k0 : ℤ) + k1 - k2, ?_⟩
    · have := val_lt_of_le (l := duo) (n := n) (by omega)
      omega
    · zify at *
      linear_combination hk2 + hk1 - hk0 - hr

theorem finishMulSub1_ok {duo div sub : List Digit} {mul : Digit} {n r : Nat} (hn : 2 ≤ n)
    (h1 : duo.length = n) (h2 : div.length = n) (h3 : sub.length = n)
    (hs : ∃ k, val sub + B ^ n * k = mul.toNat * val div) (hm : 0 < mul.toNat)
    (hr : (mul.toNat - 1) * val div + r = val duo) :
    ∃ duo' div', finishMulSub1 n duo div sub mul = .ok (duo', div') ∧ duo'.length = n ∧
      div'.length = n ∧ val duo' = mul.toNat - 1 ∧ val div' = r := by
  obtain ⟨k0, hk0⟩ := hs
  obtain ⟨s1, e1, l1, -, k1, hk1⟩ := twosComplement_ok (l := sub) (n := n) (by omega)
  rw [take_self (by omega), take_self (by omega)] at hk1
  obtain ⟨s2, e2, l2, k2, hk2⟩ := addMacro_ok (s := s1) (a := div) (by omega) (by omega)
  rw [l1, h3] at e2 l2 hk2
  obtain ⟨u, v, e3, l3, l4, -, -, v1, k3, hk3⟩ := special0_ok (sum := duo) (sub := s2)
    (target := div) (n := n) hn (by omega) (by omega) (by omega) (Digit.wrappingSub mul Digit.ONE)
  rw [take_self (by omega), sub_one_toNat hm] at v1
  rw [take_self (by omega), take_self (by omega), take_self (by omega)] at hk3
  refine ⟨u, v, ?_, by omega, by omega, v1, ?_⟩
  · simp only [finishMulSub1, e1, e2, e3, run_bind_ok]
  · refine eq_of_congr (n := B ^ n) (val_lt_of_le (by omega)) ?_ ⟨(k0 : ℤ) + k1 - k2 - k3, ?_⟩
    · have := val_lt_of_le (l := duo) (n := n) (by omega)
      omega
    · obtain ⟨m, hm'⟩ : ∃ m, mul.toNat = m + 1 := ⟨mul.toNat - 1, by omega⟩
      rw [hm'] at hk0 hr
      rw [Nat.add_sub_cancel] at hr
      zify at *
      linear_combination hk3 + hk2 + hk1 - hk0 - hr

/-- Both outcomes of the comparison of the estimate with the dividend. -/
theorem finish_ok {duo div sub : List Digit} {mul : Digit} {n : Nat} (hn : 2 ≤ n)
    (h1 : duo.length = n) (h2 : div.length = n) (h3 : sub.length = n)
    (hs : val sub = mul.toNat * val div)
    (hq1 : val duo < (mul.toNat + 1) * val div) (hq2 : (mul.toNat - 1) * val div ≤ val duo) :
    ∃ duo' div', (do
      let gt ← ugt n sub n duo
      if gt then finishMulSub1 n duo div sub mul
      else finishMul n duo div sub mul) = .ok (duo', div') ∧ duo'.length = n ∧ div'.length = n ∧
      val duo' = val duo / val div ∧ val div' = val duo % val div := by
  rw [ugt_ok (by omega) (by omega), take_self h3, take_self h1]
  simp only [run_bind_ok]
  have hV : 0 < val div := by
    rcases Nat.eq_zero_or_pos (val div) with h | h
    · rw [h, Nat.mul_zero] at hq1; omega
    · exact h
  by_cases hgt : val sub > val duo
  · simp only [hgt, decide_true, if_true]
    have hm : 0 < mul.toNat := by
      rcases Nat.eq_zero_or_pos mul.toNat with h | h
      · rw [h, Nat.zero_mul] at hs; omega
      · exact h
    obtain ⟨u, v, e, l1, l2, v1, v2⟩ := finishMulSub1_ok (duo := duo) (div := div) (sub := sub)
      (mul := mul) (r := val duo - (mul.toNat - 1) * val div) hn h1 h2 h3 ⟨0, by omega⟩ hm
      (by omega)
    have key : val duo / val div = mul.toNat - 1 := by
      apply Nat.div_eq_of_lt_le hq2
      rw [show mul.toNat - 1 + 1 = mul.toNat by omega, ← hs]
      exact hgt
    refine ⟨u, v, e, l1, l2, by rw [v1, key], ?_⟩
    rw [v2]
    have := Nat.div_add_mod (val duo) (val div)
    rw [key, Nat.mul_comm] at this
    omega
  · simp only [hgt, decide_false, Bool.false_eq_true, if_false]
    obtain ⟨u, v, e, l1, l2, v1, v2⟩ := finishMul_ok (duo := duo) (div := div) (sub := sub)
      (mul := mul) (r := val duo - mul.toNat * val div) hn h1 h2 h3 ⟨0, by omega⟩
      (by omega)
    have key : val duo / val div = mul.toNat := by
      apply Nat.div_eq_of_lt_le _ hq1
      rw [← hs]
      omega
    refine ⟨u, v, e, l1, l2, by rw [v1, key], ?_⟩
    rw [v2]
    have := Nat.div_add_mod (val duo) (val div)
    rw [key, Nat.mul_comm] at this
    omega

theorem ddiv_ok {x y : DDigit} (h : 0 < y.toNat) :
    ∃ q, DDigit.wrappingDiv x y = .ok q ∧ q.toNat = x.toNat / y.toNat := by
  have : y ≠ 0 := by rintro rfl; simp at h
  refine ⟨x / y, ?_, BitVec.toNat_udiv⟩
  unfold DDigit.wrappingDiv DDigit.wrappingDivrem
  rw [if_neg this]
  rfl

theorem ddivrem_ok {x y : DDigit} (h : 0 < y.toNat) :
    ∃ q r, DDigit.wrappingDivrem x y = .ok (q, r) ∧ q.toNat = x.toNat / y.toNat ∧
      r.toNat = x.toNat % y.toNat := by
  have : y ≠ 0 := by rintro rfl; simp at h
  exact ⟨x / y, x % y, by rw [DDigit.wrappingDivrem, if_neg this], BitVec.toNat_udiv, BitVec.toNat_umod⟩

/-- The digit estimated from the leading 128 bits of both operands. -/
theorem estimate_ok {duo div : List Digit} {s lz tb : Nat} (hs : s < duo.length)
    (hl : div.length = duo.length) (h2 : 2 ≤ s) (hlz : lz < 64)
    (hu : val duo < 2 ^ (64 * (s + 1) - lz)) (htb : tb ≤ 64 * (s + 1) - lz)
    (htb2 : 64 * (s + 1) - lz - tb < 64) (hv1 : 2 ^ (tb - 1) ≤ val div) (hv2 : val div < 2 ^ tb) :
    ∃ D d q, sigDD duo s lz = .ok D ∧ sigDD div s lz = .ok d ∧
      D.toNat = val duo / 2 ^ (64 * (s + 1) - lz - 128) ∧
      DDigit.wrappingDiv D d = .ok q ∧ q.toNat < B ∧
      val duo < (q.toNat + 1) * val div ∧ (q.toNat - 1) * val div ≤ val duo := by
  obtain ⟨D, e1, hD⟩ := sigDD_ok hs h2 hlz hu
  obtain ⟨d, e2, hd⟩ := sigDD_ok (arr := div) (hl ▸ hs) h2 hlz
    (Nat.lt_of_lt_of_le hv2 (Nat.pow_le_pow_right (by decide) htb))
  have hdB : B ≤ d.toNat := by
    rw [hd, Nat.le_div_iff_mul_le (two_pow_w_pos _), B_eq, ← Nat.pow_add]
    exact Nat.le_trans (Nat.pow_le_pow_right (by decide) (by omega)) hv1
  have hBp := B_pos
  obtain ⟨q, e3, hq⟩ := ddiv_ok (x := D) (y := d) (by omega)
  have hqB : q.toNat < B := by
    rw [hq]
    apply Nat.div_lt_of_lt_mul
    have hb : B * B = 2 ^ 128 := by decide
    calc D.toNat < 2 ^ 128 := D.isLt
      _ = B * B := hb.symm
      _ ≤ _ := Nat.mul_le_mul_right _ hdB
  obtain ⟨g1, g2⟩ := quot_est (U := val duo) (V := val div) (m := q.toNat)
    (two_pow_w_pos (64 * (s + 1) - lz - 128)) (by rw [← hd]; omega) (by rw [hq, hD, hd])
    (by rw [← hd]; omega)
  exact ⟨D, d, q, e1, e2, hD, e3, hqB, g1, g2⟩

/-- The quotient fits one digit. -/
theorem mulOrMulSub1_ok {duo div : List Digit} {s lz t tb : Nat} (hs : s < duo.length)
    (hl : div.length = duo.length) (h2 : 2 ≤ s) (hlz : lz < 64) (ht1 : 1 ≤ t) (hts : t ≤ s)
    (hu : val duo < 2 ^ (64 * (s + 1) - lz)) (htb : tb ≤ 64 * (s + 1) - lz)
    (htb2 : 64 * (s + 1) - lz - tb < 64) (hv1 : 2 ^ (tb - 1) ≤ val div) (hv2 : val div < 2 ^ tb)
    (hv3 : val div < B ^ (t + 1)) :
    ∃ duo' div', mulOrMulSub1 duo.length duo s lz div t = .ok (duo', div') ∧
      duo'.length = duo.length ∧ div'.length = duo.length ∧
      val duo' = val duo / val div ∧ val div' = val duo % val div := by
  obtain ⟨D, d, q, e1, e2, -, e3, hqB, g1, g2⟩ := estimate_ok hs hl h2 hlz hu htb htb2 hv1 hv2
  have hd0 : 0 < div.length := by omega
  have hdt : t < div.length := by omega
  have hq : (DDigit.lo q).toNat = q.toNat := by rw [DDigit.lo_toNat, Nat.mod_eq_of_lt hqB]
  rw [← hq] at g1 g2
  obtain ⟨f1, f2⟩ := firstRow_ok (mult := DDigit.lo q) ht1 hdt
  have f3 := Digit.carryingMulAdd_eq (DDigit.lo q) div[t]
    (mulRow (DDigit.lo q) ((div.take t).drop 1)
      ([(Digit.carryingMul (DDigit.lo q) div[0]).1], (Digit.carryingMul (DDigit.lo q) div[0]).2)).2
  have f4 := val_take_succ hdt
  rw [val_take_of_lt hv3] at f4
  simp only [mulOrMulSub1, e1, e2, e3, run_bind_ok, idx_ok hd0, idx_ok hdt,
    csub_ok (show 1 ≤ duo.length by omega)]
  generalize mulRow (DDigit.lo q) ((div.take t).drop 1)
    ([(Digit.carryingMul (DDigit.lo q) div[0]).1], (Digit.carryingMul (DDigit.lo q) div[0]).2)
      = row at *
  obtain ⟨sub, carry⟩ := row
  simp only at *
  generalize Digit.carryingMulAdd (DDigit.lo q) div[t] carry = temp at *
  obtain ⟨x, y⟩ := temp
  simp only at *
  have hval : val (sub ++ [x]) + B ^ (t + 1) * y.toNat = (DDigit.lo q).toNat * val div := by
    rw [val_append, val_singleton, f1, f4, Nat.pow_succ]
    linear_combination f2 + B ^ t * f3
  split
  · rename_i htl
    have hlen : (sub ++ [x]).length = duo.length := by simp [f1]; omega
    rw [show t + 1 = duo.length by omega] at hval
    cases hy : Digit.isZero y
    · rw [Digit.isZero_false_iff] at hy
      simp only [Bool.not_false, if_true]
      have hbig : val duo < (DDigit.lo q).toNat * val div := by
        have := val_lt duo
        have : B ^ duo.length * 1 ≤ B ^ duo.length * y.toNat := Nat.mul_le_mul_left _ hy
        omega
      have hm : 0 < (DDigit.lo q).toNat := by
        rcases Nat.eq_zero_or_pos (DDigit.lo q).toNat with h | h
        · rw [h, Nat.zero_mul] at hbig; omega
        · exact h
      obtain ⟨u, v, e, l1, l2, v1, v2⟩ := finishMulSub1_ok (duo := duo) (div := div)
        (sub := sub ++ [x]) (mul := DDigit.lo q)
        (r := val duo - ((DDigit.lo q).toNat - 1) * val div) (n := duo.length) (by omega) rfl hl
        hlen ⟨_, hval⟩ hm (by omega)
      have key : val duo / val div = (DDigit.lo q).toNat - 1 := by
        apply Nat.div_eq_of_lt_le g2
        rwa [show (DDigit.lo q).toNat - 1 + 1 = (DDigit.lo q).toNat by omega]
      refine ⟨u, v, e, l1, l2, by rw [v1, key], ?_⟩
      rw [v2]
      have := Nat.div_add_mod (val duo) (val div)
      rw [key, Nat.mul_comm] at this
      omega
    · rw [Digit.isZero_iff] at hy
      simp only [Bool.not_true, Bool.false_eq_true, if_false]
      rw [hy, Nat.mul_zero, Nat.add_zero] at hval
      exact finish_ok (n := duo.length) (by omega) rfl hl hlen hval g1 g2
  · rename_i htl
    refine finish_ok (n := duo.length) (by omega) rfl hl ?_ ?_ g1 g2
    · simp [f1]; omega
    · rw [val_append, Digit.ZERO, val_replicate_zero, Nat.mul_zero, Nat.add_zero, val_append,
        val_singleton]
      simpa [f1] using hval

/-- The quotient digit is added to the quotient so far. -/
theorem mulOrMulSub1Quo_ok {duo div quo : List Digit} {s lz t tb : Nat} (hs : s < duo.length)
    (hl : div.length = duo.length) (hql : quo.length = duo.length) (h2 : 2 ≤ s) (hlz : lz < 64)
    (ht1 : 1 ≤ t) (ht2 : t + 2 ≤ duo.length)
    (hu : val duo < 2 ^ (64 * (s + 1) - lz)) (htb : tb ≤ 64 * (s + 1) - lz)
    (htb2 : 64 * (s + 1) - lz - tb < 64) (hv1 : 2 ^ (tb - 1) ≤ val div) (hv2 : val div < 2 ^ tb)
    (hv3 : val div < B ^ (t + 1)) (hquo : val quo + val duo / val div < B ^ duo.length) :
    ∃ D duo' div', sigDD duo s lz = .ok D ∧
      D.toNat = val duo / 2 ^ (64 * (s + 1) - lz - 128) ∧
      mulOrMulSub1Quo duo.length ⟨duo, quo, s, lz⟩ div t D = .ok (duo', div') ∧
      duo'.length = duo.length ∧ div'.length = duo.length ∧
      val duo' = val quo + val duo / val div ∧ val div' = val duo % val div := by
  obtain ⟨D, d, q, e1, e2, hD, e3, hqB, g1, g2⟩ := estimate_ok hs hl h2 hlz hu htb htb2 hv1 hv2
  have hd0 : 0 < div.length := by omega
  have hdt : t < div.length := by omega
  have hq : (DDigit.lo q).toNat = q.toNat := by rw [DDigit.lo_toNat, Nat.mod_eq_of_lt hqB]
  rw [← hq] at g1 g2
  obtain ⟨f1, f2⟩ := firstRow_ok (mult := DDigit.lo q) ht1 hdt
  have f3 := Digit.carryingMulAdd_eq (DDigit.lo q) div[t]
    (mulRow (DDigit.lo q) ((div.take t).drop 1)
      ([(Digit.carryingMul (DDigit.lo q) div[0]).1], (Digit.carryingMul (DDigit.lo q) div[0]).2)).2
  have f4 := val_take_succ hdt
  rw [val_take_of_lt hv3] at f4
  refine ⟨D, ?_⟩
  simp only [mulOrMulSub1Quo, e1, e2, e3, run_bind_ok, idx_ok hd0, idx_ok hdt]
  have hcm : DDigit.loHi (DDigit.wrappingMul (Digit.dd (DDigit.lo q)) (Digit.dd div[0]))
      = Digit.carryingMul (DDigit.lo q) div[0] := rfl
  rw [hcm]
  generalize mulRow (DDigit.lo q) ((div.take t).drop 1)
    ([(Digit.carryingMul (DDigit.lo q) div[0]).1], (Digit.carryingMul (DDigit.lo q) div[0]).2)
      = row at *
  obtain ⟨sub, carry⟩ := row
  simp only at *
  generalize Digit.carryingMulAdd (DDigit.lo q) div[t] carry = temp at *
  obtain ⟨x, y⟩ := temp
  simp only at *
  have hval : val (sub ++ [x]) + B ^ (t + 1) * y.toNat = (DDigit.lo q).toNat * val div := by
    rw [val_append, val_singleton, f1, f4, Nat.pow_succ]
    linear_combination f2 + B ^ t * f3
  have hlen : (sub ++ [x] ++ [y] ++ List.replicate (duo.length - (t + 2)) Digit.ZERO).length
      = duo.length := by simp [f1]; omega
  have hvs : val (sub ++ [x] ++ [y] ++ List.replicate (duo.length - (t + 2)) Digit.ZERO)
      = (DDigit.lo q).toNat * val div := by
    rw [val_append, Digit.ZERO, val_replicate_zero, Nat.mul_zero, Nat.add_zero, val_append,
      val_singleton]
    simpa [f1] using hval
  generalize sub ++ [x] ++ [y] ++ List.replicate (duo.length - (t + 2)) Digit.ZERO = sub' at *
  rw [hlen, ugt_ok (by omega) (by omega), take_self hlen, take_self rfl]
  simp only [run_bind_ok]
  obtain ⟨s1, t1, l1, -, k1, hk1⟩ := twosComplement_ok (l := sub') (n := duo.length) (by omega)
  rw [take_self (by omega), take_self (by omega)] at hk1
  simp only [t1, run_bind_ok]
  have hV : 0 < val div := by
    rcases Nat.eq_zero_or_pos (val div) with h | h
    · rw [h, Nat.mul_zero] at g1; omega
    · exact h
  have hmod := Nat.div_add_mod (val duo) (val div)
  have hrlt : val duo % val div < B ^ duo.length :=
    Nat.lt_of_le_of_lt (Nat.mod_le _ _) (val_lt duo)
  by_cases hgt : val sub' > val duo
  · simp only [hgt, decide_true, if_true]
    have hm : 0 < (DDigit.lo q).toNat := by
      rcases Nat.eq_zero_or_pos (DDigit.lo q).toNat with h | h
      · rw [h, Nat.zero_mul] at hvs; omega
      · exact h
    have key : val duo / val div = (DDigit.lo q).toNat - 1 := by
      apply Nat.div_eq_of_lt_le g2
      rwa [show (DDigit.lo q).toNat - 1 + 1 = (DDigit.lo q).toNat by omega, ← hvs]
    obtain ⟨s2, t2, l2, k2, hk2⟩ := addMacro_ok (s := s1) (a := div) (by omega) (by omega)
    rw [l1, hlen] at t2 l2 hk2
    obtain ⟨u, v, t3, m1, m2, ⟨k3, hk3⟩, k4, hk4⟩ := special1_ok (sum := duo) (sub := s2)
      (targ := div) (add := quo) (by omega) l2 hl hql (Digit.wrappingSub (DDigit.lo q) Digit.ONE)
    rw [sub_one_toNat hm, ← key] at hk4
    refine ⟨u, v, trivial, hD, ?_, m1, m2, ?_, ?_⟩
    · simp only [t2, run_bind_ok, t3]
    · refine eq_of_congr (n := B ^ duo.length) (val_lt_of_le (by omega)) hquo ⟨-(k4 : ℤ), ?_⟩
      zify at *
      linear_combination hk4
    · refine eq_of_congr (n := B ^ duo.length) (val_lt_of_le (by omega)) hrlt
        ⟨(k1 : ℤ) - k2 - k3, ?_⟩
      obtain ⟨m, hm'⟩ : ∃ m, (DDigit.lo q).toNat = m + 1 := ⟨(DDigit.lo q).toNat - 1, by omega⟩
      rw [key, hm', Nat.add_sub_cancel] at hmod
      rw [hm'] at hvs
      zify at *
      linear_combination hk3 + hk2 + hk1 - hvs - hmod
  · simp only [hgt, decide_false, Bool.false_eq_true, if_false]
    have key : val duo / val div = (DDigit.lo q).toNat := by
      apply Nat.div_eq_of_lt_le _ g1
      rw [← hvs]
      omega
    obtain ⟨u, v, t3, m1, m2, ⟨k3, hk3⟩, k4, hk4⟩ := special1_ok (sum := duo) (sub := s1)
      (targ := div) (add := quo) (by omega) (by omega) hl hql (DDigit.lo q)
    rw [← key] at hk4
    refine ⟨u, v, trivial, hD, t3, m1, m2, ?_, ?_⟩
    · refine eq_of_congr (n := B ^ duo.length) (val_lt_of_le (by omega)) hquo ⟨-(k4 : ℤ), ?_⟩
      zify at *
      linear_combination hk4
    · refine eq_of_congr (n := B ^ duo.length) (val_lt_of_le (by omega)) hrlt
        ⟨(k1 : ℤ) - k3, ?_⟩
      rw [key] at hmod
      zify at *
      linear_combination hk3 + hk1 - hvs - hmod

end ApInt

end Verif
