import Verif.Proof.DivLoop

/-! # Division of digit sequences -/

namespace Verif

namespace ApInt

theorem copyAll {dst src : List Digit} {n : Nat} (h1 : dst.length = n) (h2 : src.length = n) :
    copyRange dst 0 n src 0 n = .ok src := by
  rw [copyRange_ok (by omega) (by omega) (by omega) (by omega) rfl, drop_self h1, take_self h2]
  simp

/-- What an iteration of the main loop establishes. -/
def StepPost (div : List Digit) (n divSb V0 U : Nat) : DivStep → Prop
  | .done duo' div' => duo'.length = n ∧ div'.length = n ∧ val duo' = V0 / val div ∧
      val div' = V0 % val div
  | .next s => s.duo.length = n ∧ s.quo.length = n ∧ 2 ≤ s.duoSd ∧ s.duoSd < n ∧ s.duoLz < 64 ∧
      2 ^ (64 * (s.duoSd + 1) - s.duoLz - 1) ≤ val s.duo ∧
      val s.duo < 2 ^ (64 * (s.duoSd + 1) - s.duoLz) ∧
      divSb < 64 * (s.duoSd + 1) - s.duoLz ∧ val s.duo + val s.quo * val div = V0 ∧
      val s.duo * 2 ^ 61 < U

theorem divLoopTail_ok {duo quo div : List Digit} {n sd divSb V0 U : Nat} (h2 : 2 ≤ n)
    (h1 : duo.length = n) (hq : quo.length = n) (hl : div.length = n) (hsd : sd < n)
    (hu : val duo < B ^ (sd + 1)) (hV1 : 2 ^ (divSb - 1) ≤ val div) (hV2 : val div < 2 ^ divSb)
    (hsb : 1 ≤ divSb) (h0 : val duo + val quo * val div = V0) (hV0 : V0 < B ^ n)
    (hU : val duo * 2 ^ 61 < U) :
    ∃ r, divLoopTail n duo quo div sd divSb = .ok r ∧ StepPost div n divSb V0 U r := by
  have hVpos : 0 < val div := Nat.lt_of_lt_of_le (two_pow_w_pos _) hV1
  have hqle : ∀ x, x * val div ≤ V0 → x < B ^ n := by
    intro x hx
    have := Nat.le_mul_of_pos_right x hVpos
    omega
  unfold divLoopTail
  rcases findDuoSd_ok (by omega : sd < duo.length) hu with ⟨e, hz⟩ | ⟨i, e, hi, b1, b2⟩
  · simp only [e, run_bind_ok]
    obtain ⟨⟨a, b⟩, e2, g1, g2, g3, g4⟩ := forRange_spec
      (body := fun i (s : List Digit × List Digit) => do
        let div ← upd s.2 i Digit.ZERO
        let q ← idx quo i
        let duo ← upd s.1 i q
        .ok (duo, div))
      (I := fun i (s : List Digit × List Digit) => s.1.length = n ∧ s.2.length = n ∧
        val (s.1.take i) = val (quo.take i) ∧ val (s.2.take i) = 0)
      (lo := 0) (hi := n) (s := (duo, div)) (by omega) ⟨h1, hl, rfl, rfl⟩ (by
        rintro j ⟨a, b⟩ - hj ⟨g1, g2, g3, g4⟩
        simp only at g1 g2 g3 g4
        have k1 : j < a.length := by omega
        have k2 : j < b.length := by omega
        have k3 : j < quo.length := by omega
        simp only [upd_ok k2, idx_ok k3, upd_ok k1, run_bind_ok]
        refine ⟨_, rfl, by simp [g1], by simp [g2], ?_, ?_⟩
        · simp only [val_take_set k1, val_take_succ k3, g3]
        · simp only [val_take_set k2, g4, Digit.ZERO_toNat, Nat.mul_zero])
    simp only at g1 g2 g3 g4
    rw [take_self g1, take_self hq] at g3
    rw [take_self g2] at g4
    simp only [e2, run_bind_ok]
    obtain ⟨m1, m2⟩ := divmod_of (V0 := V0) (V := val div) (q := val quo) (r := 0) (by omega) hVpos
    exact ⟨_, rfl, g1, g2, by rw [g3, m1], by rw [g4, m2]⟩
  · have hin : i < duo.length := by omega
    obtain ⟨z1, z2, z3, z4⟩ := sigBits_ok hin b1 b2
    simp only [e, run_bind_ok, idx_ok hin, z2]
    generalize Digit.leadingZeros duo[i] = lz at *
    split
    · rename_i heq
      rw [uge_ok (by omega) (by omega), take_self h1, take_self hl]
      simp only [run_bind_ok]
      by_cases hge : val duo ≥ val div
      · simp only [hge, decide_true, if_true]
        have hlt2 : val duo < 2 * val div := by
          have : 2 ^ (64 * (i + 1) - lz) = 2 * 2 ^ (divSb - 1) := by
            rw [heq, ← Nat.pow_succ']; congr 1; omega
          omega
        obtain ⟨d1, t1, l1, -, k1, hk1⟩ := twosComplement_ok (l := div) (n := n) (by omega)
        rw [take_self (by omega), take_self hl] at hk1
        obtain ⟨d2, t2, l2, k2, hk2⟩ := addMacro_ok (s := d1) (a := duo) (by omega) (by omega)
        rw [l1, hl] at t2 l2 hk2
        obtain ⟨m1, m2⟩ := divmod_of (V0 := V0) (V := val div) (q := val quo + 1)
          (r := val duo - val div) (by rw [Nat.add_mul, Nat.one_mul]; omega) (by omega)
        obtain ⟨u, t3, l3, hu3⟩ := quoPlusOne_ok (duo := duo) (quo := quo) (by omega) (by
          rw [h1]
          exact hqle _ (by rw [m1]; exact Nat.div_mul_le_self _ _))
        rw [h1] at t3 l3
        simp only [t1, run_bind_ok, t2, t3]
        refine ⟨_, rfl, l3, l2, by rw [hu3, m1], ?_⟩
        rw [← m2]
        refine eq_of_congr (n := B ^ n) (val_lt_of_le (by omega)) ?_ ⟨(k1 : ℤ) - k2, ?_⟩
        · have := val_lt_of_le (l := duo) (n := n) (by omega); omega
        · rw [Nat.cast_sub hge]
          zify at hk1 hk2 ⊢
          linear_combination hk2 + hk1
      · simp only [hge, decide_false, Bool.false_eq_true, if_false]
        rw [copyAll hl h1]
        simp only [run_bind_ok]
        rw [copyAll h1 hq]
        simp only [run_bind_ok]
        obtain ⟨m1, m2⟩ := divmod_of h0 (by omega)
        exact ⟨_, rfl, hq, h1, m1, m2⟩
    · rename_i hne
      split
      · rename_i hgt
        rw [copyAll hl h1]
        simp only [run_bind_ok]
        rw [copyAll h1 hq]
        simp only [run_bind_ok]
        obtain ⟨m1, m2⟩ := divmod_of h0 (by
          refine Nat.lt_of_lt_of_le z4 (Nat.le_trans ?_ hV1)
          exact Nat.pow_le_pow_right (by decide) (by omega))
        exact ⟨_, rfl, hq, h1, m1, m2⟩
      · rename_i hle
        split
        · rename_i hi2
          have hB2 : B ^ 2 = 2 ^ 128 := by rw [B_pow]
          have hdm := Nat.div_add_mod (val duo) (val div)
          obtain ⟨m1, m2⟩ := divmod_of (V0 := V0) (V := val div)
            (q := val quo + val duo / val div) (r := val duo % val div)
            (by rw [Nat.add_mul, Nat.mul_comm (val duo / val div)]; omega)
            (Nat.mod_lt _ hVpos)
          obtain ⟨u, v, e3, l3, l4, g3, g4⟩ := finishTwoDigits_ok (duo := duo) (quo := quo)
            (div := div) (by omega) (by omega) (by omega)
            (by rw [hB2]; exact Nat.lt_of_lt_of_le z4 (Nat.pow_le_pow_right (by decide) (by omega)))
            (by rw [hB2]; exact Nat.lt_of_lt_of_le hV2 (Nat.pow_le_pow_right (by decide) (by omega)))
            hVpos (by
              rw [h1]
              exact hqle _ (by rw [m1]; exact Nat.div_mul_le_self _ _))
          rw [h1] at e3 l3 l4
          simp only [e3, run_bind_ok]
          exact ⟨_, rfl, l3, l4, by rw [g3, m1], by rw [g4, m2]⟩
        · have i2 : 2 ≤ i := by omega
          have i3 : i < n := by omega
          have i4 : divSb < 64 * (i + 1) - lz := by omega
          exact ⟨_, rfl, h1, hq, i2, i3, z1, z3, z4, i4, h0, hU⟩

theorem divLoopBody_ok {s : DivState} {div : List Digit} {n divSd divSb V0 : Nat} {d1 : DDigit}
    (h2 : 2 ≤ n) (h1 : s.duo.length = n) (hq : s.quo.length = n) (hl : div.length = n)
    (hsd2 : 2 ≤ s.duoSd) (hsd : s.duoSd < n) (hlz : s.duoLz < 64)
    (hu1 : 2 ^ (64 * (s.duoSd + 1) - s.duoLz - 1) ≤ val s.duo)
    (hu2 : val s.duo < 2 ^ (64 * (s.duoSd + 1) - s.duoLz))
    (hsb : divSb < 64 * (s.duoSd + 1) - s.duoLz) (ht1 : 1 ≤ divSd) (ht2 : divSd + 2 ≤ n)
    (hV1 : 2 ^ (divSb - 1) ≤ val div) (hV2 : val div < 2 ^ divSb) (hV3 : val div < B ^ (divSd + 1))
    (hds : 64 < divSb) (hd1 : d1.toNat = val div / 2 ^ (divSb - 64) + 1)
    (h0 : val s.duo + val s.quo * val div = V0) (hV0 : V0 < B ^ n) :
    ∃ r, divLoopBody n div divSd divSb (divSb - 64) d1 s = .ok r ∧
      StepPost div n divSb V0 (val s.duo) r := by
  have hVpos : 0 < val div := Nat.lt_of_lt_of_le (two_pow_w_pos _) hV1
  have hqle : ∀ x, x * val div ≤ V0 → x < B ^ n := by
    intro x hx
    have := Nat.le_mul_of_pos_right x hVpos
    omega
  obtain ⟨duo, quo, sd, lz⟩ := s
  simp only at *
  unfold divLoopBody
  simp only [csub_ok (show lz ≤ 64 by omega), csub_ok hsd2, run_bind_ok]
  rw [show 64 - lz + 64 * (sd - 2) = 64 * (sd + 1) - lz - 128 by omega]
  generalize hsbd : 64 * (sd + 1) - lz = sb at *
  by_cases hbr : sb - 128 ≥ divSb - 64
  · obtain ⟨D, eD, hD⟩ := sigDD_ok (arr := duo) (sd := sd) (lz := lz) (by omega) hsd2 hlz
      (by rw [hsbd]; exact hu2)
    rw [hsbd] at hD
    simp only [eD, run_bind_ok, hbr, if_true]
    generalize hbits : sb - 128 - (divSb - 64) = bits at *
    obtain ⟨mul, em, hm⟩ := ddiv_ok (x := D) (y := d1) (by rw [hd1]; exact Nat.succ_pos _)
    simp only [em, run_bind_ok]
    -- bounds on the estimate
    have hpB : 2 ^ (bits % 64) * B ^ (bits / 64) = 2 ^ bits := by
      rw [B_pow, ← Nat.pow_add, show bits % 64 + 64 * (bits / 64) = bits by omega]
    have hpb : 2 ^ bits * 2 ^ (divSb - 64) = 2 ^ (sb - 128) := by
      rw [← Nat.pow_add, show bits + (divSb - 64) = sb - 128 by omega]
    have hDlo : 2 ^ 127 ≤ D.toNat := by
      rw [hD, Nat.le_div_iff_mul_le (two_pow_w_pos _), ← Nat.pow_add]
      exact Nat.le_trans (Nat.pow_le_pow_right (by decide) (by omega)) hu1
    have hdlo : 2 ^ 63 ≤ val div / 2 ^ (divSb - 64) := by
      rw [Nat.le_div_iff_mul_le (two_pow_w_pos _), ← Nat.pow_add]
      exact Nat.le_trans (Nat.pow_le_pow_right (by decide) (by omega)) hV1
    have hdhi : val div / 2 ^ (divSb - 64) < 2 ^ 64 := by
      apply Nat.div_lt_of_lt_mul
      rw [← Nat.pow_add]
      exact Nat.lt_of_lt_of_le hV2 (Nat.pow_le_pow_right (by decide) (by omega))
    have hmpos : 0 < mul.toNat := by
      rw [hm]
      exact Nat.div_pos (by omega) (by omega)
    have hmlt : mul.toNat < 2 ^ 65 := by
      rw [hm]
      apply Nat.div_lt_of_lt_mul
      have := D.isLt
      omega
    have hmd : d1.toNat * mul.toNat ≤ D.toNat := by rw [hm]; exact Nat.mul_div_le _ _
    have hVd : val div < 2 ^ (divSb - 64) * d1.toNat := by
      rw [hd1]; exact Nat.lt_mul_div_succ _ (two_pow_w_pos _)
    have hDu : 2 ^ (sb - 128) * D.toNat ≤ val duo := by rw [hD]; exact Nat.mul_div_le _ _
    have hle : mul.toNat * (2 ^ bits * val div) ≤ val duo := by
      calc mul.toNat * (2 ^ bits * val div)
          ≤ mul.toNat * (2 ^ bits * (2 ^ (divSb - 64) * d1.toNat)) :=
            Nat.mul_le_mul_left _ (Nat.mul_le_mul_left _ (Nat.le_of_lt hVd))
        _ = 2 ^ (sb - 128) * (d1.toNat * mul.toNat) := by rw [← hpb]; ring
        _ ≤ 2 ^ (sb - 128) * D.toNat := Nat.mul_le_mul_left _ hmd
        _ ≤ _ := hDu
    have hle' : mul.toNat * (2 ^ (bits % 64) * (B ^ (bits / 64) * val div)) ≤ val duo := by
      rw [← Nat.mul_assoc (2 ^ (bits % 64)), hpB]; exact hle
    have hb64 : bits % 64 < 64 := Nat.mod_lt _ (by decide)
    have huB : val duo < B ^ (sd + 1) := by
      rw [B_pow]
      exact Nat.lt_of_lt_of_le hu2 (Nat.pow_le_pow_right (by decide) (by omega))
    have hqnew : (val quo + mul.toNat * (2 ^ (bits % 64) * B ^ (bits / 64))) * val div ≤ V0 := by
      rw [hpB, Nat.add_mul, ← h0, Nat.mul_assoc]
      omega
    obtain ⟨q', eq', lq', vq'⟩ := addToQuo_ok (quo := quo) (mul := mul) (g := bits / 64)
      (b := bits % 64) (by omega) hb64 hmlt (by rw [hq]; exact hqle _ hqnew)
    simp only [eq', run_bind_ok]
    have hlh := DDigit.lo_add_hi mul
    have key : ∀ x : List Digit, x.length = n →
        val x + mul.toNat * (2 ^ (bits % 64) * (B ^ (bits / 64) * val div)) = val duo →
        ∃ r, divLoopTail n x q' div sd divSb = .ok r ∧ StepPost div n divSb V0 (val duo) r := by
      intro x hx hvx
      refine divLoopTail_ok h2 hx (by omega) hl hsd ?_ hV1 hV2 (by omega) ?_ hV0 ?_
      · omega
      · rw [vq', Nat.add_mul, ← h0, ← hvx]; ring
      · rw [← Nat.mul_assoc (2 ^ (bits % 64)), hpB] at hvx
        have hx1 : val x < 2 ^ (sb - 128) * (3 * 2 ^ 64) := by
          have c1 : val duo < 2 ^ (sb - 128) * (D.toNat + 1) := by
            rw [hD]; exact Nat.lt_mul_div_succ _ (two_pow_w_pos _)
          have c2 : D.toNat + 1 ≤ d1.toNat * (mul.toNat + 1) := by
            rw [hm]; exact Nat.lt_mul_div_succ _ (by omega)
          have c3 : 2 ^ (sb - 128) * (mul.toNat * (d1.toNat - 1)) ≤
              mul.toNat * (2 ^ bits * val div) := by
            have : 2 ^ (divSb - 64) * (d1.toNat - 1) ≤ val div := by
              rw [hd1, Nat.add_sub_cancel]; exact Nat.mul_div_le _ _
            calc 2 ^ (sb - 128) * (mul.toNat * (d1.toNat - 1))
                = mul.toNat * (2 ^ bits * (2 ^ (divSb - 64) * (d1.toNat - 1))) := by
                  rw [← hpb]; ring
              _ ≤ _ := Nat.mul_le_mul_left _ (Nat.mul_le_mul_left _ this)
          have c4 : d1.toNat * (mul.toNat + 1) = mul.toNat * (d1.toNat - 1) + (mul.toNat + d1.toNat)
              := by
            obtain ⟨k, hk⟩ : ∃ k, d1.toNat = k + 1 := ⟨_, hd1⟩
            rw [hk, Nat.add_sub_cancel]; ring
          have c5 : mul.toNat + d1.toNat ≤ 3 * 2 ^ 64 := by omega
          have c6 : val duo < 2 ^ (sb - 128) * (mul.toNat * (d1.toNat - 1)) +
              2 ^ (sb - 128) * (3 * 2 ^ 64) := by
            rw [← Nat.mul_add]
            refine Nat.lt_of_lt_of_le c1 (Nat.mul_le_mul_left _ ?_)
            omega
          omega
        have hx2 : 2 ^ (sb - 128) * 2 ^ 127 ≤ val duo :=
          Nat.le_trans (Nat.mul_le_mul_left _ hDlo) hDu
        have hx3 : 2 ^ (sb - 128) * (3 * 2 ^ 64) * 2 ^ 61 ≤ 2 ^ (sb - 128) * 2 ^ 127 := by
          rw [Nat.mul_assoc]
          exact Nat.mul_le_mul_left _ (by decide)
        have hx4 : val x * 2 ^ 61 < 2 ^ (sb - 128) * (3 * 2 ^ 64) * 2 ^ 61 :=
          Nat.mul_lt_mul_of_pos_right hx1 (by decide)
        omega
    cases hz : Digit.isZero (DDigit.hi mul)
    · rw [Digit.isZero_false_iff] at hz
      have hhi : (DDigit.hi mul).toNat = 1 := by
        have : (DDigit.hi mul).toNat < 2 := by
          rw [DDigit.hi_toNat]
          apply Nat.div_lt_of_lt_mul
          rw [B_eq]
          exact hmlt
        omega
      rw [hhi, Nat.mul_one] at hlh
      rw [← hlh] at key hle'
      obtain ⟨x, ex, lx, vx⟩ := subCoreHigh_ok (duo := duo) (div := div) (mul := DDigit.lo mul)
        (sd := sd) (g := bits / 64) (b := bits % 64) (by omega) (by omega) (by omega) hb64 huB hle'
      simp only [Bool.false_eq_true, if_false, ex, run_bind_ok]
      exact key x (by omega) vx
    · rw [Digit.isZero_iff] at hz
      rw [hz, Nat.mul_zero, Nat.add_zero] at hlh
      rw [← hlh] at key hle'
      obtain ⟨x, ex, lx, vx⟩ := subCoreLow_ok (duo := duo) (div := div) (mul := DDigit.lo mul)
        (sd := sd) (g := bits / 64) (b := bits % 64) (by omega) (by omega) (by omega) hb64 huB hle'
      simp only [if_true, ex, run_bind_ok]
      exact key x (by omega) vx
  · have hdm := Nat.div_add_mod (val duo) (val div)
    obtain ⟨m1, m2⟩ := divmod_of (V0 := V0) (V := val div)
      (q := val quo + val duo / val div) (r := val duo % val div)
      (by rw [Nat.add_mul, Nat.mul_comm (val duo / val div)]; omega) (Nat.mod_lt _ hVpos)
    obtain ⟨D, u, v, eD, -, e, l1, l2, g1, g2⟩ := mulOrMulSub1Quo_ok (duo := duo) (div := div)
      (quo := quo) (s := sd) (lz := lz) (t := divSd) (tb := divSb) (by omega) (by omega) (by omega)
      hsd2 hlz ht1 (by omega) (by rw [hsbd]; exact hu2) (by omega) (by omega) hV1 hV2 hV3
      (by
        rw [h1]
        exact hqle _ (by rw [m1]; exact Nat.div_mul_le_self _ _))
    rw [h1] at e l1 l2
    simp only [eD, run_bind_ok, hbr, if_false, e]
    exact ⟨_, rfl, l1, l2, by rw [g1, m1], by rw [g2, m2]⟩

theorem divLoop_ok {div : List Digit} {n divSd divSb V0 : Nat} {d1 : DDigit} (h2 : 2 ≤ n)
    (hl : div.length = n) (ht1 : 1 ≤ divSd) (ht2 : divSd + 2 ≤ n)
    (hV1 : 2 ^ (divSb - 1) ≤ val div) (hV2 : val div < 2 ^ divSb) (hV3 : val div < B ^ (divSd + 1))
    (hds : 64 < divSb) (hd1 : d1.toNat = val div / 2 ^ (divSb - 64) + 1) (hV0 : V0 < B ^ n)
    (fuel : Nat) : ∀ s : DivState, s.duo.length = n → s.quo.length = n → 2 ≤ s.duoSd →
      s.duoSd < n → s.duoLz < 64 → 2 ^ (64 * (s.duoSd + 1) - s.duoLz - 1) ≤ val s.duo →
      val s.duo < 2 ^ (64 * (s.duoSd + 1) - s.duoLz) → divSb < 64 * (s.duoSd + 1) - s.duoLz →
      val s.duo + val s.quo * val div = V0 → val s.duo < 2 ^ (divSb + 61 * fuel) →
      ∃ duo' div', divLoop n div divSd divSb (divSb - 64) d1 fuel s = .ok (duo', div') ∧
        duo'.length = n ∧ div'.length = n ∧ val duo' = V0 / val div ∧ val div' = V0 % val div := by
  induction fuel with
  | zero =>
    intro s _ _ _ _ _ h1 _ h2 _ h
    have : 2 ^ (divSb + 61 * 0) ≤ 2 ^ (64 * (s.duoSd + 1) - s.duoLz - 1) :=
      Nat.pow_le_pow_right (by decide) (by omega)
    omega
  | succ fuel ih =>
    intro s a1 a2 a3 a4 a5 a6 a7 a8 a9 a10
    obtain ⟨r, e, hr⟩ := divLoopBody_ok h2 a1 a2 hl a3 a4 a5 a6 a7 a8 ht1 ht2 hV1 hV2 hV3 hds hd1
      a9 hV0
    rw [divLoop]
    simp only [e, run_bind_ok]
    cases r with
    | done u v => exact ⟨u, v, rfl, hr⟩
    | next s' =>
      obtain ⟨b1, b2, b3, b4, b5, b6, b7, b8, b9, b10⟩ := hr
      refine ih s' b1 b2 b3 b4 b5 b6 b7 b8 b9 ?_
      rw [show divSb + 61 * (fuel + 1) = divSb + 61 * fuel + 61 by omega, Nat.pow_add _ _ 61] at a10
      exact Nat.lt_of_mul_lt_mul_right (Nat.lt_trans b10 a10)

/-- The divisor's leading digit plus one, `/repo/src/apint/arithmetic.rs:1108-1117`. -/
theorem divSig_ok {div : List Digit} {t tz : Nat} (kt : t < div.length) (ht1 : 1 ≤ t)
    (htz : tz < 64) (hV2 : val div < 2 ^ (64 * (t + 1) - tz)) :
    ∃ x : Digit, (if tz = 0 then idx div t
      else do
        let a ← idx div t
        let b ← idx div (t - 1)
        .ok (Digit.bitor (Digit.shl a tz) (Digit.shr b (64 - tz)))) = .ok x ∧
      (DDigit.wrappingAdd (Digit.dd x) (Digit.dd Digit.ONE)).toNat
        = val div / 2 ^ (64 * (t + 1) - tz - 64) + 1 := by
  have kt1 : t - 1 < div.length := by omega
  have hV3 : val div < B ^ (t + 1) := by
    rw [B_pow]
    exact Nat.lt_of_lt_of_le hV2 (Nat.pow_le_pow_right (by decide) (by omega))
  have htop := top_digit kt hV3
  have hsig : ∃ x : Digit, (if tz = 0 then idx div t
      else do
        let a ← idx div t
        let b ← idx div (t - 1)
        .ok (Digit.bitor (Digit.shl a tz) (Digit.shr b (64 - tz)))) = .ok x ∧
      x.toNat = val div / 2 ^ (64 * (t + 1) - tz - 64) := by
    by_cases h0 : tz = 0
    · rw [if_pos h0, idx_ok kt]
      refine ⟨_, rfl, ?_⟩
      rw [htop, B_pow, show 64 * (t + 1) - tz - 64 = 64 * t by omega]
    · rw [if_neg h0]
      simp only [idx_ok kt, idx_ok kt1, run_bind_ok]
      refine ⟨_, rfl, ?_⟩
      have hb : (div[t]).toNat < 2 ^ (64 - tz) := by
        rw [htop, B_pow]
        apply Nat.div_lt_of_lt_mul
        rw [← Nat.pow_add]
        exact Nat.lt_of_lt_of_le hV2 (Nat.pow_le_pow_right (by decide) (by omega))
      have e64 : 2 ^ (64 - tz) * 2 ^ tz = 2 ^ 64 := by
        rw [← Nat.pow_add, show 64 - tz + tz = 64 by omega]
      have x1 : (Digit.shl div[t] tz).toNat = (div[t]).toNat * 2 ^ tz := by
        unfold Digit.shl
        rw [Nat.mod_eq_of_lt htz, BitVec.toNat_shiftLeft, Nat.shiftLeft_eq, Nat.mod_eq_of_lt]
        rw [← e64]
        exact Nat.mul_lt_mul_of_pos_right hb (two_pow_w_pos _)
      have x2 : (Digit.shr div[t - 1] (64 - tz)).toNat = (div[t - 1]).toNat / 2 ^ (64 - tz) := by
        unfold Digit.shr
        rw [Nat.mod_eq_of_lt (by omega), BitVec.toNat_ushiftRight, Nat.shiftRight_eq_div_pow]
      have x3 : (div[t - 1]).toNat / 2 ^ (64 - tz) < 2 ^ tz := by
        apply Nat.div_lt_of_lt_mul
        rw [e64]
        exact (div[t - 1]).isLt
      unfold Digit.bitor
      rw [BitVec.toNat_or, or_eq_add (n := tz) ⟨(div[t]).toNat, by rw [x1, Nat.mul_comm]⟩
        (by rw [x2]; exact x3), x1, x2]
      rw [show 64 * (t + 1) - tz - 64 = 64 * (t - 1) + (64 - tz) by omega,
        Nat.pow_add 2 (64 * (t - 1)), ← B_pow, ← Nat.div_div_eq_div_mul, ← val_drop]
      have d1 : val (div.drop (t - 1)) = (div[t - 1]).toNat + B * (div[t]).toNat := by
        rw [List.drop_eq_getElem_cons kt1, val_cons, show t - 1 + 1 = t by omega,
          List.drop_eq_getElem_cons kt, val_cons, val_drop_of_lt hV3 (Nat.le_refl _), Nat.mul_zero,
          Nat.add_zero]
      have d2 : (div[t - 1]).toNat + B * (div[t]).toNat
          = (div[t - 1]).toNat + 2 ^ (64 - tz) * (2 ^ tz * (div[t]).toNat) := by
        rw [B_eq, ← e64, Nat.mul_assoc]
      rw [d1, d2, Nat.add_mul_div_left _ _ (two_pow_w_pos _), Nat.mul_comm, Nat.add_comm]
  obtain ⟨x, ex, hx⟩ := hsig
  have hx1 : (DDigit.wrappingAdd (Digit.dd x) (Digit.dd Digit.ONE)).toNat
      = val div / 2 ^ (64 * (t + 1) - tz - 64) + 1 := by
    unfold DDigit.wrappingAdd
    rw [BitVec.toNat_add, Digit.dd_toNat, Digit.dd_toNat, Digit.ONE_toNat, ← hx]
    have := x.isLt
    exact Nat.mod_eq_of_lt (by omega)
  exact ⟨x, ex, hx1⟩

theorem longDivision_ok {duo div : List Digit} {k n s lz t tz : Nat} (h1 : duo.length = n)
    (hl : div.length = n) (hs2 : 2 ≤ s) (hs : s < n) (hlz : lz < 64)
    (hu1 : 2 ^ (64 * (s + 1) - lz - 1) ≤ val duo) (hu2 : val duo < 2 ^ (64 * (s + 1) - lz))
    (ht1 : 1 ≤ t) (htz : tz < 64) (hV1 : 2 ^ (64 * (t + 1) - tz - 1) ≤ val div)
    (hV2 : val div < 2 ^ (64 * (t + 1) - tz))
    (hbits : 64 ≤ 64 * (s + 1) - lz - (64 * (t + 1) - tz))
    (hk : val duo < val div * 2 ^ (61 * k)) :
    ∃ duo' div', longDivision k n duo s lz div t tz (64 * (t + 1) - tz) = .ok (duo', div') ∧
      duo'.length = n ∧ div'.length = n ∧ val duo' = val duo / val div ∧
      val div' = val duo % val div := by
  have kt : t < div.length := by omega
  have kt1 : t - 1 < div.length := by omega
  have hV3 : val div < B ^ (t + 1) := by
    rw [B_pow]
    exact Nat.lt_of_lt_of_le hV2 (Nat.pow_le_pow_right (by decide) (by omega))
  obtain ⟨x, ex, hx1⟩ := divSig_ok kt ht1 htz hV2
  obtain ⟨u, v, e, r⟩ := divLoop_ok (n := n) (div := div) (divSd := t)
    (divSb := 64 * (t + 1) - tz) (V0 := val duo) (by omega) hl ht1 (by omega) hV1 hV2 hV3
    (by omega) hx1 (val_lt_of_le (by omega)) k
    ⟨duo, List.replicate n Digit.ZERO, s, lz⟩ h1 (by simp) hs2 hs hlz hu1 hu2
    (show 64 * (t + 1) - tz < 64 * (s + 1) - lz by omega)
    (by
      show val duo + val (List.replicate n Digit.ZERO) * val div = val duo
      rw [Digit.ZERO, val_replicate_zero, Nat.zero_mul, Nat.add_zero])
    (by
      rw [Nat.pow_add]
      exact Nat.lt_of_lt_of_le hk (Nat.mul_le_mul_right _ (Nat.le_of_lt hV2)))
  refine ⟨u, v, ?_, r⟩
  unfold longDivision
  simp only [csub_ok (show tz ≤ 64 by omega), csub_ok ht1, run_bind_ok]
  rw [show 64 - tz + 64 * (t - 1) = 64 * (t + 1) - tz - 64 by omega]
  by_cases h0 : tz = 0
  · rw [if_pos h0] at ex ⊢
    rw [ex]
    simp only [run_bind_ok]
    exact e
  · rw [if_neg h0] at ex ⊢
    simp only [idx_ok kt, idx_ok kt1, run_bind_ok] at ex ⊢
    injection ex with ex
    rw [ex]
    exact e

theorem largeDivByLarge_ok {duo div : List Digit} {k s t : Nat} (hl : div.length = duo.length)
    (hs2 : 2 ≤ s) (hs : s < duo.length) (ht1 : 1 ≤ t) (hts : t ≤ s)
    (hu1 : B ^ s ≤ val duo) (hu2 : val duo < B ^ (s + 1)) (hv1 : B ^ t ≤ val div)
    (hv2 : val div < B ^ (t + 1)) (hk : val duo < val div * 2 ^ (61 * k)) :
    ∃ duo' div', largeDivByLarge k duo.length duo s div t = .ok (duo', div') ∧
      duo'.length = duo.length ∧ div'.length = duo.length ∧ val duo' = val duo / val div ∧
      val div' = val duo % val div := by
  have kt : t < div.length := by omega
  obtain ⟨a1, a2, a3, a4⟩ := sigBits_ok hs hu1 hu2
  obtain ⟨b1, b2, b3, b4⟩ := sigBits_ok kt hv1 hv2
  unfold largeDivByLarge
  simp only [idx_ok hs, idx_ok kt, run_bind_ok, a2, b2]
  generalize Digit.leadingZeros duo[s] = lz at *
  generalize Digit.leadingZeros div[t] = tz at *
  split
  · rename_i hlt
    obtain ⟨u, v, e, l1, l2, g1, g2⟩ := moveDuoToDiv_ok (duo := duo) (div := div) (i := s) (j := t)
      hl (by omega) (by omega) hu2 hv2
    have : val duo < val div := by
      refine Nat.lt_of_lt_of_le a4 (Nat.le_trans ?_ b3)
      exact Nat.pow_le_pow_right (by decide) (by omega)
    refine ⟨u, v, e, l1, l2, ?_, ?_⟩
    · rw [g1, Nat.div_eq_of_lt this]
    · rw [g2, Nat.mod_eq_of_lt this]
  · rename_i hnlt
    split
    · rename_i heq
      have hst : s = t := by omega
      subst hst
      rw [uge_ok (by omega) (by omega), val_take_of_lt hu2, val_take_of_lt hv2]
      simp only [run_bind_ok]
      by_cases hge : val duo ≥ val div
      · simp only [hge, decide_true, if_true]
        have hlt2 : val duo < 2 * val div := by
          have : 2 ^ (64 * (s + 1) - lz) = 2 * 2 ^ (64 * (s + 1) - tz - 1) := by
            rw [heq, ← Nat.pow_succ']; congr 1; omega
          omega
        obtain ⟨d1, t1, l1, dr1, k1, hk1⟩ := twosComplement_ok (l := div) (n := s + 1) (by omega)
        rw [val_take_of_lt hv2] at hk1
        obtain ⟨u, v, e, l2, l3, dr2, dr3, v1, k2, hk2⟩ := special0Self_ok (sum := duo)
          (target := d1) (n := s + 1) (by omega) (by omega) (by omega) Digit.ONE
        rw [val_take_of_lt hu2] at hk2
        obtain ⟨m1, m2⟩ := divmod_of (V0 := val duo) (V := val div) (q := 1)
          (r := val duo - val div) (by omega) (by omega)
        simp only [t1, run_bind_ok, e]
        refine ⟨u, v, rfl, l2, by omega, ?_, ?_⟩
        · rw [val_take_drop u (s + 1) (by omega), v1, dr2, val_drop_of_lt hu2 (Nat.le_refl _),
            Nat.mul_zero, Nat.add_zero, Digit.ONE_toNat, m1]
        · rw [val_take_drop v (s + 1) (by omega), dr3, dr1, val_drop_of_lt hv2 (Nat.le_refl _),
            Nat.mul_zero, Nat.add_zero, ← m2]
          refine eq_of_congr (n := B ^ (s + 1)) (val_lt_of_le (by simp)) (by omega)
            ⟨(k1 : ℤ) - k2, ?_⟩
          rw [Nat.cast_sub hge]
          zify at hk1 hk2 ⊢
          linear_combination hk2 + hk1
      · simp only [hge, decide_false, Bool.false_eq_true, if_false]
        obtain ⟨u, v, e, l1, l2, g1, g2⟩ := moveDuoToDiv_ok (duo := duo) (div := div) (i := s)
          (j := s) hl (by omega) (by omega) hu2 hv2
        refine ⟨u, v, e, l1, l2, ?_, ?_⟩
        · rw [g1, Nat.div_eq_of_lt (by omega)]
        · rw [g2, Nat.mod_eq_of_lt (by omega)]
    · rename_i hne
      rw [csub_ok (by omega)]
      simp only [run_bind_ok]
      split
      · exact mulOrMulSub1_ok (tb := 64 * (t + 1) - tz) hs hl hs2 a1 ht1 hts a4 (by omega)
          (by omega) b3 b4 hv2
      · exact longDivision_ok rfl hl hs2 hs a1 a3 a4 ht1 b1 b3 b4 (by omega) hk

end ApInt

end Verif
