import Verif.Proof.DivQuot

/-! # Subtracting a multiple of the divisor and adding to the quotient -/

namespace Verif

namespace ApInt

theorem shl_digit {d : Digit} {b : Nat} (hb : b < 64) :
    ∃ t, DDigit.shl (Digit.dd d) b = .ok t ∧ t.toNat = d.toNat * 2 ^ b := by
  obtain ⟨t, e, h⟩ := dshl_ok (x := Digit.dd d) (n := b) (by omega) (by
    rw [Digit.dd_toNat]
    have h1 : 2 ^ 64 * 2 ^ b ≤ 2 ^ 128 := by
      rw [← Nat.pow_add]; exact Nat.pow_le_pow_right (by decide) (by omega)
    exact Nat.lt_of_lt_of_le (Nat.mul_lt_mul_of_pos_right d.isLt (two_pow_w_pos _)) h1)
  exact ⟨t, e, by rw [h, Digit.dd_toNat]⟩

theorem loHi_eq (x : DDigit) : (DDigit.loHi x).1.toNat + B * (DDigit.loHi x).2.toNat = x.toNat :=
  DDigit.lo_add_hi x

/-- One digit of `(div << b) | carry`. -/
theorem shlOr_ok {d w : Digit} {b : Nat} (hb : b < 64) (hw : w.toNat < 2 ^ b) :
    ∃ t, DDigit.shl (Digit.dd d) b = .ok t ∧
      (DDigit.bitor t (Digit.dd w)).toNat = d.toNat * 2 ^ b + w.toNat ∧
      (DDigit.loHi (DDigit.bitor t (Digit.dd w))).2.toNat < 2 ^ b := by
  obtain ⟨t, e, h⟩ := shl_digit (d := d) hb
  have h1 : (DDigit.bitor t (Digit.dd w)).toNat = d.toNat * 2 ^ b + w.toNat := by
    unfold DDigit.bitor
    rw [BitVec.toNat_or, or_eq_add (n := b) ⟨d.toNat, by rw [h, Nat.mul_comm]⟩
      (by rwa [Digit.dd_toNat]), h, Digit.dd_toNat]
  refine ⟨t, e, h1, ?_⟩
  show (DDigit.hi (DDigit.bitor t (Digit.dd w))).toNat < 2 ^ b
  rw [DDigit.hi_toNat, h1]
  apply Nat.div_lt_of_lt_mul
  have := Nat.mul_le_mul_right (2 ^ b) (Nat.succ_le_of_lt (dlt d))
  rw [Nat.succ_mul] at this
  omega

/-- From the congruence kept by the loops to the subtraction. -/
theorem sub_final {s duo div : List Digit} {g sd N b : Nat} (hsd : sd < duo.length)
    (hl : s.length = duo.length) (hd : s.drop (sd + 1) = duo.drop (sd + 1))
    (hu : val duo < B ^ (sd + 1)) (hle : N * (2 ^ b * (B ^ g * val div)) ≤ val duo)
    (h : ∃ k : ℤ, (val (s.take (sd + 1)) : ℤ) + N * (2 ^ b * (B ^ g * val div))
      = val (duo.take (sd + 1)) + B ^ (sd + 1) * k) :
    val s + N * (2 ^ b * (B ^ g * val div)) = val duo := by
  obtain ⟨k, hk⟩ := h
  rw [val_take_of_lt hu] at hk
  have h1 : val s = val (s.take (sd + 1)) := by
    rw [val_take_drop s (sd + 1) (by omega), hd, val_drop_of_lt hu (Nat.le_refl _), Nat.mul_zero,
      Nat.add_zero]
  have h2 : val (s.take (sd + 1)) < B ^ (sd + 1) := val_lt_of_le (by simp)
  have h3 : val (s.take (sd + 1)) = val duo - N * (2 ^ b * (B ^ g * val div)) := by
    refine eq_of_congr h2 (by omega) ⟨k, ?_⟩
    rw [Nat.cast_sub hle]
    push_cast
    linear_combination hk
  omega

theorem subCoreLow_ok {duo div : List Digit} {mul : Digit} {sd g b : Nat} (hg : g ≤ sd)
    (hsd : sd < duo.length) (hl : div.length = duo.length) (hb : b < 64)
    (hu : val duo < B ^ (sd + 1)) (hle : mul.toNat * (2 ^ b * (B ^ g * val div)) ≤ val duo) :
    ∃ s, subCoreLow duo div mul sd g b = .ok s ∧ s.length = duo.length ∧
      val s + mul.toNat * (2 ^ b * (B ^ g * val div)) = val duo := by
  have hd0 : 0 < div.length := by omega
  have hgl : g < duo.length := by omega
  obtain ⟨t, et, ht⟩ := shl_digit (d := div[0]) hb
  have hw : (DDigit.loHi t).2.toNat < 2 ^ b := by
    show (DDigit.hi t).toNat < 2 ^ b
    rw [DDigit.hi_toNat, ht]
    apply Nat.div_lt_of_lt_mul
    exact Nat.mul_lt_mul_of_pos_right (dlt _) (two_pow_w_pos _)
  have ht1 := loHi_eq t
  have ht2 := loHi_eq (DDigit.wrappingMul (Digit.dd mul) (Digit.dd (DDigit.loHi t).1))
  have hmul : ∀ x : Digit, (DDigit.wrappingMul (Digit.dd mul) (Digit.dd x)).toNat
      = mul.toNat * x.toNat := fun x => Digit.mul_toNat mul x
  rw [hmul] at ht2
  rw [ht] at ht1
  obtain ⟨⟨s, w, m, a⟩, e, g1, g2, g3, g4, g5⟩ := forRange_spec
    (body := fun i (s : List Digit × Digit × Digit × Digit) => do
      let j ← csub i g
      let d ← idx div j
      let t ← DDigit.shl (Digit.dd d) b
      let temp0 := DDigit.loHi (DDigit.bitor t (Digit.dd s.2.1))
      let wrapCarry := temp0.2
      let temp1 := DDigit.loHi (DDigit.wrappingAdd
        (DDigit.wrappingMul (Digit.dd mul) (Digit.dd temp0.1)) (Digit.dd s.2.2.1))
      let mulCarry := temp1.2
      let u ← idx s.1 i
      let temp2 := DDigit.loHi (dd3 (Digit.notInplace temp1.1) u s.2.2.2)
      let addCarry := temp2.2
      let duo ← upd s.1 i temp2.1
      .ok (duo, wrapCarry, mulCarry, addCarry))
    (I := fun i (s : List Digit × Digit × Digit × Digit) => s.1.length = duo.length ∧
      s.1.drop i = duo.drop i ∧ s.2.1.toNat < 2 ^ b ∧ g ≤ i ∧
      val (s.1.take i) + B ^ i * s.2.2.2.toNat
          + mul.toNat * (2 ^ b * (B ^ g * val (div.take (i - g))))
        = val (duo.take i) + B ^ i * (1 + s.2.2.1.toNat + s.2.1.toNat * mul.toNat))
    (lo := g + 1) (hi := sd + 1)
    (s := (duo.set g (DDigit.loHi (dd3 (Digit.notInplace (DDigit.loHi (DDigit.wrappingMul
        (Digit.dd mul) (Digit.dd (DDigit.loHi t).1))).1) duo[g] Digit.ONE)).1,
      (DDigit.loHi t).2,
      (DDigit.loHi (DDigit.wrappingMul (Digit.dd mul) (Digit.dd (DDigit.loHi t).1))).2,
      (DDigit.loHi (dd3 (Digit.notInplace (DDigit.loHi (DDigit.wrappingMul
        (Digit.dd mul) (Digit.dd (DDigit.loHi t).1))).1) duo[g] Digit.ONE)).2))
    (by omega)
    ⟨by simp, by simp only [drop_set_succ], hw, by omega, by
      simp only [val_take_set hgl, val_take_succ hgl]
      rw [show g + 1 - g = 0 + 1 by omega, val_take_succ hd0]
      simp only [List.take_zero, val_nil, Nat.pow_zero, Nat.one_mul, Nat.zero_add]
      generalize DDigit.loHi t = T at *
      obtain ⟨x, w⟩ := T
      simp only at *
      generalize DDigit.loHi (DDigit.wrappingMul (Digit.dd mul) (Digit.dd x)) = T at *
      obtain ⟨y, m⟩ := T
      simp only at *
      have h3 := dd3_eq (Digit.notInplace y) duo[g] Digit.ONE
      have h4 := not_toNat' y
      change (DDigit.loHi _).1.toNat + B * (DDigit.loHi _).2.toNat = _ at h3
      rw [Digit.ONE_toNat] at h3
      generalize DDigit.loHi (dd3 (Digit.notInplace y) duo[g] Digit.ONE) = T at *
      obtain ⟨z, a⟩ := T
      simp only at *
      rw [Nat.pow_succ]
      zify at *
      linear_combination B ^ g * h3 + B ^ g * h4 - B ^ g * ht2 - B ^ g * mul.toNat * ht1⟩ (by
      rintro i ⟨s, w, m, a⟩ hi1 hi2 ⟨g1, g2, g3, g4, g5⟩
      simp only at g1 g2 g3 g5
      have k1 : i - g < div.length := by omega
      have k2 : i < s.length := by omega
      have k3 : i < duo.length := by omega
      obtain ⟨t, et, ht, hw⟩ := shlOr_ok (d := div[i - g]) hb g3
      have hx : s[i] = duo[i] := getElem_of_drop g2 (Nat.le_refl _) k2 k3
      simp only [csub_ok (show g ≤ i by omega), run_bind_ok, idx_ok k1, et, idx_ok k2, upd_ok k2]
      refine ⟨_, rfl, by simp [g1], ?_, hw, by omega, ?_⟩
      · simp only [drop_set_succ]; exact drop_of_drop g2 (by omega)
      · simp only [val_take_set k2, val_take_succ k3]
        rw [show i + 1 - g = (i - g) + 1 by omega, val_take_succ k1]
        have ht1 := loHi_eq (DDigit.bitor t (Digit.dd w))
        rw [ht] at ht1
        generalize DDigit.loHi (DDigit.bitor t (Digit.dd w)) = T at *
        obtain ⟨x, w'⟩ := T
        simp only at *
        have ht2 := loHi_eq (DDigit.wrappingAdd (DDigit.wrappingMul (Digit.dd mul) (Digit.dd x))
          (Digit.dd m))
        have h5 : (DDigit.wrappingAdd (DDigit.wrappingMul (Digit.dd mul) (Digit.dd x))
          (Digit.dd m)).toNat = mul.toNat * x.toNat + m.toNat := Digit.mulAdd_toNat mul x m
        rw [h5] at ht2
        generalize DDigit.loHi (DDigit.wrappingAdd (DDigit.wrappingMul (Digit.dd mul)
          (Digit.dd x)) (Digit.dd m)) = T at *
        obtain ⟨y, m'⟩ := T
        simp only at *
        have h3 := dd3_eq (Digit.notInplace y) s[i] a
        have h4 := not_toNat' y
        change (DDigit.loHi _).1.toNat + B * (DDigit.loHi _).2.toNat = _ at h3
        rw [hx] at h3 ⊢
        generalize DDigit.loHi (dd3 (Digit.notInplace y) duo[i] a) = T at *
        obtain ⟨z, a'⟩ := T
        simp only at *
        have hB : B ^ g * B ^ (i - g) = B ^ i := by rw [← Nat.pow_add]; congr 1; omega
        rw [Nat.pow_succ]
        zify at *
        linear_combination g5 + B ^ i * h3 + B ^ i * h4 - B ^ i * ht2 - B ^ i * mul.toNat * ht1
          + mul.toNat * 2 ^ b * (div[i - g]).toNat * hB)
  simp only at g1 g2 g3 g5
  refine ⟨s, ?_, g1, sub_final hsd g1 g2 hu hle ?_⟩
  · simp only [subCoreLow, idx_ok hd0, run_bind_ok, et, idx_ok hgl, upd_ok hgl]
    rw [e]
    simp only [run_bind_ok]
  · have h1 := val_take_drop div (sd + 1 - g) (by omega)
    have hB : B ^ g * B ^ (sd + 1 - g) = B ^ (sd + 1) := by rw [← Nat.pow_add]; congr 1; omega
    refine ⟨1 + m.toNat + w.toNat * mul.toNat - a.toNat
      + mul.toNat * 2 ^ b * val (div.drop (sd + 1 - g)), ?_⟩
    zify at *
    linear_combination g5 + mul.toNat * 2 ^ b * B ^ g * h1
      + mul.toNat * 2 ^ b * val (div.drop (sd + 1 - g)) * hB

/-- One digit of `(!z << b) + carry`. -/
theorem shlAdd_ok {d w : Digit} {b : Nat} (hb : b < 64) (hw : w.toNat ≤ 2 ^ b) :
    ∃ t, DDigit.shl (Digit.dd d) b = .ok t ∧
      (DDigit.wrappingAdd t (Digit.dd w)).toNat = d.toNat * 2 ^ b + w.toNat ∧
      (DDigit.hi (DDigit.wrappingAdd t (Digit.dd w))).toNat ≤ 2 ^ b := by
  obtain ⟨t, e, h⟩ := shl_digit (d := d) hb
  have h2 : d.toNat * 2 ^ b + w.toNat ≤ 2 ^ b * B := by
    have := Nat.mul_le_mul_right (2 ^ b) (Nat.succ_le_of_lt (dlt d))
    rw [Nat.succ_mul, Nat.mul_comm B] at this
    omega
  have h3 : 2 ^ b * B < 2 ^ 128 := by
    rw [B_eq, ← Nat.pow_add]
    exact Nat.pow_lt_pow_right (by decide) (by omega)
  have h1 : (DDigit.wrappingAdd t (Digit.dd w)).toNat = d.toNat * 2 ^ b + w.toNat := by
    unfold DDigit.wrappingAdd
    rw [BitVec.toNat_add, h, Digit.dd_toNat]
    exact Nat.mod_eq_of_lt (by omega)
  refine ⟨t, e, h1, ?_⟩
  rw [DDigit.hi_toNat, h1]
  exact Nat.div_le_of_le_mul (by rw [Nat.mul_comm B]; exact h2)

theorem subCoreHigh_ok {duo div : List Digit} {mul : Digit} {sd g b : Nat} (hg : g ≤ sd)
    (hsd : sd < duo.length) (hl : div.length = duo.length) (hb : b < 64)
    (hu : val duo < B ^ (sd + 1))
    (hle : (mul.toNat + B) * (2 ^ b * (B ^ g * val div)) ≤ val duo) :
    ∃ s, subCoreHigh duo div mul sd g b = .ok s ∧ s.length = duo.length ∧
      val s + (mul.toNat + B) * (2 ^ b * (B ^ g * val div)) = val duo := by
  have hd0 : 0 < div.length := by omega
  have hgl : g < duo.length := by omega
  have hc0 := Digit.carryingMul_eq mul div[0]
  have hn0 := not_toNat' (Digit.carryingMul mul div[0]).1
  have hd1 : (DDigit.wrappingAdd (Digit.dd (Digit.notInplace (Digit.carryingMul mul div[0]).1))
      (Digit.dd Digit.ONE)).toNat
      = (Digit.notInplace (Digit.carryingMul mul div[0]).1).toNat + 1 := by
    unfold DDigit.wrappingAdd
    rw [BitVec.toNat_add, Digit.dd_toNat, Digit.dd_toNat, Digit.ONE_toNat]
    have := (Digit.notInplace (Digit.carryingMul mul div[0]).1).isLt
    exact Nat.mod_eq_of_lt (by omega)
  have hpb : 2 ^ b * B < 2 ^ 128 := by
    rw [B_eq, ← Nat.pow_add]
    exact Nat.pow_lt_pow_right (by decide) (by omega)
  have hle1 : ((Digit.notInplace (Digit.carryingMul mul div[0]).1).toNat + 1) * 2 ^ b
      ≤ 2 ^ b * B := by
    rw [Nat.mul_comm]
    exact Nat.mul_le_mul_left _ (dlt _)
  obtain ⟨t, et, ht⟩ := dshl_ok (x := DDigit.wrappingAdd (Digit.dd (Digit.notInplace
      (Digit.carryingMul mul div[0]).1)) (Digit.dd Digit.ONE)) (n := b) (by omega)
    (by rw [hd1]; omega)
  rw [hd1] at ht
  have hw : (DDigit.loHi t).2.toNat ≤ 2 ^ b := by
    show (DDigit.hi t).toNat ≤ 2 ^ b
    rw [DDigit.hi_toNat, ht]
    exact Nat.div_le_of_le_mul (by rw [Nat.mul_comm B]; exact hle1)
  have ht1 := loHi_eq t
  rw [ht] at ht1
  have ha0 := Digit.carryingAdd_eq (DDigit.loHi t).1 duo[g]
  obtain ⟨⟨s, m, c, w, a⟩, e, g1, g2, g3, g4, g5⟩ := forRange_spec
    (body := fun i (s : List Digit × Digit × Digit × Digit × Digit) => do
      let j ← csub i g
      let d ← idx div j
      let temp0 := DDigit.wrappingAdd (DDigit.wrappingMul (Digit.dd mul) (Digit.dd d))
        (Digit.dd s.2.1)
      let mulCarry := DDigit.hi temp0
      let j1 ← csub j 1
      let d' ← idx div j1
      let temp1 := dd3 (DDigit.lo temp0) d' s.2.2.1
      let add0Carry := DDigit.hi temp1
      let t ← DDigit.shl (Digit.dd (Digit.notInplace (DDigit.lo temp1))) b
      let temp2 := DDigit.wrappingAdd t (Digit.dd s.2.2.2.1)
      let wrapCarry := DDigit.hi temp2
      let u ← idx s.1 i
      let temp3 := dd3 (DDigit.lo temp2) u s.2.2.2.2
      let add1Carry := DDigit.hi temp3
      let duo ← upd s.1 i (DDigit.lo temp3)
      .ok (duo, mulCarry, add0Carry, wrapCarry, add1Carry))
    (I := fun i (s : List Digit × Digit × Digit × Digit × Digit) => s.1.length = duo.length ∧
      s.1.drop i = duo.drop i ∧ s.2.2.2.1.toNat ≤ 2 ^ b ∧ g ≤ i ∧
      val (s.1.take i) + B ^ i * (s.2.2.2.2.toNat + s.2.2.2.1.toNat)
          + 2 ^ b * (B ^ g * (mul.toNat * val (div.take (i - g))
            + B * val (div.take (i - g - 1))))
        = val (duo.take i) + B ^ i * (2 ^ b * (1 + s.2.1.toNat + s.2.2.1.toNat)))
    (lo := g + 1) (hi := sd + 1)
    (s := (duo.set g (Digit.carryingAdd (DDigit.loHi t).1 duo[g]).1,
      (Digit.carryingMul mul div[0]).2, Digit.ZERO, (DDigit.loHi t).2,
      (Digit.carryingAdd (DDigit.loHi t).1 duo[g]).2))
    (by omega)
    ⟨by simp, by simp only [drop_set_succ], hw, by omega, by
      simp only [val_take_set hgl, val_take_succ hgl]
      rw [show g + 1 - g = 0 + 1 by omega, val_take_succ hd0, show 0 + 1 - 1 = 0 from rfl]
      simp only [List.take_zero, val_nil, Nat.pow_zero, Nat.one_mul, Nat.zero_add,
        Nat.mul_zero, Nat.add_zero, Digit.ZERO_toNat]
      generalize DDigit.loHi t = T at *
      obtain ⟨x, w⟩ := T
      simp only at *
      generalize Digit.carryingMul mul div[0] = T at *
      obtain ⟨y, m⟩ := T
      simp only at *
      generalize Digit.carryingAdd x duo[g] = T at *
      obtain ⟨z, a⟩ := T
      simp only at *
      rw [Nat.pow_succ]
      clear hpb hle1 hd1
      zify at *
      linear_combination B ^ g * ha0 + B ^ g * ht1 + B ^ g * 2 ^ b * hn0
        - B ^ g * 2 ^ b * hc0⟩ (by
      rintro i ⟨s, m, c, w, a⟩ hi1 hi2 ⟨g1, g2, g3, g4, g5⟩
      simp only at g1 g2 g3 g5
      have k1 : i - g < div.length := by omega
      have k4 : i - g - 1 < div.length := by omega
      have k2 : i < s.length := by omega
      have k3 : i < duo.length := by omega
      have hx : s[i] = duo[i] := getElem_of_drop g2 (Nat.le_refl _) k2 k3
      have q0 := DDigit.lo_add_hi (DDigit.wrappingAdd (DDigit.wrappingMul (Digit.dd mul)
        (Digit.dd div[i - g])) (Digit.dd m))
      have q0' : (DDigit.wrappingAdd (DDigit.wrappingMul (Digit.dd mul) (Digit.dd div[i - g]))
          (Digit.dd m)).toNat = mul.toNat * (div[i - g]).toNat + m.toNat :=
        Digit.mulAdd_toNat mul _ m
      rw [q0'] at q0
      simp only [csub_ok (show g ≤ i by omega), csub_ok (show 1 ≤ i - g by omega), run_bind_ok,
        idx_ok k1, idx_ok k4, idx_ok k2, upd_ok k2]
      generalize DDigit.wrappingAdd (DDigit.wrappingMul (Digit.dd mul)
        (Digit.dd div[i - g])) (Digit.dd m) = T0 at *
      have q1 := dd3_eq (DDigit.lo T0) div[i - g - 1] c
      generalize dd3 (DDigit.lo T0) div[i - g - 1] c = T1 at *
      obtain ⟨t, et, ht, hw⟩ := shlAdd_ok (d := Digit.notInplace (DDigit.lo T1)) hb g3
      have q3 := not_toNat' (DDigit.lo T1)
      have q2 := DDigit.lo_add_hi (DDigit.wrappingAdd t (Digit.dd w))
      rw [ht] at q2
      simp only [et, run_bind_ok]
      refine ⟨_, rfl, by simp [g1], ?_, hw, by omega, ?_⟩
      · simp only [drop_set_succ]; exact drop_of_drop g2 (by omega)
      · simp only [val_take_set k2, val_take_succ k3]
        have q4 := dd3_eq (DDigit.lo (DDigit.wrappingAdd t (Digit.dd w))) s[i] a
        rw [hx] at q4 ⊢
        have v1 := val_take_succ k4
        rw [show i - g - 1 + 1 = i - g by omega] at v1
        rw [show i + 1 - g = (i - g) + 1 by omega, val_take_succ k1, Nat.add_sub_cancel]
        have hB : B ^ g * B ^ (i - g) = B ^ i := by rw [← Nat.pow_add]; congr 1; omega
        have hB2 : B ^ (i - g) = B ^ (i - g - 1) * B := by rw [← pow_succ]; congr 1; omega
        rw [Nat.pow_succ]
        zify at *
        linear_combination g5 + B ^ i * q4 + B ^ i * q2 + B ^ i * 2 ^ b * q3
          - B ^ i * 2 ^ b * q1 - B ^ i * 2 ^ b * q0
          + 2 ^ b * B ^ g * B * v1
          + (2 ^ b * mul.toNat * (div[i - g]).toNat + 2 ^ b * (div[i - g - 1]).toNat) * hB
          - 2 ^ b * B ^ g * (div[i - g - 1]).toNat * hB2)
  simp only at g1 g2 g3 g5
  refine ⟨s, ?_, g1, sub_final (N := mul.toNat + B) hsd g1 g2 hu hle ?_⟩
  · simp only [subCoreHigh, idx_ok hd0, run_bind_ok, et, idx_ok hgl, upd_ok hgl]
    rw [e]
    simp only [run_bind_ok]
  · have h1 := val_take_drop div (sd + 1 - g) (by omega)
    have h2 := val_take_drop div (sd + 1 - g - 1) (by omega)
    have hB : B ^ g * B ^ (sd + 1 - g) = B ^ (sd + 1) := by rw [← Nat.pow_add]; congr 1; omega
    have hB2 : B ^ g * B * B ^ (sd + 1 - g - 1) = B ^ (sd + 1) := by
      rw [← pow_succ, ← Nat.pow_add]; congr 1; omega
    refine ⟨2 ^ b * (1 + m.toNat + c.toNat) - a.toNat - w.toNat
      + mul.toNat * 2 ^ b * val (div.drop (sd + 1 - g))
      + 2 ^ b * val (div.drop (sd + 1 - g - 1)), ?_⟩
    zify at *
    linear_combination g5 + mul.toNat * 2 ^ b * B ^ g * h1 + B * 2 ^ b * B ^ g * h2
      + mul.toNat * 2 ^ b * val (div.drop (sd + 1 - g)) * hB
      + 2 ^ b * val (div.drop (sd + 1 - g - 1)) * hB2

/-- Adding `mul << b` at digit `g`. -/
theorem addToQuo_ok {quo : List Digit} {mul : DDigit} {g b : Nat} (hg : g + 1 < quo.length)
    (hb : b < 64) (hm : mul.toNat < 2 ^ 65)
    (hlt : val quo + mul.toNat * (2 ^ b * B ^ g) < B ^ quo.length) :
    ∃ q, addToQuo quo mul g b = .ok q ∧ q.length = quo.length ∧
      val q = val quo + mul.toNat * (2 ^ b * B ^ g) := by
  have k0 : g < quo.length := by omega
  obtain ⟨t, et, ht⟩ := dshl_ok (x := mul) (n := b) (by omega) (by
    calc mul.toNat * 2 ^ b < 2 ^ 65 * 2 ^ b := Nat.mul_lt_mul_of_pos_right hm (two_pow_w_pos _)
      _ = 2 ^ (65 + b) := by rw [← Nat.pow_add]
      _ ≤ 2 ^ 128 := Nat.pow_le_pow_right (by decide) (by omega))
  have ht1 := DDigit.lo_add_hi t
  rw [ht] at ht1
  have c0 := Digit.carryingAdd_eq (DDigit.lo t) quo[g]
  generalize hT : Digit.carryingAdd (DDigit.lo t) quo[g] = T at *
  obtain ⟨x, c⟩ := T
  simp only at c0
  have k1 : g + 1 < (quo.set g x).length := by simpa using hg
  have c1 := dd3_eq (DDigit.hi t) (quo.set g x)[g + 1] c
  generalize hT1 : dd3 (DDigit.hi t) (quo.set g x)[g + 1] c = T1 at *
  have s0 := val_set k0 x
  have s1 := val_set k1 (DDigit.lo T1)
  obtain ⟨⟨q, c'⟩, e, g1, g2⟩ := forRangeB_spec
    (body := fun i (s : List Digit × Digit) => do
      if Digit.isZero s.2 then .ok (.brk (s.1, s.2))
      else do
        let q ← idx s.1 i
        let temp := Digit.carryingAdd q s.2
        let quo ← upd s.1 i temp.1
        .ok (.cont (quo, temp.2)))
    (I := fun i (s : List Digit × Digit) => s.1.length = quo.length ∧
      val s.1 + B ^ i * s.2.toNat = val quo + mul.toNat * (2 ^ b * B ^ g))
    (Q := fun (s : List Digit × Digit) => s.1.length = quo.length ∧
      val s.1 = val quo + mul.toNat * (2 ^ b * B ^ g))
    (lo := g + 2) (hi := quo.length)
    (s := ((quo.set g x).set (g + 1) (DDigit.lo T1), DDigit.hi T1)) (by omega)
    ⟨by simp, by
      simp only
      rw [show g + 2 = g + 1 + 1 from rfl, Nat.pow_succ]
      rw [Nat.pow_succ] at s1 ⊢
      zify at *
      linear_combination s0 + s1 + B ^ g * c0 + B ^ g * B * c1 + B ^ g * ht1⟩ (by
      rintro i ⟨s, c⟩ hi1 hi2 ⟨g1, g2⟩
      simp only at g1 g2
      have k : i < s.length := by omega
      cases hz : Digit.isZero c
      · left
        simp only [Bool.false_eq_true, if_false, idx_ok k, run_bind_ok, upd_ok k]
        refine ⟨_, rfl, by simp [g1], ?_⟩
        simp only
        have h1 := val_set k (Digit.carryingAdd s[i] c).1
        have h2 := Digit.carryingAdd_eq s[i] c
        rw [Nat.pow_succ]
        zify at *
        linear_combination g2 + h1 + B ^ i * h2
      · right
        simp only [if_true]
        rw [Digit.isZero_iff] at hz
        refine ⟨_, rfl, g1, ?_⟩
        rw [hz, Nat.mul_zero, Nat.add_zero] at g2
        exact g2) (by
      rintro ⟨s, c⟩ ⟨g1, g2⟩
      simp only at g1 g2
      refine ⟨g1, ?_⟩
      simp only
      rcases Nat.eq_zero_or_pos c.toNat with h | h
      · rw [h, Nat.mul_zero, Nat.add_zero] at g2
        exact g2
      · have := Nat.mul_le_mul_left (B ^ quo.length) h
        omega)
  simp only at g1 g2
  refine ⟨q, ?_, g1, g2⟩
  simp only [addToQuo, et, run_bind_ok, idx_ok k0, hT, upd_ok k0, idx_ok k1, upd_ok k1, hT1]
  simp only [List.length_set]
  rw [e]
  simp only [run_bind_ok]

end ApInt

end Verif
