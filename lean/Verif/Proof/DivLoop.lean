import Verif.Proof.DivCore
import Verif.Proof.Counts

/-! # The main loop of division -/

namespace Verif

namespace ApInt

theorem drop_self {l : List Digit} {n : Nat} (h : l.length = n) : l.drop n = [] :=
  List.drop_of_length_le (by omega)

theorem top_digit {l : List Digit} {i : Nat} (hi : i < l.length) (h : val l < B ^ (i + 1)) :
    (l[i]).toNat = val l / B ^ i := by
  rw [val_getElem hi, Nat.mod_eq_of_lt]
  apply Nat.div_lt_of_lt_mul
  rwa [← pow_succ]

/-- Number of significant bits from the top digit. -/
theorem sigBits_ok {l : List Digit} {i : Nat} (hi : i < l.length) (h1 : B ^ i ≤ val l)
    (h2 : val l < B ^ (i + 1)) :
    Digit.leadingZeros l[i] < 64 ∧
      sigBitsOf i (Digit.leadingZeros l[i]) = .ok (64 * (i + 1) - Digit.leadingZeros l[i]) ∧
      2 ^ (64 * (i + 1) - Digit.leadingZeros l[i] - 1) ≤ val l ∧
      val l < 2 ^ (64 * (i + 1) - Digit.leadingZeros l[i]) := by
  have ht := top_digit hi h2
  obtain ⟨g1, g2, g3, g4⟩ := leadingZeros64_spec l[i]
  have hp : 0 < (l[i]).toNat := by
    rw [ht]
    exact Nat.div_pos h1 (B_pow_pos i)
  unfold Digit.leadingZeros
  have hlz : leadingZeros64 l[i] < 64 := by
    rcases Nat.lt_or_ge (leadingZeros64 l[i]) 64 with h | h
    · exact h
    · have := g4.mp (by omega); omega
  rw [ht] at g2 g3
  refine ⟨hlz, ?_, ?_, ?_⟩
  · simp only [sigBitsOf, csub_ok g1, run_bind_ok]
    congr 1
    omega
  · rw [show 64 * (i + 1) - leadingZeros64 l[i] - 1 = (63 - leadingZeros64 l[i]) + 64 * i by omega,
      Nat.pow_add, ← B_pow, ← Nat.le_div_iff_mul_le (B_pow_pos i)]
    exact g3 hlz
  · rw [show 64 * (i + 1) - leadingZeros64 l[i] = 64 * i + (64 - leadingZeros64 l[i]) by omega,
      Nat.pow_add, ← B_pow, Nat.mul_comm, ← Nat.div_lt_iff_lt_mul (B_pow_pos i)]
    exact g2

theorem findDuoSd_ok {duo : List Digit} {sd : Nat} (hsd : sd < duo.length)
    (hu : val duo < B ^ (sd + 1)) :
    (findDuoSd duo sd = .ok none ∧ val duo = 0) ∨
    ∃ i, findDuoSd duo sd = .ok (some i) ∧ i ≤ sd ∧ B ^ i ≤ val duo ∧ val duo < B ^ (i + 1) := by
  obtain ⟨r, e, hr⟩ := forRevB_spec
    (body := fun i (acc : Option Nat) => do
      let d ← idx duo i
      if !Digit.isZero d then .ok (.brk (some i)) else .ok (.cont acc))
    (I := fun i (s : Option Nat) => s = none ∧ val duo < B ^ i)
    (Q := fun s => (s = none ∧ val duo = 0) ∨
      ∃ i, s = some i ∧ i ≤ sd ∧ B ^ i ≤ val duo ∧ val duo < B ^ (i + 1))
    (lo := 0) (hi := sd + 1) (s := none) (by omega) ⟨rfl, hu⟩ (by
      rintro j s - hj ⟨rfl, h2⟩
      have k : j < duo.length := by omega
      have ht := top_digit k h2
      simp only [idx_ok k, run_bind_ok]
      cases hz : Digit.isZero duo[j]
      · right
        rw [Digit.isZero_false_iff, ht] at hz
        refine ⟨some j, by simp, .inr ⟨j, rfl, by omega, ?_, h2⟩⟩
        by_contra hc
        rw [Nat.div_eq_of_lt (by omega)] at hz
        omega
      · left
        rw [Digit.isZero_iff, ht] at hz
        refine ⟨none, by simp, rfl, ?_⟩
        rcases Nat.div_eq_zero_iff.mp hz with h | h
        · have := B_pow_pos j; omega
        · exact h) (by
      rintro s ⟨rfl, h⟩
      left
      refine ⟨rfl, ?_⟩
      simpa using h)
  unfold findDuoSd
  rw [e]
  rcases hr with ⟨rfl, h⟩ | ⟨i, rfl, h⟩
  · exact .inl ⟨rfl, h⟩
  · exact .inr ⟨i, rfl, h⟩

theorem quoPlusOne_ok {duo quo : List Digit} (hl : quo.length = duo.length)
    (h : val quo + 1 < B ^ duo.length) :
    ∃ d, quoPlusOne duo.length duo quo = .ok d ∧ d.length = duo.length ∧ val d = val quo + 1 := by
  unfold quoPlusOne
  refine forRangeB_spec (I := fun i (s : List Digit) => s.length = duo.length ∧
    val (s.take i) = 0 ∧ val (quo.take i) + 1 = B ^ i)
    (Q := fun d => d.length = duo.length ∧ val d = val quo + 1)
    (Nat.zero_le _) ⟨rfl, rfl, rfl⟩ ?_ ?_
  · rintro i s - hi ⟨h1, h2, h3⟩
    have k1 : i < quo.length := by omega
    have k2 : i < s.length := by omega
    simp only [idx_ok k1, run_bind_ok]
    have f1 := Digit.overflowingAdd_fst quo[i] Digit.ONE
    have f2 := Digit.overflowingAdd_snd quo[i] Digit.ONE
    rw [Digit.ONE_toNat] at f2
    generalize Digit.overflowingAdd quo[i] Digit.ONE = T at *
    obtain ⟨v, o⟩ := T
    simp only at f1 f2
    have hv : v.toNat = ((quo[i]).toNat + 1) % B := by
      rw [f1, BitVec.toNat_add, Digit.ONE_toNat, B_eq]
    have hq := dlt quo[i]
    cases o
    · right
      simp only [upd_ok k2, run_bind_ok]
      have hlt : ¬ B ≤ (quo[i]).toNat + 1 := by simpa using f2.symm
      rw [Nat.mod_eq_of_lt (by omega)] at hv
      rw [copyRange_ok (by omega) (by simp; omega) (by omega) (by omega) rfl]
      refine ⟨_, rfl, ?_, ?_⟩
      · simp; omega
      · rw [drop_self (l := s.set i v) (by simp [h1]), List.append_nil, val_append, take_self hl,
          val_take_set k2, h2, hv, List.length_take, List.length_set,
          Nat.min_eq_left (by omega), val_take_drop quo (i + 1) (by omega), val_take_succ k1]
        linear_combination -h3
    · left
      simp only [upd_ok k2, run_bind_ok]
      have hge : B ≤ (quo[i]).toNat + 1 := by simpa using f2.symm
      have heq : (quo[i]).toNat + 1 = B := by omega
      rw [heq, Nat.mod_self] at hv
      refine ⟨_, rfl, by simp [h1], ?_, ?_⟩
      · rw [val_take_set k2, h2, hv, Nat.mul_zero]
      · rw [val_take_succ k1, Nat.pow_succ]
        linear_combination h3 + B ^ i * heq
  · rintro s ⟨-, -, h3⟩
    rw [take_self hl] at h3
    omega

/-- Quotient and remainder from the invariant. -/
theorem divmod_of {V0 V q r : Nat} (h : r + q * V = V0) (hr : r < V) :
    q = V0 / V ∧ r = V0 % V := by
  have := (Nat.div_mod_unique (a := V0) (b := V) (c := r) (d := q) (by omega)).mpr
    ⟨by rw [← h, Nat.mul_comm], hr⟩
  exact ⟨this.1.symm, this.2.symm⟩

theorem finishTwoDigits_ok {duo quo div : List Digit} (h2 : 2 ≤ duo.length)
    (hq : quo.length = duo.length) (hl : div.length = duo.length) (hu : val duo < B ^ 2)
    (hv : val div < B ^ 2) (hV : 0 < val div) (hlt : val quo + val duo / val div < B ^ duo.length) :
    ∃ duo' div', finishTwoDigits duo.length duo quo div = .ok (duo', div') ∧
      duo'.length = duo.length ∧ div'.length = duo.length ∧
      val duo' = val quo + val duo / val div ∧ val div' = val duo % val div := by
  have two : ∀ l : List Digit, (hl : 2 ≤ l.length) → val l < B ^ 2 →
      (DDigit.fromLoHi l[0] l[1]).toNat = val l := by
    intro l hl hv
    rw [DDigit.fromLoHi_toNat, ← val_take_of_lt hv, show (2:Nat) = 1 + 1 from rfl,
      val_take_succ (by omega : 1 < l.length), val_take_one (by omega), pow_one]
  obtain ⟨m, r, e, hm, hr⟩ := ddivrem_ok (x := DDigit.fromLoHi duo[0] duo[1])
    (y := DDigit.fromLoHi div[0] div[1]) (by rw [two div (by omega) hv]; exact hV)
  rw [two div (by omega) hv, two duo h2 hu] at hm hr
  have hml := DDigit.lo_add_hi m
  have hrl := DDigit.lo_add_hi r
  have u0 : 0 < duo.length := by omega
  have u1 : 1 < duo.length := by omega
  have v0 : 0 < div.length := by omega
  have v1 : 1 < div.length := by omega
  have v1' : 1 < (div.set 0 (DDigit.lo r)).length := by simpa using v1
  have q0 : 0 < quo.length := by omega
  have q1 : 1 < quo.length := by omega
  have c0 := Digit.carryingAdd_eq quo[0] (DDigit.lo m)
  have u1' : 1 < (duo.set 0 (Digit.carryingAdd quo[0] (DDigit.lo m)).1).length := by simpa using u1
  have c1 := dd3_eq quo[1] (DDigit.hi m) (Digit.carryingAdd quo[0] (DDigit.lo m)).2
  obtain ⟨⟨d, c⟩, e2, g1, g2⟩ := forRangeB_spec
    (body := fun i0 (s : List Digit × Digit) => do
      if Digit.isZero s.2 then do
        let duo ← copyRange s.1 i0 duo.length quo i0 duo.length
        .ok (.brk (duo, s.2))
      else do
        let q ← idx quo i0
        let temp := Digit.carryingAdd q s.2
        let duo ← upd s.1 i0 temp.1
        .ok (.cont (duo, temp.2)))
    (I := fun i (s : List Digit × Digit) => s.1.length = duo.length ∧
      val (s.1.take i) + B ^ i * s.2.toNat = val (quo.take i) + m.toNat)
    (Q := fun (s : List Digit × Digit) => s.1.length = duo.length ∧ val s.1 = val quo + m.toNat)
    (lo := 2) (hi := duo.length)
    (s := ((duo.set 0 (Digit.carryingAdd quo[0] (DDigit.lo m)).1).set 1
        (DDigit.lo (dd3 quo[1] (DDigit.hi m) (Digit.carryingAdd quo[0] (DDigit.lo m)).2)),
      DDigit.hi (dd3 quo[1] (DDigit.hi m) (Digit.carryingAdd quo[0] (DDigit.lo m)).2)))
    h2 ⟨by simp, by
      have a1 := val_take_set u1' (DDigit.lo (dd3 quo[1] (DDigit.hi m)
        (Digit.carryingAdd quo[0] (DDigit.lo m)).2))
      have a0 := val_take_set u0 (Digit.carryingAdd quo[0] (DDigit.lo m)).1
      have b1 := val_take_succ q1
      rw [val_take_one q0] at b1
      simp only [List.take_zero, val_nil, Nat.pow_zero, Nat.one_mul, Nat.zero_add] at a0
      rw [a0] at a1
      simp only
      rw [show (2:Nat) = 1 + 1 from rfl, a1, b1]
      zify at *
      linear_combination c0 + B * c1 + hml⟩ (by
      rintro i ⟨s, c⟩ hi1 hi2 ⟨g1, g2⟩
      simp only at g1 g2
      have k : i < s.length := by omega
      have kq : i < quo.length := by omega
      cases hz : Digit.isZero c
      · left
        simp only [Bool.false_eq_true, if_false, idx_ok kq, run_bind_ok, upd_ok k]
        refine ⟨_, rfl, by simp [g1], ?_⟩
        simp only [val_take_set k, val_take_succ kq]
        have h2 := Digit.carryingAdd_eq quo[i] c
        rw [Nat.pow_succ]
        linear_combination g2 + B ^ i * h2
      · right
        simp only [if_true]
        rw [copyRange_ok (by omega) (by omega) (by omega) (by omega) rfl]
        rw [Digit.isZero_iff] at hz
        rw [hz, Nat.mul_zero, Nat.add_zero] at g2
        refine ⟨_, rfl, by simp; omega, ?_⟩
        simp only
        rw [drop_self g1, List.append_nil, val_append, take_self hq, g2,
          List.length_take, Nat.min_eq_left (by omega), val_take_drop quo i (by omega)]
        omega) (by
      rintro ⟨s, c⟩ ⟨g1, g2⟩
      simp only at g1 g2
      rw [take_self g1, take_self hq] at g2
      refine ⟨g1, ?_⟩
      simp only
      rw [← hm] at hlt
      rcases Nat.eq_zero_or_pos c.toNat with h | h
      · rw [h, Nat.mul_zero, Nat.add_zero] at g2
        exact g2
      · have := Nat.mul_le_mul_left (B ^ duo.length) h
        omega)
  simp only at g1 g2
  refine ⟨d, (div.set 0 (DDigit.lo r)).set 1 (DDigit.hi r), ?_, g1, by simp [hl], ?_, ?_⟩
  · simp only [finishTwoDigits, idx_ok u0, idx_ok u1, idx_ok v0, idx_ok v1, run_bind_ok, e,
      upd_ok v0, upd_ok v1', idx_ok q0, idx_ok q1, upd_ok u0, upd_ok u1']
    rw [e2]
    simp only [run_bind_ok]
  · rw [g2, hm]
  · have a1 := val_take_set v1' (DDigit.hi r)
    have a0 := val_take_set v0 (DDigit.lo r)
    simp only [List.take_zero, val_nil, Nat.pow_zero, Nat.one_mul, Nat.zero_add] at a0
    rw [a0] at a1
    rw [val_take_drop _ 2 (by simp; omega), drop_set_succ,
      List.drop_set_of_lt (by omega : 0 < 2), val_drop_of_lt hv (Nat.le_refl _),
      show (2:Nat) = 1 + 1 from rfl, a1, Nat.mul_zero, Nat.add_zero, pow_one, hrl, hr]

end ApInt

end Verif
