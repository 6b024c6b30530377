import Verif.Model.Mul
import Verif.Proof.Arith
import Mathlib.Tactic.LinearCombination
import Mathlib.Tactic.Linarith
import Mathlib.Data.Int.ModEq

/-! # Multiplication -/

namespace Verif

namespace ApInt

theorem rpositionNonzero_none {l : List Digit} (h : rpositionNonzero l = none) : val l = 0 := by
  induction l with
  | nil => rfl
  | cons d ds ih =>
    simp only [rpositionNonzero] at h
    split at h
    · simp at h
    · rename_i h2
      split at h
      · rename_i h3
        rw [val_cons, (Digit.isZero_iff d).mp h3, ih h2]; rfl
      · simp at h

theorem rpositionNonzero_some {l : List Digit} {s : Nat} (h : rpositionNonzero l = some s) :
    s < l.length ∧ B ^ s ≤ val l ∧ val l < B ^ (s + 1) := by
  induction l generalizing s with
  | nil => simp [rpositionNonzero] at h
  | cons d ds ih =>
    have hd := dlt d
    simp only [rpositionNonzero] at h
    split at h
    · rename_i i h2
      obtain ⟨h3, h4, h5⟩ := ih h2
      simp at h
      subst h
      refine ⟨by simpa using h3, ?_, ?_⟩
      · rw [val_cons, Nat.pow_succ]
        have := Nat.mul_le_mul_left B h4
        linarith
      · rw [val_cons, Nat.pow_succ B (i + 1)]
        have : B * (val ds + 1) ≤ B * B ^ (i + 1) := Nat.mul_le_mul_left B h5
        linarith
    · rename_i h2
      split at h
      · simp at h
      · rename_i h3
        simp at h
        subst h
        have h4 := rpositionNonzero_none h2
        rw [val_cons, h4]
        have : 0 < d.toNat := (Digit.isZero_false_iff d).mp (by simpa using h3)
        simp
        omega

/-- The digits of a number below `B ^ n` at index `n` and above are zero. -/
theorem getElem_zero_of_lt {l : List Digit} {n i : Nat} (hv : val l < B ^ n) (hi : i < l.length)
    (h : n ≤ i) : (l[i]).toNat = 0 := by
  rw [val_getElem hi, Nat.div_eq_of_lt (Nat.lt_of_lt_of_le hv (Nat.pow_le_pow_right B_pos h)),
    Nat.zero_mod]

theorem val_take_of_lt {l : List Digit} {n : Nat} (hv : val l < B ^ n) : val (l.take n) = val l := by
  rw [val_take, Nat.mod_eq_of_lt hv]

theorem val_drop_of_lt {l : List Digit} {n m : Nat} (hv : val l < B ^ n) (h : n ≤ m) :
    val (l.drop m) = 0 := by
  rw [val_drop, Nat.div_eq_of_lt (Nat.lt_of_lt_of_le hv (Nat.pow_le_pow_right B_pos h))]

theorem mulRow_ok (mult : Digit) (xs sum : List Digit) (carry : Digit) :
    (mulRow mult xs (sum, carry)).1.length = sum.length + xs.length ∧
    val (mulRow mult xs (sum, carry)).1
        + B ^ (sum.length + xs.length) * (mulRow mult xs (sum, carry)).2.toNat
      = val sum + B ^ sum.length * (mult.toNat * val xs + carry.toNat) := by
  induction xs generalizing sum carry with
  | nil => simp [mulRow, val_nil]
  | cons x xs ih =>
    obtain ⟨h1, h2⟩ := ih (sum ++ [(Digit.carryingMulAdd mult x carry).1])
      (Digit.carryingMulAdd mult x carry).2
    have h3 := Digit.carryingMulAdd_eq mult x carry
    simp only [mulRow]
    rw [List.length_append, List.length_singleton] at h1 h2
    rw [val_append, val_singleton, Nat.pow_succ] at h2
    rw [List.length_cons, val_cons, show sum.length + (xs.length + 1) = sum.length + 1 + xs.length by
      omega]
    refine ⟨h1, ?_⟩
    linear_combination h2 + B ^ sum.length * h3

/-- The first row of both long multiplications. -/
theorem firstRow_ok {mult : Digit} {rhs : List Digit} {n : Nat} (hn : 1 ≤ n) (h : n < rhs.length) :
    let t := Digit.carryingMul mult rhs[0]
    let s := mulRow mult ((rhs.take n).drop 1) ([t.1], t.2)
    s.1.length = n ∧
      val s.1 + B ^ n * s.2.toNat = mult.toNat * val (rhs.take n) := by
  intro t s
  have h1 := mulRow_ok mult ((rhs.take n).drop 1) [t.1] t.2
  have h2 : t.1.toNat + B * t.2.toNat = mult.toNat * (rhs[0]).toNat :=
    Digit.carryingMul_eq mult rhs[0]
  have hlen : [t.1].length + ((rhs.take n).drop 1).length = n := by simp; omega
  rw [hlen] at h1
  refine ⟨h1.1, ?_⟩
  have h3 := val_take_drop (rhs.take n) 1 (by simp; omega)
  rw [List.take_take, Nat.min_eq_left hn, val_take_succ (show 0 < rhs.length by omega)] at h3
  simp only [List.take_zero, val_nil, Nat.pow_zero, pow_one, Nat.one_mul, Nat.zero_add] at h3
  rw [h1.2, h3]
  simp only [val_singleton, List.length_singleton, pow_one]
  linear_combination h2

/-- The middle digits of one added row. -/
theorem mulAddLoop_ok {mult : Digit} {rhs : List Digit} {base lo hi L : Nat} {V : Nat}
    {s : List Digit × Digit × Digit} (hlo : lo ≤ hi) (hr : hi ≤ rhs.length) (hL : base + hi ≤ L)
    (hlen : s.1.length = L)
    (h0 : val s.1 + B ^ (base + lo) * (s.2.1.toNat + s.2.2.toNat)
      = V + B ^ base * (mult.toNat * val (rhs.take lo))) :
    ∃ s', forRange lo hi s (mulAddStep mult rhs base) = .ok s' ∧ s'.1.length = L ∧
      val s'.1 + B ^ (base + hi) * (s'.2.1.toNat + s'.2.2.toNat)
        = V + B ^ base * (mult.toNat * val (rhs.take hi)) := by
  refine forRange_spec (I := fun i (s : List Digit × Digit × Digit) => s.1.length = L ∧
    val s.1 + B ^ (base + i) * (s.2.1.toNat + s.2.2.toNat)
        = V + B ^ base * (mult.toNat * val (rhs.take i))) hlo ⟨hlen, h0⟩ ?_
  rintro i ⟨sum, mc, ac⟩ hi1 hi2 ⟨hl, hv⟩
  simp only at hl hv
  have hil : base + i < sum.length := by omega
  have hir : i < rhs.length := by omega
  simp only [mulAddStep, idx_ok hil, idx_ok hir, run_bind_ok, upd_ok hil]
  refine ⟨_, rfl, by simp [hl], ?_⟩
  simp only
  have h1 := Digit.carryingMulAdd_eq mult rhs[i] mc
  generalize Digit.carryingMulAdd mult rhs[i] mc = t at h1 ⊢
  have h2 := DDigit.lo_add_hi (DDigit.wrappingAdd
    (DDigit.wrappingAdd (Digit.dd sum[base + i]) (Digit.dd t.1)) (Digit.dd ac))
  rw [add3_toNat] at h2
  generalize DDigit.wrappingAdd
    (DDigit.wrappingAdd (Digit.dd sum[base + i]) (Digit.dd t.1)) (Digit.dd ac) = u at h2 ⊢
  have h3 := val_set hil (DDigit.lo u)
  rw [val_take_succ hir, ← Nat.add_assoc, Nat.pow_succ]
  rw [Nat.pow_add] at h3 hv ⊢
  linear_combination h3 + hv + B ^ base * B ^ i * h2 + B ^ base * B ^ i * h1

/-- The start of one added row. -/
theorem rowStart_ok {mult r0 : Digit} {sum : List Digit} {i : Nat} (h : i < sum.length) :
    let t := Digit.carryingMul mult r0
    let u := Digit.carryingAdd sum[i] t.1
    val (sum.set i u.1) + B ^ (i + 1) * (t.2.toNat + u.2.toNat)
      = val sum + B ^ i * (mult.toNat * r0.toNat) := by
  intro t u
  have h1 : t.1.toNat + B * t.2.toNat = mult.toNat * r0.toNat := Digit.carryingMul_eq mult r0
  have h2 : u.1.toNat + B * u.2.toNat = (sum[i]).toNat + t.1.toNat := Digit.carryingAdd_eq _ _
  have h3 := val_set h u.1
  rw [Nat.pow_succ]
  linear_combination h3 + B ^ i * h2 + B ^ i * h1

theorem val_take_one {l : List Digit} (h : 0 < l.length) : val (l.take 1) = (l[0]).toNat := by
  have := val_take_succ h
  simpa [val_nil] using this

theorem mulFullRow_ok {lhs rhs : List Digit} {rhsSig lhsI : Nat} {sum : List Digit}
    (h1 : 1 ≤ rhsSig) (h2 : rhsSig < rhs.length) (h3 : lhsI < lhs.length)
    (hs : sum.length = lhsI + rhsSig + 1) :
    ∃ sum', mulFullRow lhs rhs rhsSig lhsI sum = .ok sum' ∧ sum'.length = lhsI + 1 + rhsSig + 1 ∧
      val sum' = val sum + B ^ lhsI * ((lhs[lhsI]).toNat * val (rhs.take (rhsSig + 1))) := by
  have hr0 : 0 < rhs.length := by omega
  have hi : lhsI < sum.length := by omega
  have hstart := rowStart_ok (mult := lhs[lhsI]) (r0 := rhs[0]) hi
  simp only at hstart
  obtain ⟨s', e, hl, hv⟩ := mulAddLoop_ok (mult := lhs[lhsI]) (rhs := rhs) (base := lhsI) (lo := 1)
    (hi := rhsSig) (L := lhsI + rhsSig + 1) (V := val sum)
    (s := (sum.set lhsI (Digit.carryingAdd sum[lhsI] (Digit.carryingMul lhs[lhsI] rhs[0]).1).1,
      (Digit.carryingMul lhs[lhsI] rhs[0]).2,
      (Digit.carryingAdd sum[lhsI] (Digit.carryingMul lhs[lhsI] rhs[0]).1).2))
    h1 (by omega) (by omega) (by simp [hs]) (by
      rw [val_take_one hr0]; exact hstart)
  obtain ⟨sum1, mc, ac⟩ := s'
  simp only at hl hv
  have hil : lhsI + rhsSig < sum1.length := by omega
  simp only [mulFullRow, idx_ok h3, idx_ok hr0, idx_ok hi, run_bind_ok, upd_ok hi, e, idx_ok h2,
    idx_ok hil, upd_ok hil]
  refine ⟨_, rfl, by simp [hl]; omega, ?_⟩
  have e1 := Digit.carryingMulAdd_eq lhs[lhsI] rhs[rhsSig] mc
  generalize Digit.carryingMulAdd lhs[lhsI] rhs[rhsSig] mc = t at e1 ⊢
  have e2 := DDigit.lo_add_hi (DDigit.wrappingAdd
    (DDigit.wrappingAdd (Digit.dd sum1[lhsI + rhsSig]) (Digit.dd t.1)) (Digit.dd ac))
  rw [add3_toNat] at e2
  generalize DDigit.wrappingAdd
    (DDigit.wrappingAdd (Digit.dd sum1[lhsI + rhsSig]) (Digit.dd t.1)) (Digit.dd ac) = u at e2 ⊢
  have e3 := val_set hil (DDigit.lo u)
  have e4 := val_take_succ h2
  -- the exact value before the last push
  have e5 : val (sum1.set (lhsI + rhsSig) (DDigit.lo u))
      + B ^ (lhsI + rhsSig + 1) * ((DDigit.hi u).toNat + t.2.toNat)
      = val sum + B ^ lhsI * ((lhs[lhsI]).toNat * val (rhs.take (rhsSig + 1))) := by
    rw [e4, Nat.pow_succ]
    rw [Nat.pow_add] at e3 hv ⊢
    linear_combination e3 + hv + B ^ lhsI * B ^ rhsSig * e2 + B ^ lhsI * B ^ rhsSig * e1
  -- it is too small for the last push to wrap
  have hlt : (DDigit.hi u).toNat + t.2.toNat < B := by
    have b1 : val sum + 1 ≤ B ^ (lhsI + rhsSig + 1) := by
      have := val_lt sum
      rw [hs] at this
      exact this
    have b2 : val (rhs.take (rhsSig + 1)) ≤ B ^ (rhsSig + 1) :=
      Nat.le_of_lt (val_lt_of_le (by simp))
    have b3 : (lhs[lhsI]).toNat ≤ B - 1 := by have := dlt lhs[lhsI]; omega
    have b4 := Nat.mul_le_mul_left (B ^ lhsI) (Nat.mul_le_mul b3 b2)
    have b5 : B ^ lhsI * ((B - 1) * B ^ (rhsSig + 1)) = (B - 1) * B ^ (lhsI + rhsSig + 1) := by
      rw [Nat.add_assoc, Nat.pow_add B lhsI]; ring
    have b6 : B ^ (lhsI + rhsSig + 1) * ((DDigit.hi u).toNat + t.2.toNat)
        < B ^ (lhsI + rhsSig + 1) * B := by
      have b7 : (B - 1) * B ^ (lhsI + rhsSig + 1) + B ^ (lhsI + rhsSig + 1)
          = B ^ (lhsI + rhsSig + 1) * B := by
        have : B - 1 + 1 = B := by have := B_pos; omega
        calc _ = (B - 1 + 1) * B ^ (lhsI + rhsSig + 1) := by ring
          _ = _ := by rw [this]; ring
      omega
    exact Nat.lt_of_mul_lt_mul_left b6
  rw [val_append, val_singleton, List.length_set, hl, Digit.wrappingAdd_toNat,
    Nat.mod_eq_of_lt hlt]
  exact e5

theorem mulNonOverflow_ok {lhs rhs : List Digit} {lhsSig rhsSig : Nat} (hl : 1 ≤ lhsSig)
    (hr : 1 ≤ rhsSig) (hll : lhsSig < lhs.length) (hrl : rhsSig < rhs.length)
    (hlv : val lhs < B ^ (lhsSig + 1)) (hrv : val rhs < B ^ (rhsSig + 1)) :
    ∃ r, mulNonOverflow lhs rhs lhsSig rhsSig = .ok r ∧ r.length = lhs.length ∧
      val r = (val lhs * val rhs) % B ^ lhs.length := by
  have hl0 : 0 < lhs.length := by omega
  have hr0 : 0 < rhs.length := by omega
  obtain ⟨f1, f2⟩ := firstRow_ok (mult := lhs[0]) hr hrl
  have hrt := val_take_of_lt hrv
  simp only [mulNonOverflow, idx_ok hl0, idx_ok hr0, run_bind_ok, idx_ok hrl]
  generalize mulRow lhs[0] ((rhs.take rhsSig).drop 1)
    ([(Digit.carryingMul lhs[0] rhs[0]).1], (Digit.carryingMul lhs[0] rhs[0]).2) = s0 at f1 f2 ⊢
  obtain ⟨sum0, mc⟩ := s0
  simp only at f1 f2 ⊢
  have e1 := Digit.carryingMulAdd_eq lhs[0] rhs[rhsSig] mc
  generalize Digit.carryingMulAdd lhs[0] rhs[rhsSig] mc = t at e1 ⊢
  obtain ⟨sum1, es1, g1, g2⟩ := forRange_spec
    (I := fun i (sum : List Digit) => sum.length = i + rhsSig + 1 ∧
      val sum = val (lhs.take i) * val (rhs.take (rhsSig + 1)))
    (lo := 1) (hi := lhsSig) (s := sum0 ++ [t.1] ++ [t.2]) (body := mulFullRow lhs rhs rhsSig)
    hl ⟨by simp [f1]; omega, by
      rw [val_append, val_append, val_singleton, val_singleton, List.length_append, f1,
        List.length_singleton, val_take_one hl0, val_take_succ hrl, Nat.pow_succ]
      linear_combination f2 + B ^ rhsSig * e1⟩ (by
      rintro i sum hi1 hi2 ⟨q1, q2⟩
      obtain ⟨sum', e, p1, p2⟩ := mulFullRow_ok (lhs := lhs) (lhsI := i) hr hrl (by omega) q1
      refine ⟨sum', e, p1, ?_⟩
      rw [p2, q2, val_take_succ (show i < lhs.length by omega)]
      ring)
  obtain ⟨sum2, es2, g3, g4⟩ := mulFullRow_ok (lhs := lhs) (lhsI := lhsSig) hr hrl hll g1
  have g5 : val sum2 = val lhs * val rhs := by
    rw [g4, g2, hrt]
    have h1 := val_take_succ hll
    rw [val_take_of_lt hlv] at h1
    rw [h1]; ring
  simp only [es1, run_bind_ok, es2]
  by_cases hc : lhs.length < sum2.length
  · rw [if_pos hc, copyRange_ok (by omega) (by omega) (by omega) (by omega) (by omega)]
    refine ⟨_, rfl, by simp; omega, ?_⟩
    simp only [List.take_zero, List.nil_append, List.drop_zero, List.drop_length, List.append_nil]
    rw [val_take, g5]
  · rw [if_neg hc, copyRange_ok (by omega) (by omega) (by omega) (by omega) (by omega)]
    refine ⟨_, rfl, by simp; omega, ?_⟩
    simp only [List.take_zero, List.nil_append, List.drop_zero]
    rw [List.take_length, val_append, val_drop_of_lt hlv (by omega), Nat.mul_zero, Nat.add_zero,
      ← g5, Nat.mod_eq_of_lt (val_lt_of_le (by omega))]

/-! ## The wrapping branch -/

theorem modEq_of_int {a b n : Nat} (h : ∃ k : ℤ, (a : ℤ) = b + n * k) : a % n = b % n := by
  obtain ⟨k, hk⟩ := h
  have : (a : ℤ) ≡ b [ZMOD n] := by
    rw [hk]
    exact (Int.modEq_iff_dvd.mpr ⟨-k, by ring⟩)
  exact (Int.natCast_modEq_iff.mp this)

theorem mod_int (x : Nat) : ∃ k : ℤ, ((x % B : Nat) : ℤ) = x + B * k := by
  refine ⟨-(x / B : Nat), ?_⟩
  have := Nat.mod_add_div x B
  zify at this ⊢
  linear_combination this

theorem mulWrapRow_ok {lhs rhs : List Digit} {sig lhsI : Nat} {sum : List Digit}
    (h1 : 1 ≤ lhsI) (h2 : lhsI < sig) (hl : lhs.length = sig + 1) (hr : rhs.length = sig + 1)
    (hs : sum.length = sig + 1) :
    ∃ sum', mulWrapRow lhs rhs sig lhsI sum = .ok sum' ∧ sum'.length = sig + 1 ∧
      ∃ k : ℤ, (val sum' : ℤ)
        = val sum + B ^ lhsI * ((lhs.getD lhsI 0).toNat * val rhs) + B ^ (sig + 1) * k := by
  have hr0 : 0 < rhs.length := by omega
  have hi : lhsI < sum.length := by omega
  have hil : lhsI < lhs.length := by omega
  have hsg : sig < sum.length := by omega
  have hru : sig - lhsI < rhs.length := by omega
  have hstart := rowStart_ok (mult := lhs[lhsI]) (r0 := rhs[0]) hi
  simp only at hstart
  obtain ⟨s', e, hl', hv⟩ := mulAddLoop_ok (mult := lhs[lhsI]) (rhs := rhs) (base := lhsI) (lo := 1)
    (hi := sig - lhsI) (L := sig + 1) (V := val sum)
    (s := (sum.set lhsI (Digit.carryingAdd sum[lhsI] (Digit.carryingMul lhs[lhsI] rhs[0]).1).1,
      (Digit.carryingMul lhs[lhsI] rhs[0]).2,
      (Digit.carryingAdd sum[lhsI] (Digit.carryingMul lhs[lhsI] rhs[0]).1).2))
    (by omega) (by omega) (by omega) (by simp [hs]) (by
      rw [val_take_one hr0]; exact hstart)
  obtain ⟨sum1, mc, ac⟩ := s'
  simp only at hl' hv
  have hsg' : sig < sum1.length := by omega
  simp only [mulWrapRow, idx_ok hil, idx_ok hr0, idx_ok hi, run_bind_ok, upd_ok hi, e,
    csub_ok (Nat.le_of_lt h2), idx_ok hru, idx_ok hsg', upd_ok hsg']
  refine ⟨_, rfl, by simp [hl'], ?_⟩
  have e0 : ∃ k : ℤ, ((Digit.wrappingAdd (Digit.wrappingAdd
      (Digit.wrappingAdd (Digit.wrappingMul lhs[lhsI] rhs[sig - lhsI]) mc) sum1[sig]) ac).toNat : ℤ)
      = (lhs[lhsI]).toNat * (rhs[sig - lhsI]).toNat + mc.toNat + (sum1[sig]).toNat + ac.toNat
        + B * k := by
    have : (Digit.wrappingAdd (Digit.wrappingAdd
      (Digit.wrappingAdd (Digit.wrappingMul lhs[lhsI] rhs[sig - lhsI]) mc) sum1[sig]) ac).toNat
      = ((lhs[lhsI]).toNat * (rhs[sig - lhsI]).toNat + mc.toNat + (sum1[sig]).toNat + ac.toNat)
        % B := by
      simp [Digit.wrappingAdd, Digit.wrappingMul, B_eq, BitVec.toNat_add, BitVec.toNat_mul]
    rw [this]
    obtain ⟨k, hk⟩ := mod_int ((lhs[lhsI]).toNat * (rhs[sig - lhsI]).toNat + mc.toNat
      + (sum1[sig]).toNat + ac.toNat)
    exact ⟨k, by rw [hk]; push_cast; ring⟩
  obtain ⟨k, hk⟩ := e0
  generalize Digit.wrappingAdd (Digit.wrappingAdd
    (Digit.wrappingAdd (Digit.wrappingMul lhs[lhsI] rhs[sig - lhsI]) mc) sum1[sig]) ac = y at hk ⊢
  have e3 := val_set hsg' y
  have e4 := val_take_succ hru
  have e5 := val_take_drop rhs (sig - lhsI + 1) (by omega)
  have hp : B ^ sig = B ^ lhsI * B ^ (sig - lhsI) := by
    rw [← Nat.pow_add]; congr 1; omega
  have hp' : B ^ (lhsI + (sig - lhsI)) = B ^ lhsI * B ^ (sig - lhsI) := Nat.pow_add _ _ _
  rw [hp'] at hv
  rw [hp] at e3
  rw [Nat.pow_succ] at e5
  refine ⟨k - (lhs[lhsI]).toNat * val (rhs.drop (sig - lhsI + 1)), ?_⟩
  rw [show lhs.getD lhsI 0 = lhs[lhsI] from by simp [hil]]
  rw [pow_succ]
  zify at hp e3 e4 e5 hv ⊢
  rw [hp]
  rw [e5]
  rw [e4]
  linear_combination e3 + hv + (B:ℤ) ^ lhsI * B ^ (sig - lhsI) * hk

theorem mulWrapping_ok {lhs rhs : List Digit} (hl : 2 ≤ lhs.length)
    (hr : rhs.length = lhs.length) :
    ∃ r, mulWrapping lhs rhs = .ok r ∧ r.length = lhs.length ∧
      val r = (val lhs * val rhs) % B ^ lhs.length := by
  obtain ⟨sig, hsig⟩ : ∃ sig, lhs.length = sig + 1 := ⟨lhs.length - 1, by omega⟩
  rw [hsig] at hr
  have hl0 : 0 < lhs.length := by omega
  have hr0 : 0 < rhs.length := by omega
  have hrs : sig < rhs.length := by omega
  have hls : sig < lhs.length := by omega
  obtain ⟨f1, f2⟩ := firstRow_ok (mult := lhs[0]) (n := sig) (by omega) hrs
  simp only [mulWrapping, hsig, csub_ok (show 1 ≤ sig + 1 by omega), Nat.add_sub_cancel,
    idx_ok hl0, idx_ok hr0, run_bind_ok, idx_ok hrs]
  generalize mulRow lhs[0] ((rhs.take sig).drop 1)
    ([(Digit.carryingMul lhs[0] rhs[0]).1], (Digit.carryingMul lhs[0] rhs[0]).2) = s0 at f1 f2 ⊢
  obtain ⟨sum0, mc⟩ := s0
  simp only at f1 f2 ⊢
  obtain ⟨k0, hk0⟩ : ∃ k : ℤ, ((Digit.wrappingMulAdd lhs[0] rhs[sig] mc).toNat : ℤ)
      = (lhs[0]).toNat * (rhs[sig]).toNat + mc.toNat + B * k := by
    rw [Digit.wrappingMulAdd_toNat]
    obtain ⟨k, hk⟩ := mod_int ((lhs[0]).toNat * (rhs[sig]).toNat + mc.toNat)
    exact ⟨k, by rw [hk]; push_cast; ring⟩
  have hrv : val rhs = val (rhs.take sig) + B ^ sig * (rhs[sig]).toNat := by
    rw [← val_take_succ hrs, List.take_of_length_le (by omega)]
  obtain ⟨sum1, es1, g1, k1, g2⟩ := forRange_spec
    (I := fun i (sum : List Digit) => sum.length = sig + 1 ∧
      ∃ k : ℤ, (val sum : ℤ) = val (lhs.take i) * val rhs + B ^ (sig + 1) * k)
    (lo := 1) (hi := sig) (s := sum0 ++ [Digit.wrappingMulAdd lhs[0] rhs[sig] mc])
    (body := mulWrapRow lhs rhs sig)
    (by omega) ⟨by simp [f1], by
      refine ⟨k0, ?_⟩
      rw [val_append, val_singleton, f1, val_take_one hl0, hrv, pow_succ]
      zify at f2
      push_cast
      linear_combination f2 + (B : ℤ) ^ sig * hk0⟩ (by
      rintro i sum hi1 hi2 ⟨q1, k, q2⟩
      obtain ⟨sum', e, p1, k2, p2⟩ := mulWrapRow_ok (lhs := lhs) (rhs := rhs) hi1 hi2 hsig hr q1
      refine ⟨sum', e, p1, k + k2, ?_⟩
      rw [show lhs.getD i 0 = lhs[i] from by simp [show i < lhs.length by omega]] at p2
      rw [p2, q2, val_take_succ (show i < lhs.length by omega)]
      push_cast
      ring)
  rw [es1]
  simp only [run_bind_ok]
  rw [copyRange_ok (by omega) (by omega) (by omega) (by omega) (by omega)]
  simp only [run_bind_ok, List.take_zero, List.nil_append, List.drop_zero]
  have hlen : (sum1.take sig ++ lhs.drop sig).length = sig + 1 := by simp; omega
  have hi1 : sig < (sum1.take sig ++ lhs.drop sig).length := by omega
  have hi2 : sig < sum1.length := by omega
  simp only [idx_ok hi1, idx_ok hi2, run_bind_ok, upd_ok hi1]
  refine ⟨_, rfl, by simp; omega, ?_⟩
  have hget : (sum1.take sig ++ lhs.drop sig)[sig] = lhs[sig] := by
    rw [List.getElem_append_right (by simp)]
    simp [Nat.min_eq_left (show sig ≤ sum1.length by omega)]
  rw [hget]
  obtain ⟨k3, hk3⟩ : ∃ k : ℤ, ((Digit.wrappingMulAdd lhs[sig] rhs[0] sum1[sig]).toNat : ℤ)
      = (lhs[sig]).toNat * (rhs[0]).toNat + (sum1[sig]).toNat + B * k := by
    rw [Digit.wrappingMulAdd_toNat]
    obtain ⟨k, hk⟩ := mod_int ((lhs[sig]).toNat * (rhs[0]).toNat + (sum1[sig]).toNat)
    exact ⟨k, by rw [hk]; push_cast; ring⟩
  generalize Digit.wrappingMulAdd lhs[sig] rhs[0] sum1[sig] = y at hk3 ⊢
  have s1 := val_set hi1 y
  rw [hget] at s1
  have s2 := val_append (sum1.take sig) (lhs.drop sig)
  rw [List.length_take, Nat.min_eq_left (by omega), List.drop_eq_getElem_cons hls,
    List.drop_eq_nil_of_le (show lhs.length ≤ sig + 1 by omega), val_singleton] at s2
  rw [List.drop_eq_getElem_cons hls,
    List.drop_eq_nil_of_le (show lhs.length ≤ sig + 1 by omega)] at s1 ⊢
  have s3 : val sum1 = val (sum1.take sig) + B ^ sig * (sum1[sig]).toNat := by
    rw [← val_take_succ hi2, List.take_of_length_le (by omega)]
  have s4 : val lhs = val (lhs.take sig) + B ^ sig * (lhs[sig]).toNat := by
    rw [← val_take_succ hls, List.take_of_length_le (by omega)]
  have s5 := val_take_drop rhs 1 (by omega)
  rw [val_take_one hr0, pow_one] at s5
  have hlt : val ((sum1.take sig ++ [lhs[sig]]).set sig y) < B ^ (sig + 1) :=
    val_lt_of_le (by simp)
  rw [← Nat.mod_eq_of_lt hlt]
  apply modEq_of_int
  refine ⟨k1 + k3 - (lhs[sig]).toNat * val (rhs.drop 1), ?_⟩
  zify at s1 s2 s3 s4 s5 ⊢
  rw [pow_succ] at *
  linear_combination s1 + s2 - s3 + g2 + (B : ℤ) ^ sig * hk3 - val rhs * s4
    - (B : ℤ) ^ sig * (lhs[sig]).toNat * s5

/-! ## One short factor -/

theorem mulSmallLhs_ok {lhs rhs : List Digit} {rhsSig : Nat} (hr1 : 1 ≤ rhsSig)
    (hrl : rhsSig < rhs.length) (hlen : rhs.length = lhs.length)
    (hlv : val lhs < B) (hrv : val rhs < B ^ (rhsSig + 1)) :
    ∃ r, mulSmallLhs lhs rhs rhsSig = .ok r ∧ r.length = lhs.length ∧
      val r = (val lhs * val rhs) % B ^ lhs.length := by
  have hl0 : 0 < lhs.length := by omega
  have hr0 : 0 < rhs.length := by omega
  have hls : rhsSig < lhs.length := by omega
  have hm : val lhs = (lhs[0]).toNat := by
    rw [← val_take_one hl0, val_take_of_lt (by simpa using hlv)]
  have hrt := val_take_of_lt hrv
  have e0 := Digit.carryingMul_eq lhs[0] rhs[0]
  have s0 := val_set hl0 (Digit.carryingMul lhs[0] rhs[0]).1
  simp only [Nat.pow_zero, Nat.one_mul] at s0
  simp only [mulSmallLhs, idx_ok hl0, idx_ok hr0, run_bind_ok, upd_ok hl0]
  generalize Digit.carryingMul lhs[0] rhs[0] = t at e0 s0 ⊢
  obtain ⟨⟨l1, mc⟩, e1, p1, p2, p3⟩ := forRange_spec
    (I := fun i (s : List Digit × Digit) => s.1.length = lhs.length ∧ val s.1 < B ^ i ∧
      val s.1 + B ^ i * s.2.toNat = (lhs[0]).toNat * val (rhs.take i))
    (lo := 1) (hi := rhsSig) (s := (lhs.set 0 t.1, t.2))
    (body := fun rhsI (x : List Digit × Digit) => do
      let r ← idx rhs rhsI
      let l ← upd x.1 rhsI (Digit.carryingMulAdd lhs[0] r x.2).1
      .ok (l, (Digit.carryingMulAdd lhs[0] r x.2).2))
    hr1 ⟨by simp, by
      have := dlt t.1
      simp only [pow_one]
      omega, by
      simp only [pow_one]
      rw [val_take_one hr0]
      linear_combination s0 + e0 + hm⟩ (by
    rintro i ⟨l, c⟩ hi1 hi2 ⟨q1, q2, q3⟩
    simp only at q1 q2 q3
    have hil : i < l.length := by omega
    have hir : i < rhs.length := by omega
    simp only [idx_ok hir, run_bind_ok, upd_ok hil]
    refine ⟨_, rfl, by simp [q1], ?_⟩
    have h1 := Digit.carryingMulAdd_eq lhs[0] rhs[i] c
    generalize Digit.carryingMulAdd lhs[0] rhs[i] c = u at h1 ⊢
    have h2 := val_set hil u.1
    rw [getElem_zero_of_lt q2 hil (Nat.le_refl _), Nat.mul_zero, Nat.add_zero] at h2
    simp only
    refine ⟨?_, ?_⟩
    · rw [h2, Nat.pow_succ]
      have h3 : B ^ i * (u.1.toNat + 1) ≤ B ^ i * B := Nat.mul_le_mul_left _ (dlt _)
      linarith
    · rw [h2, val_take_succ hir, Nat.pow_succ]
      linear_combination q3 + B ^ i * h1)
  simp only at p1 p2 p3
  rw [e1]
  simp only [run_bind_ok, p1, csub_ok (show 1 ≤ lhs.length by omega)]
  have hil : rhsSig < l1.length := by omega
  have hz := getElem_zero_of_lt p2 hil (Nat.le_refl _)
  by_cases hc : rhsSig = lhs.length - 1
  · rw [if_pos hc]
    simp only [idx_ok hrl, run_bind_ok, upd_ok hil]
    refine ⟨_, rfl, by simp [p1], ?_⟩
    have h2 := val_set hil (Digit.wrappingMulAdd lhs[0] rhs[rhsSig] mc)
    rw [hz, Nat.mul_zero, Nat.add_zero, Digit.wrappingMulAdd_toNat] at h2
    have hlt : val (l1.set rhsSig (Digit.wrappingMulAdd lhs[0] rhs[rhsSig] mc)) < B ^ lhs.length :=
      val_lt_of_le (by simp [p1])
    rw [← Nat.mod_eq_of_lt hlt, h2, show lhs.length = rhsSig + 1 by omega]
    apply modEq_of_int
    obtain ⟨k, hk⟩ := mod_int ((lhs[0]).toNat * (rhs[rhsSig]).toNat + mc.toNat)
    refine ⟨k, ?_⟩
    have h4 := val_take_succ hrl
    rw [hrt] at h4
    push_cast at hk ⊢
    rw [hk, hm, h4]
    zify at p3
    push_cast
    rw [pow_succ]
    linear_combination p3
  · rw [if_neg hc]
    have h1 := Digit.carryingMulAdd_eq lhs[0] rhs[rhsSig] mc
    simp only [idx_ok hrl, run_bind_ok, upd_ok hil]
    generalize Digit.carryingMulAdd lhs[0] rhs[rhsSig] mc = u at h1 ⊢
    have h2 := val_set hil u.1
    rw [hz, Nat.mul_zero, Nat.add_zero] at h2
    have hil2 : rhsSig + 1 < (l1.set rhsSig u.1).length := by simp; omega
    rw [upd_ok hil2]
    refine ⟨_, rfl, by simp [p1], ?_⟩
    have hlt1 : val (l1.set rhsSig u.1) < B ^ (rhsSig + 1) := by
      rw [h2, Nat.pow_succ]
      have h3 : B ^ rhsSig * (u.1.toNat + 1) ≤ B ^ rhsSig * B := Nat.mul_le_mul_left _ (dlt _)
      linarith
    have h5 := val_set hil2 u.2
    rw [getElem_zero_of_lt hlt1 hil2 (Nat.le_refl _), Nat.mul_zero, Nat.add_zero] at h5
    have hlt : val ((l1.set rhsSig u.1).set (rhsSig + 1) u.2) < B ^ lhs.length :=
      val_lt_of_le (by simp [p1])
    rw [← Nat.mod_eq_of_lt hlt]
    congr 1
    rw [h5, h2, hm]
    have h4 := val_take_succ hrl
    rw [hrt] at h4
    rw [h4, Nat.pow_succ]
    linear_combination p3 + B ^ rhsSig * h1

theorem getElem_of_drop {l m : List Digit} {i j : Nat} (h : l.drop j = m.drop j) (hj : j ≤ i)
    (hl : i < l.length) (hm : i < m.length) : l[i] = m[i] := by
  have h1 : (l.drop j)[i - j]? = (m.drop j)[i - j]? := by rw [h]
  rw [List.getElem?_drop, List.getElem?_drop, show j + (i - j) = i by omega] at h1
  simpa [hl, hm] using h1

theorem mulSmallRhs_ok {lhs rhs : List Digit} {lhsSig : Nat} (hl1 : 1 ≤ lhsSig)
    (hll : lhsSig < lhs.length) (hlen : rhs.length = lhs.length)
    (hrv : val rhs < B) (hlv : val lhs < B ^ (lhsSig + 1)) :
    ∃ r, mulSmallRhs lhs rhs lhsSig = .ok r ∧ r.length = lhs.length ∧
      val r = (val lhs * val rhs) % B ^ lhs.length := by
  have hl0 : 0 < lhs.length := by omega
  have hr0 : 0 < rhs.length := by omega
  have hm : val rhs = (rhs[0]).toNat := by
    rw [← val_take_one hr0, val_take_of_lt (by simpa using hrv)]
  have hlt := val_take_of_lt hlv
  have e0 := Digit.carryingMul_eq rhs[0] lhs[0]
  simp only [mulSmallRhs, idx_ok hl0, idx_ok hr0, run_bind_ok, upd_ok hl0]
  generalize Digit.carryingMul rhs[0] lhs[0] = t at e0 ⊢
  have key : ∃ s', mulSmallRhsLoop rhs[0] lhsSig (lhs.set 0 t.1, t.2) = .ok s' ∧
      s'.1.length = lhs.length ∧ s'.1.drop lhsSig = lhs.drop lhsSig ∧
      val (s'.1.take lhsSig) + B ^ lhsSig * s'.2.toNat = (rhs[0]).toNat * val (lhs.take lhsSig) := by
    refine forRange_spec
      (I := fun i (s : List Digit × Digit) => s.1.length = lhs.length ∧ s.1.drop i = lhs.drop i ∧
        val (s.1.take i) + B ^ i * s.2.toNat = (rhs[0]).toNat * val (lhs.take i))
      hl1 ⟨by simp, by simp [List.drop_set], by
        have : 0 < (lhs.set 0 t.1).length := by simpa using hl0
        simp only [pow_one]
        rw [val_take_one hl0, val_take_one this]
        simpa using e0⟩ ?_
    rintro i ⟨l, c⟩ hi1 hi2 ⟨q1, q2, q3⟩
    simp only at q1 q2 q3
    have hil : i < l.length := by omega
    have hill : i < lhs.length := by omega
    simp only [idx_ok hil, run_bind_ok, upd_ok hil]
    have hget := getElem_of_drop q2 (Nat.le_refl _) hil hill
    refine ⟨_, rfl, by simp [q1], ?_, ?_⟩
    · simp only
      rw [List.drop_set, if_pos (by omega), ← List.drop_drop, ← List.drop_drop, q2]
    · have h1 := Digit.carryingMulAdd_eq rhs[0] l[i] c
      generalize Digit.carryingMulAdd rhs[0] l[i] c = u at h1 ⊢
      simp only
      have hil' : i < (l.set i u.1).length := by simpa using hil
      rw [val_take_succ hil', val_take_succ hill, List.take_set_of_le (Nat.le_refl _),
        List.getElem_set_self, Nat.pow_succ]
      rw [hget] at h1
      linear_combination q3 + B ^ i * h1
  obtain ⟨⟨l1, mc⟩, e1, p1, p2, p3⟩ := key
  simp only at p1 p2 p3
  rw [e1]
  simp only [run_bind_ok, p1, csub_ok (show 1 ≤ lhs.length by omega)]
  have hil : lhsSig < l1.length := by omega
  have hget := getElem_of_drop p2 (Nat.le_refl _) hil hll
  have h4 := val_take_succ hll
  rw [hlt] at h4
  by_cases hc : lhsSig = lhs.length - 1
  · rw [if_pos hc]
    simp only [idx_ok hil, run_bind_ok, upd_ok hil]
    refine ⟨_, rfl, by simp [p1], ?_⟩
    obtain ⟨k, hk⟩ := mod_int ((rhs[0]).toNat * (l1[lhsSig]).toNat + mc.toNat)
    rw [← Digit.wrappingMulAdd_toNat] at hk
    generalize Digit.wrappingMulAdd rhs[0] l1[lhsSig] mc = y at hk ⊢
    have hlt : val (l1.set lhsSig y) < B ^ lhs.length := val_lt_of_le (by simp [p1])
    rw [← Nat.mod_eq_of_lt hlt, show lhs.length = lhsSig + 1 by omega]
    apply modEq_of_int
    refine ⟨k, ?_⟩
    have hil' : lhsSig < (l1.set lhsSig y).length := by simpa using hil
    have h5 := val_take_succ hil'
    rw [List.take_set_of_le (Nat.le_refl _), List.getElem_set_self,
      List.take_of_length_le (by simp; omega)] at h5
    rw [hget] at hk
    rw [h5, h4, hm, pow_succ]
    zify at p3
    push_cast at hk ⊢
    linear_combination p3 + (B : ℤ) ^ lhsSig * hk
  · rw [if_neg hc]
    have h1 := Digit.carryingMulAdd_eq rhs[0] l1[lhsSig] mc
    simp only [idx_ok hil, run_bind_ok, upd_ok hil]
    generalize Digit.carryingMulAdd rhs[0] l1[lhsSig] mc = u at h1 ⊢
    have hil2 : lhsSig + 1 < (l1.set lhsSig u.1).length := by simp; omega
    rw [upd_ok hil2]
    refine ⟨_, rfl, by simp [p1], ?_⟩
    have hlt : val ((l1.set lhsSig u.1).set (lhsSig + 1) u.2) < B ^ lhs.length :=
      val_lt_of_le (by simp [p1])
    rw [← Nat.mod_eq_of_lt hlt]
    congr 1
    have h5 := val_set hil2 u.2
    have hz : ((l1.set lhsSig u.1)[lhsSig + 1]).toNat = 0 := by
      rw [List.getElem_set_ne (by omega),
        getElem_of_drop p2 (show lhsSig ≤ lhsSig + 1 by omega) (by omega) (by omega)]
      exact getElem_zero_of_lt hlv (by omega) (Nat.le_refl _)
    rw [hz, Nat.mul_zero, Nat.add_zero] at h5
    have hil' : lhsSig + 1 ≤ (l1.set lhsSig u.1).length := by omega
    have h6 := val_take_drop (l1.set lhsSig u.1) (lhsSig + 1) hil'
    rw [List.drop_set, if_pos (by omega), ← List.drop_drop, p2, List.drop_drop,
      val_drop_of_lt hlv (by omega), Nat.mul_zero, Nat.add_zero,
      val_take_succ (by omega), List.take_set_of_le (Nat.le_refl _), List.getElem_set_self] at h6
    rw [h5, h6, h4, hm, Nat.pow_succ]
    rw [hget] at h1
    linear_combination p3 + B ^ lhsSig * h1

/-! ## All cases together -/

theorem mulCases_ok {lhs rhs : List Digit} {ls rs : Nat} (hl : 2 ≤ lhs.length)
    (hr : rhs.length = lhs.length) (l1 : ls < lhs.length) (r1 : rs < rhs.length)
    (l3 : val lhs < B ^ (ls + 1)) (r3 : val rhs < B ^ (rs + 1)) :
    ∃ r, mulCases lhs rhs ls rs = .ok r ∧ r.length = lhs.length ∧
      val r = (val lhs * val rhs) % B ^ lhs.length := by
  unfold mulCases
  by_cases hl0 : ls = 0 <;> by_cases hr0 : rs = 0
  · subst hl0 hr0
    have h0 : 0 < lhs.length := by omega
    have h0' : 0 < rhs.length := by omega
    have e0 := Digit.carryingMul_eq lhs[0] rhs[0]
    have hlm : val lhs = (lhs[0]).toNat := by rw [← val_take_one h0, val_take_of_lt l3]
    have hrm : val rhs = (rhs[0]).toNat := by rw [← val_take_one h0', val_take_of_lt r3]
    simp only [BEq.rfl]
    simp only [idx_ok h0, idx_ok h0', run_bind_ok, upd_ok h0]
    generalize Digit.carryingMul lhs[0] rhs[0] = t at e0 ⊢
    have h1 : 1 < (lhs.set 0 t.1).length := by simp; omega
    rw [upd_ok h1]
    refine ⟨_, rfl, by simp, ?_⟩
    have s0 := val_set h0 t.1
    have s1 := val_set h1 t.2
    have hz1 : ((lhs.set 0 t.1)[1]).toNat = 0 := by
      rw [List.getElem_set_ne (by omega)]
      exact getElem_zero_of_lt l3 (by omega) (by omega)
    rw [hz1, Nat.mul_zero, Nat.add_zero, pow_one] at s1
    simp only [Nat.pow_zero, Nat.one_mul] at s0
    have hlt : val ((lhs.set 0 t.1).set 1 t.2) < B ^ lhs.length := val_lt_of_le (by simp)
    rw [← Nat.mod_eq_of_lt hlt]
    congr 1
    rw [s1]
    rw [hlm] at s0 ⊢
    rw [hrm, ← e0]
    omega
  · subst hl0
    rw [show (rs == 0) = false from by simpa using hr0]
    simp only [BEq.rfl]
    exact (mulSmallLhs_ok (by omega) r1 hr (by simpa using l3) r3)
  · subst hr0
    rw [show (ls == 0) = false from by simpa using hl0]
    simp only [BEq.rfl]
    exact (mulSmallRhs_ok (by omega) l1 hr (by simpa using r3) l3)
  · rw [show (ls == 0) = false from by simpa using hl0,
      show (rs == 0) = false from by simpa using hr0]
    simp only
    have sb : ∀ (l : List Digit) (s : Nat), s < l.length → ∃ n, sigBits l s = .ok n := by
      intro l s hs
      have : Digit.leadingZeros l[s] ≤ 64 := by
        unfold Digit.leadingZeros leadingZeros64
        split <;> omega
      exact ⟨_, by simp [sigBits, idx_ok hs, csub_ok this]; rfl⟩
    obtain ⟨n1, hn1⟩ := sb lhs ls l1
    obtain ⟨n2, hn2⟩ := sb rhs rs r1
    simp only [hn1, hn2, run_bind_ok]
    split
    · exact mulNonOverflow_ok (by omega) (by omega) l1 r1 l3 r3
    · exact mulWrapping_ok hl hr

theorem mulDigits_ok {lhs rhs : List Digit} (hl : 2 ≤ lhs.length) (hr : rhs.length = lhs.length) :
    ∃ r early, mulDigits lhs rhs = .ok (r, early) ∧ r.length = lhs.length ∧
      val r = (val lhs * val rhs) % B ^ lhs.length ∧ (early = true → val r = 0) := by
  have hz : val (lhs.map Digit.unsetAll) = 0 := by
    rw [val_eq_zero_iff]
    simp [Digit.unsetAll, Digit.ZERO]
  unfold mulDigits
  cases hrs : rpositionNonzero rhs with
  | none =>
    refine ⟨_, _, rfl, by simp, ?_, fun _ => hz⟩
    rw [hz, rpositionNonzero_none hrs]; simp
  | some rs =>
    cases hls : rpositionNonzero lhs with
    | none =>
      refine ⟨_, _, rfl, by simp, ?_, fun _ => hz⟩
      rw [hz, rpositionNonzero_none hls]; simp
    | some ls =>
      obtain ⟨r1, r2, r3⟩ := rpositionNonzero_some hrs
      obtain ⟨l1, l2, l3⟩ := rpositionNonzero_some hls
      obtain ⟨r, e, h1, h2⟩ := mulCases_ok hl hr l1 r1 l3 r3
      exact ⟨r, false, by simp [e], h1, h2, by simp⟩

theorem wrappingMulAssign_ok {a b : ApInt} (ha : a.Shape) (hb : b.Shape) (h : a.len = b.len) :
    Updates (a.wrappingMulAssign b) a.len ((a.uval * b.uval) % 2 ^ a.w) := by
  unfold wrappingMulAssign
  rcases zipAccessData_ok ha hb h with ⟨x, y, ex, ey, h1, e⟩ | ⟨xs, ys, ex, ey, h1, h2, h3, e⟩
  · obtain ⟨c, e2, h4, h5, h6⟩ := clear_inl h1 (Digit.wrappingMul x y)
    refine ⟨c, by simp [e, e2], h4, h5, ?_⟩
    rw [h6, Digit.wrappingMul, BitVec.toNat_mul, ← B_eq, mod_B_mod h1]
    simp [uval, digits, ex, ey]
  · obtain ⟨r, early, er, hr1, hr2, hr3⟩ := mulDigits_ok (lhs := xs) (rhs := ys)
      (by omega) (by rw [h2, h3])
    have hu : a.uval = val xs := by simp [uval, digits, ex]
    have hu' : b.uval = val ys := by simp [uval, digits, ey]
    have hval : val r % 2 ^ a.w = a.uval * b.uval % 2 ^ a.w := by
      rw [hr2, mod_Bn_mod (by omega), hu, hu']
    cases early with
    | false =>
      obtain ⟨c, e2, h4, h5, h6⟩ := clear_ext h1 (ds := r) (by rw [hr1, h2])
      exact ⟨c, by simp [e, er, e2], h4, h5, by rw [h6, hval]⟩
    | true =>
      have hr0 := hr3 rfl
      have hu0 : ({ a with data := .ext r } : ApInt).uval = 0 := hr0
      refine ⟨{ a with data := .ext r }, by simp [e, er], ⟨⟨h1, by rw [hr1, h2]⟩, ?_⟩, rfl, ?_⟩
      · rw [hu0]; exact Nat.pow_pos (by decide)
      · rw [hu0, ← hval, hr0, Nat.zero_mod]

theorem wrappingMulAssign_err {a b : ApInt} (h : a.len ≠ b.len) :
    a.wrappingMulAssign b = .ok (.error (.unmatchingBitwidth a.len b.len), a) := by
  simp [wrappingMulAssign, zipAccessData_err h]

end ApInt

end Verif
