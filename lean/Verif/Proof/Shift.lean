import Verif.Model.Shift
import Verif.Proof.Relational

/-! # Shifts -/

namespace Verif

/-- Disjoint `or` is addition. -/
theorem or_eq_add {a b n : Nat} (ha : 2 ^ n ∣ a) (hb : b < 2 ^ n) : a ||| b = a + b := by
  obtain ⟨k, rfl⟩ := ha
  exact (Nat.two_pow_add_eq_or_of_lt hb k).symm

theorem B_split {n : Nat} (h : n ≤ 64) : B = 2 ^ n * 2 ^ (64 - n) := by
  rw [B_eq, ← Nat.pow_add]; congr 1; omega

/-- A left shift of a digit with the bits shifted out. -/
theorem digit_shl_split (d : Digit) {n : Nat} (h : n ≤ 64) :
    (d <<< n).toNat = 2 ^ n * (d.toNat % 2 ^ (64 - n)) := by
  rw [BitVec.toNat_shiftLeft, Nat.shiftLeft_eq, Nat.mul_comm,
    show (2:Nat) ^ 64 = 2 ^ n * 2 ^ (64 - n) from B_split h, Nat.mul_mod_mul_left]

theorem digit_shr (d : Digit) (n : Nat) : (d >>> n).toNat = d.toNat / 2 ^ n := by
  rw [BitVec.toNat_ushiftRight, Nat.shiftRight_eq_div_pow]

theorem ashr_arith {q p r m : Nat} (h : r ≤ p) :
    q + (p * m + p - r) = (q + p - r) + p * m := by
  generalize p * m = t
  omega

namespace ApInt

/-! ## Left shift -/

theorem shlLoop_ok {bs : Nat} (h0 : 0 < bs) (h1 : bs < 64) : ∀ (xs : List Digit) (carry : Digit),
    carry.toNat < 2 ^ bs → ∃ ys c, shlLoop bs xs carry = .ok ys ∧ ys.length = xs.length ∧
      val ys + B ^ xs.length * c = 2 ^ bs * val xs + carry.toNat := by
  intro xs
  induction xs with
  | nil => intro carry _; exact ⟨[], carry.toNat, rfl, rfl, by simp [val_nil]⟩
  | cons x xs ih =>
    intro carry hc
    have hB := B_split (n := bs) (by omega)
    have hx := dlt x
    have e1 := digit_shl_split x (n := bs) (by omega)
    have e2 := digit_shr x (64 - bs)
    obtain ⟨ys, c, e, hl, hv⟩ := ih (x >>> (64 - bs)) (by
      rw [e2, Nat.div_lt_iff_lt_mul (two_pow_w_pos _), ← hB]; exact hx)
    refine ⟨(x <<< bs ||| carry) :: ys, c, ?_, by simp [hl], ?_⟩
    · simp only [shlLoop, csub_ok (show bs ≤ 64 by omega), run_bind_ok,
        rawShr_ok _ (show 64 - bs < 64 by omega), rawShl_ok _ h1, e]
    · rw [val_cons, val_cons, BitVec.toNat_or, e1, or_eq_add (Dvd.intro _ rfl) hc,
        List.length_cons, Nat.pow_succ]
      rw [e2] at hv
      have hm := Nat.mod_add_div x.toNat (2 ^ (64 - bs))
      have hh : 2 ^ bs * (x.toNat % 2 ^ (64 - bs)) + B * (x.toNat / 2 ^ (64 - bs))
          = 2 ^ bs * x.toNat := by
        rw [hB, Nat.mul_assoc, ← Nat.mul_add, hm]
      linear_combination B * hv + hh

theorem shlDigits_ok {xs : List Digit} {s : Nat} (h : s < 64 * xs.length) :
    ∃ ys, shlDigits xs s = .ok ys ∧ ys.length = xs.length ∧
      val ys = (2 ^ s * val xs) % B ^ xs.length := by
  have hds : s / 64 ≤ xs.length := by omega
  obtain ⟨zs, e, hl, hv⟩ : ∃ zs, shlDigits xs s = (if s % 64 ≠ 0 then
        if zs.length < s / 64 then .error .panic
        else do
          let hi ← shlLoop (s % 64) (zs.drop (s / 64)) 0#64
          .ok (zs.take (s / 64) ++ hi)
      else .ok zs) ∧ zs.length = xs.length ∧
      zs = List.replicate (s / 64) Digit.ZERO ++ xs.take (xs.length - s / 64) := by
    unfold shlDigits digitSteps bitSteps
    by_cases h0 : s / 64 = 0
    · exact ⟨xs, by simp [h0], rfl, by simp [h0]⟩
    · refine ⟨_, by simp only [ne_eq, h0, not_false_eq_true, if_true, csub_ok hds, run_bind_ok],
        ?_, rfl⟩
      simp only [List.length_append, List.length_replicate, List.length_take]
      omega
  have hsplit : (2:Nat) ^ s = B ^ (s / 64) * 2 ^ (s % 64) := by
    rw [B_pow, ← Nat.pow_add]; congr 1; omega
  have hBs : B ^ xs.length = B ^ (s / 64) * B ^ (xs.length - s / 64) := by
    rw [← Nat.pow_add]; congr 1; omega
  have hz : val (zs.take (s / 64)) = 0 ∧ zs.drop (s / 64) = xs.take (xs.length - s / 64) := by
    constructor
    · rw [hv, List.take_append_of_le_length (by simp)]
      simp only [List.take_replicate, Nat.min_self]
      exact val_replicate_zero _
    · rw [hv, List.drop_append_of_le_length (by simp)]
      simp
  have htl : (zs.take (s / 64)).length = s / 64 := by rw [List.length_take]; omega
  have hxt : (xs.take (xs.length - s / 64)).length = xs.length - s / 64 := by
    rw [List.length_take]; omega
  by_cases hb : s % 64 = 0
  · refine ⟨zs, ?_, hl, ?_⟩
    · rw [e, hb]; rfl
    · have : val zs = val (zs.take (s / 64)) + B ^ (s / 64) * val (zs.drop (s / 64)) := by
        conv_lhs => rw [← List.take_append_drop (s / 64) zs]
        rw [val_append, htl]
      rw [this, hz.1, hz.2, val_take, hsplit, hb, Nat.pow_zero, Nat.mul_one, Nat.zero_add, hBs,
        Nat.mul_mod_mul_left]
  · obtain ⟨ys, c, e2, hl2, hv2⟩ := shlLoop_ok (bs := s % 64) (by omega) (by omega)
      (zs.drop (s / 64)) 0#64 (two_pow_w_pos _)
    refine ⟨zs.take (s / 64) ++ ys, ?_, ?_, ?_⟩
    · rw [e, if_pos hb, if_neg (by omega), e2]; rfl
    · rw [List.length_append, htl, hl2, List.length_drop]; omega
    · rw [hz.2, hxt, val_take] at hv2
      rw [val_append, hz.1, htl, Nat.zero_add, hsplit, hBs, Nat.mul_assoc, Nat.mul_mod_mul_left]
      congr 1
      have hlt := val_lt ys
      rw [hl2, hz.2, hxt] at hlt
      have h0 : (0#64).toNat = 0 := rfl
      rw [h0, Nat.add_zero] at hv2
      rw [← Nat.mod_eq_of_lt hlt, ← Nat.add_mul_mod_self_left (val ys) _ c, hv2, Nat.mul_mod_mod]

theorem wrappingShlAssign_ok {a : ApInt} (h : a.Shape) {s : Nat} (hs : s < a.w) :
    Updates (a.wrappingShlAssign s) a.len ((a.uval * 2 ^ s) % 2 ^ a.w) := by
  unfold wrappingShlAssign
  have hv : verifyShiftAmount a.width s = .ok () := verifyShiftAmount_ok hs
  rw [hv, accessData_ok h]
  rcases h.cases with ⟨d, e, h1, h2⟩ | ⟨ds, e, h1, h2, h3⟩
  · obtain ⟨c, e2, h4, h5, h6⟩ := clear_inl h1 (d <<< s)
    refine ⟨c, ?_, h4, h5, ?_⟩
    · simp only [run_bind_ok, e, rawShl_ok d (show s < 64 by omega), e2]
    · rw [h6, BitVec.toNat_shiftLeft, Nat.shiftLeft_eq, ← B_eq, mod_B_mod h1]
      simp [uval, h2]
  · obtain ⟨ys, e3, hl, hv⟩ := shlDigits_ok (xs := ds) (s := s) (by omega)
    obtain ⟨c, e2, h4, h5, h6⟩ := clear_ext h1 (ds := ys) (by rw [hl, h2])
    refine ⟨c, ?_, h4, h5, ?_⟩
    · simp only [run_bind_ok, e, e3, e2]
    · rw [h6, hv, mod_Bn_mod (by omega), Nat.mul_comm]
      simp [uval, h3]

theorem wrappingShlAssign_err {a : ApInt} {s : Nat} (hs : a.w ≤ s) :
    a.wrappingShlAssign s = .ok (.error (.invalidShiftAmount s a.len), a) := by
  have hv : verifyShiftAmount a.width s = .error (.invalidShiftAmount s a.len) :=
    verifyShiftAmount_err hs
  simp [wrappingShlAssign, hv]

/-! ## Logical right shift -/

theorem lshrLoop_ok {bs : Nat} (h0 : 0 < bs) (h1 : bs < 64) : ∀ (ts : List Digit) (borrow : Digit)
    (x : Nat), x < 2 ^ bs → borrow.toNat = 2 ^ (64 - bs) * x →
    ∃ rs, lshrLoop bs ts borrow = .ok rs ∧ rs.length = ts.length ∧
      val rs.reverse = (val ts.reverse + B ^ ts.length * x) / 2 ^ bs := by
  intro ts
  induction ts with
  | nil =>
    intro borrow x hx _
    refine ⟨[], rfl, rfl, ?_⟩
    simp [val_nil, Nat.div_eq_of_lt hx]
  | cons r ts ih =>
    intro borrow x hx hb
    have hB := B_split (n := bs) (by omega)
    have hB' := B_split (n := 64 - bs) (by omega)
    rw [show 64 - (64 - bs) = bs by omega] at hB'
    have e1 := digit_shl_split r (n := 64 - bs) (by omega)
    rw [show 64 - (64 - bs) = bs by omega] at e1
    have e2 := digit_shr r bs
    have hr := dlt r
    obtain ⟨rs, e, hl, hv⟩ := ih (r <<< (64 - bs)) (r.toNat % 2 ^ bs)
      (Nat.mod_lt _ (two_pow_w_pos _)) e1
    refine ⟨(r >>> bs ||| borrow) :: rs, ?_, by simp [hl], ?_⟩
    · simp only [lshrLoop, csub_ok (show bs ≤ 64 by omega), run_bind_ok,
        rawShl_ok _ (show 64 - bs < 64 by omega), rawShr_ok _ h1, e]
    · have hlt : r.toNat / 2 ^ bs < 2 ^ (64 - bs) := by
        rw [Nat.div_lt_iff_lt_mul (two_pow_w_pos _), ← hB']; exact hr
      have hor : (r >>> bs ||| borrow).toNat = r.toNat / 2 ^ bs + 2 ^ (64 - bs) * x := by
        rw [BitVec.toNat_or, e2, hb, Nat.or_comm, or_eq_add (Dvd.intro _ rfl) hlt, Nat.add_comm]
      rw [List.reverse_cons, List.reverse_cons, val_append, val_append, val_singleton,
        val_singleton, hor, hv, List.length_reverse, List.length_reverse, hl, List.length_cons,
        Nat.pow_succ]
      have hm := Nat.mod_add_div r.toNat (2 ^ bs)
      have key : val ts.reverse + B ^ ts.length * r.toNat + B ^ ts.length * B * x
          = val ts.reverse + B ^ ts.length * (r.toNat % 2 ^ bs)
            + 2 ^ bs * (B ^ ts.length * (r.toNat / 2 ^ bs + 2 ^ (64 - bs) * x)) := by
        rw [hB]
        generalize r.toNat / 2 ^ bs = q at *
        generalize r.toNat % 2 ^ bs = m at *
        rw [← hm]
        ring
      rw [key, Nat.add_mul_div_left _ _ (two_pow_w_pos _)]

theorem lshrDigits_ok {xs : List Digit} {s : Nat} (h : s < 64 * xs.length) :
    ∃ ys, lshrDigits xs s = .ok ys ∧ ys.length = xs.length ∧ val ys = val xs / 2 ^ s := by
  have hds : s / 64 ≤ xs.length := by omega
  obtain ⟨zs, e, hl, hv⟩ : ∃ zs, lshrDigits xs s = (if s % 64 > 0 then do
        let r ← lshrLoop (s % 64) zs.reverse 0#64
        .ok r.reverse
      else .ok zs) ∧ zs.length = xs.length ∧ val zs = val xs / B ^ (s / 64) := by
    unfold lshrDigits
    unfold digitSteps bitSteps
    by_cases h0 : s / 64 = 0
    · exact ⟨xs, by simp [h0], rfl, by simp [h0]⟩
    · have hrot : (xs.drop (s / 64) ++ xs.take (s / 64)).length = xs.length := by
        simp only [List.length_append, List.length_take, List.length_drop]; omega
      have htk : (xs.drop (s / 64) ++ xs.take (s / 64)).take (xs.length - s / 64)
          = xs.drop (s / 64) := by
        rw [List.take_append_of_le_length (by simp), List.take_of_length_le (by simp)]
      refine ⟨_, by simp only [ne_eq, h0, not_false_eq_true, if_true,
        show ¬ (xs.length < s / 64) by omega, if_false, run_bind_ok]; rfl, ?_, ?_⟩
      · simp only [List.length_append, List.length_replicate, List.length_take, List.length_drop]
        omega
      · rw [hrot, htk, val_append, show Digit.ZERO = 0#64 from rfl, val_replicate_zero,
          Nat.mul_zero, Nat.add_zero, val_drop]
  have hsplit : (2:Nat) ^ s = B ^ (s / 64) * 2 ^ (s % 64) := by
    rw [B_pow, ← Nat.pow_add]; congr 1; omega
  by_cases hb : s % 64 = 0
  · refine ⟨zs, ?_, hl, ?_⟩
    · rw [e, hb]; rfl
    · rw [hv, hsplit, hb, Nat.pow_zero, Nat.mul_one]
  · obtain ⟨rs, e2, hl2, hv2⟩ := lshrLoop_ok (bs := s % 64) (by omega) (by omega)
      zs.reverse 0#64 0 (two_pow_w_pos _) rfl
    refine ⟨rs.reverse, ?_, by simp [hl2, hl], ?_⟩
    · rw [e, if_pos (by omega), e2]; rfl
    · rw [hv2, List.reverse_reverse, Nat.mul_zero, Nat.add_zero, hv, hsplit, Nat.div_div_eq_div_mul]

theorem wrappingLshrAssign_ok {a : ApInt} (h : a.WF) {s : Nat} (hs : s < a.w) :
    Updates (a.wrappingLshrAssign s) a.len (a.uval / 2 ^ s) := by
  unfold wrappingLshrAssign
  have hv : verifyShiftAmount a.width s = .ok () := verifyShiftAmount_ok hs
  have hlt : a.uval / 2 ^ s < 2 ^ a.w := Nat.lt_of_le_of_lt (Nat.div_le_self _ _) h.2
  rw [hv, accessData_ok h.1]
  rcases h.1.cases with ⟨d, e, h1, h2⟩ | ⟨ds, e, h1, h2, h3⟩
  · have hu : uval { a with data := .inl (d >>> s) } = a.uval / 2 ^ s := by
      rw [uval_inl, digit_shr]; simp [uval, h2]
    refine ⟨{ a with data := .inl (d >>> s) }, ?_, ⟨h1, by rw [hu]; exact hlt⟩, rfl, hu⟩
    simp only [run_bind_ok, e, rawShr_ok d (show s < 64 by omega)]
  · obtain ⟨ys, e3, hl, hv⟩ := lshrDigits_ok (xs := ds) (s := s) (by omega)
    have hu : uval { a with data := .ext ys } = a.uval / 2 ^ s := by
      rw [uval_ext, hv]; simp [uval, h3]
    refine ⟨{ a with data := .ext ys }, ?_, ⟨⟨h1, by rw [hl, h2]⟩, by rw [hu]; exact hlt⟩, rfl, hu⟩
    simp only [run_bind_ok, e, e3]

theorem wrappingLshrAssign_err {a : ApInt} {s : Nat} (hs : a.w ≤ s) :
    a.wrappingLshrAssign s = .ok (.error (.invalidShiftAmount s a.len), a) := by
  have hv : verifyShiftAmount a.width s = .error (.invalidShiftAmount s a.len) :=
    verifyShiftAmount_err hs
  simp [wrappingLshrAssign, hv]

/-! ## Arithmetic right shift -/

/-- Digit `j` of `x` extended upwards with ones. -/
def extOnes (x : List Digit) (j : Nat) : Digit := x.getD j Digit.ONES

/-- The digit made of the high bits of `a` and the low bits of `b`. -/
def mix (bits : Nat) (a b : Digit) : Digit :=
  if bits = 0 then a else Digit.bitor (Digit.shr a bits) (Digit.shl b (64 - bits))

theorem mix_getLsbD {bits : Nat} (hb : bits < 64) (a b : Digit) {k : Nat} (hk : k < 64) :
    (mix bits a b).getLsbD k =
      if k + bits < 64 then a.getLsbD (k + bits) else b.getLsbD (k + bits - 64) := by
  unfold mix
  by_cases h0 : bits = 0
  · subst h0; simp [hk]
  · rw [if_neg h0]
    unfold Digit.bitor Digit.shr Digit.shl
    rw [Nat.mod_eq_of_lt hb, Nat.mod_eq_of_lt (show 64 - bits < 64 by omega), BitVec.getLsbD_or,
      BitVec.getLsbD_ushiftRight, BitVec.getLsbD_shiftLeft]
    by_cases hlt : k + bits < 64
    · rw [if_pos hlt]
      simp [hk, show k < 64 - bits by omega, Nat.add_comm]
    · rw [if_neg hlt]
      have : a.getLsbD (bits + k) = false := BitVec.getLsbD_of_ge _ _ (by omega)
      simp [hk, show ¬ k < 64 - bits by omega, this, show k - (64 - bits) = k + bits - 64 by omega]

theorem getD_append_ones (x : List Digit) (m j : Nat) (hj : j < x.length + m) :
    (x ++ List.replicate m Digit.ONES).getD j 0 = extOnes x j := by
  unfold extOnes
  simp only [List.getD_eq_getElem?_getD]
  by_cases h : j < x.length
  · rw [List.getElem?_append_left h, List.getElem?_eq_getElem h]; simp
  · rw [List.getElem?_append_right (by omega), List.getElem?_eq_none (show x.length ≤ j by omega),
      List.getElem?_replicate, if_pos (by omega)]
    simp

/-- A list whose digits are the shifted digits of `x` is `x`, extended with ones, shifted. -/
theorem val_of_mix {x y : List Digit} {s : Nat} (hl : y.length = x.length)
    (hy : ∀ j, j < x.length →
      y.getD j 0 = mix (s % 64) (extOnes x (j + s / 64)) (extOnes x (j + s / 64 + 1))) :
    val y = val (x ++ List.replicate (s / 64 + 1) Digit.ONES) / 2 ^ s % B ^ x.length := by
  apply Nat.eq_of_testBit_eq
  intro i
  rw [B_pow, Nat.testBit_mod_two_pow, Nat.testBit_div_two_pow, val_testBit, val_testBit]
  by_cases hi : i < 64 * x.length
  · have hj : i / 64 < x.length := by omega
    rw [hy _ hj, mix_getLsbD (by omega) _ _ (by omega)]
    simp only [hi, decide_true, Bool.true_and]
    by_cases hc : i % 64 + s % 64 < 64
    · rw [if_pos hc, show (i + s) / 64 = i / 64 + s / 64 by omega,
        show (i + s) % 64 = i % 64 + s % 64 by omega, getD_append_ones _ _ _ (by omega)]
    · rw [if_neg hc, show (i + s) / 64 = i / 64 + s / 64 + 1 by omega,
        show (i + s) % 64 = i % 64 + s % 64 - 64 by omega, getD_append_ones _ _ _ (by omega)]
  · have : y.getD (i / 64) 0 = 0 := by
      simp [List.getElem?_eq_none (show y.length ≤ i / 64 by omega)]
    rw [this]
    simp [hi]

theorem idx_getD {x : List Digit} {i : Nat} (h : i < x.length) (d : Digit) :
    idx x i = .ok (x.getD i d) := by
  rw [idx_ok h]; simp [h]

theorem getD_default {x : List Digit} {i : Nat} (h : i < x.length) (d e : Digit) :
    x.getD i d = x.getD i e := by simp [h]

theorem setAll_eq (d : Digit) : Digit.setAll d = Digit.ONES := by
  apply BitVec.eq_of_getLsbD_eq
  intro i hi
  have : Digit.ONES.getLsbD i = true := by
    rw [show Digit.ONES = BitVec.allOnes 64 by decide, BitVec.getLsbD_allOnes]; simp [hi]
  simp [Digit.setAll, this]

/-- The part of `ashrDigits` after the top digit was sign-extended (used in proofs only). -/
def ashrTail (x : List Digit) (digits bits : Nat) : Run (List Digit) :=
  if digits = 0 then do
    let x' ← forRange 0 (x.length - 1) x fun i x => do
      let a ← idx x i
      let b ← idx x (i + 1)
      upd x i (Digit.bitor (Digit.shr a bits) (Digit.shl b (64 - bits)))
    let a ← idx x' (x.length - 1)
    upd x' (x.length - 1) (Digit.bitor (Digit.shr a bits) (Digit.shl Digit.ONES (64 - bits)))
  else if bits = 0 then do
    let x' ← forRange digits x.length x fun i x => do
      let a ← idx x i
      let j ← csub i digits
      upd x j a
    forRange 0 digits x' fun i x' => do
      let a ← idx x' (i + (x.length - digits))
      upd x' (i + (x.length - digits)) (Digit.setAll a)
  else do
    let x' ← forRange digits (x.length - 1) x fun i x => do
      let a ← idx x i
      let b ← idx x (i + 1)
      let j ← csub i digits
      upd x j (Digit.bitor (Digit.shr a bits) (Digit.shl b (64 - bits)))
    let a ← idx x' (x.length - 1)
    let j ← csub (x.length - digits) 1
    let x' ← upd x' j (Digit.bitor (Digit.shr a bits) (Digit.shl Digit.ONES (64 - bits)))
    forRange 0 digits x' fun i x' => do
      let a ← idx x' (i + (x.length - digits))
      upd x' (i + (x.length - digits)) (Digit.setAll a)

/-- The digit loops of `wrapping_ashr_assign`, after the top digit was sign-extended. -/
theorem ashrTail_ok {x : List Digit} {digits bits : Nat} (hn : 0 < x.length)
    (hd : digits < x.length) (hb : bits < 64) (h0 : digits ≠ 0 ∨ bits ≠ 0) :
    ∃ y, ashrTail x digits bits = .ok y ∧
      y.length = x.length ∧ ∀ j, j < x.length →
        y.getD j 0 = mix bits (extOnes x (j + digits)) (extOnes x (j + digits + 1)) := by
  unfold ashrTail
  have hext : ∀ j, j < x.length → extOnes x j = x.getD j 0 := fun j hj => getD_default hj _ _
  have hext' : ∀ j, x.length ≤ j → extOnes x j = Digit.ONES := fun j hj => by
    simp [extOnes, List.getElem?_eq_none hj]
  have hmixones : mix bits Digit.ONES Digit.ONES = Digit.ONES := by
    apply BitVec.eq_of_getLsbD_eq
    intro i hi
    have : ∀ k, k < 64 → Digit.ONES.getLsbD k = true := fun k hk => by
      rw [show Digit.ONES = BitVec.allOnes 64 by decide, BitVec.getLsbD_allOnes]; simp [hk]
    rw [mix_getLsbD hb _ _ hi, this i hi]
    split
    · rw [this _ (by omega)]
    · rw [this _ (by omega)]
  -- filling the high digits with ones
  have hfill : ∀ z : List Digit, z.length = x.length →
      (∀ j, j < x.length - digits →
        z.getD j 0 = mix bits (extOnes x (j + digits)) (extOnes x (j + digits + 1))) →
      ∃ y, forRange 0 digits z (fun i x' => do
          let a ← idx x' (i + (x.length - digits))
          upd x' (i + (x.length - digits)) (Digit.setAll a)) = .ok y ∧
        y.length = x.length ∧ ∀ j, j < x.length →
        y.getD j 0 = mix bits (extOnes x (j + digits)) (extOnes x (j + digits + 1)) := by
    intro z hzl hz
    obtain ⟨y, e, hyl, hy⟩ := forRange_spec (lo := 0) (hi := digits) (s := z)
      (body := fun i x' => do
        let a ← idx x' (i + (x.length - digits))
        upd x' (i + (x.length - digits)) (Digit.setAll a))
      (I := fun i (y : List Digit) => y.length = x.length ∧
        ∀ j, j < x.length - digits + i →
          y.getD j 0 = mix bits (extOnes x (j + digits)) (extOnes x (j + digits + 1)))
      (Nat.zero_le _) ⟨hzl, by simpa using hz⟩ (by
        intro i y _ hi ⟨hyl, hy⟩
        have hil : i + (x.length - digits) < y.length := by omega
        refine ⟨y.set (i + (x.length - digits)) Digit.ONES, ?_, by simp [hyl], ?_⟩
        · simp only [idx_ok hil, run_bind_ok, setAll_eq, upd_ok hil]
        · intro j hj
          rw [getD_set hil]
          by_cases hji : j = i + (x.length - digits)
          · rw [if_pos hji, hext' _ (by omega), hext' _ (by omega), hmixones]
          · rw [if_neg hji]; exact hy j (by omega))
    exact ⟨y, e, hyl, fun j hj => hy j (by omega)⟩
  by_cases hd0 : digits = 0
  · subst hd0
    have hb0 : bits ≠ 0 := by simpa using h0
    rw [if_pos rfl]
    obtain ⟨y, e, hyl, hy⟩ := forRange_spec (lo := 0) (hi := x.length - 1) (s := x)
      (body := fun i x => do
          let a ← idx x i
          let b ← idx x (i + 1)
          upd x i (Digit.bitor (Digit.shr a bits) (Digit.shl b (64 - bits))))
      (I := fun i (y : List Digit) => y.length = x.length ∧ ∀ j, j < x.length →
        y.getD j 0 = if j < i then mix bits (extOnes x j) (extOnes x (j + 1)) else x.getD j 0)
      (Nat.zero_le _) ⟨rfl, fun j _ => by simp⟩ (by
        intro i y _ hi ⟨hyl, hy⟩
        have hil : i < y.length := by omega
        have hil' : i + 1 < y.length := by omega
        refine ⟨y.set i (mix bits (extOnes x i) (extOnes x (i + 1))), ?_, by simp [hyl], ?_⟩
        · simp only [idx_getD hil 0, idx_getD hil' 0, run_bind_ok, upd_ok hil]
          rw [hy i (by omega), hy (i + 1) (by omega), if_neg (by omega), if_neg (by omega),
            hext _ (by omega), hext _ (by omega), mix, if_neg hb0]
        · intro j hj
          rw [getD_set hil]
          by_cases hji : j = i
          · subst hji; rw [if_pos rfl, if_pos (by omega)]
          · rw [if_neg hji, hy j hj]
            by_cases hlt : j < i
            · rw [if_pos hlt, if_pos (by omega)]
            · rw [if_neg hlt, if_neg (by omega)])
    have hlast : x.length - 1 < y.length := by omega
    refine ⟨y.set (x.length - 1) (mix bits (extOnes x (x.length - 1)) Digit.ONES), ?_,
      by simp [hyl], ?_⟩
    · rw [e]
      simp only [run_bind_ok, idx_getD hlast 0, upd_ok hlast]
      rw [hy _ (by omega), if_neg (by omega), mix, if_neg hb0, hext _ (by omega)]
    · intro j hj
      rw [getD_set hlast]
      by_cases hji : j = x.length - 1
      · rw [if_pos hji, hji, Nat.add_zero, hext' (x.length - 1 + 1) (by omega)]
      · rw [if_neg hji, hy j hj, if_pos (by omega)]; rfl
  · rw [if_neg hd0]
    by_cases hb0 : bits = 0
    · subst hb0
      rw [if_pos rfl]
      obtain ⟨z, e, hzl, hz⟩ := forRange_spec (lo := digits) (hi := x.length) (s := x)
        (body := fun i x => do
          let a ← idx x i
          let j ← csub i digits
          upd x j a)
        (I := fun i (y : List Digit) => y.length = x.length ∧
          (∀ j, j + digits < i → y.getD j 0 = x.getD (j + digits) 0) ∧
          (∀ j, i ≤ j + digits → y.getD j 0 = x.getD j 0))
        (by omega) ⟨rfl, fun j hj => by omega, fun j _ => rfl⟩ (by
          intro i y hi1 hi2 ⟨hyl, hy1, hy2⟩
          have hil : i < y.length := by omega
          have hil' : i - digits < y.length := by omega
          refine ⟨y.set (i - digits) (x.getD i 0), ?_, by simp [hyl], ?_, ?_⟩
          · simp only [idx_getD hil 0, run_bind_ok, csub_ok hi1, upd_ok hil']
            rw [hy2 i (by omega)]
          · intro j hj
            rw [getD_set hil']
            by_cases hji : j = i - digits
            · rw [if_pos hji, hji]; congr 1; omega
            · rw [if_neg hji]; exact hy1 j (by omega)
          · intro j hj
            rw [getD_set hil', if_neg (by omega)]
            exact hy2 j (by omega))
      obtain ⟨y, e2, h1, h2⟩ := hfill z hzl (by
        intro j hj
        rw [hz.1 j (by omega), mix, if_pos rfl, hext _ (by omega)])
      exact ⟨y, by simp only [e, run_bind_ok]; exact e2, h1, h2⟩
    · rw [if_neg hb0]
      obtain ⟨z, e, hzl, hz⟩ := forRange_spec (lo := digits) (hi := x.length - 1) (s := x)
        (body := fun i x => do
          let a ← idx x i
          let b ← idx x (i + 1)
          let j ← csub i digits
          upd x j (Digit.bitor (Digit.shr a bits) (Digit.shl b (64 - bits))))
        (I := fun i (y : List Digit) => y.length = x.length ∧
          (∀ j, j + digits < i → y.getD j 0 =
            mix bits (extOnes x (j + digits)) (extOnes x (j + digits + 1))) ∧
          (∀ j, i ≤ j + digits → y.getD j 0 = x.getD j 0))
        (by omega) ⟨rfl, fun j hj => by omega, fun j _ => rfl⟩ (by
          intro i y hi1 hi2 ⟨hyl, hy1, hy2⟩
          have hil : i < y.length := by omega
          have hil2 : i + 1 < y.length := by omega
          have hil' : i - digits < y.length := by omega
          refine ⟨y.set (i - digits) (mix bits (extOnes x i) (extOnes x (i + 1))), ?_,
            by simp [hyl], ?_, ?_⟩
          · simp only [idx_getD hil 0, idx_getD hil2 0, run_bind_ok, csub_ok hi1, upd_ok hil']
            rw [hy2 i (by omega), hy2 (i + 1) (by omega), mix, if_neg hb0, hext _ (by omega),
              hext _ (by omega)]
          · intro j hj
            rw [getD_set hil']
            by_cases hji : j = i - digits
            · rw [if_pos hji, show j + digits = i by omega]
            · rw [if_neg hji]; exact hy1 j (by omega)
          · intro j hj
            rw [getD_set hil', if_neg (by omega)]
            exact hy2 j (by omega))
      have hlast : x.length - 1 < z.length := by omega
      have hj : x.length - digits - 1 < z.length := by omega
      obtain ⟨y, e2, h1, h2⟩ := hfill (z.set (x.length - digits - 1)
        (mix bits (extOnes x (x.length - 1)) Digit.ONES)) (by simp [hzl]) (by
        intro j hj'
        rw [getD_set hj]
        by_cases hji : j = x.length - digits - 1
        · rw [if_pos hji, show j + digits = x.length - 1 by omega,
            hext' (x.length - 1 + 1) (by omega)]
        · rw [if_neg hji, hz.1 j (by omega)])
      refine ⟨y, ?_, h1, h2⟩
      simp only [e, run_bind_ok, idx_getD hlast 0, csub_ok (show 1 ≤ x.length - digits by omega),
        upd_ok hj]
      rw [hz.2 (x.length - 1) (by omega), ← e2, mix, if_neg hb0, hext _ (by omega)]

/-- The value computed by the digit loops: `x` extended with ones and shifted. -/
theorem ashrDigits_ok {x : List Digit} {w s : Nat} (hw : 64 < w) (hl : x.length = (w + 63) / 64)
    (hu : val x < 2 ^ w) (hneg : 2 ^ (w - 1) ≤ val x) (hs : s < w) (hs0 : s ≠ 0) :
    ∃ y, ashrDigits x (w % 64) (s / 64) (s % 64) = .ok y ∧ y.length = x.length ∧
      val y % 2 ^ w = val x / 2 ^ s + 2 ^ w - 2 ^ (w - s) := by
  have hn : 0 < x.length := by omega
  -- sign-extending the top digit
  obtain ⟨z, ez, hzl, hzv⟩ : ∃ z, ashrDigits x (w % 64) (s / 64) (s % 64)
        = ashrTail z (s / 64) (s % 64) ∧ z.length = x.length ∧
      val z + 2 ^ w = val x + B ^ x.length := by
    unfold ashrDigits
    rw [csub_ok (show s % 64 ≤ 64 by omega), csub_ok (show 1 ≤ x.length by omega), run_bind_ok,
      run_bind_ok]
    by_cases h0 : w % 64 = 0
    · refine ⟨x, ?_, rfl, ?_⟩
      · simp only [ne_eq, h0, not_true_eq_false, if_false, csub_ok (show s / 64 ≤ x.length by omega),
          run_bind_ok]
        rfl
      rw [B_pow, hl, show 64 * ((w + 63) / 64) = w by omega]
    · have hlast : x.length - 1 < x.length := by omega
      have hdl : x.length - 1 = w / 64 := by omega
      have hdlt := val_lt (x.take (x.length - 1))
      have hval := val_take_succ hlast
      rw [show x.length - 1 + 1 = x.length by omega, List.take_length] at hval
      rw [List.length_take, Nat.min_eq_left (by omega)] at hdlt
      have hsplit : (2:Nat) ^ w = B ^ (x.length - 1) * 2 ^ (w % 64) := by
        rw [B_pow, ← Nat.pow_add]; congr 1; omega
      have hsplit' : (2:Nat) ^ (w - 1) = B ^ (x.length - 1) * 2 ^ (w % 64 - 1) := by
        rw [B_pow, ← Nat.pow_add]; congr 1; omega
      have hd : (x[x.length - 1]).toNat < 2 ^ (w % 64) := by
        rw [hval, hsplit] at hu
        exact Nat.lt_of_mul_lt_mul_left (a := B ^ (x.length - 1)) (by omega)
      have hd2 : ¬ (x[x.length - 1]).toNat < 2 ^ (w % 64 - 1) := by
        intro hc
        rw [hval, hsplit'] at hneg
        have : B ^ (x.length - 1) * ((x[x.length - 1]).toNat + 1)
          ≤ B ^ (x.length - 1) * 2 ^ (w % 64 - 1) := Nat.mul_le_mul_left _ hc
        rw [Nat.mul_add] at this
        omega
      obtain ⟨d', e3, h3⟩ := Digit.signExtendFrom_ok (x[x.length - 1])
        (from_ := ⟨w % 64, Nat.pos_of_ne_zero h0⟩) (by simp only; omega) hd
      simp only at h3
      rw [if_neg hd2] at h3
      refine ⟨x.set (x.length - 1) d', ?_, by simp, ?_⟩
      · simp only [ne_eq, h0, not_false_eq_true, if_true, idx_ok hlast, run_bind_ok,
          BitWidth.from_ok h0, e3, expect, upd_ok hlast, List.length_set,
          csub_ok (show s / 64 ≤ x.length by omega)]
        unfold ashrTail
        simp only [List.length_set]
      · have hB : 2 ^ (w % 64) ≤ B := by
          rw [B_eq]; exact Nat.pow_le_pow_right (by decide) (by omega)
        have hh : d'.toNat + 2 ^ (w % 64) = (x[x.length - 1]).toNat + B := by omega
        have hset := val_set hlast d'
        have hpow : B ^ x.length = B ^ (x.length - 1) * B := by
          rw [← Nat.pow_succ]; congr 1; omega
        rw [hsplit, hpow]
        linear_combination hset + B ^ (x.length - 1) * hh
  obtain ⟨y, ey, hyl, hy⟩ := ashrTail_ok (x := z) (digits := s / 64) (bits := s % 64)
    (by omega) (by omega) (by omega) (by omega)
  refine ⟨y, by rw [ez, ey], by rw [hyl, hzl], ?_⟩
  rw [val_of_mix hyl hy, val_append, show Digit.ONES = ~~~0#64 from by decide,
    val_replicate_ones, hzl, mod_Bn_mod (by omega)]
  obtain ⟨k, hk⟩ : ∃ k, 64 * (x.length + (s / 64 + 1)) = w + k :=
    ⟨64 * (x.length + (s / 64 + 1)) - w, by omega⟩
  obtain ⟨j, rfl⟩ : ∃ j, k = s + j := ⟨k - s, by omega⟩
  have hBq := B_pow_pos (s / 64 + 1)
  have e1 : B ^ x.length * B ^ (s / 64 + 1) = 2 ^ s * (2 ^ w * 2 ^ j) := by
    rw [← Nat.pow_add, B_pow, hk, ← Nat.pow_add, ← Nat.pow_add]; congr 1; omega
  have e2 : (2:Nat) ^ w = 2 ^ s * 2 ^ (w - s) := by
    rw [← Nat.pow_add]; congr 1; omega
  have hle : (2:Nat) ^ (w - s) ≤ 2 ^ w := Nat.pow_le_pow_right (by decide) (by omega)
  have hj1 := two_pow_w_pos j
  have hwj : 2 ^ w * 1 ≤ 2 ^ w * 2 ^ j := Nat.mul_le_mul_left _ hj1
  have e3 : val z + B ^ x.length * (B ^ (s / 64 + 1) - 1)
      = val x + 2 ^ s * (2 ^ w * 2 ^ j - 2 ^ (w - s)) := by
    rw [Nat.mul_sub, Nat.mul_sub, e1, ← e2, Nat.mul_one]
    have : B ^ x.length * 1 ≤ B ^ x.length * B ^ (s / 64 + 1) := Nat.mul_le_mul_left _ hBq
    have h2 : 2 ^ s * (2 ^ (w - s) * 1) ≤ 2 ^ s * (2 ^ w * 2 ^ j) :=
      Nat.mul_le_mul_left _ (Nat.mul_le_mul hle hj1)
    rw [Nat.mul_one, ← e2] at h2
    rw [e1] at this
    omega
  rw [e3, Nat.add_mul_div_left _ _ (two_pow_w_pos s)]
  have hlt : val x / 2 ^ s < 2 ^ (w - s) := by
    rw [Nat.div_lt_iff_lt_mul (two_pow_w_pos s), Nat.mul_comm, ← e2]; exact hu
  obtain ⟨m, hm⟩ : ∃ m, 2 ^ j = m + 1 := ⟨2 ^ j - 1, by omega⟩
  rw [hm, Nat.mul_add, Nat.mul_one, ashr_arith hle, Nat.add_mul_mod_self_left]
  exact Nat.mod_eq_of_lt (by omega)

theorem ashr_inl {d : Digit} {w s : Nat} (hw : w ≤ 64) (hs : s < w) (hs0 : s ≠ 0)
    (hd : d.toNat < 2 ^ w) :
    (Digit.bitor (Digit.shr d s) (Digit.shl Digit.ONES (w - s))).toNat % 2 ^ w
      = d.toNat / 2 ^ s + 2 ^ w - 2 ^ (w - s) := by
  have e2 : (2:Nat) ^ w = 2 ^ s * 2 ^ (w - s) := by
    rw [← Nat.pow_add]; congr 1; omega
  have hlt : d.toNat / 2 ^ s < 2 ^ (w - s) := by
    rw [Nat.div_lt_iff_lt_mul (two_pow_w_pos s), Nat.mul_comm, ← e2]; exact hd
  have hB := B_split (n := w - s) (by omega)
  have h1 : (Digit.ONES <<< (w - s)).toNat = 2 ^ (w - s) * (2 ^ (64 - (w - s)) - 1) := by
    rw [digit_shl_split _ (by omega), Digit.ONES_toNat, hB]
    congr 1
    have hp := two_pow_w_pos (64 - (w - s))
    obtain ⟨m, hm⟩ : ∃ m, 2 ^ (w - s) = m + 1 :=
      ⟨2 ^ (w - s) - 1, by have := two_pow_w_pos (w - s); omega⟩
    rw [hm, Nat.add_mul, Nat.one_mul, Nat.add_sub_assoc hp, Nat.add_comm, Nat.add_mul_mod_self_right]
    exact Nat.mod_eq_of_lt (by omega)
  unfold Digit.bitor Digit.shr Digit.shl
  rw [Nat.mod_eq_of_lt (show s < 64 by omega), Nat.mod_eq_of_lt (show w - s < 64 by omega),
    BitVec.toNat_or, digit_shr, h1, Nat.or_comm, or_eq_add (Dvd.intro _ rfl) hlt]
  obtain ⟨k, hk⟩ : ∃ k, 64 - (w - s) = s + k := ⟨64 - w, by omega⟩
  have e3 : 2 ^ (w - s) * (2 ^ (64 - (w - s)) - 1) = 2 ^ w * 2 ^ k - 2 ^ (w - s) := by
    rw [Nat.mul_sub, hk, ← Nat.pow_add, ← Nat.pow_add, Nat.mul_one]
    congr 2; omega
  have hle : (2:Nat) ^ (w - s) ≤ 2 ^ w := Nat.pow_le_pow_right (by decide) (by omega)
  have hj1 := two_pow_w_pos k
  obtain ⟨m, hm⟩ : ∃ m, 2 ^ k = m + 1 := ⟨2 ^ k - 1, by omega⟩
  rw [e3, hm, Nat.mul_add, Nat.mul_one, Nat.add_comm, ashr_arith hle, Nat.add_mul_mod_self_left]
  exact Nat.mod_eq_of_lt (by omega)

theorem wrappingAshrAssign_ok {a : ApInt} (h : a.WF) {s : Nat} (hs : s < a.w) :
    Updates (a.wrappingAshrAssign s) a.len
      (if a.uval < 2 ^ (a.w - 1) then a.uval / 2 ^ s
        else a.uval / 2 ^ s + 2 ^ a.w - 2 ^ (a.w - s)) := by
  unfold wrappingAshrAssign
  rw [h.msb_eq, run_bind_ok]
  by_cases hneg : 2 ^ (a.w - 1) ≤ a.uval
  swap
  · simp only [hneg, decide_false, Bool.not_false, if_true]
    rw [if_pos (show a.uval < 2 ^ (a.w - 1) by omega)]
    exact wrappingLshrAssign_ok h hs
  simp only [hneg, decide_true, Bool.not_true, Bool.false_eq_true, if_false]
  rw [if_neg (show ¬ a.uval < 2 ^ (a.w - 1) by omega)]
  have hv : verifyShiftAmount a.width s = .ok () := verifyShiftAmount_ok hs
  simp only [hv]
  by_cases hs0 : s = 0
  · subst hs0
    rw [if_pos rfl]
    exact ⟨a, rfl, h, rfl, by simp⟩
  rw [if_neg hs0, accessData_ok h.1]
  have hwid : a.width.toUsize = a.w := rfl
  rcases h.1.cases with ⟨d, e, h1, h2⟩ | ⟨ds, e, h1, h2, h3⟩
  · have hu : a.uval = d.toNat := by simp [uval, h2]
    obtain ⟨c, e2, h4, h5, h6⟩ := clear_inl h1
      (Digit.bitor (Digit.shr d (s % 64)) (Digit.shl Digit.ONES (a.w - s % 64)))
    refine ⟨c, ?_, h4, h5, ?_⟩
    · simp only [run_bind_ok, e, hwid, csub_ok (show s % 64 ≤ a.w by omega), e2]
    · rw [h6, show s % 64 = s by omega, ashr_inl h1 hs hs0 (by rw [← hu]; exact h.2), hu]
  · have hu : a.uval = val ds := by simp [uval, h3]
    obtain ⟨ys, e3, hl, hv⟩ := ashrDigits_ok (x := ds) (s := s) h1 h2 (by rw [← hu]; exact h.2)
      (by rw [← hu]; exact hneg) hs hs0
    obtain ⟨c, e2, h4, h5, h6⟩ := clear_ext h1 (ds := ys) (by rw [hl, h2])
    refine ⟨c, ?_, h4, h5, ?_⟩
    · simp only [run_bind_ok, e, hwid, e3, e2]
    · rw [h6, hv, hu]

theorem wrappingAshrAssign_err {a : ApInt} (h : a.WF) {s : Nat} (hs : a.w ≤ s) :
    a.wrappingAshrAssign s = .ok (.error (.invalidShiftAmount s a.len), a) := by
  have hv : verifyShiftAmount a.width s = .error (.invalidShiftAmount s a.len) :=
    verifyShiftAmount_err hs
  unfold wrappingAshrAssign
  rw [h.msb_eq, run_bind_ok, wrappingLshrAssign_err hs, hv]
  split <;> rfl

/-- The unsigned result of an arithmetic right shift, as a signed value. -/
theorem ashr_sval {a c : ApInt} (h : a.WF) (hl : c.len = a.len) {s : Nat} (hs : s < a.w)
    (hc : c.uval = if a.uval < 2 ^ (a.w - 1) then a.uval / 2 ^ s
        else a.uval / 2 ^ s + 2 ^ a.w - 2 ^ (a.w - s)) :
    c.sval = a.sval / 2 ^ s := by
  have hw := w_eq hl
  have hlt := h.2
  have hp := two_pow_pred a.pos_w
  have e2 : (2:Nat) ^ a.w = 2 ^ s * 2 ^ (a.w - s) := by
    rw [← Nat.pow_add]; congr 1; omega
  rw [sval_eq, sval_eq, hw]
  by_cases hneg : a.uval < 2 ^ (a.w - 1)
  · rw [if_pos hneg] at hc ⊢
    have : c.uval < 2 ^ (a.w - 1) := by
      rw [hc]; exact Nat.lt_of_le_of_lt (Nat.div_le_self _ _) hneg
    rw [if_pos this, hc]
    push_cast
    rfl
  · rw [if_neg hneg] at hc ⊢
    have h1 : a.uval / 2 ^ s < 2 ^ (a.w - s) := by
      rw [Nat.div_lt_iff_lt_mul (two_pow_w_pos s), Nat.mul_comm, ← e2]; exact hlt
    have hle : (2:Nat) ^ (a.w - s) ≤ 2 ^ a.w := Nat.pow_le_pow_right (by decide) (by omega)
    have hp2 := two_pow_pred (show 0 < a.w - s by omega)
    have h2 : 2 ^ (a.w - s - 1) ≤ a.uval / 2 ^ s := by
      rw [Nat.le_div_iff_mul_le (two_pow_w_pos s), ← Nat.pow_add,
        show a.w - s - 1 + s = a.w - 1 by omega]
      omega
    have hle2 : (2:Nat) ^ (a.w - s - 1) ≤ 2 ^ (a.w - 1) :=
      Nat.pow_le_pow_right (by decide) (by omega)
    rw [if_neg (by omega)]
    have e3 : (c.uval : Int) = (a.uval / 2 ^ s : Nat) + (2:Int) ^ a.w - 2 ^ (a.w - s) := by
      rw [hc, Nat.cast_sub (by omega)]; push_cast; ring
    have e4 : ((a.uval : Int) - 2 ^ a.w) = a.uval + 2 ^ s * (-(2 ^ (a.w - s))) := by
      have : (2:Int) ^ a.w = 2 ^ s * 2 ^ (a.w - s) := by exact_mod_cast e2
      rw [this]; ring
    rw [e4, Int.add_mul_ediv_left _ _ (by positivity), e3]
    push_cast
    ring

end ApInt

end Verif
