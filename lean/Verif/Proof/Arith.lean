import Verif.Model.Arith
import Verif.Proof.Bitwise

/-! # Increment, negation, addition, subtraction -/

namespace Verif

theorem add3_toNat (a b c : Digit) :
    (DDigit.wrappingAdd (DDigit.wrappingAdd (Digit.dd a) (Digit.dd b)) (Digit.dd c)).toNat
      = a.toNat + b.toNat + c.toNat := by
  have h1 := a.isLt
  have h2 := b.isLt
  have h3 := c.isLt
  simp only [DDigit.wrappingAdd, BitVec.toNat_add, Digit.dd_toNat]
  omega

namespace ApInt

/-- Replacing the data of a well-shaped value and clearing the unused bits. -/
theorem clear_ext {a : ApInt} (hw : 64 < a.w) {ds : List Digit}
    (hl : ds.length = (a.w + 63) / 64) :
    Returns (clearUnusedBits { a with data := .ext ds }) a.len (val ds % 2 ^ a.w) := by
  obtain ⟨c, e, h1, h2, h3⟩ := clearUnusedBits_ok (a := { a with data := .ext ds }) ⟨hw, hl⟩
  exact ⟨c, e, h1, h2, h3⟩

theorem clear_inl {a : ApInt} (hw : a.w ≤ 64) (d : Digit) :
    Returns (clearUnusedBits { a with data := .inl d }) a.len (d.toNat % 2 ^ a.w) := by
  obtain ⟨c, e, h1, h2, h3⟩ := clearUnusedBits_ok (a := { a with data := .inl d }) hw
  refine ⟨c, e, h1, h2, ?_⟩
  rw [h3, uval_inl]

theorem mod_B_mod {x w : Nat} (hw : w ≤ 64) : x % B % 2 ^ w = x % 2 ^ w := by
  rw [B_eq]
  exact Nat.mod_mod_of_dvd _ (Nat.pow_dvd_pow 2 hw)

theorem mod_Bn_mod {x w n : Nat} (hw : w ≤ 64 * n) : x % B ^ n % 2 ^ w = x % 2 ^ w := by
  rw [B_pow]
  exact Nat.mod_mod_of_dvd _ (Nat.pow_dvd_pow 2 hw)

/-! ## Increment and decrement -/

theorem incLoop_length (xs : List Digit) : (incLoop xs).length = xs.length := by
  induction xs with
  | nil => rfl
  | cons x xs ih =>
    unfold incLoop
    split <;> simp [ih]

theorem incLoop_val (xs : List Digit) : val (incLoop xs) = (val xs + 1) % B ^ xs.length := by
  induction xs with
  | nil => simp [incLoop, val]
  | cons x xs ih =>
    have h1 := Digit.overflowingAdd_fst x Digit.ONE
    have h2 := Digit.overflowingAdd_snd x Digit.ONE
    have hx := dlt x
    have hlt := val_lt xs
    rw [Digit.ONE_toNat] at h2
    have hadd : (x + Digit.ONE).toNat = (x.toNat + 1) % B := by
      rw [BitVec.toNat_add, Digit.ONE_toNat, B_eq]
    unfold incLoop
    split
    · rename_i v he
      rw [he] at h1 h2
      simp only at h1 h2
      have : ¬ (B ≤ x.toNat + 1) := by simpa using h2.symm
      rw [val_cons, val_cons, h1, hadd, Nat.mod_eq_of_lt (by omega)]
      rw [Nat.mod_eq_of_lt]
      · omega
      · have := val_lt ((x + Digit.ONE) :: xs)
        rw [val_cons, hadd, Nat.mod_eq_of_lt (by omega)] at this
        simp only [List.length_cons] at this ⊢
        omega
    · rename_i v he
      rw [he] at h1 h2
      simp only at h1 h2
      have : B ≤ x.toNat + 1 := by simpa using h2.symm
      rw [val_cons, val_cons, h1, hadd, ih]
      have hx1 : x.toNat + 1 = B := by omega
      rw [hx1, Nat.mod_self, Nat.zero_add, List.length_cons, Nat.pow_succ, Nat.mul_comm _ B,
        ← Nat.mul_mod_mul_left]
      congr 1
      linear_combination -hx1

theorem decLoop_length (xs : List Digit) : (decLoop xs).length = xs.length := by
  induction xs with
  | nil => rfl
  | cons x xs ih =>
    unfold decLoop
    split <;> simp [ih]

theorem decLoop_val (xs : List Digit) :
    val (decLoop xs) = (val xs + (B ^ xs.length - 1)) % B ^ xs.length := by
  induction xs with
  | nil => simp [decLoop, val]
  | cons x xs ih =>
    have h1 := Digit.overflowingSub_fst x Digit.ONE
    have h2 := Digit.overflowingSub_snd x Digit.ONE
    have hx := dlt x
    have hlt := val_lt xs
    have hB := B_pos
    have hp := B_pow_pos xs.length
    rw [Digit.ONE_toNat] at h2
    have hsub : (x - Digit.ONE).toNat = (x.toNat + (B - 1)) % B := by
      rw [BitVec.toNat_sub, Digit.ONE_toNat, B_eq, Nat.add_comm]
    unfold decLoop
    split
    · rename_i v he
      rw [he] at h1 h2
      simp only at h1 h2
      have h3 : ¬ (x.toNat < 1) := by simpa using h2.symm
      have e1 : (x.toNat + (B - 1)) % B = x.toNat - 1 := by
        rw [show x.toNat + (B - 1) = (x.toNat - 1) + B by omega, Nat.add_mod_right,
          Nat.mod_eq_of_lt (by omega)]
      rw [val_cons, val_cons, h1, hsub, e1]
      have h4 := val_lt (x :: xs)
      rw [val_cons] at h4
      have hpp := B_pow_pos (x :: xs).length
      rw [show x.toNat + B * val xs + (B ^ (x :: xs).length - 1)
        = (x.toNat - 1 + B * val xs) + B ^ (x :: xs).length by omega, Nat.add_mod_right,
        Nat.mod_eq_of_lt (by omega)]
    · rename_i v he
      rw [he] at h1 h2
      simp only at h1 h2
      have h3 : x.toNat < 1 := by simpa using h2.symm
      have h0 : x.toNat = 0 := by omega
      rw [val_cons, val_cons, h1, hsub, ih, h0, Nat.zero_add, Nat.zero_add,
        Nat.mod_eq_of_lt (by omega : B - 1 < B), List.length_cons, Nat.pow_succ]
      by_cases hz : val xs = 0
      · rw [hz, Nat.zero_add, Nat.mod_eq_of_lt (by omega), Nat.mul_zero, Nat.zero_add]
        have h5 : 0 < B ^ xs.length * B := Nat.mul_pos hp hB
        rw [Nat.mod_eq_of_lt (by omega), Nat.mul_sub, Nat.mul_one, Nat.mul_comm B]
        have : 1 * B ≤ B ^ xs.length * B := Nat.mul_le_mul_right _ hp
        omega
      · have h5 : 0 < B ^ xs.length * B := Nat.mul_pos hp hB
        have h6 : B * (val xs + 1) ≤ B * B ^ xs.length := Nat.mul_le_mul_left _ hlt
        have h7 : B * 1 ≤ B * val xs := Nat.mul_le_mul_left _ (by omega)
        rw [show val xs + (B ^ xs.length - 1) = (val xs - 1) + B ^ xs.length by omega,
          Nat.add_mod_right, Nat.mod_eq_of_lt (by omega),
          show B * val xs + (B ^ xs.length * B - 1) = (B * val xs - 1) + B ^ xs.length * B by omega,
          Nat.add_mod_right]
        rw [Nat.mul_add, Nat.mul_comm B (B ^ _)] at h6
        rw [Nat.mod_eq_of_lt (by omega), Nat.mul_sub]
        omega

theorem wrappingInc_ok {a : ApInt} (h : a.Shape) :
    Returns a.wrappingInc a.len ((a.uval + 1) % 2 ^ a.w) := by
  unfold wrappingInc
  rw [accessData_ok h]
  rcases h.cases with ⟨d, e, h1, h2⟩ | ⟨ds, e, h1, h2, h3⟩
  · simp only [e, run_bind_ok]
    have := clear_inl h1 (Digit.wrappingAdd d Digit.ONE)
    rw [Digit.wrappingAdd_toNat, mod_B_mod h1] at this
    simpa [uval, h2, Digit.ONE_toNat] using this
  · simp only [e, run_bind_ok]
    have := clear_ext h1 (ds := incLoop ds) (by rw [incLoop_length, h2])
    rw [incLoop_val, mod_Bn_mod (by omega)] at this
    simpa [uval, h3] using this

theorem wrappingDec_ok {a : ApInt} (h : a.Shape) :
    Returns a.wrappingDec a.len ((a.uval + (2 ^ a.w - 1)) % 2 ^ a.w) := by
  have hp : 0 < (2:Nat) ^ a.w := Nat.pow_pos (by decide)
  unfold wrappingDec
  rw [accessData_ok h]
  rcases h.cases with ⟨d, e, h1, h2⟩ | ⟨ds, e, h1, h2, h3⟩
  · simp only [e, run_bind_ok]
    have := clear_inl h1 (Digit.wrappingSub d Digit.ONE)
    have e2 : (Digit.wrappingSub d Digit.ONE).toNat = (d.toNat + (B - 1)) % B := by
      rw [Digit.wrappingSub, BitVec.toNat_sub, Digit.ONE_toNat, B_eq, Nat.add_comm]
    rw [e2, mod_B_mod h1] at this
    have e3 : (d.toNat + (B - 1)) % 2 ^ a.w = (a.uval + (2 ^ a.w - 1)) % 2 ^ a.w := by
      obtain ⟨k, hk⟩ := Nat.exists_eq_add_of_le h1
      have : B = 2 ^ a.w * 2 ^ k := by rw [B_eq, hk, Nat.pow_add]
      obtain ⟨m, hm⟩ : ∃ m, 2 ^ k = m + 1 :=
        ⟨2 ^ k - 1, by have := Nat.pow_pos (n := k) (by decide : 0 < 2); omega⟩
      rw [hm, Nat.mul_add, Nat.mul_one] at this
      rw [this, show d.toNat + (2 ^ a.w * m + 2 ^ a.w - 1)
        = d.toNat + (2 ^ a.w - 1) + 2 ^ a.w * m by omega, Nat.add_mul_mod_self_left]
      simp [uval, h2]
    rw [e3] at this
    exact this
  · simp only [e, run_bind_ok]
    have := clear_ext h1 (ds := decLoop ds) (by rw [decLoop_length, h2])
    rw [decLoop_val, mod_Bn_mod (by omega)] at this
    have e3 : (val ds + (B ^ ds.length - 1)) % 2 ^ a.w = (a.uval + (2 ^ a.w - 1)) % 2 ^ a.w := by
      obtain ⟨k, hk⟩ := Nat.exists_eq_add_of_le (show a.w ≤ 64 * ds.length by omega)
      have : B ^ ds.length = 2 ^ a.w * 2 ^ k := by rw [B_pow, hk, Nat.pow_add]
      obtain ⟨m, hm⟩ : ∃ m, 2 ^ k = m + 1 :=
        ⟨2 ^ k - 1, by have := Nat.pow_pos (n := k) (by decide : 0 < 2); omega⟩
      rw [hm, Nat.mul_add, Nat.mul_one] at this
      rw [this, show val ds + (2 ^ a.w * m + 2 ^ a.w - 1)
        = val ds + (2 ^ a.w - 1) + 2 ^ a.w * m by omega, Nat.add_mul_mod_self_left]
      simp [uval, h3]
    rw [e3] at this
    exact this

theorem wrappingNeg_ok {a : ApInt} (h : a.WF) :
    Returns a.wrappingNeg a.len ((2 ^ a.w - a.uval) % 2 ^ a.w) := by
  obtain ⟨b, e1, h1, h2, h3⟩ := bitnot_ok h
  obtain ⟨c, e2, h4, h5, h6⟩ := wrappingInc_ok h1.1
  have hw : b.w = a.w := by unfold w; rw [h2]
  refine ⟨c, by simp [wrappingNeg, e1, e2], h4, by rw [h5, h2], ?_⟩
  rw [h6, h3, hw]
  have := h.2
  congr 1
  omega

/-! ## Addition -/

/-- The loop shared by addition and subtraction: adds the digits of `g` to those of `lhs`. -/
theorem addLoop_ok (rhs : List Digit) (f : Digit → Digit) {lhs0 : List Digit} {c0 lo hi base : Nat}
    {s : List Digit × Digit} (hlo : lo ≤ hi) (hlen : s.1.length = lhs0.length)
    (hr : rhs.length = lhs0.length) (hhi : hi ≤ lhs0.length)
    (h0 : val s.1 + B ^ lo * s.2.toNat = base + val ((rhs.map f).take lo) + c0) :
    ∃ s', forRange lo hi s (fun i (lhs, carry) => do
        let l ← idx lhs i
        let r ← idx rhs i
        let temp := DDigit.wrappingAdd
          (DDigit.wrappingAdd (Digit.dd l) (Digit.dd (f r))) (Digit.dd carry)
        let lhs ← upd lhs i (DDigit.lo temp)
        .ok (lhs, DDigit.hi temp)) = .ok s' ∧ s'.1.length = lhs0.length ∧
      val s'.1 + B ^ hi * s'.2.toNat = base + val ((rhs.map f).take hi) + c0 := by
  refine forRange_spec (I := fun i (s : List Digit × Digit) => s.1.length = lhs0.length ∧
    val s.1 + B ^ i * s.2.toNat = base + val ((rhs.map f).take i) + c0) hlo ⟨hlen, h0⟩ ?_
  rintro i ⟨lhs, carry⟩ hi1 hi2 ⟨hl, hv⟩
  have hil : i < lhs.length := by simp only at hl; omega
  have hir : i < rhs.length := by omega
  have hir' : i < (rhs.map f).length := by simpa using hir
  simp only at hl hv
  simp only [idx_ok hil, idx_ok hir, run_bind_ok, upd_ok hil]
  refine ⟨_, rfl, by simp [hl], ?_⟩
  simp only
  have h1 := val_set hil (DDigit.lo (DDigit.wrappingAdd
    (DDigit.wrappingAdd (Digit.dd lhs[i]) (Digit.dd (f rhs[i]))) (Digit.dd carry)))
  have h2 := DDigit.lo_add_hi (DDigit.wrappingAdd
    (DDigit.wrappingAdd (Digit.dd lhs[i]) (Digit.dd (f rhs[i]))) (Digit.dd carry))
  rw [add3_toNat] at h2
  have h3 := val_take_succ hir'
  rw [List.getElem_map] at h3
  rw [h3, Nat.pow_succ]
  linear_combination h1 + hv + B ^ i * h2

theorem addDigits_ok {lhs rhs : List Digit} {hi : Nat} (hlen : rhs.length = lhs.length)
    (h1 : 1 ≤ hi) (h2 : hi ≤ lhs.length) :
    ∃ s, addDigits lhs rhs hi = .ok s ∧ s.1.length = lhs.length ∧
      val s.1 + B ^ hi * s.2.toNat = val lhs + val (rhs.take hi) := by
  have hl0 : 0 < lhs.length := by omega
  have hr0 : 0 < rhs.length := by omega
  have hc := Digit.carryingAdd_eq lhs[0] rhs[0]
  have hset := val_set hl0 (Digit.carryingAdd lhs[0] rhs[0]).1
  have ht := val_take_succ hr0
  simp only [List.take_zero, val_nil, Nat.pow_zero, Nat.one_mul, Nat.zero_add] at ht hset
  have key := addLoop_ok rhs id (lhs0 := lhs) (c0 := 0) (lo := 1) (hi := hi) (base := val lhs)
    (s := (lhs.set 0 (Digit.carryingAdd lhs[0] rhs[0]).1, (Digit.carryingAdd lhs[0] rhs[0]).2))
    h1 (by simp) hlen h2 (by
      simp only [List.map_id, ht, pow_one]
      linear_combination hset + hc)
  obtain ⟨s, e, hs1, hs2⟩ := key
  refine ⟨s, ?_, hs1, by simpa using hs2⟩
  simp only [addDigits, idx_ok hl0, idx_ok hr0, run_bind_ok, upd_ok hl0]
  exact e

theorem wrappingAddAssign_ok {a b : ApInt} (ha : a.Shape) (hb : b.Shape) (h : a.len = b.len) :
    Updates (a.wrappingAddAssign b) a.len ((a.uval + b.uval) % 2 ^ a.w) := by
  unfold wrappingAddAssign
  rcases zipAccessData_ok ha hb h with ⟨x, y, ex, ey, h1, e⟩ | ⟨xs, ys, ex, ey, h1, h2, h3, e⟩
  · obtain ⟨c, e2, h4, h5, h6⟩ := clear_inl h1 (Digit.wrappingAdd x y)
    refine ⟨c, by simp [e, e2], h4, h5, ?_⟩
    rw [h6, Digit.wrappingAdd_toNat, mod_B_mod h1]
    simp [uval, digits, ex, ey]
  · obtain ⟨s, es, hs1, hs2⟩ := addDigits_ok (lhs := xs) (rhs := ys) (hi := xs.length)
      (by rw [h2, h3]) (by omega) (by omega)
    obtain ⟨c, e2, h4, h5, h6⟩ := clear_ext h1 (ds := s.1) (by rw [hs1, h2])
    refine ⟨c, by simp [e, es, e2], h4, h5, ?_⟩
    rw [List.take_of_length_le (by omega)] at hs2
    have hB : B ^ xs.length = 2 ^ (64 * xs.length) := B_pow _
    rw [h6]
    have e3 : a.uval + b.uval = val s.1 + 2 ^ a.w * (2 ^ (64 * xs.length - a.w) * s.2.toNat) := by
      rw [← Nat.mul_assoc, ← Nat.pow_add, Nat.add_sub_cancel' (show a.w ≤ 64 * xs.length by omega),
        ← B_pow, hs2]
      simp [uval, digits, ex, ey]
    rw [e3, Nat.add_mul_mod_self_left]

theorem wrappingAddAssign_err {a b : ApInt} (h : a.len ≠ b.len) :
    a.wrappingAddAssign b = .ok (.error (.unmatchingBitwidth a.len b.len), a) := by
  simp [wrappingAddAssign, zipAccessData_err h]

/-! ## Subtraction -/

theorem subDigits_ok {lhs rhs : List Digit} (hlen : rhs.length = lhs.length)
    (h1 : 1 ≤ lhs.length) :
    ∃ l c, subDigits lhs rhs = .ok l ∧ l.length = lhs.length ∧
      val l + B ^ lhs.length * c + val rhs = val lhs + B ^ lhs.length := by
  have hl0 : 0 < lhs.length := by omega
  have hr0 : 0 < rhs.length := by omega
  have hr0' : 0 < (rhs.map Digit.notInplace).length := by simpa using hr0
  have ht := val_take_succ hr0'
  have hset := val_set hl0 (DDigit.lo (DDigit.wrappingAdd
    (DDigit.wrappingAdd (Digit.dd lhs[0]) (Digit.dd (Digit.notInplace rhs[0])))
    (Digit.dd Digit.ONE)))
  have hadd := DDigit.lo_add_hi (DDigit.wrappingAdd
    (DDigit.wrappingAdd (Digit.dd lhs[0]) (Digit.dd (Digit.notInplace rhs[0])))
    (Digit.dd Digit.ONE))
  rw [add3_toNat, Digit.ONE_toNat] at hadd
  simp only [List.take_zero, val_nil, Nat.pow_zero, Nat.one_mul, Nat.zero_add,
    List.getElem_map] at ht hset
  have key := addLoop_ok rhs Digit.notInplace (lhs0 := lhs) (c0 := 1) (lo := 1)
    (hi := lhs.length) (base := val lhs)
    (s := (lhs.set 0 (DDigit.lo (DDigit.wrappingAdd
    (DDigit.wrappingAdd (Digit.dd lhs[0]) (Digit.dd (Digit.notInplace rhs[0])))
    (Digit.dd Digit.ONE))), DDigit.hi (DDigit.wrappingAdd
    (DDigit.wrappingAdd (Digit.dd lhs[0]) (Digit.dd (Digit.notInplace rhs[0])))
    (Digit.dd Digit.ONE))))
    h1 (by simp) hlen (Nat.le_refl _) (by
      simp only [ht, pow_one]
      linear_combination hset + hadd)
  obtain ⟨s, e, hs1, hs2⟩ := key
  refine ⟨s.1, s.2.toNat, ?_, hs1, ?_⟩
  · simp only [subDigits, idx_ok hl0, idx_ok hr0, run_bind_ok, upd_ok hl0, DDigit.loHi,
      List.length_set]
    rw [e]
    rfl
  · rw [List.take_of_length_le (by simp [hlen])] at hs2
    have hn := val_map_not rhs
    rw [hlen] at hn
    rw [show Digit.notInplace = fun d => ~~~d from rfl] at hs2
    linear_combination hs2 + hn

theorem wrappingSubAssign_ok {a b : ApInt} (ha : a.Shape) (hb : b.WF) (h : a.len = b.len) :
    Updates (a.wrappingSubAssign b) a.len ((a.uval + (2 ^ a.w - b.uval)) % 2 ^ a.w) := by
  have hw : a.w = b.w := by unfold w; rw [h]
  have hlt := hb.2
  rw [← hw] at hlt
  unfold wrappingSubAssign
  rcases zipAccessData_ok ha hb.1 h with ⟨x, y, ex, ey, h1, e⟩ | ⟨xs, ys, ex, ey, h1, h2, h3, e⟩
  · obtain ⟨c, e2, h4, h5, h6⟩ := clear_inl h1 (Digit.wrappingSub x y)
    refine ⟨c, by simp [e, e2], h4, h5, ?_⟩
    have hu : b.uval = y.toNat := by simp [uval, digits, ey]
    have hu' : a.uval = x.toNat := by simp [uval, digits, ex]
    rw [h6, Digit.wrappingSub, BitVec.toNat_sub, ← B_eq, mod_B_mod h1, hu, hu']
    rw [hu] at hlt
    obtain ⟨k, hk⟩ := Nat.exists_eq_add_of_le h1
    have hB : B = 2 ^ a.w * 2 ^ k := by rw [B_eq, hk, Nat.pow_add]
    obtain ⟨m, hm⟩ : ∃ m, 2 ^ k = m + 1 :=
      ⟨2 ^ k - 1, by have := Nat.pow_pos (n := k) (by decide : 0 < 2); omega⟩
    rw [hm, Nat.mul_add, Nat.mul_one] at hB
    rw [hB, show 2 ^ a.w * m + 2 ^ a.w - y.toNat + x.toNat
      = x.toNat + (2 ^ a.w - y.toNat) + 2 ^ a.w * m by omega, Nat.add_mul_mod_self_left]
  · obtain ⟨l, cr, es, hs1, hs2⟩ := subDigits_ok (lhs := xs) (rhs := ys)
      (by rw [h2, h3]) (by omega)
    obtain ⟨c, e2, h4, h5, h6⟩ := clear_ext h1 (ds := l) (by rw [hs1, h2])
    refine ⟨c, by simp [e, es, e2], h4, h5, ?_⟩
    have hu : b.uval = val ys := by simp [uval, digits, ey]
    have hu' : a.uval = val xs := by simp [uval, digits, ex]
    rw [h6, hu, hu']
    rw [hu] at hlt
    obtain ⟨k, hk⟩ := Nat.exists_eq_add_of_le (show a.w ≤ 64 * xs.length by omega)
    have hB : B ^ xs.length = 2 ^ a.w * 2 ^ k := by rw [B_pow, hk, Nat.pow_add]
    obtain ⟨m, hm⟩ : ∃ m, 2 ^ k = m + 1 :=
      ⟨2 ^ k - 1, by have := Nat.pow_pos (n := k) (by decide : 0 < 2); omega⟩
    have e3 : val l + 2 ^ a.w * (2 ^ k * cr)
        = val xs + (2 ^ a.w - val ys) + 2 ^ a.w * m := by
      rw [hB] at hs2
      rw [← Nat.mul_assoc]
      rw [hm, Nat.mul_add, Nat.mul_one] at hs2 ⊢
      omega
    calc val l % 2 ^ a.w = (val l + 2 ^ a.w * (2 ^ k * cr)) % 2 ^ a.w := by
          rw [Nat.add_mul_mod_self_left]
      _ = _ := by rw [e3, Nat.add_mul_mod_self_left]

theorem wrappingSubAssign_err {a b : ApInt} (h : a.len ≠ b.len) :
    a.wrappingSubAssign b = .ok (.error (.unmatchingBitwidth a.len b.len), a) := by
  simp [wrappingSubAssign, zipAccessData_err h]

/-! ## Consuming forms -/

theorem into_of_updates {β : Type} {a : ApInt} {b : β} {op : ApInt → β → Run (Res Unit × ApInt)}
    {len : BitWidth} {v : Nat} (h : Updates (op a b) len v) :
    ReturnsOk (tryForwardBinMutImpl a b op) len v := by
  obtain ⟨c, e, h1, h2, h3⟩ := h
  exact ⟨c, by simp [tryForwardBinMutImpl, e], h1, h2, h3⟩

theorem into_of_error {β : Type} {a c : ApInt} {b : β} {op : ApInt → β → Run (Res Unit × ApInt)}
    {e : Err} (h : op a b = .ok (.error e, c)) :
    tryForwardBinMutImpl a b op = .ok (.error e) := by
  simp [tryForwardBinMutImpl, h]

theorem forwardMutImpl_eq {α : Type} (a : α) (op : α → Run α) : forwardMutImpl a op = op a := by
  unfold forwardMutImpl
  cases op a <;> rfl

theorem forwardBinMutImpl_eq {α β : Type} (a : α) (b : β) (op : α → β → Run α) :
    forwardBinMutImpl a b op = op a b := by
  unfold forwardBinMutImpl
  cases op a b <;> rfl

end ApInt

end Verif
