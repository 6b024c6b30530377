import Verif.Model.Relational
import Verif.Proof.Casting

/-! # Comparisons -/

namespace Verif

namespace ApInt

theorem eq_ok {a b : ApInt} (ha : a.Shape) (hb : b.Shape) :
    a.eq b = .ok (decide (a.len = b.len ∧ a.uval = b.uval)) := by
  unfold ApInt.eq lenBits
  by_cases hl : a.len = b.len
  · rw [if_neg (by simp [hl])]
    simp only [asDigitSlice_ok ha, asDigitSlice_ok hb, run_bind_ok, run_pure]
    congr 1
    have : (a.digits == b.digits) = decide (a.digits = b.digits) := by
      by_cases h : a.digits = b.digits <;> simp [h]
    rw [this, decide_eq_decide]
    constructor
    · intro h; exact ⟨hl, by unfold uval; rw [h]⟩
    · intro h; rw [ext_of_uval ha hb hl h.2]
  · rw [if_pos (by intro h; exact hl (BitWidth.ext h))]
    simp [hl]

theorem ultLoop_eq : ∀ (n : Nat) (xs ys : List Digit), xs.length = n → ys.length = n →
    ultLoop (xs.reverse.zip ys.reverse) = decide (val xs < val ys) := by
  intro n
  induction n with
  | zero =>
    intro xs ys hx hy
    rw [List.length_eq_zero_iff.mp hx, List.length_eq_zero_iff.mp hy]
    rfl
  | succ n ih =>
    intro xs ys hx hy
    obtain ⟨xi, x, rfl⟩ : ∃ xi x, xs = xi ++ [x] :=
      ⟨xs.dropLast, xs.getLast (by intro h; simp [h] at hx),
        (List.dropLast_concat_getLast _).symm⟩
    obtain ⟨yi, y, rfl⟩ : ∃ yi y, ys = yi ++ [y] :=
      ⟨ys.dropLast, ys.getLast (by intro h; simp [h] at hy),
        (List.dropLast_concat_getLast _).symm⟩
    simp only [List.length_append, List.length_singleton, Nat.add_right_cancel_iff] at hx hy
    have hxl := val_lt xi
    have hyl := val_lt yi
    rw [hx] at hxl
    rw [hy] at hyl
    simp only [List.reverse_append, List.reverse_cons, List.reverse_nil, List.nil_append,
      List.singleton_append, List.zip_cons_cons, ultLoop, val_append, val_singleton, hx, hy]
    by_cases h1 : x.toNat < y.toNat
    · rw [if_pos h1]
      have : B ^ n * (x.toNat + 1) ≤ B ^ n * y.toNat := Nat.mul_le_mul_left _ h1
      rw [Nat.mul_add] at this
      simp only [true_eq_decide_iff]
      omega
    · rw [if_neg h1]
      by_cases h2 : y.toNat < x.toNat
      · rw [if_pos h2]
        have : B ^ n * (y.toNat + 1) ≤ B ^ n * x.toNat := Nat.mul_le_mul_left _ h2
        rw [Nat.mul_add] at this
        simp only [false_eq_decide_iff]
        omega
      · rw [if_neg h2, ih xi yi hx hy]
        have : x.toNat = y.toNat := by omega
        rw [this]
        congr 1
        simp

theorem checkedUlt_ok {a b : ApInt} (ha : a.Shape) (hb : b.Shape) (h : a.len = b.len) :
    a.checkedUlt b = .ok (.ok (decide (a.uval < b.uval))) := by
  unfold checkedUlt
  rcases zipAccessData_ok ha hb h with ⟨x, y, ex, ey, h1, e⟩ | ⟨xs, ys, ex, ey, h1, h2, h3, e⟩
  · simp [e, uval, digits, ex, ey]
  · simp [e, ultLoop_eq _ xs ys h2 h3, uval, digits, ex, ey]

theorem checkedUlt_err {a b : ApInt} (h : a.len ≠ b.len) :
    a.checkedUlt b = .ok (.error (.unmatchingBitwidth a.len b.len)) := by
  simp [checkedUlt, zipAccessData_err h]

theorem checkedUle_ok {a b : ApInt} (ha : a.Shape) (hb : b.Shape) (h : a.len = b.len) :
    a.checkedUle b = .ok (.ok (decide (a.uval ≤ b.uval))) := by
  simp only [checkedUle, checkedUlt_ok hb ha h.symm, run_bind_ok, run_pure, mapNot]
  rw [← decide_not]; simp

theorem checkedUgt_ok {a b : ApInt} (ha : a.Shape) (hb : b.Shape) (h : a.len = b.len) :
    a.checkedUgt b = .ok (.ok (decide (b.uval < a.uval))) := checkedUlt_ok hb ha h.symm

theorem checkedUge_ok {a b : ApInt} (ha : a.Shape) (hb : b.Shape) (h : a.len = b.len) :
    a.checkedUge b = .ok (.ok (decide (b.uval ≤ a.uval))) := by
  simp only [checkedUge, checkedUlt_ok ha hb h, run_bind_ok, run_pure, mapNot]
  rw [← decide_not]; simp

/-! ## Signed values -/

theorem sval_eq {a : ApInt} : a.sval =
    if a.uval < 2 ^ (a.w - 1) then (a.uval : Int) else (a.uval : Int) - 2 ^ a.w := rfl

theorem two_pow_pred {w : Nat} (h : 0 < w) : (2:Nat) ^ w = 2 * 2 ^ (w - 1) := by
  obtain ⟨n, rfl⟩ : ∃ n, w = n + 1 := ⟨w - 1, by omega⟩
  rw [Nat.add_sub_cancel, Nat.pow_succ, Nat.mul_comm]

theorem sval_bounds {a : ApInt} (h : a.WF) :
    -(2 ^ (a.w - 1) : Int) ≤ a.sval ∧ a.sval < 2 ^ (a.w - 1) := by
  have h1 := h.2
  have h2 := two_pow_pred a.pos_w
  rw [sval_eq]
  rw [h2] at h1
  have h3 : ((2:Int) ^ a.w) = 2 * 2 ^ (a.w - 1) := by exact_mod_cast h2
  have h4 : ((2 ^ (a.w - 1) : Nat) : Int) = (2:Int) ^ (a.w - 1) := by push_cast; rfl
  rw [h3]
  generalize (2:Nat) ^ (a.w - 1) = p at *
  generalize (2:Int) ^ (a.w - 1) = q at *
  split <;> omega

/-- The signed value of an inline digit moved to the top of the digit. -/
theorem shl_toInt {d : Digit} {w : Nat} (h0 : 0 < w) (hw : w ≤ 64) (hd : d.toNat < 2 ^ w) :
    (d <<< (64 - w)).toInt =
      (if d.toNat < 2 ^ (w - 1) then (d.toNat : Int) else (d.toNat : Int) - 2 ^ w)
        * 2 ^ (64 - w) := by
  have hp := two_pow_pred h0
  have h64 : (2:Nat) ^ 64 = 2 ^ w * 2 ^ (64 - w) := by rw [← Nat.pow_add]; congr 1; omega
  have h64i : (2:Int) ^ 64 = 2 ^ w * 2 ^ (64 - w) := by exact_mod_cast h64
  have hk := two_pow_w_pos (64 - w)
  have hn : (d <<< (64 - w)).toNat = d.toNat * 2 ^ (64 - w) := by
    rw [BitVec.toNat_shiftLeft, Nat.shiftLeft_eq]
    refine Nat.mod_eq_of_lt ?_
    rw [h64]
    exact Nat.mul_lt_mul_of_pos_right hd hk
  rw [BitVec.toInt_eq_toNat_cond, hn, Nat.cast_mul, Nat.cast_pow, Nat.cast_ofNat, Nat.cast_pow,
    Nat.cast_ofNat, h64i, h64, hp, Nat.mul_assoc]
  by_cases hlt : d.toNat < 2 ^ (w - 1)
  · rw [if_pos hlt, if_pos]
    exact Nat.mul_lt_mul_of_pos_left (Nat.mul_lt_mul_of_pos_right hlt hk) (by decide)
  · rw [if_neg hlt, if_neg]
    · ring
    · intro hc
      have := Nat.lt_of_mul_lt_mul_left hc
      exact hlt (Nat.lt_of_mul_lt_mul_right this)

theorem checkedSlt_ok {a b : ApInt} (ha : a.WF) (hb : b.WF) (h : a.len = b.len) :
    a.checkedSlt b = .ok (.ok (decide (a.sval < b.sval))) := by
  have hw := w_eq h
  unfold checkedSlt
  rcases zipAccessData_ok ha.1 hb.1 h with ⟨x, y, ex, ey, h1, e⟩ | ⟨xs, ys, ex, ey, h1, h2, h3, e⟩
  · have hux : a.uval = x.toNat := by simp [uval, digits, ex]
    have huy : b.uval = y.toNat := by simp [uval, digits, ey]
    have hp := a.pos_w
    have h1' : a.width.toUsize ≤ 64 := h1
    have h2' : 64 - a.width.toUsize < 64 := by
      have : a.width.toUsize = a.w := rfl
      omega
    simp only [e, run_bind_ok, csub_ok h1', rawShl_ok _ h2']
    have s1 := shl_toInt (d := x) hp h1 (by rw [← hux]; exact ha.2)
    have s2 := shl_toInt (d := y) hp h1 (by rw [← huy, hw]; exact hb.2)
    have hwid : a.width.toUsize = a.w := rfl
    rw [hwid, s1, s2, sval_eq, sval_eq, hux, huy, ← hw]
    congr 3
    have hk : (0:Int) < 2 ^ (64 - a.w) := by positivity
    rw [eq_iff_iff]
    constructor
    · intro hc; exact lt_of_mul_lt_mul_right hc (le_of_lt hk)
    · intro hc; exact mul_lt_mul_of_pos_right hc hk
  · simp only [e, run_bind_ok, ha.msb_eq, hb.msb_eq]
    have hpa := two_pow_pred a.pos_w
    have hax := ha.2
    have hbx := hb.2
    rw [← hw] at hbx
    have hpi : ((2:Int) ^ a.w) = ((2 ^ a.w : Nat) : Int) := by push_cast; rfl
    rw [sval_eq, sval_eq, ← hw, hpi]
    by_cases ca : 2 ^ (a.w - 1) ≤ a.uval <;> by_cases cb : 2 ^ (a.w - 1) ≤ b.uval
    · simp only [ca, cb, decide_true]
      rw [checkedUgt, checkedUlt_ok ha.1 hb.1 h, if_neg (by omega), if_neg (by omega)]
      congr 3
      rw [eq_iff_iff]
      omega
    · simp only [ca, cb, decide_true, decide_false]
      rw [if_neg (by omega), if_pos (by omega)]
      congr 2
      rw [eq_comm, decide_eq_true_iff]
      omega
    · simp only [ca, cb, decide_true, decide_false]
      rw [if_pos (by omega), if_neg (by omega)]
      congr 2
      rw [eq_comm, decide_eq_false_iff_not]
      omega
    · simp only [ca, cb, decide_false]
      rw [checkedUlt_ok ha.1 hb.1 h, if_pos (by omega), if_pos (by omega)]
      congr 3
      rw [eq_iff_iff]
      omega

theorem checkedSlt_err {a b : ApInt} (h : a.len ≠ b.len) :
    a.checkedSlt b = .ok (.error (.unmatchingBitwidth a.len b.len)) := by
  simp [checkedSlt, zipAccessData_err h]

theorem checkedSle_ok {a b : ApInt} (ha : a.WF) (hb : b.WF) (h : a.len = b.len) :
    a.checkedSle b = .ok (.ok (decide (a.sval ≤ b.sval))) := by
  simp only [checkedSle, checkedSlt_ok hb ha h.symm, run_bind_ok, run_pure, mapNot]
  rw [← decide_not]; simp

theorem checkedSgt_ok {a b : ApInt} (ha : a.WF) (hb : b.WF) (h : a.len = b.len) :
    a.checkedSgt b = .ok (.ok (decide (b.sval < a.sval))) := checkedSlt_ok hb ha h.symm

theorem checkedSge_ok {a b : ApInt} (ha : a.WF) (hb : b.WF) (h : a.len = b.len) :
    a.checkedSge b = .ok (.ok (decide (b.sval ≤ a.sval))) := by
  simp only [checkedSge, checkedSlt_ok ha hb h, run_bind_ok, run_pure, mapNot]
  rw [← decide_not]; simp

end ApInt

end Verif
