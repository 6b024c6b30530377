import Verif.Proof.DivDigits
import Verif.Proof.Ops

/-! # The public division operations -/

namespace Verif

namespace ApInt

theorem Shape.set_inl {a : ApInt} (h1 : a.w ≤ 64) (d : Digit) :
    ({ a with data := .inl d } : ApInt).Shape := h1

theorem Shape.set_ext {a : ApInt} (h1 : 64 < a.w) {ds : List Digit}
    (h : ds.length = (a.w + 63) / 64) : ({ a with data := .ext ds } : ApInt).Shape := ⟨h1, h⟩

theorem div_lt_pow {a b : ApInt} (ha : a.WF) : a.uval / b.uval < 2 ^ a.w :=
  Nat.lt_of_le_of_lt (Nat.div_le_self _ _) ha.2

theorem mod_lt_pow {a b : ApInt} (ha : a.WF) : a.uval % b.uval < 2 ^ a.w :=
  Nat.lt_of_le_of_lt (Nat.mod_le _ _) ha.2

/-- The division itself does not need the dividend to respect its width. -/
theorem wrappingUdivremAssign_shape {a b : ApInt} (ha : a.Shape) (hb : b.WF) (h : a.len = b.len)
    (hz : b.uval ≠ 0) (hd : a.uval / b.uval < 2 ^ a.w) :
    Updates2 (a.wrappingUdivremAssign b) a.len (a.uval / b.uval) (a.uval % b.uval) := by
  have hw : a.w = b.w := by unfold w; rw [h]
  have hm : a.uval % b.uval < 2 ^ a.w :=
    Nat.lt_trans (Nat.mod_lt _ (Nat.pos_of_ne_zero hz)) (hw ▸ hb.2)
  unfold wrappingUdivremAssign
  rcases zipAccessData_ok ha hb.1 h with ⟨x, y, ex, ey, h1, e⟩ | ⟨xs, ys, ex, ey, h1, h2, h3, e⟩
  · have hu : b.uval = y.toNat := by simp [uval, digits, ey]
    have hu' : a.uval = x.toNat := by simp [uval, digits, ex]
    have hy : Digit.isZero y = false := by rw [Digit.isZero_false_iff]; omega
    obtain ⟨q, r, e2, hq, hr⟩ := digit_divrem_ok (x := x) (y := y) (by omega)
    rw [← hu, ← hu'] at hq hr
    simp only [e, run_bind_ok, hy, Bool.not_false, if_true, e2]
    refine ⟨_, _, rfl, ⟨Shape.set_inl h1 _, ?_⟩, ⟨Shape.set_inl (by omega) _, ?_⟩, rfl, h.symm,
      ?_, ?_⟩
    · simpa [uval, digits, hq] using hd
    · show val [r] < 2 ^ b.w; rw [val_singleton, hr, ← hw]; exact hm
    · simp [uval, digits] at hq ⊢; exact hq
    · simp [uval, digits] at hr ⊢; exact hr
  · have hu : b.uval = val ys := by simp [uval, digits, ey]
    have hu' : a.uval = val xs := by simp [uval, digits, ex]
    obtain ⟨q, r, e2, l1, l2, hq, hr⟩ := divremDigits_ok (duo := xs) (div := ys) (by omega)
      (by omega)
    rw [← hu, ← hu'] at hq hr
    simp only [e, run_bind_ok, e2]
    refine ⟨_, _, rfl, ⟨Shape.set_ext h1 (by omega), ?_⟩, ⟨Shape.set_ext (by omega) (by omega), ?_⟩,
      rfl, h.symm, hq, hr⟩
    · show val q < 2 ^ a.w; rw [hq]; exact hd
    · show val r < 2 ^ b.w; rw [hr, ← hw]; exact hm

theorem wrappingUdivremAssign_ok {a b : ApInt} (ha : a.WF) (hb : b.WF) (h : a.len = b.len)
    (hz : b.uval ≠ 0) :
    Updates2 (a.wrappingUdivremAssign b) a.len (a.uval / b.uval) (a.uval % b.uval) :=
  wrappingUdivremAssign_shape ha.1 hb h hz (div_lt_pow ha)

theorem wrappingUremdivAssign_ok {a b : ApInt} (ha : a.WF) (hb : b.WF) (h : a.len = b.len)
    (hz : b.uval ≠ 0) :
    Updates2 (a.wrappingUremdivAssign b) a.len (a.uval % b.uval) (a.uval / b.uval) := by
  have hw : a.w = b.w := by unfold w; rw [h]
  have hd := div_lt_pow (b := b) ha
  have hm := mod_lt_pow (b := b) ha
  unfold wrappingUremdivAssign
  rcases zipAccessData_ok ha.1 hb.1 h with ⟨x, y, ex, ey, h1, e⟩ | ⟨xs, ys, ex, ey, h1, h2, h3, e⟩
  · have hu : b.uval = y.toNat := by simp [uval, digits, ey]
    have hu' : a.uval = x.toNat := by simp [uval, digits, ex]
    have hy : Digit.isZero y = false := by rw [Digit.isZero_false_iff]; omega
    obtain ⟨q, r, e2, hq, hr⟩ := digit_divrem_ok (x := x) (y := y) (by omega)
    rw [← hu, ← hu'] at hq hr
    simp only [e, run_bind_ok, hy, Bool.not_false, if_true, e2]
    refine ⟨_, _, rfl, ⟨Shape.set_inl h1 _, ?_⟩, ⟨Shape.set_inl (by omega) _, ?_⟩, rfl, h.symm,
      ?_, ?_⟩
    · simpa [uval, digits, hr] using hm
    · show val [q] < 2 ^ b.w; rw [val_singleton, hq, ← hw]; exact hd
    · simp [uval, digits] at hr ⊢; exact hr
    · simp [uval, digits] at hq ⊢; exact hq
  · have hu : b.uval = val ys := by simp [uval, digits, ey]
    have hu' : a.uval = val xs := by simp [uval, digits, ex]
    obtain ⟨r, q, e2, l1, l2, hr, hq⟩ := remdivDigits_ok (duo := xs) (div := ys) (by omega)
      (by omega)
    rw [← hu, ← hu'] at hq hr
    simp only [e, run_bind_ok, e2]
    refine ⟨_, _, rfl, ⟨Shape.set_ext h1 (by omega), ?_⟩, ⟨Shape.set_ext (by omega) (by omega), ?_⟩,
      rfl, h.symm, hr, hq⟩
    · show val r < 2 ^ a.w; rw [hr]; exact hm
    · show val q < 2 ^ b.w; rw [hq, ← hw]; exact hd

theorem wrappingUdivAssign_ok {a b : ApInt} (ha : a.WF) (hb : b.WF) (h : a.len = b.len)
    (hz : b.uval ≠ 0) : Updates (a.wrappingUdivAssign b) a.len (a.uval / b.uval) := by
  have hd := div_lt_pow (b := b) ha
  unfold wrappingUdivAssign
  rcases zipAccessData_ok ha.1 hb.1 h with ⟨x, y, ex, ey, h1, e⟩ | ⟨xs, ys, ex, ey, h1, h2, h3, e⟩
  · have hu : b.uval = y.toNat := by simp [uval, digits, ey]
    have hu' : a.uval = x.toNat := by simp [uval, digits, ex]
    have hy : Digit.isZero y = false := by rw [Digit.isZero_false_iff]; omega
    have hy0 : y ≠ 0 := by rintro rfl; simp at hu; omega
    have hq : (x / y).toNat = a.uval / b.uval := by rw [hu, hu']; exact BitVec.toNat_udiv
    simp only [e, run_bind_ok, hy, Bool.not_false, if_true, Digit.wrappingDiv, if_neg hy0]
    refine ⟨_, rfl, ⟨Shape.set_inl h1 _, ?_⟩, rfl, ?_⟩
    · show val [x / y] < _; rw [val_singleton, hq]; exact hd
    · show val [x / y] = _; rw [val_singleton, hq]
  · have hu : b.uval = val ys := by simp [uval, digits, ey]
    have hu' : a.uval = val xs := by simp [uval, digits, ex]
    obtain ⟨q, r, e2, l1, l2, hq, hr⟩ := divremDigits_ok (duo := xs) (div := ys) (by omega)
      (by omega)
    rw [← hu, ← hu'] at hq
    simp only [e, run_bind_ok, e2]
    refine ⟨_, rfl, ⟨Shape.set_ext h1 (by omega), ?_⟩, rfl, hq⟩
    show val q < 2 ^ a.w; rw [hq]; exact hd

theorem wrappingUremAssign_ok {a b : ApInt} (ha : a.WF) (hb : b.WF) (h : a.len = b.len)
    (hz : b.uval ≠ 0) : Updates (a.wrappingUremAssign b) a.len (a.uval % b.uval) := by
  have hd := mod_lt_pow (b := b) ha
  unfold wrappingUremAssign
  rcases zipAccessData_ok ha.1 hb.1 h with ⟨x, y, ex, ey, h1, e⟩ | ⟨xs, ys, ex, ey, h1, h2, h3, e⟩
  · have hu : b.uval = y.toNat := by simp [uval, digits, ey]
    have hu' : a.uval = x.toNat := by simp [uval, digits, ex]
    have hy : Digit.isZero y = false := by rw [Digit.isZero_false_iff]; omega
    have hy0 : y ≠ 0 := by rintro rfl; simp at hu; omega
    have hq : (x % y).toNat = a.uval % b.uval := by rw [hu, hu']; exact BitVec.toNat_umod
    simp only [e, run_bind_ok, hy, Bool.not_false, if_true, Digit.wrappingRem, if_neg hy0]
    refine ⟨_, rfl, ⟨Shape.set_inl h1 _, ?_⟩, rfl, ?_⟩
    · show val [x % y] < _; rw [val_singleton, hq]; exact hd
    · show val [x % y] = _; rw [val_singleton, hq]
  · have hu : b.uval = val ys := by simp [uval, digits, ey]
    have hu' : a.uval = val xs := by simp [uval, digits, ex]
    obtain ⟨q, r, e2, l1, l2, hq, hr⟩ := remdivDigits_ok (duo := xs) (div := ys) (by omega)
      (by omega)
    rw [← hu, ← hu'] at hq
    simp only [e, run_bind_ok, e2]
    refine ⟨_, rfl, ⟨Shape.set_ext h1 (by omega), ?_⟩, rfl, hq⟩
    show val q < 2 ^ a.w; rw [hq]; exact hd

/-! ## Division by zero -/

theorem udiv_zero {a b : ApInt} (ha : a.WF) (hb : b.WF) (h : a.len = b.len) (hz : b.uval = 0) :
    a.wrappingUdivremAssign b = .ok (.error (.divisionByZero .unsignedDivRem a), a, b) ∧
    a.wrappingUremdivAssign b = .ok (.error (.divisionByZero .unsignedRemDiv a), a, b) ∧
    a.wrappingUdivAssign b = .ok (.error (.divisionByZero .unsignedDiv a), a) ∧
    a.wrappingUremAssign b = .ok (.error (.divisionByZero .unsignedRem a), a) := by
  have hc := clone_ok ha.1
  rcases zipAccessData_ok ha.1 hb.1 h with ⟨x, y, ex, ey, h1, e⟩ | ⟨xs, ys, ex, ey, h1, h2, h3, e⟩
  · have hu : b.uval = y.toNat := by simp [uval, digits, ey]
    have hy : Digit.isZero y = true := by rw [Digit.isZero_iff]; omega
    refine ⟨?_, ?_, ?_, ?_⟩ <;>
      simp [wrappingUdivremAssign, wrappingUremdivAssign, wrappingUdivAssign, wrappingUremAssign,
        e, hy, hc]
  · have hu : b.uval = val ys := by simp [uval, digits, ey]
    have e1 := divremDigits_zero (duo := xs) (div := ys) (by omega)
    have e2 := remdivDigits_zero (duo := xs) (div := ys) (by omega)
    refine ⟨?_, ?_, ?_, ?_⟩ <;>
      simp [wrappingUdivremAssign, wrappingUremdivAssign, wrappingUdivAssign, wrappingUremAssign,
        e, e1, e2, hc]

theorem sdiv_zero {a b : ApInt} (ha : a.WF) (hb : b.WF) (hz : b.uval = 0) :
    a.wrappingSdivremAssign b = .ok (.error (.divisionByZero .signedDivRem a), a, b) ∧
    a.wrappingSremdivAssign b = .ok (.error (.divisionByZero .signedRemDiv a), a, b) ∧
    a.wrappingSdivAssign b = .ok (.error (.divisionByZero .signedDiv a), a) ∧
    a.wrappingSremAssign b = .ok (.error (.divisionByZero .signedRem a), a) := by
  have hc := clone_ok ha.1
  have hi := isZero_ok hb.1
  refine ⟨?_, ?_, ?_, ?_⟩ <;>
    simp [wrappingSdivremAssign, wrappingSremdivAssign, wrappingSdivAssign, wrappingSremAssign,
      hi, hz, hc]

/-! ## Unmatched widths -/

theorem udiv_mismatch {a b : ApInt} (h : a.len ≠ b.len) :
    a.wrappingUdivremAssign b = .ok (.error (.unmatchingBitwidth a.len b.len), a, b) ∧
    a.wrappingUremdivAssign b = .ok (.error (.unmatchingBitwidth a.len b.len), a, b) ∧
    a.wrappingUdivAssign b = .ok (.error (.unmatchingBitwidth a.len b.len), a) ∧
    a.wrappingUremAssign b = .ok (.error (.unmatchingBitwidth a.len b.len), a) := by
  refine ⟨?_, ?_, ?_, ?_⟩ <;>
    simp [wrappingUdivremAssign, wrappingUremdivAssign, wrappingUdivAssign, wrappingUremAssign,
      zipAccessData_err h]

/-! ## Signed division -/

theorem msb_sval {a : ApInt} (h : a.WF) :
    (a.msb = .ok false ∧ a.sval = a.uval) ∨
    (a.msb = .ok true ∧ a.sval = a.uval - 2 ^ a.w ∧ 0 < a.uval) := by
  rw [msb_ok h.1, testBit_top a.pos_w h.2]
  unfold sval
  have := two_pow_w_pos (a.w - 1)
  by_cases hc : a.uval < 2 ^ (a.w - 1)
  · left
    have : ¬ 2 ^ (a.w - 1) ≤ a.uval := by omega
    simp [hc]
  · right
    simp [hc]
    omega

/-- Negating a negative integer gives its absolute value (as an unsigned number). -/
theorem neg_abs {a : ApInt} (h : a.WF) (hs : a.sval = a.uval - 2 ^ a.w) (hp : 0 < a.uval) :
    ∃ c, a.wrappingNeg = .ok c ∧ c.WF ∧ c.len = a.len ∧ (c.uval : Int) = -a.sval := by
  obtain ⟨c, e, h1, h2, h3⟩ := wrappingNeg_ok h
  refine ⟨c, e, h1, h2, ?_⟩
  have := h.2
  rw [h3, Nat.mod_eq_of_lt (by omega), hs, Nat.cast_sub (by omega)]
  push_cast
  ring

theorem negIf_ok {a : ApInt} (h : a.WF) (s : Bool) :
    Returns (negIf s a) a.len (wrap a.w (if s then -(a.uval : Int) else a.uval)) := by
  cases s
  · simp only [negIf, Bool.false_eq_true, if_false]
    rw [wrap_of_lt h.2]
    exact h.self
  · simp only [negIf, if_true]
    have h2 := wrappingNeg_ok h
    have h3 := h.2
    rwa [wrap_of_nat (x := -(a.uval : Int)) (w := a.w) ⟨1, by
      push_cast [Nat.cast_sub (Nat.le_of_lt h3)]; ring⟩] at h2

/-- The four sign combinations of the signed division family. -/
theorem sdiv_cases {a b : ApInt} (ha : a.WF) (hb : b.WF) (h : a.len = b.len)
    (hz : b.uval ≠ 0) :
    ∃ (sa sb : Bool) (a' b' : ApInt), a.msb = .ok sa ∧ b.msb = .ok sb ∧
      (sa = false → a' = a) ∧ (sa = true → a.wrappingNeg = .ok a') ∧
      (sb = false → b' = b) ∧ (sb = true → b.wrappingNeg = .ok b') ∧
      a'.WF ∧ b'.WF ∧ a'.len = a.len ∧ b'.len = a.len ∧ b'.uval ≠ 0 ∧
      a.sval = (if sa then -(a'.uval : Int) else a'.uval) ∧
      b.sval = (if sb then -(b'.uval : Int) else b'.uval) := by
  rcases msb_sval ha with ⟨m1, v1⟩ | ⟨m1, v1, p1⟩ <;> rcases msb_sval hb with ⟨m2, v2⟩ | ⟨m2, v2, p2⟩
  · exact ⟨false, false, a, b, m1, m2, fun _ => rfl, by simp, fun _ => rfl, by simp, ha, hb, rfl,
      h.symm, hz, by simp [v1], by simp [v2]⟩
  · obtain ⟨c, e, h1, h2, h3⟩ := neg_abs hb v2 p2
    have := hb.2
    refine ⟨false, true, a, c, m1, m2, fun _ => rfl, by simp, by simp, fun _ => e, ha, h1, rfl,
      by rw [h2, h], ?_, by simp [v1], by simp [h3]⟩
    zify at *
    omega
  · obtain ⟨c, e, h1, h2, h3⟩ := neg_abs ha v1 p1
    exact ⟨true, false, c, b, m1, m2, by simp, fun _ => e, fun _ => rfl, by simp, h1, hb, h2,
      h.symm, hz, by simp [h3], by simp [v2]⟩
  · obtain ⟨c, e, h1, h2, h3⟩ := neg_abs ha v1 p1
    obtain ⟨d, e', h1', h2', h3'⟩ := neg_abs hb v2 p2
    have := hb.2
    refine ⟨true, true, c, d, m1, m2, by simp, fun _ => e, by simp, fun _ => e', h1, h1', h2,
      by rw [h2', h], ?_, by simp [h3], by simp [h3']⟩
    zify at *
    omega

theorem tdiv_signs (x y : Nat) (sx sy : Bool) :
    Int.tdiv (if sx then -(x : Int) else x) (if sy then -(y : Int) else y)
      = if sx != sy then -((x / y : Nat) : Int) else ((x / y : Nat) : Int) := by
  cases sx <;> cases sy <;> simp [Int.neg_tdiv, Int.tdiv_neg]

theorem tmod_signs (x y : Nat) (sx sy : Bool) :
    Int.tmod (if sx then -(x : Int) else x) (if sy then -(y : Int) else y)
      = if sx then -((x % y : Nat) : Int) else ((x % y : Nat) : Int) := by
  cases sx <;> cases sy <;> simp [Int.neg_tmod, Int.tmod_neg, ← Int.ofNat_tmod]

theorem wrappingSdivremAssign_ok {a b : ApInt} (ha : a.WF) (hb : b.WF) (h : a.len = b.len)
    (hz : b.uval ≠ 0) :
    Updates2 (a.wrappingSdivremAssign b) a.len (wrap a.w (a.sval.tdiv b.sval))
      (wrap a.w (a.sval.tmod b.sval)) := by
  obtain ⟨sa, sb, a', b', m1, m2, c1, c2, c3, c4, w1, w2, l1, l2, nz, v1, v2⟩ :=
    sdiv_cases ha hb h hz
  obtain ⟨q, r, e, q1, r1, q2, r2, q3, r3⟩ :=
    wrappingUdivremAssign_ok w1 w2 (by rw [l1, l2]) nz
  have hqw : q.w = a.w := by unfold w; rw [q2, l1]
  have hrw : r.w = a.w := by unfold w; rw [r2, l1]
  obtain ⟨q', eq', q4, q5, q6⟩ := negIf_ok q1 (sa != sb)
  obtain ⟨r', er', r4, r5, r6⟩ := negIf_ok r1 sa
  rw [v1, v2, tdiv_signs, tmod_signs, ← q3, ← r3, ← hqw]
  refine ⟨q', r', ?_, q4, r4, by rw [q5, q2, l1], by rw [r5, r2, l1], q6, by rw [r6, hrw, hqw]⟩
  unfold wrappingSdivremAssign
  rw [isZero_ok hb.1]
  simp only [hz, decide_false, run_bind_ok, Bool.false_eq_true, if_false, m1, m2]
  cases sa <;> cases sb
  · obtain rfl := c1 rfl; obtain rfl := c3 rfl
    simp only [bne_self_eq_false] at eq'
    simp only [e, run_bind_ok, expect_ok, eq', er']
  · obtain rfl := c1 rfl
    simp only [show (false != true) = true from rfl] at eq'
    simp only [c4 rfl, e, run_bind_ok, expect_ok, eq', er']
  · obtain rfl := c3 rfl
    simp only [show (true != false) = true from rfl] at eq'
    simp only [c2 rfl, e, run_bind_ok, expect_ok, eq', er']
  · simp only [bne_self_eq_false] at eq'
    simp only [c2 rfl, c4 rfl, e, run_bind_ok, expect_ok, eq', er']

theorem wrappingSremdivAssign_ok {a b : ApInt} (ha : a.WF) (hb : b.WF) (h : a.len = b.len)
    (hz : b.uval ≠ 0) :
    Updates2 (a.wrappingSremdivAssign b) a.len (wrap a.w (a.sval.tmod b.sval))
      (wrap a.w (a.sval.tdiv b.sval)) := by
  obtain ⟨sa, sb, a', b', m1, m2, c1, c2, c3, c4, w1, w2, l1, l2, nz, v1, v2⟩ :=
    sdiv_cases ha hb h hz
  obtain ⟨r, q, e, r1, q1, r2, q2, r3, q3⟩ :=
    wrappingUremdivAssign_ok w1 w2 (by rw [l1, l2]) nz
  have hqw : q.w = a.w := by unfold w; rw [q2, l1]
  have hrw : r.w = a.w := by unfold w; rw [r2, l1]
  obtain ⟨q', eq', q4, q5, q6⟩ := negIf_ok q1 (sa != sb)
  obtain ⟨r', er', r4, r5, r6⟩ := negIf_ok r1 sa
  rw [v1, v2, tdiv_signs, tmod_signs, ← q3, ← r3, ← hqw]
  refine ⟨r', q', ?_, r4, q4, by rw [r5, r2, l1], by rw [q5, q2, l1], by rw [r6, hrw, hqw], q6⟩
  unfold wrappingSremdivAssign
  rw [isZero_ok hb.1]
  simp only [hz, decide_false, run_bind_ok, Bool.false_eq_true, if_false, m1, m2]
  cases sa <;> cases sb
  · obtain rfl := c1 rfl; obtain rfl := c3 rfl
    simp only [bne_self_eq_false] at eq'
    simp only [e, run_bind_ok, expect_ok, eq', er']
  · obtain rfl := c1 rfl
    simp only [show (false != true) = true from rfl] at eq'
    simp only [c4 rfl, e, run_bind_ok, expect_ok, eq', er']
  · obtain rfl := c3 rfl
    simp only [show (true != false) = true from rfl] at eq'
    simp only [c2 rfl, e, run_bind_ok, expect_ok, eq', er']
  · simp only [bne_self_eq_false] at eq'
    simp only [c2 rfl, c4 rfl, e, run_bind_ok, expect_ok, eq', er']

theorem wrappingSdivAssign_ok {a b : ApInt} (ha : a.WF) (hb : b.WF) (h : a.len = b.len)
    (hz : b.uval ≠ 0) :
    Updates (a.wrappingSdivAssign b) a.len (wrap a.w (a.sval.tdiv b.sval)) := by
  obtain ⟨sa, sb, a', b', m1, m2, c1, c2, c3, c4, w1, w2, l1, l2, nz, v1, v2⟩ :=
    sdiv_cases ha hb h hz
  obtain ⟨q, r, e, q1, r1, q2, r2, q3, r3⟩ :=
    wrappingUdivremAssign_ok w1 w2 (by rw [l1, l2]) nz
  have hqw : q.w = a.w := by unfold w; rw [q2, l1]
  obtain ⟨q', eq', q4, q5, q6⟩ := negIf_ok q1 (sa != sb)
  rw [v1, v2, tdiv_signs, ← q3, ← hqw]
  refine ⟨q', ?_, q4, by rw [q5, q2, l1], q6⟩
  unfold wrappingSdivAssign
  rw [isZero_ok hb.1]
  simp only [hz, decide_false, run_bind_ok, Bool.false_eq_true, if_false, m1, m2, clone_ok hb.1]
  cases sa <;> cases sb
  · obtain rfl := c1 rfl; obtain rfl := c3 rfl
    simp only [bne_self_eq_false] at eq'
    simp only [e, run_bind_ok, expect_ok, eq']
  · obtain rfl := c1 rfl
    simp only [show (false != true) = true from rfl] at eq'
    simp only [c4 rfl, e, run_bind_ok, expect_ok, eq']
  · obtain rfl := c3 rfl
    simp only [show (true != false) = true from rfl] at eq'
    simp only [c2 rfl, e, run_bind_ok, expect_ok, eq']
  · simp only [bne_self_eq_false] at eq'
    simp only [c2 rfl, c4 rfl, e, run_bind_ok, expect_ok, eq']

theorem wrappingSremAssign_ok {a b : ApInt} (ha : a.WF) (hb : b.WF) (h : a.len = b.len)
    (hz : b.uval ≠ 0) :
    Updates (a.wrappingSremAssign b) a.len (wrap a.w (a.sval.tmod b.sval)) := by
  obtain ⟨sa, sb, a', b', m1, m2, c1, c2, c3, c4, w1, w2, l1, l2, nz, v1, v2⟩ :=
    sdiv_cases ha hb h hz
  obtain ⟨r, q, e, r1, q1, r2, q2, r3, q3⟩ :=
    wrappingUremdivAssign_ok w1 w2 (by rw [l1, l2]) nz
  have hrw : r.w = a.w := by unfold w; rw [r2, l1]
  obtain ⟨r', er', r4, r5, r6⟩ := negIf_ok r1 sa
  rw [v1, v2, tmod_signs, ← r3, ← hrw]
  refine ⟨r', ?_, r4, by rw [r5, r2, l1], r6⟩
  unfold wrappingSremAssign
  rw [isZero_ok hb.1]
  simp only [hz, decide_false, run_bind_ok, Bool.false_eq_true, if_false, m1, m2, clone_ok hb.1]
  cases sa <;> cases sb
  · obtain rfl := c1 rfl; obtain rfl := c3 rfl
    simp only [e, run_bind_ok, expect_ok, er']
  · obtain rfl := c1 rfl
    simp only [c4 rfl, e, run_bind_ok, expect_ok, er']
  · obtain rfl := c3 rfl
    simp only [c2 rfl, e, run_bind_ok, expect_ok, er']
  · simp only [c2 rfl, c4 rfl, e, run_bind_ok, expect_ok, er']

/-- On unmatched widths and a nonzero divisor the signed family panics. -/
theorem sdiv_mismatch {a b : ApInt} (ha : a.WF) (hb : b.WF) (h : a.len ≠ b.len)
    (hz : b.uval ≠ 0) :
    a.wrappingSdivremAssign b = .error .panic ∧ a.wrappingSremdivAssign b = .error .panic ∧
    a.wrappingSdivAssign b = .error .panic ∧ a.wrappingSremAssign b = .error .panic := by
  obtain ⟨a', e1, -, l1, -⟩ := wrappingNeg_ok ha
  obtain ⟨b', e2, -, l2, -⟩ := wrappingNeg_ok hb
  have x1 := udiv_mismatch (a := a) (b := b) h
  have x2 := udiv_mismatch (a := a') (b := b) (by rwa [l1])
  have x3 := udiv_mismatch (a := a) (b := b') (by rwa [l2])
  have x4 := udiv_mismatch (a := a') (b := b') (by rwa [l1, l2])
  have hi := isZero_ok hb.1
  have hc := clone_ok hb.1
  rcases msb_sval ha with ⟨m1, -⟩ | ⟨m1, -, -⟩ <;> rcases msb_sval hb with ⟨m2, -⟩ | ⟨m2, -, -⟩ <;>
    refine ⟨?_, ?_, ?_, ?_⟩ <;>
    simp [wrappingSdivremAssign, wrappingSremdivAssign, wrappingSdivAssign, wrappingSremAssign,
      hi, hz, hc, m1, m2, e1, e2, x1, x2, x3, x4]

end ApInt

end Verif
