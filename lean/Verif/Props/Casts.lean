import Verif.Proof.Ops
import Verif.Props.Witness

/-! # Changing the width, assigning (C23 to C26, C45) -/

namespace Verif.Props

open ApInt Ex

variable {a b : ApInt} {t u : BitWidth}

/-- C23: truncation to a width that is not larger keeps the value modulo `2 ^ t`. -/
theorem C23_truncate (ha : a.WF) (h : t.toUsize ≤ a.w) :
    Updates (a.truncate t) t (a.uval % 2 ^ t.toUsize) ∧
    ReturnsOk (a.intoTruncate t) t (a.uval % 2 ^ t.toUsize) := by
  have h1 := truncate_ok ha h
  exact ⟨h1, into_of_updates h1⟩

example : Updates (b150.truncate (bw 100)) (bw 100) (2 ^ 64) := (C23_truncate b150_wf (by decide)).1
example : Updates (b150.truncate (bw 7)) (bw 7) 0 := (C23_truncate b150_wf (by decide)).1

/-- C23: a larger target is an error and changes nothing. -/
theorem C23_truncate_err (h : a.w < t.toUsize) :
    a.truncate t = .ok (.error (.truncationBitWidthTooLarge t a.len), a) ∧
    a.intoTruncate t = .ok (.error (.truncationBitWidthTooLarge t a.len)) := by
  have h1 := truncate_err h
  exact ⟨h1, by simp [intoTruncate, tryForwardBinMutImpl, h1]⟩

example : (a7.truncate (bw 8)) = .ok (.error (.truncationBitWidthTooLarge (bw 8) (bw 7)), a7) :=
  (C23_truncate_err (by decide)).1

/-- C24: zero extension to a width that is not smaller keeps the unsigned value. -/
theorem C24_zero_extend (ha : a.WF) (h : a.w ≤ t.toUsize) :
    Updates (a.zeroExtend t) t a.uval ∧ ReturnsOk (a.intoZeroExtend t) t a.uval := by
  have h1 := zeroExtend_ok ha h
  exact ⟨h1, into_of_updates h1⟩

example : Updates (b150.zeroExtend (bw 300)) (bw 300) (2 ^ 149 + 2 ^ 64) :=
  (C24_zero_extend b150_wf (by decide)).1

/-- C24: a smaller target is an error and changes nothing. -/
theorem C24_zero_extend_err (h : t.toUsize < a.w) :
    a.zeroExtend t = .ok (.error (.extensionBitWidthTooSmall t a.len), a) ∧
    a.intoZeroExtend t = .ok (.error (.extensionBitWidthTooSmall t a.len)) := by
  have h1 := zeroExtend_err h
  exact ⟨h1, by simp [intoZeroExtend, tryForwardBinMutImpl, h1]⟩

example : (a7.zeroExtend (bw 6)) = .ok (.error (.extensionBitWidthTooSmall (bw 6) (bw 7)), a7) :=
  (C24_zero_extend_err (by decide)).1

/-- C25: sign extension to a width that is not smaller keeps the signed value. -/
theorem C25_sign_extend (ha : a.WF) (h : a.w ≤ t.toUsize) :
    ∃ c, a.signExtend t = .ok (.ok (), c) ∧ a.intoSignExtend t = .ok (.ok c) ∧
      c.WF ∧ c.len = t ∧ c.sval = a.sval := by
  obtain ⟨c, e, h1, h2, h3⟩ := signExtend_ok' ha h
  refine ⟨c, e, by simp [intoSignExtend, tryForwardBinMutImpl, e], h1, h2, ?_⟩
  have hw : c.w = t.toUsize := by unfold w; rw [h2]
  obtain ⟨b1, b2⟩ := sval_bounds ha
  have hp : (2:Int) ^ (a.w - 1) ≤ 2 ^ (c.w - 1) := by
    exact pow_le_pow_right₀ (by norm_num) (by omega)
  exact sval_of_wrap_range h1 (by rw [h3, hw]) (by omega) (by omega)

example : ∃ c, b150.signExtend (bw 300) = .ok (.ok (), c) ∧ c.sval = -2 ^ 149 + 2 ^ 64 := by
  obtain ⟨c, e, -, -, -, h⟩ := C25_sign_extend b150_wf (t := bw 300) (by decide)
  exact ⟨c, e, by rw [h]; decide⟩

/-- C25: a smaller target is an error and changes nothing. -/
theorem C25_sign_extend_err (h : t.toUsize < a.w) :
    a.signExtend t = .ok (.error (.extensionBitWidthTooSmall t a.len), a) ∧
    a.intoSignExtend t = .ok (.error (.extensionBitWidthTooSmall t a.len)) := by
  have h1 := signExtend_err h
  exact ⟨h1, by simp [intoSignExtend, tryForwardBinMutImpl, h1]⟩

example : (b150.signExtend (bw 6)) =
    .ok (.error (.extensionBitWidthTooSmall (bw 6) (bw 150)), b150) :=
  (C25_sign_extend_err (by decide)).1

/-- C26: both resizes always succeed; their values are those of truncation when the target is
not larger, and of zero or sign extension otherwise. -/
theorem C26_resize (ha : a.WF) (t : BitWidth) :
    (∃ c, a.zeroResize t = .ok c ∧ a.intoZeroResize t = .ok c ∧ c.WF ∧ c.len = t ∧
      (t.toUsize ≤ a.w → c.uval = a.uval % 2 ^ t.toUsize ∧ a.truncate t = .ok (.ok (), c)) ∧
      (a.w ≤ t.toUsize → c.uval = a.uval ∧ a.zeroExtend t = .ok (.ok (), c))) ∧
    (∃ c, a.signResize t = .ok c ∧ a.intoSignResize t = .ok c ∧ c.WF ∧ c.len = t ∧
      (t.toUsize ≤ a.w → c.uval = a.uval % 2 ^ t.toUsize ∧ a.truncate t = .ok (.ok (), c)) ∧
      (a.w ≤ t.toUsize → c.sval = a.sval ∧ a.signExtend t = .ok (.ok (), c))) := by
  constructor
  · obtain ⟨c, e, h1, h2, h3⟩ := zeroResize_ok ha t
    refine ⟨c, e, by simp [intoZeroResize, forwardBinMutImpl_eq, e], h1, h2, ?_, ?_⟩
    · intro hle
      obtain ⟨d, f, g1, g2, g3⟩ := truncate_ok ha hle
      refine ⟨h3, ?_⟩
      rw [f, ext_of_uval g1.1 h1.1 (by rw [g2, h2]) (by rw [g3, h3])]
    · intro hle
      obtain ⟨d, f, g1, g2, g3⟩ := zeroExtend_ok ha hle
      have h4 : c.uval = a.uval := by
        rw [h3, Nat.mod_eq_of_lt]
        exact Nat.lt_of_lt_of_le ha.2 (Nat.pow_le_pow_right (by decide) hle)
      refine ⟨h4, ?_⟩
      rw [f, ext_of_uval g1.1 h1.1 (by rw [g2, h2]) (by rw [g3, h4])]
  · obtain ⟨c, e, h1, h2, h3⟩ := signResize_ok ha t
    refine ⟨c, e, by simp [intoSignResize, forwardBinMutImpl_eq, e], h1, h2, ?_, ?_⟩
    · intro hle
      obtain ⟨d, f, g1, g2, g3⟩ := truncate_ok ha hle
      have h4 : c.uval = a.uval % 2 ^ t.toUsize := by rw [h3, truncate_wrap hle]
      refine ⟨h4, ?_⟩
      rw [f, ext_of_uval g1.1 h1.1 (by rw [g2, h2]) (by rw [g3, h4])]
    · intro hle
      obtain ⟨d, f, g1, g2, g3⟩ := signExtend_ok' ha hle
      have hd : d = c := ext_of_uval g1.1 h1.1 (by rw [g2, h2]) (by rw [g3, h3])
      subst hd
      obtain ⟨d', f', -, -, -, h5⟩ := C25_sign_extend ha hle
      rw [f] at f'
      cases f'
      exact ⟨h5, f⟩

example : ∃ c, b150.signResize (bw 300) = .ok c ∧ c.sval = -2 ^ 149 + 2 ^ 64 := by
  obtain ⟨c, e, -, -, -, -, h⟩ := (C26_resize b150_wf (bw 300)).2
  exact ⟨c, e, by rw [(h (by decide)).1]; decide⟩

/-- C26: extending (either way) and truncating back gives back the same integer. -/
theorem C26_round_trip (ha : a.WF) (h : a.w ≤ t.toUsize) :
    (do let c ← a.zeroResize t; c.zeroResize a.len) = .ok a ∧
    (do let c ← a.signResize t; c.signResize a.len) = .ok a := by
  have hp : (2:Nat) ^ a.w ≤ 2 ^ t.toUsize := Nat.pow_le_pow_right (by decide) h
  have h2 := ha.2
  constructor
  · refine Returns.eq ((zeroResize_ok ha t).bind ?_) ha.self
    intro c hc hl hv
    have := zeroResize_ok hc a.len
    rwa [hv, Nat.mod_mod_of_dvd _ (Nat.pow_dvd_pow 2 h), Nat.mod_eq_of_lt ha.2] at this
  · refine Returns.eq ((signResize_ok ha t).bind ?_) ha.self
    intro c hc hl hv
    have hw : c.w = t.toUsize := by unfold w; rw [hl]
    have := signResize_trunc hc (t := a.len) (by rw [hw]; exact h)
    rw [hv, ← signExtend_wrap ha h] at this
    have key : (if a.uval < 2 ^ (a.w - 1) then a.uval
        else a.uval + 2 ^ t.toUsize - 2 ^ a.w) % 2 ^ a.len.toUsize = a.uval := by
      split
      · exact Nat.mod_eq_of_lt ha.2
      · obtain ⟨k, hk⟩ := Nat.exists_eq_add_of_le h
        obtain ⟨m, hm⟩ : ∃ m, 2 ^ k = m + 1 :=
          ⟨2 ^ k - 1, by have := two_pow_w_pos k; omega⟩
        rw [hk, Nat.pow_add, hm, Nat.mul_add, Nat.mul_one,
          show a.uval + (2 ^ a.w * m + 2 ^ a.w) - 2 ^ a.w = a.uval + 2 ^ a.w * m by omega,
          Nat.add_mul_mod_self_left, Nat.mod_eq_of_lt ha.2]
    rwa [key] at this

example : (do let c ← b150.signResize (bw 200); c.signResize (bw 150)) = .ok b150 :=
  (C26_round_trip b150_wf (t := bw 200) (by decide)).2

/-- C26: two growing or two shrinking resizes equal one. -/
theorem C26_two_steps (ha : a.WF) (h : (a.w ≤ t.toUsize ∧ t.toUsize ≤ u.toUsize) ∨
      (t.toUsize ≤ a.w ∧ u.toUsize ≤ t.toUsize)) :
    (do let c ← a.zeroResize t; c.zeroResize u) = a.zeroResize u ∧
    (do let c ← a.signResize t; c.signResize u) = a.signResize u := by
  constructor
  · refine Returns.eq ((zeroResize_ok ha t).bind ?_) (zeroResize_ok ha u)
    intro c hc hl hv
    have := zeroResize_ok hc u
    rcases h with ⟨h1, h2⟩ | ⟨h1, h2⟩
    · rwa [hv, Nat.mod_eq_of_lt (Nat.lt_of_lt_of_le ha.2 (Nat.pow_le_pow_right (by decide) h1))]
        at this
    · rwa [hv, Nat.mod_mod_of_dvd _ (Nat.pow_dvd_pow 2 h2)] at this
  · refine Returns.eq ((signResize_ok ha t).bind ?_) (signResize_ok ha u)
    intro c hc hl hv
    have hw : c.w = t.toUsize := by unfold w; rw [hl]
    have := signResize_ok hc u
    rcases h with ⟨h1, h2⟩ | ⟨h1, h2⟩
    · have hs : c.sval = a.sval := by
        obtain ⟨b1, b2⟩ := sval_bounds ha
        have hp : (2:Int) ^ (a.w - 1) ≤ 2 ^ (c.w - 1) :=
          pow_le_pow_right₀ (by norm_num) (by omega)
        exact sval_of_wrap_range hc (by rw [hv, hw]) (by omega) (by omega)
      rwa [hs] at this
    · rw [← truncate_wrap (by omega), hv, ← truncate_wrap h1,
        Nat.mod_mod_of_dvd _ (Nat.pow_dvd_pow 2 h2)] at this
      rwa [← truncate_wrap (by omega)]

example : (do let c ← b150.signResize (bw 200); c.signResize (bw 300)) = b150.signResize (bw 300) :=
  (C26_two_steps b150_wf (.inl ⟨by decide, by decide⟩)).2

/-- C45: `clone` gives the same integer; `assign` makes the target the source whatever its width;
`strict_assign` does so on equal widths and otherwise reports both widths and changes nothing. -/
theorem C45_assign (ha : a.WF) (hb : b.WF) :
    a.clone = .ok a ∧ a.assign b = .ok b ∧
    (a.len = b.len → a.strictAssign b = .ok (.ok (), b)) ∧
    (a.len ≠ b.len → a.strictAssign b = .ok (.error (.unmatchingBitwidth a.len b.len), a)) :=
  ⟨clone_ok ha.1, assign_ok ha.1 hb.1, strictAssign_ok ha.1 hb.1, strictAssign_err⟩

example : a7.assign b150 = .ok b150 := (C45_assign a7_wf b150_wf).2.1
example : a7.strictAssign b150 = .ok (.error (.unmatchingBitwidth a7.len b150.len), a7) :=
  (C45_assign a7_wf b150_wf).2.2.2 (by decide)

end Verif.Props
