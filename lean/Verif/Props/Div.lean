import Verif.Proof.Div
import Verif.Props.Witness

/-! # Division (C09 to C12, C14) -/

namespace Verif.Props

open ApInt Ex

variable {a b : ApInt}

/-! ## C09: unsigned division -/

/-- C09, the in-place forms.  That `rhs` is untouched by the last two is visible in their type:
they return no new `rhs`. -/
theorem C09_unsigned_division (ha : a.WF) (hb : b.WF) (h : a.len = b.len) (hz : b.uval ≠ 0) :
    Updates2 (a.wrappingUdivremAssign b) a.len (a.uval / b.uval) (a.uval % b.uval) ∧
    Updates2 (a.wrappingUremdivAssign b) a.len (a.uval % b.uval) (a.uval / b.uval) ∧
    Updates (a.wrappingUdivAssign b) a.len (a.uval / b.uval) ∧
    Updates (a.wrappingUremAssign b) a.len (a.uval % b.uval) :=
  ⟨wrappingUdivremAssign_ok ha hb h hz, wrappingUremdivAssign_ok ha hb h hz,
    wrappingUdivAssign_ok ha hb h hz, wrappingUremAssign_ok ha hb h hz⟩

example : Updates2 (a128.wrappingUdivremAssign b128) a128.len 7 (2 ^ 64 - 22) :=
  (C09_unsigned_division a128_wf b128_wf rfl (by decide)).1
example : Updates (b150.wrappingUremAssign a150) b150.len (b150.uval % a150.uval) :=
  (C09_unsigned_division b150_wf a150_wf rfl (by decide)).2.2.2

/-- C09, the consuming forms. -/
theorem C09_consuming (ha : a.WF) (hb : b.WF) (h : a.len = b.len) (hz : b.uval ≠ 0) :
    ReturnsOk (a.intoWrappingUdiv b) a.len (a.uval / b.uval) ∧
    ReturnsOk (a.intoWrappingUrem b) a.len (a.uval % b.uval) :=
  ⟨into_of_updates (wrappingUdivAssign_ok ha hb h hz),
    into_of_updates (wrappingUremAssign_ok ha hb h hz)⟩

example : ReturnsOk (a7.intoWrappingUrem b7) a7.len 40 :=
  (C09_consuming a7_wf b7_wf rfl (by decide)).2

/-! ## C10: the Euclidean identity, through the API -/

/-- C10: dividing, multiplying back and adding the remainder restores the dividend exactly, and
the API agrees that the remainder is smaller than the divisor. -/
theorem C10_euclid (ha : a.WF) (hb : b.WF) (h : a.len = b.len) (hz : b.uval ≠ 0) :
    ∃ q r p, a.wrappingUdivremAssign b = .ok (.ok (), q, r) ∧
      q.wrappingMulAssign b = .ok (.ok (), p) ∧
      p.wrappingAddAssign r = .ok (.ok (), a) ∧
      r.checkedUlt b = .ok (.ok true) := by
  obtain ⟨q, r, e, hq, hr, lq, lr, vq, vr⟩ := wrappingUdivremAssign_ok ha hb h hz
  have hqw : q.w = a.w := by unfold w; rw [lq]
  obtain ⟨p, e2, hp, lp, vp⟩ := wrappingMulAssign_ok hq.1 hb.1 (by rw [lq, h])
  have hpw : p.w = a.w := by unfold w; rw [lp, lq]
  obtain ⟨s, e3, hs, ls, vs⟩ := wrappingAddAssign_ok hp.1 hr.1 (by rw [lp, lq, lr])
  have hlt : r.uval < b.uval := by rw [vr]; exact Nat.mod_lt _ (by omega)
  have hdm := Nat.div_add_mod a.uval b.uval
  rw [Nat.mul_comm] at hdm
  have ha2 := ha.2
  have hpv : p.uval = a.uval / b.uval * b.uval := by
    rw [vp, vq, hqw, Nat.mod_eq_of_lt (by omega)]
  have hsa : s = a := by
    apply ext_of_uval hs.1 ha.1 (by rw [ls, lp, lq])
    rw [vs, hpv, vr, hdm, hpw, Nat.mod_eq_of_lt ha2]
  subst hsa
  exact ⟨q, r, p, e, e2, e3, by rw [checkedUlt_ok hr.1 hb.1 (by rw [lr, h])]; simp [hlt]⟩

example : ∃ q r p, a150.wrappingUdivremAssign b150 = .ok (.ok (), q, r) ∧
      q.wrappingMulAssign b150 = .ok (.ok (), p) ∧
      p.wrappingAddAssign r = .ok (.ok (), a150) ∧
      r.checkedUlt b150 = .ok (.ok true) := C10_euclid a150_wf b150_wf rfl (by decide)

/-- C10, uniqueness: any well-formed pair at that width that multiplies back without overflow and
has a remainder below the divisor is the pair returned. -/
theorem C10_unique (ha : a.WF) (hb : b.WF) (h : a.len = b.len) (hz : b.uval ≠ 0) {q r : ApInt}
    (hq : q.WF) (hr : r.WF) (lq : q.len = a.len) (lr : r.len = a.len)
    (hlt : r.uval < b.uval) (heq : q.uval * b.uval + r.uval = a.uval) :
    a.wrappingUdivremAssign b = .ok (.ok (), q, r) := by
  obtain ⟨q', r', e, hq', hr', lq', lr', vq, vr⟩ := wrappingUdivremAssign_ok ha hb h hz
  have hd : a.uval / b.uval = q.uval := by
    rw [← heq, Nat.mul_comm, Nat.mul_add_div (by omega), Nat.div_eq_of_lt hlt, Nat.add_zero]
  have hm : a.uval % b.uval = r.uval := by
    rw [← heq, Nat.mul_comm, Nat.mul_add_mod, Nat.mod_eq_of_lt hlt]
  have h1 : q' = q := ext_of_uval hq'.1 hq.1 (by rw [lq', lq]) (by rw [vq, hd])
  have h2 : r' = r := ext_of_uval hr'.1 hr.1 (by rw [lr', lr]) (by rw [vr, hm])
  rw [e, h1, h2]

example : a128.wrappingUdivremAssign b128 =
    .ok (.ok (), ⟨bw 128, .ext [7#64, 0#64]⟩, ⟨bw 128, .ext [0xFFFFFFFFFFFFFFEA#64, 0#64]⟩) :=
  C10_unique a128_wf b128_wf rfl (by decide) (by decide) (by decide) rfl rfl (by decide)
    (by decide)

/-! ## C11: signed division -/

/-- C11: truncated quotient and remainder of the signed values, wrapped to the width.
`Int.tdiv` rounds toward zero and `Int.tmod` takes the sign of the dividend. -/
theorem C11_signed_division (ha : a.WF) (hb : b.WF) (h : a.len = b.len) (hz : b.uval ≠ 0) :
    Updates2 (a.wrappingSdivremAssign b) a.len
      (wrap a.w (a.sval.tdiv b.sval)) (wrap a.w (a.sval.tmod b.sval)) ∧
    Updates2 (a.wrappingSremdivAssign b) a.len
      (wrap a.w (a.sval.tmod b.sval)) (wrap a.w (a.sval.tdiv b.sval)) ∧
    Updates (a.wrappingSdivAssign b) a.len (wrap a.w (a.sval.tdiv b.sval)) ∧
    Updates (a.wrappingSremAssign b) a.len (wrap a.w (a.sval.tmod b.sval)) ∧
    ReturnsOk (a.intoWrappingSdiv b) a.len (wrap a.w (a.sval.tdiv b.sval)) ∧
    ReturnsOk (a.intoWrappingSrem b) a.len (wrap a.w (a.sval.tmod b.sval)) :=
  ⟨wrappingSdivremAssign_ok ha hb h hz, wrappingSremdivAssign_ok ha hb h hz,
    wrappingSdivAssign_ok ha hb h hz, wrappingSremAssign_ok ha hb h hz,
    into_of_updates (wrappingSdivAssign_ok ha hb h hz),
    into_of_updates (wrappingSremAssign_ok ha hb h hz)⟩

example : Updates2 (b7.wrappingSdivremAssign a7) b7.len 126 4 := -- 60 / -28 = -2 rest 4
  (C11_signed_division b7_wf a7_wf rfl (by decide)).1

/-- C11, read as signed numbers: quotient and remainder are exact, except that the quotient of
the minimum by -1 does not fit. -/
theorem C11_signed_values (ha : a.WF) (hb : b.WF) (h : a.len = b.len) (hz : b.uval ≠ 0) :
    ∃ q r, a.wrappingSdivremAssign b = .ok (.ok (), q, r) ∧
      (¬ (a.sval = -2 ^ (a.w - 1) ∧ b.sval = -1) → q.sval = a.sval.tdiv b.sval) ∧
      r.sval = a.sval.tmod b.sval := by
  obtain ⟨q, r, e, hq, hr, lq, lr, vq, vr⟩ := wrappingSdivremAssign_ok ha hb h hz
  have hqw : q.w = a.w := by unfold w; rw [lq]
  have hrw : r.w = a.w := by unfold w; rw [lr]
  have hP : (0:Int) < 2 ^ (a.w - 1) := by positivity
  obtain ⟨l1, l2⟩ := sval_range ha
  have hb0 : b.sval ≠ 0 := by
    intro h0
    have := wrap_sval hb
    rw [h0] at this
    simp [wrap] at this
    omega
  refine ⟨q, r, e, ?_, ?_⟩
  · intro hex
    apply sval_of_wrap_range hq (by rw [hqw]; exact vq)
    all_goals rw [hqw]
    all_goals
      have habs : (a.sval.tdiv b.sval).natAbs = a.sval.natAbs / b.sval.natAbs :=
        Int.natAbs_tdiv a.sval b.sval
      have hle : a.sval.natAbs / b.sval.natAbs ≤ a.sval.natAbs := Nat.div_le_self _ _
    · omega
    · by_cases hb1 : b.sval.natAbs = 1
      · rcases Int.natAbs_eq b.sval with hbs | hbs
        · rw [hb1] at hbs; rw [hbs]; simpa using l2
        · rw [hb1] at hbs
          have hbs' : b.sval = -1 := by simpa using hbs
          rw [hbs', Int.tdiv_neg, Int.tdiv_one]
          have : a.sval ≠ -2 ^ (a.w - 1) := fun h1 => hex ⟨h1, hbs'⟩
          omega
      · have : a.sval.natAbs / b.sval.natAbs ≤ a.sval.natAbs / 2 :=
          Nat.div_le_div_left (by omega) (by decide)
        omega
  · apply sval_of_wrap_range hr (by rw [hrw]; exact vr)
    all_goals rw [hrw]
    all_goals
      have habs : (a.sval.tmod b.sval).natAbs = a.sval.natAbs % b.sval.natAbs :=
        Int.natAbs_tmod a.sval b.sval
      have hle : a.sval.natAbs % b.sval.natAbs ≤ a.sval.natAbs := Nat.mod_le _ _
      have hsg := Int.tmod_nonneg (a := a.sval) b.sval
    · omega
    · by_cases h0 : 0 ≤ a.sval
      · omega
      · have : 0 ≤ (-a.sval).tmod b.sval := Int.tmod_nonneg _ (by omega)
        rw [Int.neg_tmod] at this
        omega

example : a7.sval = -28 ∧ b7.sval = 60 ∧ ¬ (a7.sval = -2 ^ (a7.w - 1) ∧ b7.sval = -1) := by decide

/-- C11, the corner: the minimum divided by -1 is the minimum, remainder zero. -/
theorem C11_min_by_minus_one (ha : a.WF) (hb : b.WF) (h : a.len = b.len)
    (hmin : a.sval = -2 ^ (a.w - 1)) (hneg : b.sval = -1) :
    ∃ r, a.wrappingSdivremAssign b = .ok (.ok (), a, r) ∧ r.uval = 0 := by
  have hz : b.uval ≠ 0 := by
    intro h0
    have := wrap_sval hb
    rw [hneg, h0] at this
    have hc := wrap_cast b.w (-1)
    rw [this] at hc
    have hd : (2:Int) ^ b.w ∣ -1 := Int.dvd_of_emod_eq_zero (by exact_mod_cast hc.symm)
    have h2 : (2:Int) ∣ 2 ^ b.w := dvd_pow_self 2 (Nat.pos_iff_ne_zero.mp b.pos_w)
    have h3 : (2:Int) ∣ -1 := dvd_trans h2 hd
    omega
  obtain ⟨q, r, e, hq, hr, lq, lr, vq, vr⟩ := wrappingSdivremAssign_ok ha hb h hz
  rw [hmin, hneg] at vq vr
  have hqa : q = a := by
    apply ext_of_uval hq.1 ha.1 lq
    rw [vq, ← wrap_sval ha, hmin]
    apply wrap_eq
    refine ⟨1, ?_⟩
    have hp : (2:Int) ^ a.w = 2 * 2 ^ (a.w - 1) := by
      have := two_pow_pred a.pos_w
      exact_mod_cast this
    rw [Int.tdiv_neg, Int.tdiv_one, hp]
    ring
  refine ⟨r, by rw [e, hqa], ?_⟩
  rw [vr, Int.tmod_neg, Int.tmod_one]
  simp [wrap]

/-- -64 and -1 at 7 bits. -/
example : ∃ a b : ApInt, a.WF ∧ b.WF ∧ a.len = b.len ∧ a.sval = -2 ^ (a.w - 1) ∧ b.sval = -1 :=
  ⟨⟨bw 7, .inl 64#64⟩, ⟨bw 7, .inl 127#64⟩, by decide, by decide, rfl, by decide, by decide⟩

/-! ## C12: division by zero -/

/-- C12: each of the eight functions reports the division by zero under its own name with the
dividend attached, and hands both operands back unchanged. -/
theorem C12_division_by_zero (ha : a.WF) (hb : b.WF) (h : a.len = b.len) (hz : b.uval = 0) :
    a.wrappingUdivremAssign b = .ok (.error (.divisionByZero .unsignedDivRem a), a, b) ∧
    a.wrappingUremdivAssign b = .ok (.error (.divisionByZero .unsignedRemDiv a), a, b) ∧
    a.wrappingUdivAssign b = .ok (.error (.divisionByZero .unsignedDiv a), a) ∧
    a.wrappingUremAssign b = .ok (.error (.divisionByZero .unsignedRem a), a) ∧
    a.wrappingSdivremAssign b = .ok (.error (.divisionByZero .signedDivRem a), a, b) ∧
    a.wrappingSremdivAssign b = .ok (.error (.divisionByZero .signedRemDiv a), a, b) ∧
    a.wrappingSdivAssign b = .ok (.error (.divisionByZero .signedDiv a), a) ∧
    a.wrappingSremAssign b = .ok (.error (.divisionByZero .signedRem a), a) := by
  obtain ⟨u1, u2, u3, u4⟩ := udiv_zero ha hb h hz
  obtain ⟨s1, s2, s3, s4⟩ := sdiv_zero ha hb hz
  exact ⟨u1, u2, u3, u4, s1, s2, s3, s4⟩

/-- C12, the consuming forms. -/
theorem C12_consuming (ha : a.WF) (hb : b.WF) (h : a.len = b.len) (hz : b.uval = 0) :
    a.intoWrappingUdiv b = .ok (.error (.divisionByZero .unsignedDiv a)) ∧
    a.intoWrappingUrem b = .ok (.error (.divisionByZero .unsignedRem a)) ∧
    a.intoWrappingSdiv b = .ok (.error (.divisionByZero .signedDiv a)) ∧
    a.intoWrappingSrem b = .ok (.error (.divisionByZero .signedRem a)) := by
  obtain ⟨-, -, u3, u4, -, -, s3, s4⟩ := C12_division_by_zero ha hb h hz
  exact ⟨into_of_error u3, into_of_error u4, into_of_error s3, into_of_error s4⟩

example : (⟨bw 65, .ext [0#64, 0#64]⟩ : ApInt).WF ∧
    (⟨bw 65, .ext [0#64, 0#64]⟩ : ApInt).uval = 0 ∧
    a65.wrappingSremAssign ⟨bw 65, .ext [0#64, 0#64]⟩ =
      .ok (.error (.divisionByZero .signedRem a65), a65) :=
  ⟨by decide, by decide,
    (C12_division_by_zero (b := ⟨bw 65, .ext [0#64, 0#64]⟩) a65_wf (by decide) rfl
      (by decide)).2.2.2.2.2.2.2⟩

/-! ## C14: signed division on unmatched widths -/

/-- What the documentation of the signed division family promises on unmatched widths. -/
def C14_claim : Prop := ∀ a b : ApInt, a.WF → b.WF → a.len ≠ b.len →
    a.wrappingSdivremAssign b = .ok (.error (.unmatchingBitwidth a.len b.len), a, b) ∧
    a.wrappingSremdivAssign b = .ok (.error (.unmatchingBitwidth a.len b.len), a, b) ∧
    a.wrappingSdivAssign b = .ok (.error (.unmatchingBitwidth a.len b.len), a) ∧
    a.wrappingSremAssign b = .ok (.error (.unmatchingBitwidth a.len b.len), a)

/-- C14, what the code does: a panic for every nonzero divisor, and the division-by-zero error
when the divisor is zero. -/
theorem C14_behaviour (ha : a.WF) (hb : b.WF) (h : a.len ≠ b.len) :
    (b.uval ≠ 0 →
      a.wrappingSdivremAssign b = .error .panic ∧
      a.wrappingSremdivAssign b = .error .panic ∧
      a.wrappingSdivAssign b = .error .panic ∧
      a.wrappingSremAssign b = .error .panic) ∧
    (b.uval = 0 →
      a.wrappingSdivremAssign b = .ok (.error (.divisionByZero .signedDivRem a), a, b) ∧
      a.wrappingSremdivAssign b = .ok (.error (.divisionByZero .signedRemDiv a), a, b) ∧
      a.wrappingSdivAssign b = .ok (.error (.divisionByZero .signedDiv a), a) ∧
      a.wrappingSremAssign b = .ok (.error (.divisionByZero .signedRem a), a)) :=
  ⟨sdiv_mismatch ha hb h, sdiv_zero ha hb⟩

/-- C14: so do the consuming forms. -/
theorem C14_consuming (ha : a.WF) (hb : b.WF) (h : a.len ≠ b.len) :
    (b.uval ≠ 0 → a.intoWrappingSdiv b = .error .panic ∧ a.intoWrappingSrem b = .error .panic) ∧
    (b.uval = 0 →
      a.intoWrappingSdiv b = .ok (.error (.divisionByZero .signedDiv a)) ∧
      a.intoWrappingSrem b = .ok (.error (.divisionByZero .signedRem a))) := by
  obtain ⟨h1, h2⟩ := C14_behaviour ha hb h
  constructor
  · intro hz
    obtain ⟨-, -, e1, e2⟩ := h1 hz
    unfold intoWrappingSdiv intoWrappingSrem tryForwardBinMutImpl
    rw [e1, e2]
    exact ⟨rfl, rfl⟩
  · intro hz
    obtain ⟨-, -, e1, e2⟩ := h2 hz
    exact ⟨into_of_error e1, into_of_error e2⟩

example : a7.intoWrappingSdiv b65 = .error .panic :=
  ((C14_consuming a7_wf b65_wf (by decide)).1 (by decide)).1

/-- C14: the documented promise is broken, for instance by 100 at 7 bits and 5 at 65 bits. -/
theorem C14_doc_false : ¬ C14_claim := by
  intro hc
  have h1 := (hc a7 b65 a7_wf b65_wf (by decide)).2.2.1
  rw [((C14_behaviour a7_wf b65_wf (by decide)).1 (by decide)).2.2.1] at h1
  cases h1

example : a7.len ≠ b65.len ∧ b65.uval ≠ 0 := by decide

/-! ## C62: long division needs few rounds -/

/-- C62: every round of the long division settles at least 61 bits of the quotient: a quotient below
`2 ^ (61 * k)` takes at most `k` rounds of the main loop.  `divremWithin k` is the code with a loop
that fails after `k` rounds. -/
theorem C62_rounds {k : Nat} {duo div : List Digit} (hl : div.length = duo.length)
    (hz : val div ≠ 0) (hq : val duo / val div < 2 ^ (61 * k)) :
    ∃ q r, divremWithin k duo div = .ok (some (q, r)) ∧ q.length = duo.length ∧
      r.length = duo.length ∧ val q = val duo / val div ∧ val r = val duo % val div := by
  have hV : 0 < val div := Nat.pos_of_ne_zero hz
  refine divremWithin_ok hl hV ?_
  rw [Nat.div_lt_iff_lt_mul hV, Nat.mul_comm] at hq
  exact hq

/-- C62: so two rounds per digit of the operands always suffice, and the result does not depend on
how many more are allowed. -/
theorem C62_enough {k : Nat} {duo div : List Digit} (hl : div.length = duo.length)
    (hz : val div ≠ 0) (hk : 64 * duo.length ≤ 61 * k) :
    divremWithin k duo div = divremDigits duo div ∧
    divremDigits duo div ≠ .error .diverge := by
  have hV : 0 < val div := Nat.pos_of_ne_zero hz
  obtain ⟨q, r, e, l1, l2, h1, h2⟩ := C62_rounds (k := k) hl hz (by
    refine Nat.lt_of_le_of_lt (Nat.div_le_self _ _) ?_
    refine Nat.lt_of_lt_of_le (val_lt_of_le (Nat.le_refl _)) ?_
    rw [B_pow]
    exact Nat.pow_le_pow_right (by decide) hk)
  obtain ⟨q', r', e', l1', l2', h1', h2'⟩ := divremDigits_ok hl hV
  have a1 : q = q' := val_inj (by omega) (by rw [h1, h1'])
  have a2 : r = r' := val_inj (by omega) (by rw [h2, h2'])
  refine ⟨by rw [e, e', a1, a2], ?_⟩
  rw [e']
  intro h
  cases h

/-- A division of six digits by two that needs more than two rounds and at most five. -/
def wide6 : List Digit := [1, 2, 3, 4, 5, 0xfedcba9876543210]
def wide2 : List Digit := [0xffffffffffffffff, 0x8000000000000000, 0, 0, 0, 0]

example : val wide2 ≠ 0 ∧ val wide6 / val wide2 < 2 ^ (61 * 5) := by decide +kernel

example : divremWithin 2 wide6 wide2 = .error .diverge := by
  have h : (match divremWithin 2 wide6 wide2 with | .error .diverge => true | _ => false) = true := by
    decide +kernel
  revert h
  generalize divremWithin 2 wide6 wide2 = r
  intro h
  match r with
  | .error .diverge => rfl

end Verif.Props
