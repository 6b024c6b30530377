import Verif.Model.Casting
import Verif.Proof.Arith

/-! # Constructors from digits, copies, truncation and extension -/

namespace Verif

namespace BitWidth

theorem excessWidth_none {b : BitWidth} (h : b.toUsize % 64 = 0) : b.excessWidth = none := by
  simp [excessWidth, h]

theorem excessWidth_some {b : BitWidth} (h : b.toUsize % 64 ≠ 0) :
    b.excessWidth = some ⟨b.toUsize % 64, Nat.pos_of_ne_zero h⟩ := by
  simp [excessWidth, h]

theorem from_ok {n : Nat} (h : n ≠ 0) : BitWidth.from n = .ok ⟨n, Nat.pos_of_ne_zero h⟩ := by
  simp [BitWidth.from, new_ok h, expect]

theorem eq_iff {a b : BitWidth} : a = b ↔ a.toUsize = b.toUsize :=
  ⟨fun h => by rw [h], BitWidth.ext⟩

end BitWidth

namespace ApInt

theorem w_eq {a b : ApInt} (h : a.len = b.len) : a.w = b.w := by unfold w; rw [h]

theorem two_pow_w_pos (n : Nat) : 0 < (2:Nat) ^ n := Nat.pow_pos (by decide)

/-- A value all of whose digit bits are used is well-formed. -/
theorem Shape.wf_of_aligned {a : ApInt} (h : a.Shape) (hw : a.w % 64 = 0) : a.WF := by
  refine ⟨h, Nat.lt_of_lt_of_le (val_lt _) ?_⟩
  rw [h.length_digits, B_pow]
  exact Nat.pow_le_pow_right (by decide) (by omega)

theorem newInl_ok {len : BitWidth} (d : Digit) (h : len.toUsize ≤ 64) :
    newInl len d = .ok ⟨len, .inl d⟩ := by
  simp [newInl, BitWidth.storage_inl h]

theorem newExt_ok {len : BitWidth} (ds : List Digit) (h : 64 < len.toUsize) :
    newExt len ds = .ok ⟨len, .ext ds⟩ := by
  simp [newExt, BitWidth.storage_ext h]

theorem fromIter_nil : fromIter [] = .ok (.error .expectedNonEmptyDigits) := rfl

theorem fromIter_ok {ds : List Digit} (h : ds ≠ []) :
    ∃ c, fromIter ds = .ok (.ok c) ∧ c.WF ∧ c.w = 64 * ds.length ∧ c.digits = ds := by
  match ds, h with
  | [d], _ =>
    refine ⟨⟨BitWidth.w64, .inl d⟩, rfl, ?_, rfl, rfl⟩
    exact Shape.wf_of_aligned (a := ⟨BitWidth.w64, .inl d⟩) (show 64 ≤ 64 from Nat.le_refl _)
      (show 64 % 64 = 0 by decide)
  | x :: y :: rest, _ =>
    have hne : (x :: y :: rest).length * 64 ≠ 0 := by simp
    have hlt : 64 < (x :: y :: rest).length * 64 := by simp only [List.length_cons]; omega
    have hreq : (BitWidth.mk ((x :: y :: rest).length * 64) (Nat.pos_of_ne_zero hne)).requiredDigits
        = (x :: y :: rest).length := by
      rw [BitWidth.requiredDigits_eq]; simp only; omega
    have hsh : Shape ⟨⟨(x :: y :: rest).length * 64, Nat.pos_of_ne_zero hne⟩,
        .ext (x :: y :: rest)⟩ := shape_ext hlt (by simp only; omega)
    refine ⟨_, ?_, Shape.wf_of_aligned hsh (Nat.mul_mod_left _ _), Nat.mul_comm _ _, rfl⟩
    simp only [fromIter, BitWidth.new_ok hne, expect, run_bind_ok, hreq, ne_eq,
      not_true_eq_false, if_false]
    rw [newExt_ok (len := ⟨(x :: y :: rest).length * 64, Nat.pos_of_ne_zero hne⟩) _ hlt]
    rfl

/-! ## Copies -/

theorem clone_ok {a : ApInt} (h : a.Shape) : a.clone = .ok a := by
  obtain ⟨len, data⟩ := a
  rcases h.cases with ⟨d, e, h1, h2⟩ | ⟨ds, e, h1, h2, h3⟩
  · simp only at e
    subst e
    simp [clone, Shape.storage_inl h1, readInl, newInl_ok _ h1]
  · simp only at e
    subst e
    simp only [clone, Shape.storage_ext h1, asDigitSlice_ok h, run_bind_ok, lenDigits,
      BitWidth.requiredDigits_eq, h3, h2, newExt_ok _ h1]
    simp

theorem copyFromSlice_ok {α : Type} {dst src : List α} (h : dst.length = src.length) :
    copyFromSlice dst src = .ok src := by
  simp [copyFromSlice, h]

theorem lenDigits_eq (a : ApInt) : a.lenDigits = (a.w + 63) / 64 := BitWidth.requiredDigits_eq _

theorem eq_of_digits {a b : ApInt} (ha : a.Shape) (hb : b.Shape) (hl : a.len = b.len)
    (hd : a.digits = b.digits) : a = b :=
  ext_of_uval ha hb hl (by unfold uval; rw [hd])

theorem assign_ok {a b : ApInt} (ha : a.Shape) (hb : b.Shape) : a.assign b = .ok b := by
  unfold assign
  by_cases h : a.lenDigits = b.lenDigits
  · rw [if_pos h]
    rw [lenDigits_eq, lenDigits_eq] at h
    have hl : a.digits.length = b.digits.length := by
      rw [ha.length_digits, hb.length_digits, h]
    obtain ⟨c, e, h1, h2, h3⟩ := writeDigitSlice_ok (a := a) (ds := b.digits)
      (by rw [hb.length_digits, h])
    simp only [asDigitSlice_ok ha, asDigitSlice_ok hb, run_bind_ok, copyFromSlice_ok hl, e]
    congr 1
    rcases h1.cases with ⟨d, e1, h4, h5⟩ | ⟨ds, e1, h4, h5, h6⟩
    · have hwc := w_eq h2
      have hbw : b.w ≤ 64 := by omega
      refine eq_of_digits ?_ hb rfl ?_
      · simp only [Shape, e1]; exact hbw
      · rw [← h3, h5]; simp [digits, e1]
    · have hwc := w_eq h2
      have hbw : 64 < b.w := by omega
      refine eq_of_digits ?_ hb rfl ?_
      · simp only [Shape, e1]
        exact ⟨hbw, show ds.length = (b.w + 63) / 64 by omega⟩
      · rw [← h3, h6]; simp [digits, e1]
  · rw [if_neg h]
    obtain ⟨len, data⟩ := b
    rcases hb.cases with ⟨d, e, h1, h2⟩ | ⟨ds, e, h1, h2, h3⟩
    · simp only at e
      subst e
      simp [Shape.storage_inl h1, readInl]
    · simp [Shape.storage_ext h1, clone_ok hb]

theorem strictAssign_ok {a b : ApInt} (ha : a.Shape) (hb : b.Shape) (h : a.len = b.len) :
    a.strictAssign b = .ok (.ok (), b) := by
  have hw := w_eq h
  obtain ⟨c, e, h1, h2, h3⟩ := writeDigitSlice_ok (a := a) (ds := b.digits)
      (by rw [hb.length_digits, hw])
  have hl : a.digits.length = b.digits.length := by
    rw [ha.length_digits, hb.length_digits, hw]
  have hc : c = b := eq_of_digits h1 hb (by rw [h2, h]) h3
  subst hc
  simp [strictAssign, width, h, asDigitSlice_ok ha, asDigitSlice_ok hb, copyFromSlice_ok hl, e]

theorem strictAssign_err {a b : ApInt} (h : a.len ≠ b.len) :
    a.strictAssign b = .ok (.error (.unmatchingBitwidth a.len b.len), a) := by
  simp [strictAssign, width, h]

/-! ## Truncation -/

/-- Changing the width of a value without changing its number of digits. -/
theorem Shape.setLen {a : ApInt} (h : a.Shape) {t : BitWidth}
    (ht : (a.w + 63) / 64 = (t.toUsize + 63) / 64) :
    Shape { a with len := t } ∧ digits { a with len := t } = a.digits := by
  have hp := t.pos
  have hp' := a.pos_w
  rcases h.cases with ⟨d, e, h1, h2⟩ | ⟨ds, e, h1, h2, h3⟩
  · refine ⟨?_, by simp [digits, e]⟩
    simp only [Shape, e]
    show t.toUsize ≤ 64
    omega
  · refine ⟨?_, by simp [digits, e]⟩
    simp only [Shape, e]
    show 64 < t.toUsize ∧ ds.length = (t.toUsize + 63) / 64
    omega

theorem truncateSameDigits_ok {a : ApInt} (h : a.Shape) {t : BitWidth} (hlt : t.toUsize < a.w)
    (hd : (a.w + 63) / 64 = (t.toUsize + 63) / 64) :
    Updates (a.truncateSameDigits t) t (a.uval % 2 ^ t.toUsize) := by
  have hp := t.pos
  have h0 : t.toUsize % 64 ≠ 0 := by omega
  obtain ⟨ds, d, e1, e2⟩ := mostSignificantDigit_ok h
  obtain ⟨d', e3, h3⟩ := Digit.truncateTo_ok d
    (t := ⟨t.toUsize % 64, Nat.pos_of_ne_zero h0⟩) (by simp only; omega)
  obtain ⟨c, e4, h4, h5, h6⟩ := setMostSignificantDigit_ok h e1 d'
  have hw := w_eq h5
  obtain ⟨h7, h8⟩ := h4.setLen (t := t) (by omega)
  have hv : uval { c with len := t } = a.uval % 2 ^ t.toUsize := by
    unfold uval
    rw [h8, h6, e1]
    have hl := h.length_digits
    rw [e1, List.length_append, List.length_singleton] at hl
    exact val_clear_top (by omega) h0 h3
  refine ⟨{ c with len := t }, ?_, ⟨h7, ?_⟩, rfl, hv⟩
  · simp [truncateSameDigits, BitWidth.excessBits_some h0, e2, BitWidth.from_ok h0, e3, e4, expect]
  · rw [hv]; exact Nat.mod_lt _ (two_pow_w_pos _)

theorem truncateAux_same {a : ApInt} (h : a.WF) {t : BitWidth} {fuel : Nat} (hle : t.toUsize ≤ a.w)
    (hd : (a.w + 63) / 64 = (t.toUsize + 63) / 64) :
    Updates (truncateAux (fuel + 1) a t) t (a.uval % 2 ^ t.toUsize) := by
  unfold truncateAux
  by_cases he : t = a.len
  · subst he
    exact ⟨a, by simp [width], h, rfl, (Nat.mod_eq_of_lt h.2).symm⟩
  · have hlt : t.toUsize < a.w := by
      have : t.toUsize ≠ a.w := fun hc => he (BitWidth.ext hc)
      omega
    simp only [width, he, if_false, show ¬ (t.toUsize > a.len.toUsize) from by
      have : a.w = a.len.toUsize := rfl
      omega, BitWidth.requiredDigits_eq, hd, if_true]
    exact truncateSameDigits_ok h.1 hlt hd

theorem truncate_ok {a : ApInt} (h : a.WF) {t : BitWidth} (hle : t.toUsize ≤ a.w) :
    Updates (a.truncate t) t (a.uval % 2 ^ t.toUsize) := by
  by_cases hd : (a.w + 63) / 64 = (t.toUsize + 63) / 64
  · exact truncateAux_same h hle hd
  have hp := t.pos
  have hlt : t.toUsize < a.w := by
    have : t.toUsize ≠ a.w := fun hc => hd (by rw [hc])
    omega
  have hne : t ≠ a.len := fun hc => by rw [hc] at hlt; exact Nat.lt_irrefl _ hlt
  have hlen := h.1.length_digits
  have hlt' : (a.digits.take ((t.toUsize + 63) / 64)).length = (t.toUsize + 63) / 64 := by
    rw [List.length_take, hlen]; omega
  obtain ⟨c, e1, h1, h2, h3⟩ := fromIter_ok (ds := a.digits.take ((t.toUsize + 63) / 64))
    (by intro hc; rw [hc] at hlt'; simp at hlt'; omega)
  rw [hlt'] at h2
  have hcv : c.uval % 2 ^ t.toUsize = a.uval % 2 ^ t.toUsize := by
    unfold uval
    rw [h3, val_take, mod_Bn_mod (by omega)]
  have hstart : truncate a t = (do
      let truncatedCopy ← Except.ok c
      if truncatedCopy.width ≠ t then do
        let (r, truncatedCopy) ← truncateAux 1 truncatedCopy t
        match r with
        | .error e => .ok (.error e, a)
        | .ok () => .ok (.ok (), truncatedCopy)
      else .ok (.ok (), truncatedCopy)) := by
    unfold truncate
    rw [truncateAux]
    simp only [width, hne, if_false, show ¬ (t.toUsize > a.len.toUsize) from by
      have : a.w = a.len.toUsize := rfl
      omega, BitWidth.requiredDigits_eq, asDigitSlice_ok h.1, run_bind_ok, e1, expect]
    have hd' : ¬ ((a.len.toUsize + 63) / 64 = (t.toUsize + 63) / 64) := hd
    simp only [hd', if_false]
    rfl
  rw [hstart]
  simp only [run_bind_ok]
  by_cases hcw : c.width ≠ t
  · rw [if_pos hcw]
    obtain ⟨x, e2, h4, h5, h6⟩ := truncateAux_same (fuel := 0) h1 (t := t)
      (by rw [h2]; omega) (by rw [h2]; omega)
    exact ⟨x, by simp [e2], h4, h5, by rw [h6, hcv]⟩
  · rw [if_neg hcw]
    have hct : c.len = t := by simpa [width] using hcw
    refine ⟨c, rfl, h1, hct, ?_⟩
    rw [← hcv, Nat.mod_eq_of_lt]
    have := h1.2
    rwa [show c.w = t.toUsize by unfold w; rw [hct]] at this

theorem truncate_err {a : ApInt} {t : BitWidth} (h : a.w < t.toUsize) :
    a.truncate t = .ok (.error (.truncationBitWidthTooLarge t a.len), a) := by
  have hne : t ≠ a.len := fun hc => by rw [hc] at h; exact Nat.lt_irrefl _ h
  unfold truncate truncateAux
  simp only [width, hne, if_false, show t.toUsize > a.len.toUsize from h, if_true]

/-! ## Zero extension -/

theorem zeroExtend_ok {a : ApInt} (h : a.WF) {t : BitWidth} (hle : a.w ≤ t.toUsize) :
    Updates (a.zeroExtend t) t a.uval := by
  unfold zeroExtend
  by_cases he : t = a.len
  · subst he
    exact ⟨a, by simp [width], h, rfl, rfl⟩
  have hlt : a.w < t.toUsize := by
    have : t.toUsize ≠ a.w := fun hc => he (BitWidth.ext hc)
    omega
  have hp := a.pos_w
  have hlt2 : a.uval < 2 ^ t.toUsize :=
    Nat.lt_of_lt_of_le h.2 (Nat.pow_le_pow_right (by decide) hle)
  simp only [width, he, if_false, show ¬ (t.toUsize < a.len.toUsize) from by
      have : a.w = a.len.toUsize := rfl
      omega, BitWidth.requiredDigits_eq]
  by_cases hd : (a.len.toUsize + 63) / 64 = (t.toUsize + 63) / 64
  · rw [if_pos hd]
    obtain ⟨h7, h8⟩ := h.1.setLen (t := t) hd
    have hv : uval { a with len := t } = a.uval := by unfold uval; rw [h8]
    exact ⟨_, rfl, ⟨h7, by rw [hv]; exact hlt2⟩, rfl, hv⟩
  · have hlt' : a.len.toUsize < t.toUsize := hlt
    rw [if_neg hd, if_neg (by omega), csub_ok (by omega)]
    have hlen := h.1.length_digits
    have hwl : a.w = a.len.toUsize := rfl
    obtain ⟨c, e1, h1, h2, h3⟩ := fromIter_ok (ds := a.digits ++ List.replicate
      ((t.toUsize + 63) / 64 - (a.len.toUsize + 63) / 64) Digit.ZERO) (by
        intro hc
        have := congrArg List.length hc
        simp [hlen] at this
        omega)
    rw [List.length_append, List.length_replicate, hlen] at h2
    have hcv : c.uval = a.uval := by
      unfold uval
      rw [h3, val_append, show Digit.ZERO = 0#64 from rfl, val_replicate_zero, Nat.mul_zero, Nat.add_zero]
    obtain ⟨x, e2, h4, h5, h6⟩ := into_of_updates (truncate_ok h1 (t := t) (by rw [h2]; omega))
    refine ⟨x, ?_, h4, h5, ?_⟩
    · simp only [run_bind_ok, asDigitSlice_ok h.1, e1, intoTruncate, e2]
    · rw [h6, hcv, Nat.mod_eq_of_lt hlt2]

theorem zeroExtend_err {a : ApInt} {t : BitWidth} (h : t.toUsize < a.w) :
    a.zeroExtend t = .ok (.error (.extensionBitWidthTooSmall t a.len), a) := by
  have hne : t ≠ a.len := fun hc => by rw [hc] at h; exact Nat.lt_irrefl _ h
  unfold zeroExtend
  simp only [width, hne, if_false, show t.toUsize < a.len.toUsize from h, if_true]

/-! ## Sign extension -/

/-- The value of a negative integer after sign-extending its most significant digit. -/
theorem signExtendMsd_ok {a : ApInt} {n : BitWidth} (h : a.Shape) (hu : a.uval < 2 ^ n.toUsize)
    (hn : (a.w + 63) / 64 = (n.toUsize + 63) / 64) (hneg : 2 ^ (n.toUsize - 1) ≤ a.uval) :
    ∃ c, a.signExtendMsd n = .ok (.ok (), c) ∧ c.Shape ∧ c.len = a.len ∧
      c.uval + 2 ^ n.toUsize = a.uval + B ^ ((n.toUsize + 63) / 64) := by
  have hp := n.pos
  unfold signExtendMsd
  by_cases h0 : n.toUsize % 64 = 0
  · rw [BitWidth.excessWidth_none h0]
    refine ⟨a, rfl, h, rfl, ?_⟩
    rw [B_pow, show 64 * ((n.toUsize + 63) / 64) = n.toUsize by omega]
  · rw [BitWidth.excessWidth_some h0]
    obtain ⟨ds, d, e1, e2⟩ := mostSignificantDigit_ok h
    have hl := h.length_digits
    rw [e1, List.length_append, List.length_singleton] at hl
    have hdl : ds.length = n.toUsize / 64 := by omega
    have hsplit : (2:Nat) ^ n.toUsize = B ^ ds.length * 2 ^ (n.toUsize % 64) := by
      rw [B_pow, ← Nat.pow_add]; congr 1; omega
    have hsplit' : (2:Nat) ^ (n.toUsize - 1) = B ^ ds.length * 2 ^ (n.toUsize % 64 - 1) := by
      rw [B_pow, ← Nat.pow_add]; congr 1; omega
    have hval : a.uval = val ds + B ^ ds.length * d.toNat := by
      unfold uval; rw [e1, val_append, val_singleton]
    have hdlt := val_lt ds
    have hBp := B_pow_pos ds.length
    have hd : d.toNat < 2 ^ (n.toUsize % 64) := by
      rw [hval, hsplit] at hu
      exact Nat.lt_of_mul_lt_mul_left (a := B ^ ds.length) (by omega)
    have hd2 : ¬ d.toNat < 2 ^ (n.toUsize % 64 - 1) := by
      intro hc
      rw [hval, hsplit'] at hneg
      have : B ^ ds.length * (d.toNat + 1) ≤ B ^ ds.length * 2 ^ (n.toUsize % 64 - 1) :=
        Nat.mul_le_mul_left _ hc
      rw [Nat.mul_add] at this
      omega
    obtain ⟨d', e3, h3⟩ := Digit.signExtendFrom_ok d
      (from_ := ⟨n.toUsize % 64, Nat.pos_of_ne_zero h0⟩) (by simp only; omega) hd
    obtain ⟨c, e4, h4, h5, h6⟩ := setMostSignificantDigit_ok h e1 d'
    simp only at h3
    rw [if_neg hd2] at h3
    refine ⟨c, ?_, h4, h5, ?_⟩
    · simp [e2, e3, e4]
    · have hB : 2 ^ (n.toUsize % 64) ≤ B := by
        rw [B_eq]; exact Nat.pow_le_pow_right (by decide) (by omega)
      have hh : d'.toNat + 2 ^ (n.toUsize % 64) = d.toNat + B := by omega
      have hcv : c.uval = val ds + B ^ ds.length * d'.toNat := by
        unfold uval; rw [h6, val_append, val_singleton]
      have hpow : B ^ ((n.toUsize + 63) / 64) = B ^ ds.length * B := by
        rw [← Nat.pow_succ]; congr 1; omega
      rw [hcv, hval, hsplit, hpow]
      linear_combination B ^ ds.length * hh

theorem neg_mod {u x k w t : Nat} (hx : x + 2 ^ w = u + 2 ^ k) (htk : t ≤ k) (hwt : w ≤ t)
    (hu : u < 2 ^ w) : x % 2 ^ t = u + 2 ^ t - 2 ^ w := by
  have h1 : (2:Nat) ^ w ≤ 2 ^ t := Nat.pow_le_pow_right (by decide) hwt
  obtain ⟨j, rfl⟩ := Nat.exists_eq_add_of_le htk
  obtain ⟨m, hm⟩ : ∃ m, 2 ^ j = m + 1 :=
    ⟨2 ^ j - 1, by have := two_pow_w_pos j; omega⟩
  rw [Nat.pow_add, hm, Nat.mul_add, Nat.mul_one] at hx
  rw [show x = (u + 2 ^ t - 2 ^ w) + 2 ^ t * m by omega, Nat.add_mul_mod_self_left]
  exact Nat.mod_eq_of_lt (by omega)

theorem signExtend_ok {a : ApInt} (h : a.WF) {t : BitWidth} (hle : a.w ≤ t.toUsize) :
    Updates (a.signExtend t) t
      (if a.uval < 2 ^ (a.w - 1) then a.uval else a.uval + 2 ^ t.toUsize - 2 ^ a.w) := by
  unfold signExtend
  by_cases he : t = a.len
  · subst he
    refine ⟨a, by simp [width], h, rfl, ?_⟩
    split
    · rfl
    · have : a.uval + 2 ^ a.len.toUsize - 2 ^ a.w = a.uval := by unfold w; omega
      omega
  have hlt : a.w < t.toUsize := by
    have : t.toUsize ≠ a.w := fun hc => he (BitWidth.ext hc)
    omega
  have hp := a.pos_w
  have hwl : a.w = a.len.toUsize := rfl
  simp only [width, he, if_false, show ¬ (t.toUsize < a.len.toUsize) from by omega,
    BitWidth.requiredDigits_eq, h.msb_eq, run_bind_ok]
  by_cases hneg : 2 ^ (a.w - 1) ≤ a.uval
  swap
  · simp only [hneg, decide_false, Bool.not_false, if_true]
    rw [if_pos (by omega)]
    exact zeroExtend_ok h hle
  simp only [hneg, decide_true, Bool.not_true, Bool.false_eq_true, if_false]
  rw [if_neg (show ¬ a.uval < 2 ^ (a.w - 1) by omega)]
  by_cases hd : (a.len.toUsize + 63) / 64 = (t.toUsize + 63) / 64
  · rw [if_pos hd]
    obtain ⟨h7, h8⟩ := h.1.setLen (t := t) hd
    have hv : uval { a with len := t } = a.uval := by unfold uval; rw [h8]
    obtain ⟨c, e1, h1, h2, h3⟩ := signExtendMsd_ok (a := { a with len := t }) (n := a.len) h7
      (by rw [hv]; exact h.2) hd.symm (by rw [hv]; exact hneg)
    obtain ⟨x, e2, h4, h5, h6⟩ := clearUnusedBits_ok h1
    refine ⟨x, by simp [e1, e2], h4, by rw [h5, h2], ?_⟩
    rw [h6, w_eq h2]
    rw [hv, B_pow] at h3
    exact neg_mod (t := t.toUsize) h3 (by omega) (by omega) h.2
  · have hlt' : a.len.toUsize < t.toUsize := hlt
    rw [if_neg hd, if_neg (by omega), csub_ok (by omega)]
    obtain ⟨s, e1, h1, h2, h3⟩ := signExtendMsd_ok (a := a) (n := a.len) h.1 h.2 rfl hneg
    have hws := w_eq h2
    have hlen := h1.length_digits
    obtain ⟨c, e2, h4, h5, h6⟩ := fromIter_ok (ds := s.digits ++ List.replicate
      ((t.toUsize + 63) / 64 - (a.len.toUsize + 63) / 64) Digit.ONES) (by
        intro hc
        have := congrArg List.length hc
        simp [hlen] at this
        omega)
    rw [List.length_append, List.length_replicate, hlen] at h5
    obtain ⟨x, e3, h7, h8, h9⟩ := into_of_updates (truncate_ok h4 (t := t) (by rw [h5]; omega))
    obtain ⟨y, e4, _⟩ := clearUnusedBits_ok h1
    refine ⟨x, ?_, h7, h8, ?_⟩
    · simp only [run_bind_ok, e1, asDigitSlice_ok h1, e2, intoTruncate, e3, e4]
    · rw [h9]
      have hcv : c.uval + 2 ^ a.w = a.uval + 2 ^ (64 * ((t.toUsize + 63) / 64)) := by
        have hcu : c.uval = s.uval + B ^ ((a.w + 63) / 64) *
            (B ^ ((t.toUsize + 63) / 64 - (a.len.toUsize + 63) / 64) - 1) := by
          unfold uval
          rw [h6, val_append, show Digit.ONES = ~~~0#64 from by decide, val_replicate_ones, hlen, hws]
        have hpow : B ^ ((t.toUsize + 63) / 64) = B ^ ((a.w + 63) / 64) *
            B ^ ((t.toUsize + 63) / 64 - (a.len.toUsize + 63) / 64) := by
          rw [← Nat.pow_add]; congr 1; omega
        have hq := B_pow_pos ((t.toUsize + 63) / 64 - (a.len.toUsize + 63) / 64)
        have hr : B ^ ((a.w + 63) / 64) * 1 ≤ B ^ ((a.w + 63) / 64) *
          B ^ ((t.toUsize + 63) / 64 - (a.len.toUsize + 63) / 64) := Nat.mul_le_mul_left _ hq
        rw [← B_pow, hpow, hcu, Nat.mul_sub]
        rw [← hwl] at h3 hr ⊢
        omega
      exact neg_mod hcv (by omega) (by omega) h.2

theorem signExtend_err {a : ApInt} {t : BitWidth} (h : t.toUsize < a.w) :
    a.signExtend t = .ok (.error (.extensionBitWidthTooSmall t a.len), a) := by
  have hne : t ≠ a.len := fun hc => by rw [hc] at h; exact Nat.lt_irrefl _ h
  unfold signExtend
  simp only [width, hne, if_false, show t.toUsize < a.len.toUsize from h, if_true]

/-! ## Resizing -/

theorem expect_of_updates {r : Run (Res Unit × ApInt)} {len : BitWidth} {v : Nat}
    (h : Updates r len v) :
    Returns (do let (r, s) ← r; let () ← expect r; pure s) len v := by
  obtain ⟨c, e, h1, h2, h3⟩ := h
  exact ⟨c, by simp [e, expect], h1, h2, h3⟩

theorem zeroResize_ok {a : ApInt} (h : a.WF) (t : BitWidth) :
    Returns (a.zeroResize t) t (a.uval % 2 ^ t.toUsize) := by
  unfold zeroResize width
  by_cases hle : t.toUsize ≤ a.len.toUsize
  · simp only [hle, if_true]
    exact expect_of_updates (truncate_ok h hle)
  · simp only [hle, if_false]
    have hle' : a.w ≤ t.toUsize := Nat.le_of_lt (Nat.lt_of_not_le hle)
    rw [Nat.mod_eq_of_lt (Nat.lt_of_lt_of_le h.2 (Nat.pow_le_pow_right (by decide) hle'))]
    exact expect_of_updates (zeroExtend_ok h hle')

theorem signResize_trunc {a : ApInt} (h : a.WF) {t : BitWidth} (hle : t.toUsize ≤ a.w) :
    Returns (a.signResize t) t (a.uval % 2 ^ t.toUsize) := by
  unfold signResize width
  have hle' : t.toUsize ≤ a.len.toUsize := hle
  simp only [hle', if_true]
  exact expect_of_updates (truncate_ok h hle)

theorem signResize_ext {a : ApInt} (h : a.WF) {t : BitWidth} (hle : a.w < t.toUsize) :
    Returns (a.signResize t) t
      (if a.uval < 2 ^ (a.w - 1) then a.uval else a.uval + 2 ^ t.toUsize - 2 ^ a.w) := by
  unfold signResize width
  have hle' : ¬ t.toUsize ≤ a.len.toUsize := Nat.not_le.mpr hle
  simp only [hle', if_false]
  exact expect_of_updates (signExtend_ok h (Nat.le_of_lt hle))

end ApInt

end Verif
