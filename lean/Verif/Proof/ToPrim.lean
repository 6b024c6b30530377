import Verif.Model.ToPrim
import Verif.Proof.Ops

/-! # Conversion to primitive integers -/

namespace Verif

theorem wrap_mod {n m : Nat} (h : n ≤ m) (x : Int) : wrap m x % 2 ^ n = wrap n x := by
  apply wrap_of_nat
  rw [wrap_cast]
  obtain ⟨k, rfl⟩ := Nat.exists_eq_add_of_le h
  refine ⟨-(2 ^ k * (x / 2 ^ (n + k))), ?_⟩
  have := Int.emod_add_mul_ediv x (2 ^ (n + k))
  rw [pow_add] at *
  linear_combination this

theorem ofInt_toNat (n : Nat) (x : Int) : (BitVec.ofInt n x).toNat = wrap n x := by
  rw [BitVec.toNat_ofInt]
  unfold wrap
  norm_cast

namespace ApInt

/-- What the resizing conversion to a type of at most 64 bits computes. -/
theorem resizeToPrimitiveTy_ok {a : ApInt} (h : a.WF) {ty : PrimitiveTy}
    (hty : ty ≠ .u128 ∧ ty ≠ .i128) :
    ∃ d, a.resizeToPrimitiveTy ty = .ok d ∧
      d.toNat % 2 ^ ty.associatedWidth.toUsize =
        if ty.isSigned then wrap ty.associatedWidth.toUsize a.sval
        else a.uval % 2 ^ ty.associatedWidth.toUsize := by
  obtain ⟨d, ds, h1, e1⟩ := leastSignificantDigit_ok h.1
  have h64 : ty.associatedWidth.toUsize ≤ 64 := by
    revert hty; cases ty <;> simp [PrimitiveTy.associatedWidth] <;> decide
  generalize hn : ty.associatedWidth.toUsize = n at *
  have hv : a.uval = d.toNat + B * val ds := by unfold uval; rw [h1, val_cons]
  have hdm : d.toNat % 2 ^ n = a.uval % 2 ^ n := by
    obtain ⟨k, hk⟩ := Nat.exists_eq_add_of_le h64
    have hB : B = 2 ^ n * 2 ^ k := by rw [← Nat.pow_add, ← hk]; rfl
    rw [hv, hB, Nat.mul_assoc, Nat.add_mul_mod_self_left]
  -- the final truncation
  have fin : ∀ s : Digit, ∃ d',
      (if n < BitWidth.w64.toUsize then do
        let (r, lsd) ← Digit.truncateTo s ty.associatedWidth
        let () ← expect r
        .ok lsd
      else .ok s : Run Digit) = .ok d' ∧ d'.toNat % 2 ^ n = s.toNat % 2 ^ n := by
    intro s
    by_cases hlt : n < BitWidth.w64.toUsize
    · rw [if_pos hlt]
      obtain ⟨d', e3, h3⟩ := Digit.truncateTo_ok s (t := ty.associatedWidth) (by rw [hn]; exact hlt)
      refine ⟨d', by simp [e3], ?_⟩
      rw [h3, hn, Nat.mod_mod]
    · rw [if_neg hlt]
      exact ⟨s, rfl, rfl⟩
  unfold resizeToPrimitiveTy
  rw [if_neg (by simpa using hty), e1]
  by_cases hc : (ty.isSigned && decide (a.width.toUsize < n)) = true
  · have hc' := hc
    simp only [Bool.and_eq_true, decide_eq_true_eq] at hc'
    have hw : a.w < n := hc'.2
    have hds : d.toNat = a.uval := by
      rcases h.1.cases with ⟨x, e, g1, g2⟩ | ⟨x, e, g1, g2, g3⟩
      · unfold uval; rw [g2] at h1 ⊢; cases h1; simp
      · omega
    obtain ⟨s, e2, h2⟩ := Digit.signExtendFrom_ok d (from_ := a.width)
      (by show a.w ≤ 64; omega) (by show d.toNat < 2 ^ a.w; rw [hds]; exact h.2)
    have hs : s.toNat = wrap 64 a.sval := by
      rw [← signExtend_wrap h (by omega), h2, hds]; rfl
    obtain ⟨d', e3, h3⟩ := fin s
    refine ⟨d', ?_, by rw [h3, hs, wrap_mod h64, if_pos hc'.1]⟩
    rw [← e3]
    simp only [hn, run_bind_ok, if_pos hc, e2, expect_ok]
  · obtain ⟨d', e3, h3⟩ := fin d
    refine ⟨d', ?_, ?_⟩
    · rw [← e3]
      simp only [hn, run_bind_ok, if_neg hc]
    · by_cases hs : ty.isSigned = true
      · have : n ≤ a.w := by
          by_contra hcon
          apply hc
          simp only [hs, Bool.true_and, decide_eq_true_eq]
          show a.w < n
          omega
        rw [if_pos hs, ← truncate_wrap this, h3, hdm]
      · rw [if_neg hs, h3, hdm]

theorem resizeU {a : ApInt} (h : a.WF) {ty : PrimitiveTy} {n : Nat}
    (hty : ty ≠ .u128 ∧ ty ≠ .i128) (hs : ty.isSigned = false)
    (hn : ty.associatedWidth.toUsize = n) :
    ∃ d, a.resizeToPrimitiveTy ty = .ok d ∧ d.setWidth n = BitVec.ofNat n a.uval := by
  obtain ⟨d, e, h1⟩ := resizeToPrimitiveTy_ok h hty
  refine ⟨d, e, ?_⟩
  apply BitVec.eq_of_toNat_eq
  rw [hs, hn] at h1
  simpa using h1

theorem resizeI {a : ApInt} (h : a.WF) {ty : PrimitiveTy} {n : Nat}
    (hty : ty ≠ .u128 ∧ ty ≠ .i128) (hs : ty.isSigned = true)
    (hn : ty.associatedWidth.toUsize = n) :
    ∃ d, a.resizeToPrimitiveTy ty = .ok d ∧ d.setWidth n = BitVec.ofInt n a.sval := by
  obtain ⟨d, e, h1⟩ := resizeToPrimitiveTy_ok h hty
  refine ⟨d, e, ?_⟩
  apply BitVec.eq_of_toNat_eq
  rw [hs, hn] at h1
  rw [ofInt_toNat, BitVec.toNat_setWidth, h1]
  rfl

/-! ## 128 bits -/

theorem splitFirstOr_ok (ds : List Digit) :
    (splitFirstOr ds).1.toNat = val ds % B ∧ val (splitFirstOr ds).2 = val ds / B := by
  cases ds with
  | nil => simp [splitFirstOr, val_nil]
  | cons d ds =>
    have := dlt d
    simp only [splitFirstOr, val_cons]
    rw [Nat.add_mul_mod_self_left, Nat.mod_eq_of_lt this, Nat.add_mul_div_left _ _ B_pos,
      Nat.div_eq_of_lt this, Nat.zero_add]
    exact ⟨rfl, rfl⟩

theorem hi128 (d : Digit) : ((d.setWidth 128 : BitVec 128) <<< 64).toNat = B * d.toNat := by
  have := dlt d
  rw [B_num] at *
  rw [BitVec.toNat_shiftLeft, BitVec.toNat_setWidth, Nat.shiftLeft_eq]
  omega

theorem lo128 (d : Digit) : ((d.setWidth 128 : BitVec 128)).toNat = d.toNat := by
  have := dlt d
  rw [B_num] at *
  rw [BitVec.toNat_setWidth]
  omega

theorem caddU128_ok (x y : Digit) :
    ∃ r, caddU128 ((x.setWidth 128 : BitVec 128) <<< 64) (y.setWidth 128) = .ok r ∧
      r.toNat = y.toNat + B * x.toNat := by
  have hx := dlt x
  have hy := dlt y
  have hh := hi128 x
  have hl := lo128 y
  rw [B_num] at *
  refine ⟨(x.setWidth 128 : BitVec 128) <<< 64 + y.setWidth 128, ?_, ?_⟩
  · unfold caddU128; rw [if_pos]; rw [hh, hl]; omega
  · rw [BitVec.toNat_add, hh, hl]; omega

theorem caddI128_ok (x y : Digit) :
    ∃ r, caddI128 ((x.setWidth 128 : BitVec 128) <<< 64) (y.setWidth 128) = .ok r ∧
      r.toNat = y.toNat + B * x.toNat := by
  have hx := dlt x
  have hy := dlt y
  have hh := hi128 x
  have hl := lo128 y
  rw [B_num] at *
  refine ⟨(x.setWidth 128 : BitVec 128) <<< 64 + y.setWidth 128, ?_, ?_⟩
  · unfold caddI128
    rw [if_pos]
    rw [BitVec.toInt_eq_toNat_cond, BitVec.toInt_eq_toNat_cond, hh, hl]
    rw [if_pos (by omega : 2 * y.toNat < 2 ^ 128)]
    split <;> omega
  · rw [BitVec.toNat_add, hh, hl]; omega

theorem low128 {a : ApInt} {d : Digit} {ds : List Digit} (h : a.digits = d :: ds) :
    d.toNat + B * (splitFirstOr ds).1.toNat = a.uval % 2 ^ 128 ∧
      val (splitFirstOr ds).2 = a.uval / 2 ^ 128 := by
  obtain ⟨h1, h2⟩ := splitFirstOr_ok ds
  have hv : a.uval = d.toNat + B * val ds := by unfold uval; rw [h, val_cons]
  have := dlt d
  rw [h1, h2, hv]
  rw [B_num] at *
  omega

/-- Sign extension of a 128-bit word as done by the conversions. -/
theorem signExtend128 {a : ApInt} (h : a.WF) (hw : a.w < 128) {r : BitVec 128}
    (hr : r.toNat = a.uval % 2 ^ 128) :
    ∃ m, rawShl (1#128) (a.w - 1) = .ok m ∧ (r ^^^ m) - m = BitVec.ofInt 128 a.sval ∧
      csubI128 (r ^^^ m) m = .ok ((r ^^^ m) - m) := by
  obtain ⟨n, hn⟩ : ∃ n, a.w = n + 1 := ⟨a.w - 1, by have := a.pos_w; omega⟩
  have h2 := h.2
  have hp1 : (2:Nat) ^ n ≤ 2 ^ 126 := Nat.pow_le_pow_right (by decide) (by omega)
  rw [hn, Nat.pow_succ] at h2
  have hru : r.toNat = a.uval := by rw [hr]; exact Nat.mod_eq_of_lt (by omega)
  refine ⟨1#128 <<< n, by rw [hn, Nat.add_sub_cancel]; exact rawShl_ok _ (by omega), ?_, ?_⟩
  all_goals
    have hm : (1#128 <<< n).toNat = 2 ^ n := by
      rw [BitVec.toNat_shiftLeft, Nat.shiftLeft_eq]
      show 1 * 2 ^ n % 2 ^ 128 = _
      rw [Nat.one_mul]; exact Nat.mod_eq_of_lt (by omega)
    have hx : (r ^^^ (1#128 <<< n)).toNat =
        if a.uval < 2 ^ n then a.uval + 2 ^ n else a.uval - 2 ^ n := by
      rw [BitVec.toNat_xor, hm, hru]
      split
      · rename_i hlt; exact Digit.xor_two_pow_of_lt hlt
      · have h1 : a.uval - 2 ^ n < 2 ^ n := by omega
        have h3 := Digit.xor_two_pow_of_lt h1
        have h4 : a.uval = (a.uval - 2 ^ n) ^^^ 2 ^ n := by rw [h3]; omega
        calc a.uval ^^^ 2 ^ n = ((a.uval - 2 ^ n) ^^^ 2 ^ n) ^^^ 2 ^ n := by rw [← h4]
          _ = a.uval - 2 ^ n := by rw [Nat.xor_assoc, Nat.xor_self, Nat.xor_zero]
  · apply BitVec.eq_of_toNat_eq
    rw [ofInt_toNat, ← signExtend_wrap h (by omega), BitVec.toNat_sub, hm, hx, hn,
      Nat.add_sub_cancel, Nat.pow_succ]
    split <;> omega
  · unfold csubI128
    rw [if_pos]
    rw [BitVec.toInt_eq_toNat_cond, BitVec.toInt_eq_toNat_cond, hm, hx]
    generalize 2 ^ n = P at *
    split <;> (rw [if_pos (by omega), if_pos (by omega)]; omega)

theorem resizeToU128_ok {a : ApInt} (h : a.WF) :
    a.resizeToU128 = .ok (BitVec.ofNat 128 a.uval) := by
  obtain ⟨d, ds, h1, e1⟩ := splitLeastSignificantDigit_ok h.1
  obtain ⟨h2, -⟩ := low128 h1
  obtain ⟨r, e2, h3⟩ := caddU128_ok (splitFirstOr ds).1 d
  simp only [resizeToU128, e1, run_bind_ok, rawShl_ok _ (show 64 < 128 by decide), e2]
  congr 1
  apply BitVec.eq_of_toNat_eq
  rw [h3, h2, BitVec.toNat_ofNat]

theorem resizeToI128_ok {a : ApInt} (h : a.WF) :
    a.resizeToI128 = .ok (BitVec.ofInt 128 a.sval) := by
  obtain ⟨d, ds, h1, e1⟩ := splitLeastSignificantDigit_ok h.1
  obtain ⟨h2, -⟩ := low128 h1
  obtain ⟨r, e2, h3⟩ := caddI128_ok (splitFirstOr ds).1 d
  simp only [resizeToI128, e1, run_bind_ok, rawShl_ok _ (show 64 < 128 by decide), e2]
  have hr : r.toNat = a.uval % 2 ^ 128 := by rw [h3, h2]
  by_cases hw : a.w < 128
  · obtain ⟨m, e3, e4, e5⟩ := signExtend128 h hw hr
    have hpos := a.pos_w
    rw [if_pos (show a.width.toUsize < BitWidth.w128.toUsize from hw)]
    simp only [csub_ok (show 1 ≤ a.width.toUsize from hpos), run_bind_ok,
      show a.width.toUsize - 1 = a.w - 1 from rfl, e3, e5, e4]
  · rw [if_neg (show ¬ a.width.toUsize < BitWidth.w128.toUsize from hw)]
    rw [show r = BitVec.ofInt 128 a.sval from BitVec.eq_of_toNat_eq (by
      rw [ofInt_toNat, hr, truncate_wrap (Nat.not_lt.mp hw)])]

/-! ## Checked conversions -/

theorem any_ne_zero (l : List Digit) : (l.any fun d => d != 0#64) = decide (val l ≠ 0) := by
  rw [Bool.eq_iff_iff, List.any_eq_true, decide_eq_true_eq, Ne, val_eq_zero_iff]
  push Not
  simp

theorem isValidRepr_eq {ty : PrimitiveTy} (hty : ty ≠ .u128 ∧ ty ≠ .i128) (d : Digit) :
    ty.isValidRepr d.toNat = decide (d.toNat < 2 ^ ty.associatedWidth.toUsize) := by
  have := d.isLt
  obtain ⟨h1, h2⟩ := hty
  have hb : (d.toNat == 0 || d.toNat == 1) = decide (d.toNat < 2) := by
    rw [Bool.eq_iff_iff]; simp; omega
  cases ty
  · exact hb
  all_goals first
    | rfl
    | exact (decide_eq_true (show d.toNat < 2 ^ 64 by omega)).symm
    | exact absurd rfl h1
    | exact absurd rfl h2

theorem tryCast_err {a : ApInt} (h : a.WF) {ty : PrimitiveTy}
    (hty : ty ≠ .u128 ∧ ty ≠ .i128) (hv : ¬ a.uval < 2 ^ ty.associatedWidth.toUsize) :
    a.tryCastToPrimitiveTy ty = .ok (.error (.valueUnrepresentable a ty)) := by
  obtain ⟨d, ds, h1, e1⟩ := splitLeastSignificantDigit_ok h.1
  have hu : a.uval = d.toNat + B * val ds := by unfold uval; rw [h1, val_cons]
  unfold tryCastToPrimitiveTy
  rw [if_neg (by simpa using hty)]
  simp only [e1, run_bind_ok]
  rw [if_pos, clone_ok h.1]
  · rfl
  · rw [any_ne_zero, isValidRepr_eq hty]
    by_cases h0 : val ds = 0
    · rw [h0] at hu
      have : ¬ d.toNat < 2 ^ ty.associatedWidth.toUsize := by
        rw [← show a.uval = d.toNat by omega]; exact hv
      simp [this]
    · simp [h0]

theorem tryCast_ok {a : ApInt} (h : a.WF) {ty : PrimitiveTy}
    (hty : ty ≠ .u128 ∧ ty ≠ .i128) (hv : a.uval < 2 ^ ty.associatedWidth.toUsize) :
    ∃ d, a.tryCastToPrimitiveTy ty = .ok (.ok d) ∧
      d.toNat % 2 ^ ty.associatedWidth.toUsize =
        (if ty.isSigned then wrap ty.associatedWidth.toUsize a.sval else a.uval) ∧
      (ty.isSigned = false → d.toNat = a.uval) := by
  obtain ⟨d, ds, h1, e1⟩ := splitLeastSignificantDigit_ok h.1
  have hu : a.uval = d.toNat + B * val ds := by unfold uval; rw [h1, val_cons]
  have h64 : ty.associatedWidth.toUsize ≤ 64 := by
    revert hty; cases ty <;> simp [PrimitiveTy.associatedWidth] <;> decide
  have hB : (2:Nat) ^ ty.associatedWidth.toUsize ≤ B := Nat.pow_le_pow_right (by decide) h64
  have h0 : val ds = 0 := by
    rcases Nat.eq_zero_or_pos (val ds) with h0 | h0
    · exact h0
    · have := Nat.mul_le_mul_left B h0
      omega
  have hd : d.toNat = a.uval := by rw [hu, h0]; simp
  unfold tryCastToPrimitiveTy
  rw [if_neg (by simpa using hty)]
  simp only [e1, run_bind_ok]
  rw [if_neg (by rw [any_ne_zero, isValidRepr_eq hty, hd]; simp [hv, h0])]
  by_cases hs : ty.isSigned = true
  · rw [if_pos hs]
    by_cases hw : a.w < ty.associatedWidth.toUsize
    · rw [if_pos (show a.width.toUsize < _ from hw)]
      obtain ⟨s, e2, h2⟩ := Digit.signExtendFrom_ok d (from_ := a.width)
        (by show a.w ≤ 64; omega) (by show d.toNat < 2 ^ a.w; rw [hd]; exact h.2)
      have hsv : s.toNat = wrap 64 a.sval := by
        rw [← signExtend_wrap h (by omega), h2, hd]; rfl
      by_cases hlt : ty.associatedWidth.toUsize < 64
      · obtain ⟨d', e3, h3⟩ := Digit.truncateTo_ok s (t := ty.associatedWidth) hlt
        refine ⟨d', ?_, ?_, by simp [hs]⟩
        · simp only [e2, run_bind_ok, expect_ok,
            if_pos (show ty.associatedWidth.toUsize < BitWidth.w64.toUsize from hlt), e3]
        · rw [h3, Nat.mod_mod, if_pos hs, hsv, wrap_mod h64]
      · refine ⟨s, ?_, ?_, by simp [hs]⟩
        · simp only [e2, run_bind_ok, expect_ok,
            if_neg (show ¬ ty.associatedWidth.toUsize < BitWidth.w64.toUsize from hlt)]
        · rw [if_pos hs, hsv, wrap_mod h64]
    · rw [if_neg (show ¬ a.width.toUsize < _ from hw)]
      refine ⟨d, rfl, ?_, by simp [hs]⟩
      rw [if_pos hs, ← truncate_wrap (by omega), hd]
  · rw [if_neg hs]
    refine ⟨d, rfl, ?_, fun _ => hd⟩
    rw [if_neg hs, hd, Nat.mod_eq_of_lt hv]

theorem tryU {a : ApInt} (h : a.WF) {ty : PrimitiveTy} {n : Nat}
    (hty : ty ≠ .u128 ∧ ty ≠ .i128) (hs : ty.isSigned = false)
    (hn : ty.associatedWidth.toUsize = n) :
    (do let r ← a.tryCastToPrimitiveTy ty; pure (mapAs n r) : Run (Res (BitVec n))) =
      if a.uval < 2 ^ n then .ok (.ok (BitVec.ofNat n a.uval))
      else .ok (.error (.valueUnrepresentable a ty)) := by
  subst hn
  split
  · rename_i hv
    obtain ⟨d, e, -, h1⟩ := tryCast_ok h hty hv
    simp only [e, run_bind_ok, run_pure, mapAs]
    congr 2
    apply BitVec.eq_of_toNat_eq
    rw [BitVec.toNat_setWidth, h1 hs, BitVec.toNat_ofNat]
  · rename_i hv
    simp only [tryCast_err h hty hv, run_bind_ok, run_pure, mapAs]

theorem tryI {a : ApInt} (h : a.WF) {ty : PrimitiveTy} {n : Nat}
    (hty : ty ≠ .u128 ∧ ty ≠ .i128) (hs : ty.isSigned = true)
    (hn : ty.associatedWidth.toUsize = n) :
    (do let r ← a.tryCastToPrimitiveTy ty; pure (mapAs n r) : Run (Res (BitVec n))) =
      if a.uval < 2 ^ n then .ok (.ok (BitVec.ofInt n a.sval))
      else .ok (.error (.valueUnrepresentable a ty)) := by
  subst hn
  split
  · rename_i hv
    obtain ⟨d, e, h1, -⟩ := tryCast_ok h hty hv
    simp only [e, run_bind_ok, run_pure, mapAs]
    congr 2
    apply BitVec.eq_of_toNat_eq
    rw [BitVec.toNat_setWidth, h1, ofInt_toNat, if_pos hs]
  · rename_i hv
    simp only [tryCast_err h hty hv, run_bind_ok, run_pure, mapAs]

theorem tryToBool_ok {a : ApInt} (h : a.WF) :
    a.tryToBool = if a.uval < 2 then .ok (.ok (decide (a.uval = 1)))
      else .ok (.error (.valueUnrepresentable a .bool)) := by
  have hw : PrimitiveTy.bool.associatedWidth.toUsize = 1 := rfl
  unfold tryToBool
  by_cases hv : a.uval < 2
  · obtain ⟨d, e, -, h1⟩ := tryCast_ok h (ty := .bool) (by decide) (by rw [hw]; exact hv)
    have h1 := h1 rfl
    simp only [e, run_bind_ok, if_pos hv]
    by_cases h0 : d = 0#64
    · rw [if_pos h0]; subst h0
      have : a.uval = 0 := by rw [← h1]; rfl
      simp [this]
    · have hd : d.toNat ≠ 0 := fun hc => h0 (BitVec.eq_of_toNat_eq hc)
      have hd1 : d = 1#64 := BitVec.eq_of_toNat_eq (by show _ = 1; omega)
      rw [if_neg h0, if_pos hd1]; subst hd1
      have : a.uval = 1 := by rw [← h1]; rfl
      simp [this]
  · simp only [tryCast_err h (ty := .bool) (by decide) (by rw [hw]; exact hv), run_bind_ok,
      if_neg hv]

theorem tryToU128_ok {a : ApInt} (h : a.WF) :
    a.tryToU128 = if a.uval < 2 ^ 128 then .ok (.ok (BitVec.ofNat 128 a.uval))
      else .ok (.error (.valueUnrepresentable a .u128)) := by
  obtain ⟨d, ds, h1, e1⟩ := splitLeastSignificantDigit_ok h.1
  obtain ⟨h2, h4⟩ := low128 h1
  obtain ⟨r, e2, h3⟩ := caddU128_ok (splitFirstOr ds).1 d
  simp only [tryToU128, e1, run_bind_ok, rawShl_ok _ (show 64 < 128 by decide), any_ne_zero, h4,
    e2, clone_ok h.1]
  by_cases hv : a.uval < 2 ^ 128
  · rw [if_neg (by rw [decide_eq_true_eq]; omega), if_pos hv]
    congr 2
    apply BitVec.eq_of_toNat_eq
    rw [h3, h2, BitVec.toNat_ofNat]
  · rw [if_pos (by rw [decide_eq_true_eq]; omega), if_neg hv]

theorem tryToI128_ok {a : ApInt} (h : a.WF) :
    a.tryToI128 = if a.uval < 2 ^ 128 then .ok (.ok (BitVec.ofInt 128 a.sval))
      else .ok (.error (.valueUnrepresentable a .i128)) := by
  obtain ⟨d, ds, h1, e1⟩ := splitLeastSignificantDigit_ok h.1
  obtain ⟨h2, h4⟩ := low128 h1
  obtain ⟨r, e2, h3⟩ := caddI128_ok (splitFirstOr ds).1 d
  have hr : r.toNat = a.uval % 2 ^ 128 := by rw [h3, h2]
  simp only [tryToI128, e1, run_bind_ok, rawShl_ok _ (show 64 < 128 by decide), any_ne_zero, h4,
    e2, clone_ok h.1]
  by_cases hv : a.uval < 2 ^ 128
  · rw [if_neg (by rw [decide_eq_true_eq]; omega), if_pos hv]
    by_cases hw : a.w < 128
    · obtain ⟨m, e3, e4, e5⟩ := signExtend128 h hw hr
      have hpos := a.pos_w
      rw [if_pos (show a.width.toUsize < BitWidth.w128.toUsize from hw)]
      simp only [csub_ok (show 1 ≤ a.width.toUsize from hpos), run_bind_ok,
        show a.width.toUsize - 1 = a.w - 1 from rfl, e3, e4]
    · rw [if_neg (show ¬ a.width.toUsize < BitWidth.w128.toUsize from hw)]
      rw [show r = BitVec.ofInt 128 a.sval from BitVec.eq_of_toNat_eq (by
        rw [ofInt_toNat, hr, truncate_wrap (Nat.not_lt.mp hw)])]
  · rw [if_pos (by rw [decide_eq_true_eq]; omega), if_neg hv]

end ApInt

end Verif
