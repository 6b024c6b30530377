import Verif.Model.Bitwise
import Verif.Proof.Access

/-! # Bitwise operations -/

namespace Verif

/-! ## Lists -/

theorem getD_set {l : List Digit} {i : Nat} (h : i < l.length) (v : Digit) (j : Nat) :
    (l.set i v).getD j 0 = if j = i then v else l.getD j 0 := by
  simp only [List.getD_eq_getElem?_getD, List.getElem?_set]
  by_cases hj : i = j
  · subst hj; simp [h]
  · simp [hj, Ne.symm hj]

theorem getD_zipWith {xs ys : List Digit} (h : xs.length = ys.length) (f : Digit → Digit → Digit)
    (h0 : f 0 0 = 0) (j : Nat) :
    (List.zipWith f xs ys).getD j 0 = f (xs.getD j 0) (ys.getD j 0) := by
  simp only [List.getD_eq_getElem?_getD, List.getElem?_zipWith]
  by_cases hj : j < xs.length
  · have hj' : j < ys.length := h ▸ hj
    simp [hj, hj']
  · have hj' : ¬ j < ys.length := h ▸ hj
    simp [List.getElem?_eq_none (Nat.not_lt.mp hj), List.getElem?_eq_none (Nat.not_lt.mp hj')]
    exact h0.symm

theorem val_zipWith_and {xs ys : List Digit} (h : xs.length = ys.length) :
    val (List.zipWith Digit.bitand xs ys) = val xs &&& val ys := by
  apply Nat.eq_of_testBit_eq
  intro i
  rw [Nat.testBit_and, val_testBit, val_testBit, val_testBit, getD_zipWith h _ (by decide)]
  simp [Digit.bitand]

theorem val_zipWith_or {xs ys : List Digit} (h : xs.length = ys.length) :
    val (List.zipWith Digit.bitor xs ys) = val xs ||| val ys := by
  apply Nat.eq_of_testBit_eq
  intro i
  rw [Nat.testBit_or, val_testBit, val_testBit, val_testBit, getD_zipWith h _ (by decide)]
  simp [Digit.bitor]

theorem val_zipWith_xor {xs ys : List Digit} (h : xs.length = ys.length) :
    val (List.zipWith Digit.bitxor xs ys) = val xs ^^^ val ys := by
  apply Nat.eq_of_testBit_eq
  intro i
  rw [Nat.testBit_xor, val_testBit, val_testBit, val_testBit, getD_zipWith h _ (by decide)]
  simp [Digit.bitxor]

theorem not_toNat (d : Digit) : (~~~d).toNat = B - 1 - d.toNat := by
  rw [BitVec.toNat_not, B_eq]

theorem val_map_not (ds : List Digit) :
    val (ds.map fun d => ~~~d) + val ds + 1 = B ^ ds.length := by
  induction ds with
  | nil => rfl
  | cons d ds ih =>
    simp only [List.map_cons, val_cons, List.length_cons, Nat.pow_succ, ← ih]
    have h1 := dlt d
    have h2 := not_toNat d
    have : (~~~d).toNat + d.toNat + 1 = B := by omega
    linear_combination this

/-- Complement below `2 ^ w`, from the complement below the digits' capacity. -/
theorem compl_mod {x y n w : Nat} (h : y + x + 1 = 2 ^ n) (hw : w ≤ n) (hx : x < 2 ^ w) :
    y % 2 ^ w = 2 ^ w - 1 - x := by
  obtain ⟨k, rfl⟩ := Nat.exists_eq_add_of_le hw
  have hk : 0 < (2:Nat) ^ k := Nat.pow_pos (by decide)
  obtain ⟨m, hm⟩ : ∃ m, 2 ^ k = m + 1 := ⟨2 ^ k - 1, by omega⟩
  rw [Nat.pow_add, hm, Nat.mul_add, Nat.mul_one] at h
  have e : y = (2 ^ w - 1 - x) + 2 ^ w * m := by omega
  rw [e, Nat.add_mul_mod_self_left]
  exact Nat.mod_eq_of_lt (by omega)

namespace ApInt

theorem Shape.w_le {a : ApInt} (h : a.Shape) : a.w ≤ 64 * a.digits.length := by
  rw [h.length_digits]; omega

/-! ## Whole-value operations -/

theorem modifyDigits_ok {a : ApInt} (h : a.Shape) (f : Digit → Digit) :
    ∃ c, a.modifyDigits f = .ok c ∧ c.Shape ∧ c.len = a.len ∧ c.digits = a.digits.map f := by
  unfold modifyDigits
  rw [accessData_ok h]
  rcases h.cases with ⟨d, e, h1, h2⟩ | ⟨ds, e, h1, h2, h3⟩
  · exact ⟨{ a with data := .inl (f d) }, by simp [e], h1, rfl, by rw [h2]; rfl⟩
  · exact ⟨{ a with data := .ext (ds.map f) }, by simp [e], ⟨h1, by simpa using h2⟩, rfl,
      by rw [h3]; rfl⟩

theorem modifyZippedDigits_ok {a b : ApInt} (ha : a.Shape) (hb : b.Shape) (h : a.len = b.len)
    (f : Digit → Digit → Digit) :
    ∃ c, a.modifyZippedDigits b f = .ok (.ok (), c) ∧ c.Shape ∧ c.len = a.len ∧
      c.digits = List.zipWith f a.digits b.digits := by
  unfold modifyZippedDigits
  rcases zipAccessData_ok ha hb h with ⟨x, y, ex, ey, h1, e⟩ | ⟨xs, ys, ex, ey, h1, h2, h3, e⟩
  · rw [e]
    exact ⟨{ a with data := .inl (f x y) }, rfl, h1, rfl, by simp [digits, ex, ey]⟩
  · rw [e]
    refine ⟨{ a with data := .ext (List.zipWith f xs ys) }, rfl, ⟨h1, ?_⟩, rfl,
      by simp [digits, ex, ey]⟩
    show _ = (a.w + 63) / 64
    simp [h2, h3]

theorem modifyZippedDigits_err {a b : ApInt} (h : a.len ≠ b.len) (f : Digit → Digit → Digit) :
    a.modifyZippedDigits b f = .ok (.error (.unmatchingBitwidth a.len b.len), a) := by
  simp [modifyZippedDigits, zipAccessData_err h]

theorem bitandAssign_ok {a b : ApInt} (ha : a.WF) (hb : b.WF) (h : a.len = b.len) :
    Updates (a.bitandAssign b) a.len (a.uval &&& b.uval) := by
  obtain ⟨c, e, h1, h2, h3⟩ := modifyZippedDigits_ok ha.1 hb.1 h Digit.bitand
  have hw : a.w = b.w := by unfold w; rw [h]
  have hu : c.uval = a.uval &&& b.uval := by
    unfold uval
    rw [h3, val_zipWith_and]
    rw [ha.1.length_digits, hb.1.length_digits, hw]
  refine ⟨c, e, ⟨h1, ?_⟩, h2, hu⟩
  have hcw : c.w = a.w := by unfold w; rw [h2]
  rw [hu, hcw]
  exact Nat.and_lt_two_pow _ (hw ▸ hb.2)

theorem bitorAssign_ok {a b : ApInt} (ha : a.WF) (hb : b.WF) (h : a.len = b.len) :
    Updates (a.bitorAssign b) a.len (a.uval ||| b.uval) := by
  obtain ⟨c, e, h1, h2, h3⟩ := modifyZippedDigits_ok ha.1 hb.1 h Digit.bitor
  have hw : a.w = b.w := by unfold w; rw [h]
  have hu : c.uval = a.uval ||| b.uval := by
    unfold uval
    rw [h3, val_zipWith_or]
    rw [ha.1.length_digits, hb.1.length_digits, hw]
  refine ⟨c, e, ⟨h1, ?_⟩, h2, hu⟩
  have hcw : c.w = a.w := by unfold w; rw [h2]
  rw [hu, hcw]
  exact Nat.or_lt_two_pow ha.2 (hw ▸ hb.2)

theorem bitxorAssign_ok {a b : ApInt} (ha : a.WF) (hb : b.WF) (h : a.len = b.len) :
    Updates (a.bitxorAssign b) a.len (a.uval ^^^ b.uval) := by
  obtain ⟨c, e, h1, h2, h3⟩ := modifyZippedDigits_ok ha.1 hb.1 h Digit.bitxor
  have hw : a.w = b.w := by unfold w; rw [h]
  have hu : c.uval = a.uval ^^^ b.uval := by
    unfold uval
    rw [h3, val_zipWith_xor]
    rw [ha.1.length_digits, hb.1.length_digits, hw]
  refine ⟨c, e, ⟨h1, ?_⟩, h2, hu⟩
  have hcw : c.w = a.w := by unfold w; rw [h2]
  rw [hu, hcw]
  exact Nat.xor_lt_two_pow ha.2 (hw ▸ hb.2)

theorem mapThenClear_ok {a : ApInt} (h : a.Shape) (f : Digit → Digit) :
    Returns (do let a ← a.modifyDigits f; a.clearUnusedBits) a.len
      (val (a.digits.map f) % 2 ^ a.w) := by
  obtain ⟨c, e, h1, h2, h3⟩ := modifyDigits_ok h f
  obtain ⟨c', e', h1', h2', h3'⟩ := clearUnusedBits_ok h1
  refine ⟨c', by simp [e, e'], h1', by rw [h2', h2], ?_⟩
  have hcw : c.w = a.w := by unfold w; rw [h2]
  rw [h3', hcw]
  unfold uval
  rw [h3]

theorem notMod {a : ApInt} (h : a.WF) :
    val (a.digits.map fun d => ~~~d) % 2 ^ a.w = 2 ^ a.w - 1 - a.uval := by
  refine compl_mod (n := 64 * a.digits.length) ?_ h.1.w_le h.2
  rw [← B_pow]; exact val_map_not _

theorem bitnot_ok {a : ApInt} (h : a.WF) : Returns a.bitnot a.len (2 ^ a.w - 1 - a.uval) := by
  have := mapThenClear_ok h.1 Digit.notInplace
  rw [show Digit.notInplace = fun d => ~~~d from rfl, notMod h] at this
  exact this

theorem flipAll_ok {a : ApInt} (h : a.WF) : Returns a.flipAll a.len (2 ^ a.w - 1 - a.uval) := by
  have := mapThenClear_ok h.1 Digit.flipAll
  have e : Digit.flipAll = fun d => ~~~d := by
    funext d
    apply BitVec.eq_of_getLsbD_eq
    intro i hi
    simp only [Digit.flipAll, Digit.ONES, BitVec.getLsbD_xor, BitVec.getLsbD_not, hi,
      BitVec.getLsbD_zero]
    simp
  rw [e, notMod h] at this
  unfold flipAll
  rw [e]
  exact this

theorem setAll_ok {a : ApInt} (h : a.WF) : Returns a.setAll a.len (2 ^ a.w - 1) := by
  have := mapThenClear_ok h.1 Digit.setAll
  have e : a.digits.map Digit.setAll = List.replicate a.digits.length (~~~(0#64)) := by
    rw [List.eq_replicate_iff]
    refine ⟨by simp, ?_⟩
    intro d hd
    obtain ⟨x, _, rfl⟩ := List.mem_map.mp hd
    apply BitVec.eq_of_getLsbD_eq
    intro i hi
    simp only [Digit.setAll, Digit.ONES, BitVec.getLsbD_or, BitVec.getLsbD_not, hi,
      BitVec.getLsbD_zero]
    simp
  rw [e, val_replicate_ones] at this
  have e2 : (B ^ a.digits.length - 1) % 2 ^ a.w = 2 ^ a.w - 1 := by
    have h1 : (B ^ a.digits.length - 1) + 0 + 1 = 2 ^ (64 * a.digits.length) := by
      have := B_pow_pos a.digits.length
      rw [B_pow] at *
      omega
    have := compl_mod h1 h.1.w_le (Nat.pow_pos (by decide))
    simpa using this
  rw [e2] at this
  exact this

theorem unsetAll_ok {a : ApInt} (h : a.WF) : Returns a.unsetAll a.len 0 := by
  obtain ⟨c, e, h1, h2, h3⟩ := modifyDigits_ok h.1 Digit.unsetAll
  have hu : c.uval = 0 := by
    unfold uval
    rw [h3, val_eq_zero_iff]
    intro d hd
    obtain ⟨x, _, rfl⟩ := List.mem_map.mp hd
    simp [Digit.unsetAll, Digit.ZERO]
  exact ⟨c, e, ⟨h1, by rw [hu]; exact Nat.pow_pos (by decide)⟩, h2, hu⟩

/-! ## Single bits -/

theorem uval_testBit (a : ApInt) (i : Nat) :
    a.uval.testBit i = (a.digits.getD (i / 64) 0).getLsbD (i % 64) := val_testBit _ _

theorem WF.testBit_of_ge {a : ApInt} (h : a.WF) {i : Nat} (hi : a.w ≤ i) :
    a.uval.testBit i = false :=
  Nat.testBit_lt_two_pow (Nat.lt_of_lt_of_le h.2 (Nat.pow_le_pow_right (by decide) hi))

theorem getBitAt_ok {a : ApInt} (h : a.Shape) {pos : Nat} (hp : pos < a.w) :
    a.getBitAt pos = .ok (.ok (a.uval.testBit pos)) := by
  unfold getBitAt width
  rw [verifyBitAccess_ok hp, accessData_ok h, uval_testBit]
  rcases h.cases with ⟨d, e, h1, h2⟩ | ⟨ds, e, h1, h2, h3⟩
  · have h64 : pos < 64 := by omega
    simp only [e, h2, run_bind_ok, Digit.get_ok d h64]
    rw [Nat.div_eq_of_lt h64, Nat.mod_eq_of_lt h64]
    rfl
  · have hlt : pos / 64 < ds.length := by rw [h2]; omega
    simp only [e, h3, run_bind_ok, toDigitAndBitPos, idx_ok hlt,
      Digit.get_ok _ (Nat.mod_lt pos (by decide : 64 > 0))]
    simp [hlt]

theorem getBitAt_err {a : ApInt} {pos : Nat} (hp : a.w ≤ pos) :
    a.getBitAt pos = .ok (.error (.invalidBitAccess pos a.len)) := by
  unfold getBitAt width
  rw [verifyBitAccess_err hp]

theorem modifyBitAt_ok {a : ApInt} (h : a.WF) {pos : Nat} (hp : pos < a.w)
    {op : Digit → Nat → Run (Res Unit × Digit)} {f : Digit → Nat → Digit} {g : Bool → Bool}
    (hop : ∀ d p, p < 64 → op d p = .ok (.ok (), f d p))
    (hf : ∀ d p j, p < 64 → j < 64 →
      (f d p).getLsbD j = if j = p then g (d.getLsbD j) else d.getLsbD j) :
    ∃ c, a.modifyBitAt pos op = .ok (.ok (), c) ∧ c.WF ∧ c.len = a.len ∧
      ∀ i, c.uval.testBit i = if i = pos then g (a.uval.testBit i) else a.uval.testBit i := by
  have hm : pos % 64 < 64 := Nat.mod_lt _ (by decide)
  have hlt : pos / 64 < a.digits.length := by rw [h.1.length_digits]; omega
  have key : ∃ c, a.modifyBitAt pos op = .ok (.ok (), c) ∧ c.Shape ∧ c.len = a.len ∧
      c.digits = a.digits.set (pos / 64) (f (a.digits.getD (pos / 64) 0) (pos % 64)) := by
    unfold modifyBitAt width
    rw [verifyBitAccess_ok hp, accessData_ok h.1]
    rcases h.1.cases with ⟨d, e, h1, h2⟩ | ⟨ds, e, h1, h2, h3⟩
    · have h64 : pos < 64 := by omega
      rw [h2, Nat.div_eq_of_lt h64, Nat.mod_eq_of_lt h64]
      exact ⟨{ a with data := .inl (f d pos) }, by simp [e, hop d pos h64], h1, rfl, rfl⟩
    · rw [h3] at hlt ⊢
      refine ⟨{ a with data := .ext (ds.set (pos / 64) (f (ds.getD (pos / 64) 0) (pos % 64))) },
        ?_, ⟨h1, by simpa using h2⟩, rfl, rfl⟩
      simp only [e, run_bind_ok, toDigitAndBitPos, idx_ok hlt, hop _ _ hm, upd_ok hlt]
      simp [hlt]
  obtain ⟨c, e, h1, h2, h3⟩ := key
  have hbits : ∀ i, c.uval.testBit i =
      if i = pos then g (a.uval.testBit i) else a.uval.testBit i := by
    intro i
    rw [uval_testBit, uval_testBit, h3, getD_set hlt]
    have hi : i % 64 < 64 := Nat.mod_lt _ (by decide)
    by_cases hq : i / 64 = pos / 64
    · rw [if_pos hq, hf _ _ _ hm hi, hq]
      by_cases hip : i % 64 = pos % 64
      · rw [if_pos hip, if_pos (by omega)]
      · rw [if_neg hip, if_neg (by omega)]
    · rw [if_neg hq, if_neg (by intro hip; rw [hip] at hq; exact hq rfl)]
  refine ⟨c, e, ⟨h1, ?_⟩, h2, hbits⟩
  have hcw : c.w = a.w := by unfold w; rw [h2]
  rw [hcw]
  apply Nat.lt_pow_two_of_testBit
  intro i hi
  rw [hbits i, if_neg (by omega)]
  exact h.testBit_of_ge hi

theorem modifyBitAt_err {a : ApInt} {pos : Nat} (hp : a.w ≤ pos)
    (op : Digit → Nat → Run (Res Unit × Digit)) :
    a.modifyBitAt pos op = .ok (.error (.invalidBitAccess pos a.len), a) := by
  unfold modifyBitAt width
  rw [verifyBitAccess_err hp]

theorem shl_one_getLsbD {p j : Nat} (hp : p < 64) :
    ((1#64) <<< p).getLsbD j = decide (j = p) := by
  have : ((1#64) <<< p).getLsbD j = ((1#64) <<< p).toNat.testBit j := rfl
  rw [this, Digit.one_shl_toNat hp, Nat.testBit_two_pow]
  simp [eq_comm]

theorem setBitAt_ok {a : ApInt} (h : a.WF) {pos : Nat} (hp : pos < a.w) :
    ∃ c, a.setBitAt pos = .ok (.ok (), c) ∧ c.WF ∧ c.len = a.len ∧
      ∀ i, c.uval.testBit i = if i = pos then true else a.uval.testBit i := by
  refine modifyBitAt_ok h hp (g := fun _ => true) (fun d p hp => Digit.set_ok d hp) ?_
  intro d p j hp hj
  rw [BitVec.getLsbD_or, shl_one_getLsbD hp]
  by_cases hjp : j = p <;> simp [hjp]

theorem unsetBitAt_ok {a : ApInt} (h : a.WF) {pos : Nat} (hp : pos < a.w) :
    ∃ c, a.unsetBitAt pos = .ok (.ok (), c) ∧ c.WF ∧ c.len = a.len ∧
      ∀ i, c.uval.testBit i = if i = pos then false else a.uval.testBit i := by
  refine modifyBitAt_ok h hp (g := fun _ => false) (fun d p hp => Digit.unset_ok d hp) ?_
  intro d p j hp hj
  rw [BitVec.getLsbD_and, BitVec.getLsbD_not, shl_one_getLsbD hp]
  by_cases hjp : j = p <;> simp [hjp, hj]

theorem flipBitAt_ok {a : ApInt} (h : a.WF) {pos : Nat} (hp : pos < a.w) :
    ∃ c, a.flipBitAt pos = .ok (.ok (), c) ∧ c.WF ∧ c.len = a.len ∧
      ∀ i, c.uval.testBit i = if i = pos then !(a.uval.testBit i) else a.uval.testBit i := by
  refine modifyBitAt_ok h hp (g := fun b => !b) (fun d p hp => Digit.flip_ok d hp) ?_
  intro d p j hp hj
  rw [BitVec.getLsbD_xor, shl_one_getLsbD hp]
  by_cases hjp : j = p <;> simp [hjp]

/-! ## First and last bit -/

theorem msb_ok {a : ApInt} (h : a.Shape) : a.msb = .ok (a.uval.testBit (a.w - 1)) := by
  obtain ⟨ds, d, h1, e1⟩ := mostSignificantDigit_ok h
  have hw := a.pos_w
  have hl := h.length_digits
  rw [h1] at hl
  simp only [List.length_append, List.length_singleton] at hl
  have hm : (a.w - 1) % 64 < 64 := Nat.mod_lt _ (by decide)
  have hd : (a.w - 1) / 64 = ds.length := by omega
  unfold msb
  rw [e1, uval_testBit, h1, hd]
  simp only [run_bind_ok, toPosWithinDigit, BitWidth.msbPos, width]
  rw [show a.len.toUsize = a.w from rfl, Digit.get_ok d hm]
  simp [expect]

theorem lsb_ok {a : ApInt} (h : a.Shape) : a.lsb = .ok (a.uval.testBit 0) := by
  obtain ⟨d, ds, h1, e1⟩ := leastSignificantDigit_ok h
  unfold lsb
  rw [e1, uval_testBit, h1]
  simp only [run_bind_ok, run_pure, Digit.lsb_eq]
  rfl

/-- The sign bit is set exactly for the values in the upper half. -/
theorem testBit_top {v w : Nat} (hw : 0 < w) (h : v < 2 ^ w) :
    v.testBit (w - 1) = decide (2 ^ (w - 1) ≤ v) := by
  obtain ⟨n, rfl⟩ : ∃ n, w = n + 1 := ⟨w - 1, by omega⟩
  simp only [Nat.add_sub_cancel]
  rw [Nat.pow_succ] at h
  by_cases hv : 2 ^ n ≤ v
  · simp only [hv, decide_true]
    rw [Nat.testBit_eq_decide_div_mod_eq]
    have : v / 2 ^ n = 1 := by
      apply Nat.div_eq_of_lt_le <;> omega
    simp [this]
  · simp only [hv, decide_false]
    exact Nat.testBit_lt_two_pow (by omega)

theorem WF.msb_eq {a : ApInt} (h : a.WF) : a.msb = .ok (decide (2 ^ (a.w - 1) ≤ a.uval)) := by
  rw [msb_ok h.1, testBit_top a.pos_w h.2]

theorem isZero_ok {a : ApInt} (h : a.Shape) : a.isZero = .ok (decide (a.uval = 0)) := by
  unfold isZero
  rw [accessData_ok h]
  rcases h.cases with ⟨d, e, h1, h2⟩ | ⟨ds, e, h1, h2, h3⟩
  · simp only [e, run_bind_ok, uval, h2, val_singleton]
    congr 1
    rw [Bool.eq_iff_iff, Digit.isZero_iff]
    simp
  · simp only [e, run_bind_ok, uval, h3]
    congr 1
    rw [Bool.eq_iff_iff]
    simp only [List.all_eq_true, decide_eq_true_eq, val_eq_zero_iff, Digit.isZero, beq_iff_eq,
      Digit.ZERO]

theorem isEven_ok {a : ApInt} (h : a.Shape) : a.isEven = .ok (decide (a.uval % 2 = 0)) := by
  unfold isEven
  rw [lsb_ok h, Nat.testBit_zero]
  simp only [run_bind_ok, run_pure]
  rcases Nat.mod_two_eq_zero_or_one a.uval with h | h <;> simp [h]

theorem isOdd_ok {a : ApInt} (h : a.Shape) : a.isOdd = .ok (decide (a.uval % 2 = 1)) := by
  unfold isOdd
  rw [lsb_ok h, Nat.testBit_zero]

end ApInt

end Verif
