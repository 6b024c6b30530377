import Verif.Proof.Shift

/-! # Bit counts, `is_one`, `is_all_set` -/

namespace Verif

theorem testBit_cons_lt {d : Digit} {v i : Nat} (hi : i < 64) :
    (d.toNat + B * v).testBit i = d.toNat.testBit i := by
  rw [B_eq, Nat.add_comm, Nat.testBit_two_pow_mul_add _ d.isLt, if_pos hi]

theorem testBit_cons_ge {d : Digit} {v i : Nat} :
    (d.toNat + B * v).testBit (64 + i) = v.testBit i := by
  rw [B_eq, Nat.add_comm, Nat.testBit_two_pow_mul_add _ d.isLt, if_neg (by omega)]
  congr 1
  omega

theorem countOnes_sum (ds : List Digit) :
    (ds.map countOnes64).sum = (List.range (64 * ds.length)).countP fun i => (val ds).testBit i := by
  induction ds with
  | nil => simp
  | cons d ds ih =>
    rw [List.map_cons, List.sum_cons, ih, List.length_cons, Nat.mul_add, Nat.mul_one, Nat.add_comm
      (64 * ds.length), List.range_add, List.countP_append, List.countP_map]
    congr 1
    · unfold countOnes64
      apply List.countP_congr
      intro i hi
      rw [val_cons, testBit_cons_lt (List.mem_range.mp hi)]
    · apply List.countP_congr
      intro i _
      simp only [Function.comp_apply]
      rw [val_cons, testBit_cons_ge]

theorem countP_range_of_false {p : Nat → Bool} {w n : Nat} (h : w ≤ n)
    (hp : ∀ i, w ≤ i → p i = false) :
    (List.range n).countP p = (List.range w).countP p := by
  obtain ⟨k, rfl⟩ := Nat.exists_eq_add_of_le h
  rw [List.range_add, List.countP_append]
  have : ((List.range k).map (w + ·)).countP p = 0 := by
    rw [List.countP_eq_zero]
    intro x hx
    obtain ⟨y, _, rfl⟩ := List.mem_map.mp hx
    simp [hp (w + y) (by omega)]
  omega

theorem countOnes64_le (d : Digit) : countOnes64 d ≤ 64 := by
  unfold countOnes64
  have := List.countP_le_length (l := List.range 64) (p := fun i => d.toNat.testBit i)
  simpa using this

theorem countZeros_sum (ds : List Digit) :
    (ds.map countZeros64).sum + (ds.map countOnes64).sum = 64 * ds.length := by
  induction ds with
  | nil => rfl
  | cons d ds ih =>
    have := countOnes64_le d
    simp only [List.map_cons, List.sum_cons, List.length_cons, countZeros64]
    omega

theorem leadingZeros64_spec (d : Digit) : leadingZeros64 d ≤ 64 ∧
    d.toNat < 2 ^ (64 - leadingZeros64 d) ∧
    (leadingZeros64 d < 64 → 2 ^ (63 - leadingZeros64 d) ≤ d.toNat) ∧
    (leadingZeros64 d = 64 ↔ d.toNat = 0) := by
  unfold leadingZeros64
  by_cases h : d.toNat = 0
  · simp [h]
  · rw [if_neg h]
    have h1 : Nat.log2 d.toNat < 64 := (Nat.log2_lt h).mpr d.isLt
    refine ⟨by omega, ?_, ?_, by omega⟩
    · rw [show 64 - (63 - Nat.log2 d.toNat) = Nat.log2 d.toNat + 1 by omega]
      exact Nat.lt_log2_self
    · intro _
      rw [show 63 - (63 - Nat.log2 d.toNat) = Nat.log2 d.toNat by omega]
      exact Nat.log2_self_le h

theorem leadingLoop_ok : ∀ (n : Nat) (ds : List Digit) (acc : Nat), ds.length = n →
    ∃ z, ApInt.zerosLoop leadingZeros64 ds.reverse acc = acc + z ∧ z ≤ 64 * n ∧
      val ds < 2 ^ (64 * n - z) ∧ (z < 64 * n → 2 ^ (64 * n - z - 1) ≤ val ds) := by
  intro n
  induction n with
  | zero =>
    intro ds acc h
    rw [List.length_eq_zero_iff.mp h]
    exact ⟨0, rfl, by omega, by simp [val_nil], by omega⟩
  | succ n ih =>
    intro ds acc h
    obtain ⟨init, d, rfl⟩ : ∃ xi x, ds = xi ++ [x] :=
      ⟨ds.dropLast, ds.getLast (by intro hc; simp [hc] at h),
        (List.dropLast_concat_getLast _).symm⟩
    simp only [List.length_append, List.length_singleton, Nat.add_right_cancel_iff] at h
    obtain ⟨h1, h2, h3, h4⟩ := leadingZeros64_spec d
    have hlt := val_lt init
    rw [h] at hlt
    rw [List.reverse_append, List.reverse_singleton, List.singleton_append, ApInt.zerosLoop,
      val_append, val_singleton, h]
    by_cases hz : leadingZeros64 d = 64
    · obtain ⟨z, e, hz1, hz2, hz3⟩ := ih init (acc + leadingZeros64 d) h
      refine ⟨64 + z, ?_, by omega, ?_, ?_⟩
      · rw [if_neg (by simp [hz]), e, hz]; omega
      · rw [h4.mp hz, Nat.mul_zero, Nat.add_zero, show 64 * (n + 1) - (64 + z) = 64 * n - z by omega]
        exact hz2
      · intro hc
        rw [h4.mp hz, Nat.mul_zero, Nat.add_zero,
          show 64 * (n + 1) - (64 + z) - 1 = 64 * n - z - 1 by omega]
        exact hz3 (by omega)
    · refine ⟨leadingZeros64 d, by rw [if_pos hz], by omega, ?_, ?_⟩
      · rw [show 64 * (n + 1) - leadingZeros64 d = 64 * n + (64 - leadingZeros64 d) by omega,
          Nat.pow_add, ← B_pow]
        calc val init + B ^ n * d.toNat < B ^ n * (d.toNat + 1) := by
              rw [Nat.mul_add, Nat.mul_one]; omega
          _ ≤ _ := Nat.mul_le_mul_left _ h2
      · intro _
        rw [show 64 * (n + 1) - leadingZeros64 d - 1 = 64 * n + (63 - leadingZeros64 d) by omega,
          Nat.pow_add, ← B_pow]
        exact Nat.le_trans (Nat.mul_le_mul_left _ (h3 (by omega))) (Nat.le_add_left _ _)

theorem trailingZerosAux_spec (x : Nat) : ∀ (n i : Nat),
    trailingZerosAux x n i ≤ n ∧ (∀ j, j < trailingZerosAux x n i → x.testBit (i + j) = false) ∧
    (trailingZerosAux x n i < n → x.testBit (i + trailingZerosAux x n i) = true) := by
  intro n
  induction n with
  | zero => intro i; exact ⟨Nat.le_refl _, fun j hj => by simp [trailingZerosAux] at hj,
      fun h => by simp [trailingZerosAux] at h⟩
  | succ n ih =>
    intro i
    unfold trailingZerosAux
    by_cases h : x.testBit i
    · rw [if_pos h]
      exact ⟨by omega, fun j hj => by omega, fun _ => h⟩
    · rw [if_neg h]
      obtain ⟨h1, h2, h3⟩ := ih (i + 1)
      refine ⟨by omega, ?_, ?_⟩
      · intro j hj
        cases j with
        | zero => simpa using h
        | succ j =>
          have := h2 j (by omega)
          rwa [show i + 1 + j = i + (j + 1) by omega] at this
      · intro hlt
        have := h3 (by omega)
        rwa [show i + 1 + trailingZerosAux x n (i + 1) = i + (1 + trailingZerosAux x n (i + 1))
          by omega] at this

theorem trailingLoop_ok : ∀ (ds : List Digit) (acc : Nat),
    ∃ z, ApInt.zerosLoop trailingZeros64 ds acc = acc + z ∧ z ≤ 64 * ds.length ∧
      (∀ j, j < z → (val ds).testBit j = false) ∧
      (z < 64 * ds.length → (val ds).testBit z = true) := by
  intro ds
  induction ds with
  | nil => intro acc; exact ⟨0, rfl, Nat.le_refl _, fun j hj => by omega, fun h => by simp at h⟩
  | cons d ds ih =>
    intro acc
    obtain ⟨h1, h2, h3⟩ := trailingZerosAux_spec d.toNat 64 0
    have hdef : trailingZerosAux d.toNat 64 0 = trailingZeros64 d := rfl
    rw [hdef] at h1 h2 h3
    simp only [Nat.zero_add] at h2 h3
    rw [ApInt.zerosLoop, val_cons, List.length_cons]
    by_cases hz : trailingZeros64 d = 64
    · obtain ⟨z, e, hz1, hz2, hz3⟩ := ih (acc + trailingZeros64 d)
      refine ⟨64 + z, ?_, by omega, ?_, ?_⟩
      · rw [if_neg (by simp [hz]), e, hz]; omega
      · intro j hj
        by_cases hj64 : j < 64
        · rw [testBit_cons_lt hj64]; exact h2 j (by omega)
        · obtain ⟨k, rfl⟩ := Nat.exists_eq_add_of_le (Nat.not_lt.mp hj64)
          rw [testBit_cons_ge]; exact hz2 k (by omega)
      · intro hc
        rw [testBit_cons_ge]; exact hz3 (by omega)
    · refine ⟨trailingZeros64 d, by rw [if_pos hz], by omega, ?_, ?_⟩
      · intro j hj
        rw [testBit_cons_lt (by omega)]; exact h2 j hj
      · intro _
        rw [testBit_cons_lt (by omega)]; exact h3 (by omega)

namespace ApInt

theorem unusedBits_ok (a : ApInt) : a.unusedBits = .ok (64 * ((a.w + 63) / 64) - a.w) := by
  unfold unusedBits width
  have hp := a.pos_w
  rcases BitWidth.excessBits_cases a.len with ⟨h0, e⟩ | ⟨h0, e⟩
  · rw [e, Option.getD_none, csub_ok (Nat.le_refl _)]
    congr 1
    have : a.w % 64 = 0 := h0
    omega
  · rw [e, Option.getD_some, csub_ok (by omega)]
    congr 1
    have : a.w % 64 ≠ 0 := h0
    show 64 - a.w % 64 = _
    omega

theorem countOnes_ok {a : ApInt} (h : a.WF) :
    a.countOnes = .ok ((List.range a.w).countP fun i => a.uval.testBit i) := by
  simp only [countOnes, asDigitSlice_ok h.1, run_bind_ok, run_pure]
  rw [countOnes_sum, h.1.length_digits]
  congr 1
  exact countP_range_of_false (by omega) fun i hi => h.testBit_of_ge hi

theorem countZeros_ok {a : ApInt} (h : a.WF) :
    a.countZeros = .ok ((List.range a.w).countP fun i => !(a.uval.testBit i)) := by
  have h1 := countOnes_ok h
  simp only [countOnes, asDigitSlice_ok h.1, run_bind_ok, run_pure] at h1
  have h1 := Except.ok.inj h1
  have h2 := countZeros_sum a.digits
  rw [h1, h.1.length_digits] at h2
  have h3 := List.length_eq_countP_add_countP (l := List.range a.w)
    (fun i => a.uval.testBit i)
  rw [List.length_range] at h3
  have h4 : (List.range a.w).countP (fun i => !(a.uval.testBit i))
      = (List.range a.w).countP (fun i => decide (¬ a.uval.testBit i = true)) := by
    apply List.countP_congr; intro i _; simp
  simp only [countZeros, asDigitSlice_ok h.1, run_bind_ok, unusedBits_ok]
  rw [csub_ok (by omega), h4]
  congr 1
  omega

theorem leadingZeros_ok {a : ApInt} (h : a.WF) :
    ∃ n, a.leadingZeros = .ok n ∧ n ≤ a.w ∧ a.uval < 2 ^ (a.w - n) ∧
      (n < a.w → 2 ^ (a.w - n - 1) ≤ a.uval) := by
  obtain ⟨z, e, h1, h2, h3⟩ := leadingLoop_ok _ a.digits 0 rfl
  rw [h.1.length_digits] at h1 h2 h3
  have hp := a.pos_w
  have hz : 64 * ((a.w + 63) / 64) - a.w ≤ z := by
    by_contra hc
    have h4 := h3 (by omega)
    have h5 : 2 ^ a.w ≤ 2 ^ (64 * ((a.w + 63) / 64) - z - 1) :=
      Nat.pow_le_pow_right (by decide) (by omega)
    have := h.2
    unfold uval at this
    omega
  refine ⟨z - (64 * ((a.w + 63) / 64) - a.w), ?_, by omega, ?_, ?_⟩
  · simp only [leadingZeros, asDigitSlice_ok h.1, run_bind_ok, unusedBits_ok, e, Nat.zero_add]
    exact csub_ok hz
  · rw [show a.w - (z - (64 * ((a.w + 63) / 64) - a.w)) = 64 * ((a.w + 63) / 64) - z by omega]
    exact h2
  · intro hlt
    rw [show a.w - (z - (64 * ((a.w + 63) / 64) - a.w)) - 1 = 64 * ((a.w + 63) / 64) - z - 1
      by omega]
    exact h3 (by omega)

theorem trailingZeros_ok {a : ApInt} (h : a.WF) :
    ∃ n, a.trailingZeros = .ok n ∧ n ≤ a.w ∧ (∀ i, i < n → a.uval.testBit i = false) ∧
      (n < a.w → a.uval.testBit n = true) := by
  obtain ⟨z, e, h1, h2, h3⟩ := trailingLoop_ok a.digits 0
  rw [h.1.length_digits] at h1 h3
  have hp := a.pos_w
  have hwid : a.width.toUsize = a.w := rfl
  simp only [trailingZeros, asDigitSlice_ok h.1, run_bind_ok, unusedBits_ok, e, Nat.zero_add, hwid]
  by_cases hz : z ≥ a.w
  · rw [if_pos hz]
    have hz2 : z = 64 * ((a.w + 63) / 64) := by
      by_contra hc
      have h4 := h3 (by omega)
      have h5 := h.testBit_of_ge hz
      unfold uval at h5
      rw [h4] at h5
      cases h5
    refine ⟨a.w, ?_, Nat.le_refl _, fun i hi => h2 i (by omega), fun hc => by omega⟩
    rw [csub_ok (by omega)]
    congr 1
    omega
  · rw [if_neg hz]
    exact ⟨z, rfl, by omega, h2, fun _ => h3 (by omega)⟩

/-! ## `is_one`, `is_all_set` -/

theorem isOne_inl {a : ApInt} (h : a.WF) (hw : a.w ≤ 64) :
    a.isOne = .ok (decide (a.uval = 1)) := by
  unfold isOne
  rw [accessData_ok h.1]
  rcases h.1.cases with ⟨d, e, h1, h2⟩ | ⟨ds, e, h1, h2, h3⟩
  · simp only [e, run_bind_ok]
    congr 1
    have hu : a.uval = d.toNat := by simp [uval, h2]
    rw [hu, beq_eq_decide, decide_eq_decide]
    constructor
    · rintro rfl; rfl
    · intro hd; exact BitVec.eq_of_toNat_eq hd
  · omega

/-- What `is_one` computes beyond 64 bits: it compares the most significant digit with one. -/
theorem isOne_ext {a : ApInt} (h : a.WF) (hw : 64 < a.w) :
    a.isOne = .ok (decide (a.uval = 2 ^ (64 * ((a.w - 1) / 64)))) := by
  unfold isOne
  rw [accessData_ok h.1]
  rcases h.1.cases with ⟨d, e, h1, h2⟩ | ⟨ds, e, h1, h2, h3⟩
  · omega
  · simp only [e, run_bind_ok]
    have hne : ds ≠ [] := by intro hc; rw [hc] at h2; simp at h2; omega
    obtain ⟨init, last, rfl⟩ : ∃ xi x, ds = xi ++ [x] :=
      ⟨ds.dropLast, ds.getLast hne, (List.dropLast_concat_getLast _).symm⟩
    simp only [List.getLast?_append, List.getLast?_singleton, Option.some_or,
      List.dropLast_concat]
    congr 1
    have hu : a.uval = val init + B ^ init.length * last.toNat := by
      simp [uval, h3, val_append]
    have hil : init.length = (a.w - 1) / 64 := by
      rw [List.length_append, List.length_singleton] at h2; omega
    rw [hu, ← hil, ← B_pow, Bool.eq_iff_iff, Bool.and_eq_true, decide_eq_true_iff, beq_iff_eq,
      List.all_eq_true]
    have hlt := val_lt init
    have hB := B_pow_pos init.length
    constructor
    · rintro ⟨rfl, hz⟩
      have : val init = 0 := by
        rw [val_eq_zero_iff]; intro d hd
        exact BitVec.eq_of_toNat_eq ((Digit.isZero_iff d).mp (hz d hd))
      rw [this, Digit.ONE_toNat, Nat.mul_one, Nat.zero_add]
    · intro hv
      have hl : last.toNat = 1 := by
        rcases Nat.lt_trichotomy last.toNat 1 with hc | hc | hc
        · have : last.toNat = 0 := by omega
          rw [this] at hv; omega
        · exact hc
        · have : B ^ init.length * 2 ≤ B ^ init.length * last.toNat := Nat.mul_le_mul_left _ hc
          omega
      refine ⟨BitVec.eq_of_toNat_eq hl, ?_⟩
      rw [hl, Nat.mul_one] at hv
      have h0 : val init = 0 := by omega
      rw [val_eq_zero_iff] at h0
      intro d hd
      rw [Digit.isZero_iff, h0 d hd]; rfl

theorem all_ones_val {l : List Digit} :
    (l.all fun d => d == Digit.ONES) = decide (val l = B ^ l.length - 1) := by
  have hO : Digit.ONES = ~~~(0#64) := by decide
  rw [Bool.eq_iff_iff, decide_eq_true_iff, List.all_eq_true]
  constructor
  · intro h
    have : l = List.replicate l.length (~~~(0#64)) := by
      rw [List.eq_replicate_iff]
      exact ⟨rfl, fun d hd => by have := h d hd; rw [beq_iff_eq] at this; rw [this, hO]⟩
    rw [this, val_replicate_ones, List.length_replicate]
  · intro h
    have : l = List.replicate l.length (~~~(0#64)) :=
      val_inj (by simp) (by rw [h, val_replicate_ones])
    rw [this]
    intro d hd
    rw [List.eq_of_mem_replicate hd, hO]
    rfl

theorem countOnes64_eq {d : Digit} {e : Nat} (he : e ≤ 64) (hd : d.toNat < 2 ^ e) :
    countOnes64 d = e ↔ d.toNat = 2 ^ e - 1 := by
  have h1 : countOnes64 d = (List.range e).countP fun i => d.toNat.testBit i := by
    unfold countOnes64
    exact countP_range_of_false he fun i hi =>
      Nat.testBit_lt_two_pow (Nat.lt_of_lt_of_le hd (Nat.pow_le_pow_right (by decide) hi))
  rw [h1]
  have h2 : ((List.range e).countP (fun i => d.toNat.testBit i) = e) ↔
      ∀ i, i < e → d.toNat.testBit i = true := by
    have := List.countP_eq_length (p := fun i => d.toNat.testBit i) (l := List.range e)
    rw [List.length_range] at this
    rw [this]
    simp [List.mem_range]
  rw [h2]
  constructor
  · intro h
    apply Nat.eq_of_testBit_eq
    intro i
    rw [Nat.testBit_two_pow_sub_one]
    by_cases hi : i < e
    · simp [hi, h i hi]
    · simp only [hi, decide_false]
      exact Nat.testBit_lt_two_pow (Nat.lt_of_lt_of_le hd
        (Nat.pow_le_pow_right (by decide) (by omega)))
  · intro h i hi
    rw [h, Nat.testBit_two_pow_sub_one]
    simp [hi]

theorem isAllSet_excess {a : ApInt} (h : a.WF) (hw : a.w % 64 ≠ 0) :
    a.isAllSet = .ok (decide (a.uval = 2 ^ a.w - 1)) := by
  obtain ⟨ds, d, e1, e2⟩ := splitMostSignificantDigit_ok h.1
  have hl := h.1.length_digits
  rw [e1, List.length_append, List.length_singleton] at hl
  have hdl : ds.length = a.w / 64 := by omega
  have hu : a.uval = val ds + B ^ ds.length * d.toNat := by
    unfold uval; rw [e1, val_append, val_singleton]
  have hsplit : (2:Nat) ^ a.w = B ^ ds.length * 2 ^ (a.w % 64) := by
    rw [B_pow, ← Nat.pow_add]; congr 1; omega
  have hdlt := val_lt ds
  have hBp := B_pow_pos ds.length
  have hd : d.toNat < 2 ^ (a.w % 64) := by
    have := h.2
    rw [hu, hsplit] at this
    exact Nat.lt_of_mul_lt_mul_left (a := B ^ ds.length) (by omega)
  have hc := countOnes64_eq (by omega) hd
  unfold isAllSet width
  rw [e2, run_bind_ok, BitWidth.excessBits_some hw]
  simp only
  have hexc : a.len.toUsize % 64 = a.w % 64 := rfl
  rw [hexc]
  have hp2 := two_pow_w_pos (a.w % 64)
  by_cases h1 : countOnes64 d = a.w % 64
  · rw [if_neg (by simp [h1]), all_ones_val]
    congr 1
    rw [decide_eq_decide, hu, hc.mp h1, hsplit]
    have : B ^ ds.length * 1 ≤ B ^ ds.length * 2 ^ (a.w % 64) := Nat.mul_le_mul_left _ hp2
    rw [Nat.mul_sub, Nat.mul_one]
    omega
  · rw [if_pos h1]
    congr 1
    symm
    rw [decide_eq_false_iff_not, hu, hsplit]
    intro hv
    have hne : d.toNat ≠ 2 ^ (a.w % 64) - 1 := fun hx => h1 (hc.mpr hx)
    have : B ^ ds.length * (d.toNat + 1 + 1) ≤ B ^ ds.length * 2 ^ (a.w % 64) :=
      Nat.mul_le_mul_left _ (by omega)
    rw [Nat.mul_add, Nat.mul_add, Nat.mul_one] at this
    omega

/-- What `is_all_set` computes for widths that are a multiple of 64: the most significant digit
is not looked at. -/
theorem isAllSet_aligned {a : ApInt} (h : a.WF) (hw : a.w % 64 = 0) :
    a.isAllSet = .ok (decide (a.uval % 2 ^ (a.w - 64) = 2 ^ (a.w - 64) - 1)) := by
  obtain ⟨ds, d, e1, e2⟩ := splitMostSignificantDigit_ok h.1
  have hl := h.1.length_digits
  rw [e1, List.length_append, List.length_singleton] at hl
  have hp := a.pos_w
  have hdl : a.w - 64 = 64 * ds.length := by omega
  have hu : a.uval = val ds + B ^ ds.length * d.toNat := by
    unfold uval; rw [e1, val_append, val_singleton]
  unfold isAllSet width
  rw [e2, run_bind_ok, BitWidth.excessBits_none hw]
  simp only
  rw [all_ones_val, hdl, ← B_pow, hu, Nat.add_mul_mod_self_left, Nat.mod_eq_of_lt (val_lt ds)]

end ApInt

end Verif
