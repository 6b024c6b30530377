import Verif.Model.ApInt
import Verif.Proof.Digit

/-! # Access to the digits, and clearing of the unused bits -/

namespace Verif

namespace ApInt

theorem pos_w (a : ApInt) : 0 < a.w := a.len.pos

/-- Case split on the storage of a well-shaped value. -/
theorem Shape.cases {a : ApInt} (h : a.Shape) :
    (∃ d, a.data = .inl d ∧ a.w ≤ 64 ∧ a.digits = [d]) ∨
    (∃ ds, a.data = .ext ds ∧ 64 < a.w ∧ ds.length = (a.w + 63) / 64 ∧ a.digits = ds) := by
  unfold Shape at h
  unfold digits
  cases hd : a.data with
  | inl d => rw [hd] at h; exact .inl ⟨d, rfl, h, rfl⟩
  | ext ds => rw [hd] at h; exact .inr ⟨ds, rfl, h.1, h.2, rfl⟩

theorem shape_inl {len : BitWidth} {d : Digit} (h : len.toUsize ≤ 64) :
    Shape ⟨len, .inl d⟩ := h

theorem shape_ext {len : BitWidth} {ds : List Digit} (h : 64 < len.toUsize)
    (hl : ds.length = (len.toUsize + 63) / 64) : Shape ⟨len, .ext ds⟩ := ⟨h, hl⟩

theorem uval_inl {len : BitWidth} {d : Digit} : uval ⟨len, .inl d⟩ = d.toNat := by
  simp [uval, digits]

theorem uval_ext {len : BitWidth} {ds : List Digit} : uval ⟨len, .ext ds⟩ = val ds := rfl

theorem WF.shape {a : ApInt} (h : a.WF) : a.Shape := h.1

theorem WF.lt {a : ApInt} (h : a.WF) : a.uval < 2 ^ a.w := h.2

theorem Shape.length_digits {a : ApInt} (h : a.Shape) : a.digits.length = (a.w + 63) / 64 := by
  have := a.pos_w
  rcases h.cases with ⟨d, _, h1, h2⟩ | ⟨ds, _, _, h1, h2⟩
  · rw [h2]; simp; omega
  · rw [h2, h1]

theorem Shape.storage_inl {a : ApInt} (h : a.w ≤ 64) : a.storage = .inl :=
  BitWidth.storage_inl h

theorem Shape.storage_ext {a : ApInt} (h : 64 < a.w) : a.storage = .ext :=
  BitWidth.storage_ext h

theorem accessData_ok {a : ApInt} (h : a.Shape) : a.accessData = .ok a.data := by
  rcases h.cases with ⟨d, e, h1, _⟩ | ⟨ds, e, h1, h2, _⟩
  · simp [accessData, Shape.storage_inl h1, readInl, e]
  · simp [accessData, Shape.storage_ext h1, readExt, e, lenDigits, BitWidth.requiredDigits_eq, h2]

theorem asDigitSlice_ok {a : ApInt} (h : a.Shape) : a.asDigitSlice = .ok a.digits := by
  rcases h.cases with ⟨d, e, h1, h2⟩ | ⟨ds, e, h1, h2, h3⟩
  · simp [asDigitSlice, Shape.storage_inl h1, readInl, e, h2]
  · simp [asDigitSlice, Shape.storage_ext h1, readExt, e, lenDigits, BitWidth.requiredDigits_eq,
      h2, h3]

theorem writeDigitSlice_ok {a : ApInt} {ds : List Digit}
    (hl : ds.length = (a.w + 63) / 64) :
    ∃ c, a.writeDigitSlice ds = .ok c ∧ c.Shape ∧ c.len = a.len ∧ c.digits = ds := by
  by_cases h : a.w ≤ 64
  · have hp := a.pos_w
    obtain ⟨d, rfl⟩ : ∃ d, ds = [d] := List.length_eq_one_iff.mp (by omega)
    exact ⟨{ a with data := .inl d }, by simp [writeDigitSlice, Shape.storage_inl h], h, rfl, rfl⟩
  · exact ⟨{ a with data := .ext ds },
      by simp [writeDigitSlice, Shape.storage_ext (by omega : 64 < a.w)],
      ⟨by show 64 < a.w; omega, hl⟩, rfl, rfl⟩

theorem zipAccessData_err {a b : ApInt} (h : a.len ≠ b.len) :
    a.zipAccessData b = .ok (.error (.unmatchingBitwidth a.len b.len)) := by
  simp [zipAccessData, width, h]

theorem zipAccessData_ok {a b : ApInt} (ha : a.Shape) (hb : b.Shape) (h : a.len = b.len) :
    (∃ x y, a.data = .inl x ∧ b.data = .inl y ∧ a.w ≤ 64 ∧
      a.zipAccessData b = .ok (.ok (.inl x y))) ∨
    (∃ xs ys, a.data = .ext xs ∧ b.data = .ext ys ∧ 64 < a.w ∧
      xs.length = (a.w + 63) / 64 ∧ ys.length = (a.w + 63) / 64 ∧
      a.zipAccessData b = .ok (.ok (.ext xs ys))) := by
  have hw : a.w = b.w := by unfold w; rw [h]
  rcases ha.cases with ⟨x, ex, h1, _⟩ | ⟨xs, ex, h1, h2, _⟩
  · rcases hb.cases with ⟨y, ey, _⟩ | ⟨_, _, h3, _⟩
    · left
      exact ⟨x, y, ex, ey, h1, by
        simp [zipAccessData, width, h, Shape.storage_inl h1, readInl, ex, ey]⟩
    · omega
  · rcases hb.cases with ⟨_, _, h3, _⟩ | ⟨ys, ey, h3, h4, _⟩
    · omega
    · right
      refine ⟨xs, ys, ex, ey, h1, h2, by rw [h4, hw], ?_⟩
      simp [zipAccessData, width, h, Shape.storage_ext h1, readExt, ex, ey, lenDigits,
        BitWidth.requiredDigits_eq, h2, h4]
      rw [if_pos (congrArg (fun n => (n + 63) / 64) hw)]
      rfl

theorem zipAccessData_not_error {a b : ApInt} (ha : a.Shape) (hb : b.Shape) {f : Fault} :
    a.zipAccessData b ≠ .error f := by
  by_cases h : a.len = b.len
  · rcases zipAccessData_ok ha hb h with ⟨_, _, _, _, _, e⟩ | ⟨_, _, _, _, _, _, _, e⟩ <;>
      rw [e] <;> simp
  · rw [zipAccessData_err h]; simp

theorem mostSignificantDigit_ok {a : ApInt} (h : a.Shape) :
    ∃ ds d, a.digits = ds ++ [d] ∧ a.mostSignificantDigit = .ok d := by
  unfold mostSignificantDigit
  rw [accessData_ok h]
  rcases h.cases with ⟨d, e, h1, h2⟩ | ⟨ds, e, h1, h2, h3⟩
  · exact ⟨[], d, by simp [h2], by simp [e]⟩
  · have hne : ds ≠ [] := by
      intro h0; rw [h0] at h2; simp at h2; omega
    refine ⟨ds.dropLast, ds.getLast hne, ?_, ?_⟩
    · rw [h3, List.dropLast_concat_getLast hne]
    · simp [e, List.getLast?_eq_some_getLast hne]

theorem setMostSignificantDigit_ok {a : ApInt} (h : a.Shape) {ds : List Digit} {d : Digit}
    (he : a.digits = ds ++ [d]) (x : Digit) :
    ∃ c, a.setMostSignificantDigit x = .ok c ∧ c.Shape ∧ c.len = a.len ∧ c.digits = ds ++ [x] := by
  unfold setMostSignificantDigit
  rw [accessData_ok h]
  rcases h.cases with ⟨y, e, h1, h2⟩ | ⟨ys, e, h1, h2, h3⟩
  · rw [h2] at he
    have : ds = [] := by
      cases ds with
      | nil => rfl
      | cons _ _ => simp at he
    subst this
    exact ⟨{ a with data := .inl x }, by simp [e], h1, rfl, rfl⟩
  · rw [h3] at he
    subst he
    refine ⟨{ a with data := .ext (ds ++ [x]) }, ?_, ⟨h1, by simpa using h2⟩, rfl, rfl⟩
    simp only [e, run_bind_ok]
    cases ds <;> simp

theorem leastSignificantDigit_ok {a : ApInt} (h : a.Shape) :
    ∃ d ds, a.digits = d :: ds ∧ a.leastSignificantDigit = .ok d := by
  unfold leastSignificantDigit
  rw [accessData_ok h]
  rcases h.cases with ⟨d, e, h1, h2⟩ | ⟨ds, e, h1, h2, h3⟩
  · exact ⟨d, [], h2, by simp [e]⟩
  · cases ds with
    | nil => simp at h2; omega
    | cons d ds => exact ⟨d, ds, h3, by simp [e, idx]⟩

theorem splitLeastSignificantDigit_ok {a : ApInt} (h : a.Shape) :
    ∃ d ds, a.digits = d :: ds ∧ a.splitLeastSignificantDigit = .ok (d, ds) := by
  unfold splitLeastSignificantDigit
  rw [accessData_ok h]
  rcases h.cases with ⟨d, e, h1, h2⟩ | ⟨ds, e, h1, h2, h3⟩
  · exact ⟨d, [], h2, by simp [e]⟩
  · cases ds with
    | nil => simp at h2; omega
    | cons d ds => exact ⟨d, ds, h3, by simp [e]⟩

theorem splitMostSignificantDigit_ok {a : ApInt} (h : a.Shape) :
    ∃ ds d, a.digits = ds ++ [d] ∧ a.splitMostSignificantDigit = .ok (d, ds) := by
  unfold splitMostSignificantDigit
  rw [accessData_ok h]
  rcases h.cases with ⟨d, e, h1, h2⟩ | ⟨ds, e, h1, h2, h3⟩
  · exact ⟨[], d, by simp [h2], by simp [e]⟩
  · have hne : ds ≠ [] := by
      intro h0; rw [h0] at h2; simp at h2; omega
    refine ⟨ds.dropLast, ds.getLast hne, ?_, ?_⟩
    · rw [h3, List.dropLast_concat_getLast hne]
    · simp [e, List.getLast?_eq_some_getLast hne]

/-- Removing the bits above the width from the last digit is reduction modulo `2 ^ w`. -/
theorem val_clear_top {ds : List Digit} {d d' : Digit} {w : Nat}
    (hl : ds.length + 1 = (w + 63) / 64) (hw : w % 64 ≠ 0)
    (hd : d'.toNat = d.toNat % 2 ^ (w % 64)) :
    val (ds ++ [d']) = val (ds ++ [d]) % 2 ^ w := by
  rw [val_append, val_append, val_singleton, val_singleton, hd]
  have hlen : ds.length = w / 64 := by omega
  have e : (2:Nat) ^ w = B ^ ds.length * 2 ^ (w % 64) := by
    rw [B_pow, ← Nat.pow_add]; congr 1; omega
  rw [e, Nat.mod_mul, Nat.add_mul_mod_self_left, Nat.mod_eq_of_lt (val_lt ds),
    Nat.add_mul_div_left _ _ (B_pow_pos _), Nat.div_eq_of_lt (val_lt ds), Nat.zero_add]

theorem clearUnusedBits_ok {a : ApInt} (h : a.Shape) :
    ∃ c, a.clearUnusedBits = .ok c ∧ c.WF ∧ c.len = a.len ∧ c.uval = a.uval % 2 ^ a.w := by
  unfold clearUnusedBits width
  rcases BitWidth.excessBits_cases a.len with ⟨h0, e⟩ | ⟨h0, e⟩
  · rw [e]
    have hlt : a.uval < 2 ^ a.w := by
      refine Nat.lt_of_lt_of_le (val_lt _) ?_
      rw [B_pow, h.length_digits]
      refine Nat.pow_le_pow_right (by decide) ?_
      unfold w; omega
    exact ⟨a, rfl, ⟨h, hlt⟩, rfl, (Nat.mod_eq_of_lt hlt).symm⟩
  · rw [e]
    obtain ⟨ds, d, h1, e1⟩ := mostSignificantDigit_ok h
    obtain ⟨d', e2, h2⟩ := Digit.retainLastN_ok d (Nat.mod_lt a.len.toUsize (by decide : 64 > 0))
    obtain ⟨c, e3, h3, h4, h5⟩ := setMostSignificantDigit_ok h h1 d'
    have hl := h.length_digits
    rw [h1] at hl
    have hu : c.uval = a.uval % 2 ^ a.w := by
      unfold uval
      rw [h5, h1]
      exact val_clear_top (by simpa using hl) h0 h2
    refine ⟨c, by simp [e1, e2, e3, expect], ⟨h3, ?_⟩, h4, hu⟩
    rw [hu]
    have : c.w = a.w := by unfold w; rw [h4]
    rw [this]
    exact Nat.mod_lt _ (Nat.pow_pos (by decide))

/-- A well-formed value is determined by its width and its value. -/
theorem ext_of_uval {a b : ApInt} (ha : a.Shape) (hb : b.Shape) (hl : a.len = b.len)
    (hu : a.uval = b.uval) : a = b := by
  have hw : a.w = b.w := by unfold w; rw [hl]
  obtain ⟨la, da⟩ := a
  obtain ⟨lb, db⟩ := b
  simp only at hl
  subst hl
  have : digits ⟨la, da⟩ = digits ⟨la, db⟩ :=
    val_inj (by rw [ha.length_digits, hb.length_digits]) hu
  rcases ha.cases with ⟨x, ex, h1, h1'⟩ | ⟨xs, ex, h1, _, h1'⟩ <;>
    rcases hb.cases with ⟨y, ey, h2, h2'⟩ | ⟨ys, ey, h2, _, h2'⟩
  · rw [h1', h2'] at this
    simp only at ex ey
    subst ex ey
    simp at this
    rw [this]
  · simp only [w] at h1 h2; omega
  · simp only [w] at h1 h2; omega
  · rw [h1', h2'] at this
    simp only at ex ey
    subst ex ey
    rw [this]

end ApInt

end Verif
