import Verif.Proof.Parse
import Verif.Proof.Bitwise

/-! # Formatting -/

namespace Verif

namespace ApInt

theorem stdDigits_ok {b : Nat} (hb : 2 ≤ b) : ∀ (k n : Nat), n < b ^ k →
    stdDigits b k n = (Nat.digits b n).reverse := by
  intro k
  induction k with
  | zero =>
    intro n h
    have : n = 0 := by simpa using h
    subst this
    simp [stdDigits]
  | succ k ih =>
    intro n h
    rw [stdDigits]
    by_cases h0 : n = 0
    · subst h0; simp
    · rw [if_neg h0, ih _ (Nat.div_lt_of_lt_mul (by rw [Nat.mul_comm, ← Nat.pow_succ]; exact h)),
        Nat.digits_def' (n := n) (by omega) (by omega), List.reverse_cons]

/-- The text of a positive number through a map from digits to characters. -/
def text (b : Nat) (ch : Nat → Char) (v : Nat) : List Char := (Nat.digits b v).reverse.map ch

theorem stdFmt_pos {b : Nat} {ch : Nat → Char} (hb : 2 ≤ b) {n : Nat} (h : n < 2 ^ 64)
    (h0 : n ≠ 0) : stdFmt b ch n = text b ch n := by
  unfold stdFmt text
  rw [if_neg h0, stdDigits_ok hb 64 n (lt_of_lt_of_le h (Nat.pow_le_pow_left hb 64))]

/-- The digits of `m` padded to `w` positions, most significant first. -/
theorem stdFmtPad_ok {b w : Nat} {ch : Nat → Char} (hb : 2 ≤ b) (hw : 1 ≤ w)
    (hch : ch 0 = '0') {n : Nat} (h : n < 2 ^ 64) :
    stdFmtPad b ch w n =
      (List.replicate (w - (Nat.digits b n).length) 0 ++ (Nat.digits b n).reverse).map ch := by
  unfold stdFmtPad
  by_cases h0 : n = 0
  · subst h0
    simp only [stdFmt, if_true, List.length_singleton, Nat.digits_zero, List.length_nil,
      Nat.sub_zero, List.reverse_nil, List.append_nil, List.map_replicate, hch]
    rw [← List.replicate_succ', Nat.sub_add_cancel hw]
  · rw [stdFmt_pos hb h h0]
    simp only [text, List.length_map, List.length_reverse, List.map_append, List.map_replicate,
      hch]

theorem text_append {b w : Nat} {ch : Nat → Char} (hb : 2 ≤ b) (hw : 1 ≤ w)
    (hch : ch 0 = '0') {v : Nat} (hv : 0 < v) {d : Digit} (hbw : b ^ w = 2 ^ 64) :
    text b ch v ++ stdFmtPad b ch w d.toNat = text b ch (d.toNat + B * v) := by
  have hd : d.toNat < b ^ w := by rw [hbw]; exact d.isLt
  have hlen : (Nat.digits b d.toNat).length ≤ w :=
    (Nat.digits_length_le_iff (by omega) _).2 hd
  rw [stdFmtPad_ok hb hw hch d.isLt]
  unfold text
  have e := Nat.digits_append_zeroes_append_digits (b := b) (k := w - (Nat.digits b d.toNat).length)
    (m := v) (n := d.toNat) (by omega) hv
  rw [Nat.add_sub_cancel' hlen, hbw, ← B_eq] at e
  rw [← e]
  simp [List.reverse_append, List.map_append]

theorem flatMap_pad {b w : Nat} {ch : Nat → Char} (hb : 2 ≤ b) (hw : 1 ≤ w)
    (hch : ch 0 = '0') (hbw : b ^ w = 2 ^ 64) : ∀ (l : List Digit) (v : Nat), 0 < v →
    text b ch v ++ l.flatMap (fun d => stdFmtPad b ch w d.toNat) =
      text b ch (val l.reverse + B ^ l.length * v) := by
  intro l
  induction l with
  | nil => intro v _; simp [val]
  | cons d l ih =>
    intro v hv
    rw [List.flatMap_cons, ← List.append_assoc, text_append hb hw hch hv hbw,
      ih _ (by have := Nat.mul_pos B_pos hv; omega), List.reverse_cons, val_append, val_singleton,
      List.length_reverse, List.length_cons, Nat.pow_succ]
    congr 1
    ring

theorem fmtDigits_ok {b w : Nat} {ch : Nat → Char} (hb : 2 ≤ b) (hw : 1 ≤ w)
    (hch : ch 0 = '0') (hbw : b ^ w = 2 ^ 64) : ∀ l : List Digit, val l.reverse ≠ 0 →
    fmtDigits b ch w l = text b ch (val l.reverse) := by
  intro l
  induction l with
  | nil => intro h; exact absurd rfl h
  | cons d l ih =>
    intro h
    rw [fmtDigits]
    rw [List.reverse_cons, val_append, val_singleton, List.length_reverse] at h ⊢
    by_cases hd : Digit.isZero d
    · have h0 : d.toNat = 0 := (Digit.isZero_iff d).1 hd
      rw [if_pos hd, h0, Nat.mul_zero, Nat.add_zero, ih]
      rw [h0, Nat.mul_zero, Nat.add_zero] at h
      exact h
    · have h0 : d.toNat ≠ 0 := fun h => hd ((Digit.isZero_iff d).2 h)
      rw [if_neg hd, stdFmt_pos hb d.isLt h0, flatMap_pad hb hw hch hbw l _ (Nat.pos_of_ne_zero h0)]

theorem lower_bin : ∀ d < 2, lowerChar d = binAlphabet.getD d '?' := by decide
theorem lower_hex : ∀ d < 16, lowerChar d = hexLower.getD d '?' := by decide
theorem upper_hex : ∀ d < 16, upperChar d = hexUpper.getD d '?' := by decide

theorem text_canonical {b : Nat} {ch : Nat → Char} {al : List Char} (hb : 2 ≤ b)
    (h : ∀ d < b, ch d = al.getD d '?') {v : Nat} (hv : v ≠ 0) :
    text b ch v = canonical b al v := by
  unfold text canonical
  rw [if_neg hv]
  apply List.map_congr_left
  intro d hd
  exact h d (Nat.digits_lt_base (by omega) (List.mem_reverse.1 hd))

theorem fmt_ok {b w : Nat} {ch : Nat → Char} {al : List Char} {a : ApInt} (ha : a.Shape)
    (hb : 2 ≤ b) (hw : 1 ≤ w) (hch : ch 0 = '0') (hbw : b ^ w = 2 ^ 64)
    (h : ∀ d < b, ch d = al.getD d '?') :
    (do
      let z ← a.isZero
      if z then .ok ['0']
      else do
        let ds ← a.asDigitSlice
        .ok (fmtDigits b ch w ds.reverse) : Run (List Char)) = .ok (canonical b al a.uval) := by
  rw [isZero_ok ha, run_bind_ok]
  by_cases hz : a.uval = 0
  · simp [hz, canonical]
  · simp only [hz, decide_false, Bool.false_eq_true, if_false, asDigitSlice_ok ha, run_bind_ok]
    rw [fmtDigits_ok hb hw hch hbw a.digits.reverse (by rw [List.reverse_reverse]; exact hz),
      List.reverse_reverse]
    exact congrArg _ (text_canonical hb h hz)

theorem fmtBinary_ok {a : ApInt} (ha : a.Shape) :
    a.fmtBinary = .ok (canonical 2 binAlphabet a.uval) :=
  fmt_ok ha (by decide) (by decide) rfl (by decide) lower_bin

theorem fmtLowerHex_ok {a : ApInt} (ha : a.Shape) :
    a.fmtLowerHex = .ok (canonical 16 hexLower a.uval) :=
  fmt_ok ha (by decide) (by decide) rfl (by decide) lower_hex

theorem fmtUpperHex_ok {a : ApInt} (ha : a.Shape) :
    a.fmtUpperHex = .ok (canonical 16 hexUpper a.uval) :=
  fmt_ok ha (by decide) (by decide) rfl (by decide) upper_hex

/-! ## Reading canonical text back -/

theorem bin_charVal : ∀ d < 2, charVal (binAlphabet.getD d '?') = some d ∧
    binAlphabet.getD d '?' ≠ '_' := by decide
theorem lower_charVal : ∀ d < 16, charVal (hexLower.getD d '?') = some d ∧
    hexLower.getD d '?' ≠ '_' := by decide
theorem upper_charVal : ∀ d < 16, charVal (hexUpper.getD d '?') = some d ∧
    hexUpper.getD d '?' ≠ '_' := by decide

/-- Canonical text is accepted, and its numeral is the number. -/
theorem canonical_read {b : Nat} {al : List Char} (hb : 2 ≤ b) (h0 : al.getD 0 '?' = '0')
    (h : ∀ d < b, charVal (al.getD d '?') = some d ∧ al.getD d '?' ≠ '_') (v : Nat) :
    Accepted b (canonical b al v) ∧ numeral b (textDigits (canonical b al v)) = v := by
  have key : ∃ l : List Nat, l ≠ [] ∧ (∀ d ∈ l, d < b) ∧ numeral b l = v ∧
      canonical b al v = l.map (fun d => al.getD d '?') := by
    unfold canonical
    by_cases hv : v = 0
    · refine ⟨[0], by simp, ?_, by simp [numeral, hv], by rw [if_pos hv, List.map_singleton, h0]⟩
      intro d hd
      simp only [List.mem_singleton] at hd
      omega
    · refine ⟨(Nat.digits b v).reverse, ?_, ?_, ?_, by rw [if_neg hv]⟩
      · simpa [Nat.digits_eq_nil_iff_eq_zero] using hv
      · intro d hd
        exact Nat.digits_lt_base (by omega) (List.mem_reverse.1 hd)
      · rw [numeral_eq, List.reverse_reverse, Nat.ofDigits_digits]
  obtain ⟨l, k1, k2, k3, k4⟩ := key
  rw [k4]
  have hmem : ∀ c ∈ l.map (fun d => al.getD d '?'), c ≠ '_' ∧ ∃ d, charVal c = some d ∧ d < b := by
    intro c hc
    obtain ⟨d, hd, rfl⟩ := List.mem_map.1 hc
    exact ⟨(h d (k2 d hd)).2, d, (h d (k2 d hd)).1, k2 d hd⟩
  refine ⟨⟨by simpa using k1, ?_, ?_, fun c hc => Or.inr (hmem c hc).2⟩, ?_⟩
  · intro hh
    exact (hmem '_' (List.mem_of_mem_head? hh)).1 rfl
  · intro hh
    exact (hmem '_' (List.mem_of_getLast? hh)).1 rfl
  · have : textDigits (l.map (fun d => al.getD d '?')) = l := by
      unfold textDigits
      rw [List.filterMap_map]
      clear k1 k3 k4 hmem
      induction l with
      | nil => rfl
      | cons d l ih =>
        rw [List.filterMap_cons]
        simp only [Function.comp, (h d (k2 d (by simp))).1]
        rw [show (fun x => charVal (al.getD x '?')) = charVal ∘ fun d => al.getD d '?' from rfl,
          ih (fun d hd => k2 d (by simp [hd]))]
    rw [this, k3]

end ApInt

end Verif
