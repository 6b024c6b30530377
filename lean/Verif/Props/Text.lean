import Verif.Proof.Format
import Verif.Proof.Ops
import Verif.Model.UInt
import Verif.Model.SInt
import Verif.Props.Witness

/-! # Parsing and formatting (C39, C40, C41, C42, C43, C44) -/

namespace Verif.Props

open ApInt Ex

variable {a : ApInt} {r : Nat} {s : List Char}

/-- C39: in the radices 2, 4, 8, 16 and 32 every accepted string gives a well-formed integer whose
value is the positional value of its digits; the width is the least multiple of 64 with room for
`log2 r` bits per digit. -/
theorem C39_parse_pow2 (hr : r ∈ [2, 4, 8, 16, 32]) (h : Accepted r s) :
    ∃ c, fromStrRadix r s = .ok (.ok c) ∧ c.WF ∧ c.uval = numeral r (textDigits s) ∧
      c.w % 64 = 0 ∧ Nat.log2 r * (textDigits s).length ≤ c.w ∧
      c.w < Nat.log2 r * (textDigits s).length + 64 := by
  have hb : 2 ≤ r ∧ r ≤ 36 := by
    simp only [List.mem_cons, List.not_mem_nil, or_false] at hr
    omega
  obtain ⟨c, e, h1, h2, h3⟩ := fromStrRadix_pow2 (r := ⟨r⟩) hr h
  refine ⟨c, by rw [fromStrRadix_eq hb, e], h1, h3, ?_, ?_, ?_⟩
  · rw [h2, Nat.mul_mod_right]
  · rw [h2]; dsimp only; omega
  · rw [h2]; dsimp only; omega

theorem accepted_dec (r : Nat) (s : List Char) :
    Accepted r s ↔ (s ≠ [] ∧ s.head? ≠ some '_' ∧ s.getLast? ≠ some '_' ∧
      (s.all fun c => decide (c = '_') || (match charVal c with
        | some d => decide (d < r)
        | none => false)) = true) := by
  unfold Accepted
  have : ∀ c, (c = '_' ∨ ∃ d, charVal c = some d ∧ d < r) ↔
      (decide (c = '_') || (match charVal c with
        | some d => decide (d < r)
        | none => false)) = true := by
    intro c
    cases charVal c <;> simp
  simp only [this, List.all_eq_true]

instance (r : Nat) (s : List Char) : Decidable (Accepted r s) :=
  decidable_of_iff _ (accepted_dec r s).symm

/-- The hypotheses hold: 23 octal digits with a separator, 69 bits. -/
example : ∃ c, fromStrRadix 8 "7000000000_0000000000005".toList = .ok (.ok c) ∧ c.WF ∧
    c.uval = 7 * 8 ^ 22 + 5 ∧ c.w % 64 = 0 ∧ 69 ≤ c.w ∧ c.w < 133 := by
  have h := C39_parse_pow2 (r := 8) (s := "7000000000_0000000000005".toList) (by decide)
    (by decide +kernel)
  have e1 : numeral 8 (textDigits "7000000000_0000000000005".toList) = 7 * 8 ^ 22 + 5 := by
    decide +kernel
  have e2 : Nat.log2 8 * (textDigits "7000000000_0000000000005".toList).length = 69 := by
    decide +kernel
  rwa [e1, e2] at h

/-- C39: the result always has room for its digits, so no string loses leading digits: the value is
below `2 ^ width` and parsing never panics, whatever the string. -/
theorem C39_no_panic (hr : r ∈ [2, 4, 8, 16, 32]) :
    ∃ x, fromStrRadix r s = .ok x := by
  have hb : 2 ≤ r ∧ r ≤ 36 := by
    simp only [List.mem_cons, List.not_mem_nil, or_false] at hr
    omega
  by_cases h : Accepted r s
  · obtain ⟨c, e, -⟩ := C39_parse_pow2 hr h
    exact ⟨_, e⟩
  · exact ⟨_, by rw [fromStrRadix_eq hb, fromStrRadix_rejected hb.2 h]⟩

example : ∃ x, fromStrRadix 32 "v_€".toList = .ok x := C39_no_panic (by decide)

/-- C40: in every valid radix parsing fails on exactly the strings that are not accepted, and the
error carries the input and the radix. -/
theorem C40_error_iff (hr : 2 ≤ r ∧ r ≤ 36) :
    ((∃ e, fromStrRadix r s = .ok (.error e)) ↔ ¬ Accepted r s) ∧
    ((∃ c, fromStrRadix r s = .ok (.ok c) ∧ c.WF) ↔ Accepted r s) ∧
    (¬ Accepted r s →
      fromStrRadix r s = .ok (.error (.invalidStringRepr s ⟨r⟩ none))) := by
  have hgood : Accepted r s → ∃ c, fromStrRadix r s = .ok (.ok c) ∧ c.WF := by
    intro h
    by_cases h2 : r ∈ [2, 4, 8, 16, 32]
    · obtain ⟨c, e, h1, -⟩ := C39_parse_pow2 h2 h
      exact ⟨c, e, h1⟩
    · obtain ⟨p, hp, -⟩ := bases_entry hr.1 hr.2
      obtain ⟨c, e, h1, -⟩ := fromStrRadix_other (r := ⟨r⟩) hr.1 hr.2 h2 h hp
      exact ⟨c, by rw [fromStrRadix_eq hr, e], h1⟩
  have hbad : ¬ Accepted r s →
      fromStrRadix r s = .ok (.error (.invalidStringRepr s ⟨r⟩ none)) := by
    intro h
    rw [fromStrRadix_eq hr, fromStrRadix_rejected hr.2 h]
  refine ⟨⟨?_, fun h => ⟨_, hbad h⟩⟩, ⟨?_, hgood⟩, hbad⟩
  · rintro ⟨e, he⟩ h
    obtain ⟨c, hc, -⟩ := hgood h
    rw [hc] at he
    cases he
  · rintro ⟨c, hc, -⟩
    by_contra h
    rw [hbad h] at hc
    cases hc

/-- A digit that the radix does not have, a trailing underscore, a character outside ASCII. -/
example : fromStrRadix 10 "12a".toList =
    .ok (.error (.invalidStringRepr "12a".toList ⟨10⟩ none)) :=
  (C40_error_iff (by decide)).2.2 (by decide)
example : fromStrRadix 16 "12_".toList =
    .ok (.error (.invalidStringRepr "12_".toList ⟨16⟩ none)) :=
  (C40_error_iff (by decide)).2.2 (by decide)
example : fromStrRadix 36 "1é".toList =
    .ok (.error (.invalidStringRepr "1é".toList ⟨36⟩ none)) :=
  (C40_error_iff (by decide)).2.2 (by decide)
example : ∃ c, fromStrRadix 36 "zZ_9".toList = .ok (.ok c) ∧ c.WF :=
  (C40_error_iff (by decide)).2.1.2 (by decide)

/-- C41: what parsing does in the radices that are not powers of two.  With `p` the number of
digits that fit a machine word, only the first `n mod p` of the `n` digits count (`p` if that is
zero); the others are dropped. -/
theorem C41_behaviour {p : Nat} (hr : 3 ≤ r ∧ r ≤ 36) (hn : r ∉ [2, 4, 8, 16, 32])
    (h : Accepted r s) (hp : r ^ p < 2 ^ 64) (hp' : 2 ^ 64 ≤ r ^ (p + 1)) :
    ∃ c, fromStrRadix r s = .ok (.ok c) ∧ c.WF ∧ (c.w = 64 ∨ c.w = 128) ∧
      c.uval = numeral r ((textDigits s).take
        (if (textDigits s).length % p = 0 then p else (textDigits s).length % p)) := by
  obtain ⟨q, hq, h1, h2, h3⟩ := bases_entry (r := r) (by omega) hr.2
  have hpq : p = q := by
    have a1 : p < q + 1 := (Nat.pow_lt_pow_iff_right (a := r) (by omega)).1 (by omega)
    have a2 : q < p + 1 := (Nat.pow_lt_pow_iff_right (a := r) (by omega)).1 (by omega)
    omega
  subst hpq
  obtain ⟨c, e, h⟩ := fromStrRadix_other (r := ⟨r⟩) (by dsimp only; omega) hr.2 hn h hq
  exact ⟨c, by rw [fromStrRadix_eq ⟨by omega, hr.2⟩, e], h⟩

theorem numeral_append (r : Nat) (x y : List Nat) :
    numeral r (x ++ y) = numeral r x * r ^ y.length + numeral r y := by
  simp only [numeral_eq, List.reverse_append, Nat.ofDigits_append, List.length_reverse]
  ring

/-- C41 holds for strings whose digits fit one machine word.  Missing from the full statement,
which is false (`C41_false`): longer strings. -/
theorem C41_parse_partial (hr : 3 ≤ r ∧ r ≤ 36) (hn : r ∉ [2, 4, 8, 16, 32])
    (h : Accepted r s) (hfit : r ^ (textDigits s).length < 2 ^ 64) :
    ∃ c, fromStrRadix r s = .ok (.ok c) ∧ c.WF ∧ c.uval = numeral r (textDigits s) := by
  obtain ⟨p, -, h1, h2, h3⟩ := bases_entry (r := r) (by omega) hr.2
  obtain ⟨c, e, g1, -, g3⟩ := C41_behaviour hr hn h h1 h2
  refine ⟨c, e, g1, ?_⟩
  have hle : (textDigits s).length < p + 1 :=
    (Nat.pow_lt_pow_iff_right (a := r) (by omega)).1 (by omega)
  have hpos : 0 < (textDigits s).length := List.length_pos_iff.2 (textDigits_ne_nil h)
  rw [g3]
  congr 1
  apply List.take_of_length_le
  by_cases he : (textDigits s).length = p
  · rw [he, Nat.mod_self, if_pos rfl]
  · rw [Nat.mod_eq_of_lt (by omega), if_neg (by omega)]

/-- The hypotheses hold: nineteen decimal digits. -/
example : ∃ c, fromStrRadix 10 "9_999999999999999998".toList = .ok (.ok c) ∧ c.WF ∧
    c.uval = 9999999999999999998 := by
  have h := C41_parse_partial (r := 10) (s := "9_999999999999999998".toList) (by decide) (by decide)
    (by decide +kernel) (by decide +kernel)
  have e : numeral 10 (textDigits "9_999999999999999998".toList) = 9999999999999999998 := by
    decide +kernel
  rwa [e] at h

/-- C41: parsing gives the positional value exactly when the digits fit one machine word or they
are all zero. -/
theorem C41_correct_iff (hr : 3 ≤ r ∧ r ≤ 36) (hn : r ∉ [2, 4, 8, 16, 32]) (h : Accepted r s) :
    (∃ c, fromStrRadix r s = .ok (.ok c) ∧ c.uval = numeral r (textDigits s)) ↔
      (r ^ (textDigits s).length < 2 ^ 64 ∨ numeral r (textDigits s) = 0) := by
  obtain ⟨p, -, h1, h2, h3⟩ := bases_entry (r := r) (by omega) hr.2
  obtain ⟨c, e, g1, -, g3⟩ := C41_behaviour hr hn h h1 h2
  set i := (if (textDigits s).length % p = 0 then p else (textDigits s).length % p) with hi
  have hsplit := numeral_append r ((textDigits s).take i) ((textDigits s).drop i)
  rw [List.take_append_drop] at hsplit
  constructor
  · rintro ⟨c', e', hv⟩
    rw [e] at e'
    cases e'
    by_contra hcon
    push Not at hcon
    obtain ⟨hbig, hnz⟩ := hcon
    have hlen : p < (textDigits s).length := by
      by_contra hle
      have := Nat.pow_le_pow_right (n := r) (by omega) (Nat.not_lt.1 hle)
      omega
    have hip : i ≤ p := by
      rw [hi]
      have := Nat.mod_lt (textDigits s).length h3
      split <;> omega
    have hd : 0 < ((textDigits s).drop i).length := by
      rw [List.length_drop]; omega
    have hpow : r ≤ r ^ ((textDigits s).drop i).length :=
      Nat.le_self_pow (by omega) r
    rw [hv] at g3
    rw [g3] at hsplit hnz
    generalize numeral r ((textDigits s).take i) = f at *
    generalize r ^ ((textDigits s).drop i).length = P at *
    have : f * 2 ≤ f * P := Nat.mul_le_mul_left _ (by omega)
    omega
  · rintro (hfit | hz)
    · obtain ⟨c', e', -, hv⟩ := C41_parse_partial hr hn h hfit
      exact ⟨c', e', hv⟩
    · refine ⟨c, e, ?_⟩
      rw [g3, hz]
      rw [hz] at hsplit
      have hP : 0 < r ^ ((textDigits s).drop i).length := Nat.pow_pos (by omega)
      rcases Nat.eq_zero_or_pos (numeral r ((textDigits s).take i)) with h0 | h0
      · exact h0
      · have := Nat.mul_pos h0 hP
        omega

/-- C41 is false as stated: twenty decimal digits, `10000000000000000005`, parse to 1. -/
theorem C41_false :
    ∃ c, fromStrRadix 10 "10000000000000000005".toList = .ok (.ok c) ∧ c.uval = 1 ∧
      numeral 10 (textDigits "10000000000000000005".toList) = 10000000000000000005 := by
  obtain ⟨c, e, -, -, h⟩ := C41_behaviour (r := 10) (p := 19)
    (s := "10000000000000000005".toList) (by decide) (by decide) (by decide +kernel)
    (by decide +kernel) (by decide +kernel)
  have e1 : numeral 10 ((textDigits "10000000000000000005".toList).take
      (if (textDigits "10000000000000000005".toList).length % 19 = 0 then 19
        else (textDigits "10000000000000000005".toList).length % 19)) = 1 := by decide +kernel
  exact ⟨c, e, by rw [h, e1], by decide +kernel⟩

/-- C42: binary and hexadecimal text is the canonical text of the unsigned value: the most
significant digit first, no leading zeros, `0` for zero.  It does not depend on the width. -/
theorem C42_format (ha : a.WF) :
    a.fmtBinary = .ok (canonical 2 binAlphabet a.uval) ∧
    a.fmtLowerHex = .ok (canonical 16 hexLower a.uval) ∧
    a.fmtUpperHex = .ok (canonical 16 hexUpper a.uval) :=
  ⟨fmtBinary_ok ha.1, fmtLowerHex_ok ha.1, fmtUpperHex_ok ha.1⟩

/-- The text of a 65-bit value, `2 ^ 65 - 1`. -/
example : a65.fmtLowerHex = .ok "1ffffffffffffffff".toList := by
  have h := (C42_format a65_wf).2.1
  have e : canonical 16 hexLower a65.uval = "1ffffffffffffffff".toList := by
    have : a65.uval = 36893488147419103231 := by decide +kernel
    rw [this]
    simp [canonical, hexLower]
  rwa [e] at h

/-- C42: two integers have the same text exactly when they have the same unsigned value. -/
theorem C42_injective {b : ApInt} (ha : a.WF) (hb : b.WF) :
    (a.fmtBinary = b.fmtBinary ↔ a.uval = b.uval) ∧
    (a.fmtLowerHex = b.fmtLowerHex ↔ a.uval = b.uval) ∧
    (a.fmtUpperHex = b.fmtUpperHex ↔ a.uval = b.uval) := by
  have key : ∀ (n : Nat) (al : List Char), 2 ≤ n → al.getD 0 '?' = '0' →
      (∀ d < n, charVal (al.getD d '?') = some d ∧ al.getD d '?' ≠ '_') → ∀ x y : Nat,
      ((Except.ok (canonical n al x) : Run (List Char)) = .ok (canonical n al y) ↔ x = y) := by
    intro n al hn h0 h x y
    constructor
    · intro e
      injection e with e
      have h1 := (canonical_read hn h0 h x).2
      rw [e, (canonical_read hn h0 h y).2] at h1
      exact h1.symm
    · rintro rfl; rfl
  obtain ⟨a1, a2, a3⟩ := C42_format ha
  obtain ⟨b1, b2, b3⟩ := C42_format hb
  rw [a1, a2, a3, b1, b2, b3]
  exact ⟨key _ _ (by decide) rfl bin_charVal _ _, key _ _ (by decide) rfl lower_charVal _ _,
    key _ _ (by decide) rfl upper_charVal _ _⟩

example : a65.fmtBinary ≠ b65.fmtBinary := by
  rw [Ne, (C42_injective a65_wf b65_wf).1]
  decide +kernel

/-- C42: the other text formats are not implemented: octal panics except on zero, and
`to_string_radix` always panics. -/
theorem C42_unimplemented (ha : a.WF) :
    (a.fmtOctal = if a.uval = 0 then .ok ['0'] else .error .panic) ∧
    a.toStringRadix r = .error .panic := by
  constructor
  · unfold fmtOctal
    rw [isZero_ok ha.1, run_bind_ok]
    by_cases h : a.uval = 0 <;> simp [h]
  · unfold toStringRadix Radix.from Radix.new
    split <;> rfl

example : a7.fmtOctal = .error .panic := by
  rw [(C42_unimplemented (r := 10) a7_wf).1, if_neg (by decide)]

/-- C42: both wrappers print the underlying unsigned value (a negative signed integer is printed
as its two's complement pattern). -/
theorem C42_wrappers (ha : a.WF) :
    (UInt.mk a).fmtBinary = .ok (canonical 2 binAlphabet a.uval) ∧
    (UInt.mk a).fmtLowerHex = .ok (canonical 16 hexLower a.uval) ∧
    (UInt.mk a).fmtUpperHex = .ok (canonical 16 hexUpper a.uval) ∧
    (SInt.mk a).fmtBinary = .ok (canonical 2 binAlphabet a.uval) ∧
    (SInt.mk a).fmtLowerHex = .ok (canonical 16 hexLower a.uval) ∧
    (SInt.mk a).fmtUpperHex = .ok (canonical 16 hexUpper a.uval) :=
  ⟨fmtBinary_ok ha.1, fmtLowerHex_ok ha.1, fmtUpperHex_ok ha.1,
    fmtBinary_ok ha.1, fmtLowerHex_ok ha.1, fmtUpperHex_ok ha.1⟩

/-- The signed 7-bit integer -28 prints as `64`, the hexadecimal text of 100. -/
example : (SInt.mk a7).fmtLowerHex = .ok "64".toList := by
  have h := (C42_wrappers a7_wf).2.2.2.2.1
  have e : canonical 16 hexLower a7.uval = "64".toList := by
    have : a7.uval = 100 := by decide
    rw [this]
    simp [canonical, hexLower]
  rwa [e] at h

theorem round_trip {text : List Char} {b : Nat} {al : List Char} (ha : a.WF)
    (hb : b ∈ [2, 4, 8, 16, 32]) (h0 : al.getD 0 '?' = '0')
    (h : ∀ d < b, charVal (al.getD d '?') = some d ∧ al.getD d '?' ≠ '_')
    (ht : text = canonical b al a.uval) :
    ∃ c, fromStrRadix b text = .ok (.ok c) ∧ c.uval = a.uval ∧ c.zeroResize a.len = .ok a := by
  have hb2 : 2 ≤ b := by
    simp only [List.mem_cons, List.not_mem_nil, or_false] at hb
    omega
  obtain ⟨h1, h2⟩ := canonical_read hb2 h0 h a.uval
  subst ht
  obtain ⟨c, e, g1, g2, -⟩ := C39_parse_pow2 hb h1
  rw [h2] at g2
  refine ⟨c, e, g2, Returns.eq (zeroResize_ok g1 a.len) ?_⟩
  rw [g2, Nat.mod_eq_of_lt ha.2]
  exact ha.self

/-- C43: parsing the text of an integer gives back its value; resized to the original width it is
the original integer. -/
theorem C43_round_trip (ha : a.WF) :
    (∃ t c, a.fmtBinary = .ok t ∧ fromStrRadix 2 t = .ok (.ok c) ∧ c.uval = a.uval ∧
      c.zeroResize a.len = .ok a) ∧
    (∃ t c, a.fmtLowerHex = .ok t ∧ fromStrRadix 16 t = .ok (.ok c) ∧ c.uval = a.uval ∧
      c.zeroResize a.len = .ok a) ∧
    (∃ t c, a.fmtUpperHex = .ok t ∧ fromStrRadix 16 t = .ok (.ok c) ∧ c.uval = a.uval ∧
      c.zeroResize a.len = .ok a) := by
  obtain ⟨a1, a2, a3⟩ := C42_format ha
  refine ⟨?_, ?_, ?_⟩
  · obtain ⟨c, h⟩ := round_trip ha (b := 2) (by decide) rfl bin_charVal rfl
    exact ⟨_, c, a1, h⟩
  · obtain ⟨c, h⟩ := round_trip ha (b := 16) (by decide) rfl lower_charVal rfl
    exact ⟨_, c, a2, h⟩
  · obtain ⟨c, h⟩ := round_trip ha (b := 16) (by decide) rfl upper_charVal rfl
    exact ⟨_, c, a3, h⟩

example : ∃ t c, a150.fmtUpperHex = .ok t ∧ fromStrRadix 16 t = .ok (.ok c) ∧
    c.uval = a150.uval ∧ c.zeroResize a150.len = .ok a150 :=
  (C43_round_trip a150_wf).2.2

/-- C43: the other way round, printing a parsed integer gives the canonical text of the numeral:
leading zeros and underscores dropped, letters in one case. -/
theorem C43_normalises (h2 : r = 2 ∨ r = 16) (h : Accepted r s) :
    ∃ c, fromStrRadix r s = .ok (.ok c) ∧
      (r = 2 → c.fmtBinary = .ok (canonical 2 binAlphabet (numeral 2 (textDigits s)))) ∧
      (r = 16 → c.fmtLowerHex = .ok (canonical 16 hexLower (numeral 16 (textDigits s)))) ∧
      (r = 16 → c.fmtUpperHex = .ok (canonical 16 hexUpper (numeral 16 (textDigits s)))) := by
  obtain ⟨c, e, g1, g2, -⟩ := C39_parse_pow2 (r := r) (by rcases h2 with rfl | rfl <;> decide) h
  refine ⟨c, e, ?_, ?_, ?_⟩
  · rintro rfl; rw [← g2]; exact (C42_format g1).1
  · rintro rfl; rw [← g2]; exact (C42_format g1).2.1
  · rintro rfl; rw [← g2]; exact (C42_format g1).2.2

example : ∃ c, fromStrRadix 16 "00F_f".toList = .ok (.ok c) ∧
    c.fmtLowerHex = .ok (canonical 16 hexLower 255) := by
  obtain ⟨c, e, -, h, -⟩ := C43_normalises (r := 16) (s := "00F_f".toList) (Or.inr rfl)
    (by decide +kernel)
  exact ⟨c, e, h rfl⟩

/-- C44: `Radix::new` accepts exactly 2 to 36, the panicking conversion panics on exactly the
others, and so does parsing. -/
theorem C44_radix :
    (Radix.new r = if 2 ≤ r ∧ r ≤ 36 then .ok ⟨r⟩ else .error (.invalidRadix r)) ∧
    (Radix.from r = if 2 ≤ r ∧ r ≤ 36 then .ok ⟨r⟩ else .error .panic) ∧
    (fromStrRadix r s = .error .panic ↔ ¬ (2 ≤ r ∧ r ≤ 36)) := by
  by_cases h : 2 ≤ r ∧ r ≤ 36
  · refine ⟨by simp [Radix.new, h], by rw [radix_from_ok h, if_pos h], ?_⟩
    constructor
    · intro e
      by_cases hs : Accepted r s
      · obtain ⟨c, e', -⟩ := (C40_error_iff h).2.1.2 hs
        rw [e'] at e; cases e
      · rw [(C40_error_iff h).2.2 hs] at e; cases e
    · intro hn; exact absurd h hn
  · refine ⟨by simp only [Radix.new, h, not_false_eq_true, if_true, if_false],
      by rw [radix_from_panic h, if_neg h], ?_⟩
    simp only [h, not_false_eq_true, iff_true]
    rw [fromStrRadix, radix_from_panic h]
    rfl

example : Radix.new 36 = .ok ⟨36⟩ ∧ Radix.new 37 = .error (.invalidRadix 37) ∧
    Radix.from 1 = .error .panic :=
  ⟨(C44_radix (s := [])).1, (C44_radix (s := [])).1, (C44_radix (s := [])).2.1⟩

/-- C44: `BitWidth::new` accepts exactly the positive numbers, and the panicking conversion panics
exactly on zero. -/
theorem C44_bitwidth (n : Nat) :
    (n = 0 → BitWidth.new n = .error (.invalidBitWidth 0) ∧ BitWidth.from n = .error .panic) ∧
    (0 < n → ∃ w, BitWidth.new n = .ok w ∧ BitWidth.from n = .ok w ∧ w.toUsize = n) := by
  constructor
  · rintro rfl; exact ⟨rfl, rfl⟩
  · intro h
    have hn : n ≠ 0 := by omega
    refine ⟨⟨n, h⟩, ?_, ?_, rfl⟩
    · simp [BitWidth.new, hn]
    · simp [BitWidth.from, BitWidth.new, hn]

example : ∃ w, BitWidth.new 129 = .ok w ∧ BitWidth.from 129 = .ok w ∧ w.toUsize = 129 :=
  (C44_bitwidth 129).2 (by decide)

/-- C44: the table of bases.  For every radix that is not a power of two the entry is the largest
power of the radix below `2 ^ 64`, with its exponent; for powers of two the lookup panics. -/
theorem C44_base_table (hr : 2 ≤ r ∧ r ≤ 36) :
    (r ∉ [2, 4, 8, 16, 32] → ∃ p, Radix.getRadixBase ⟨r⟩ = .ok (r ^ p, p) ∧ r ^ p < 2 ^ 64 ∧
      ∀ q, r ^ q < 2 ^ 64 → q ≤ p) ∧
    (r ∈ [2, 4, 8, 16, 32] → Radix.getRadixBase ⟨r⟩ = .error .panic) := by
  constructor
  · intro hn
    obtain ⟨p, hp, h1, h2, h3⟩ := bases_entry hr.1 hr.2
    refine ⟨p, ?_, h1, ?_⟩
    · have hnp : Radix.isPowerOfTwo ⟨r⟩ = false := by
        by_contra hc
        exact hn ((pow_two_iff hr.1 hr.2).1 (by simpa using hc))
      simp only [Radix.getRadixBase, hnp, Bool.false_eq_true, if_false, idx_some hp]
    · intro q hq
      have : q < p + 1 := (Nat.pow_lt_pow_iff_right (a := r) (by omega)).1 (by omega)
      omega
  · intro hy
    have hnp : Radix.isPowerOfTwo ⟨r⟩ = true := (pow_two_iff (r := ⟨r⟩) hr.1 hr.2).2 hy
    simp [Radix.getRadixBase, hnp]

/-- C44: the bits a digit of a power-of-two radix takes. -/
theorem C44_bits_per_digit (hr : 2 ≤ r ∧ r ≤ 36) :
    (r ∈ [2, 4, 8, 16, 32] → ∃ n, Radix.bitsPerDigit ⟨r⟩ = .ok n ∧
      Radix.exactBitsPerDigit ⟨r⟩ = .ok (some n) ∧ 2 ^ n = r) ∧
    (r ∉ [2, 4, 8, 16, 32] → Radix.bitsPerDigit ⟨r⟩ = .error .panic ∧
      Radix.exactBitsPerDigit ⟨r⟩ = .ok none) := by
  constructor
  · intro hy
    simp only [List.mem_cons, List.not_mem_nil, or_false] at hy
    rcases hy with rfl | rfl | rfl | rfl | rfl
    · exact ⟨1, by decide, by decide, by decide⟩
    · exact ⟨2, by decide, by decide, by decide⟩
    · exact ⟨3, by decide, by decide, by decide⟩
    · exact ⟨4, by decide, by decide, by decide⟩
    · exact ⟨5, by decide, by decide, by decide⟩
  · intro hn
    have hnp : Radix.isPowerOfTwo ⟨r⟩ = false := by
      by_contra hc
      exact hn ((pow_two_iff hr.1 hr.2).1 (by simpa using hc))
    exact ⟨by simp [Radix.bitsPerDigit, hnp], exactBits_none hnp⟩

example : ∃ n, Radix.bitsPerDigit ⟨32⟩ = .ok n ∧ Radix.exactBitsPerDigit ⟨32⟩ = .ok (some n) ∧
    2 ^ n = 32 :=
  (C44_bits_per_digit (by decide)).1 (by decide)
example : ∃ p, Radix.getRadixBase ⟨10⟩ = .ok (10 ^ p, p) ∧ 10 ^ p < 2 ^ 64 ∧
    ∀ q, 10 ^ q < 2 ^ 64 → q ≤ p :=
  (C44_base_table (by decide)).1 (by decide)

end Verif.Props
