import Verif.Props.Text
import Mathlib.Data.Nat.Digits.Lemmas

/-!
# Laws of the text form (C68)
-/

namespace Verif.Props

open ApInt Ex

variable {r : Nat} {s t : List Char} {a : ApInt}

/-- C68: parsing depends on the digit values only: in every radix, two accepted strings with the same
digits (in any mix of cases, with underscores anywhere) give the same integer. -/
theorem C68_same_digits (hr : 2 ≤ r ∧ r ≤ 36) (hs : Accepted r s) (ht : Accepted r t)
    (h : textDigits s = textDigits t) : fromStrRadix r s = fromStrRadix r t := by
  rw [fromStrRadix_eq hr, fromStrRadix_eq hr, fromStrRadix_accepted (r := ⟨r⟩) hs,
    fromStrRadix_accepted (r := ⟨r⟩) ht, h]

/-- C68: underscores between digits can be left out. -/
theorem C68_underscores (hr : 2 ≤ r ∧ r ≤ 36) (hs : Accepted r s) :
    fromStrRadix r s = fromStrRadix r (s.filter fun c => c ≠ '_') := by
  have hd : textDigits (s.filter fun c => c ≠ '_') = textDigits s := by
    unfold textDigits
    rw [List.filterMap_filter]
    refine List.filterMap_congr fun c _ => ?_
    by_cases hc : c = '_'
    · subst hc; rfl
    · simp [hc]
  refine C68_same_digits hr hs ⟨?_, ?_, ?_, ?_⟩ hd.symm
  · intro hc
    rw [hc] at hd
    exact textDigits_ne_nil hs hd.symm
  · intro hc
    have := List.mem_of_mem_head? hc
    simp at this
  · intro hc
    have := List.mem_of_getLast? hc
    simp at this
  · intro c hc
    exact hs.2.2.2 c (List.mem_of_mem_filter hc)

theorem ascii_cases : ∀ n < 128, charVal (Char.ofNat n).toLower = charVal (Char.ofNat n) ∧
    charVal (Char.ofNat n).toUpper = charVal (Char.ofNat n) ∧
    ((Char.ofNat n).toLower = '_' ↔ Char.ofNat n = '_') ∧
    ((Char.ofNat n).toUpper = '_' ↔ Char.ofNat n = '_') := by decide +kernel

theorem case_digit (c : Char) : charVal c.toLower = charVal c ∧ charVal c.toUpper = charVal c ∧
    (c.toLower = '_' ↔ c = '_') ∧ (c.toUpper = '_' ↔ c = '_') := by
  by_cases h : c.toNat < 128
  · have := ascii_cases c.toNat h
    rwa [Char.ofNat_toNat] at this
  · have h1 : c.toLower = c := by
      unfold Char.toLower
      rw [dif_neg]
      rintro ⟨_, h2⟩
      have : c.val.toNat ≤ 90 := h2
      exact h (Nat.lt_of_le_of_lt this (by decide))
    have h2 : c.toUpper = c := by
      unfold Char.toUpper
      rw [dif_neg]
      rintro ⟨_, h2⟩
      have : c.val.toNat ≤ 122 := h2
      exact h (Nat.lt_of_le_of_lt this (by decide))
    rw [h1, h2]
    exact ⟨rfl, rfl, Iff.rfl, Iff.rfl⟩

theorem map_accepted {f : Char → Char} (hv : ∀ c, charVal (f c) = charVal c)
    (hu : ∀ c, f c = '_' ↔ c = '_') (hs : Accepted r s) :
    Accepted r (s.map f) ∧ textDigits (s.map f) = textDigits s := by
  obtain ⟨h1, h2, h3, h4⟩ := hs
  refine ⟨⟨by simpa using h1, ?_, ?_, ?_⟩, ?_⟩
  · rw [List.head?_map]
    intro hc
    cases hh : s.head? with
    | none => rw [hh] at hc; cases hc
    | some c =>
      rw [hh] at hc
      exact h2 (by rw [hh, (hu c).mp (Option.some.inj hc)])
  · rw [List.getLast?_map]
    intro hc
    cases hh : s.getLast? with
    | none => rw [hh] at hc; cases hc
    | some c =>
      rw [hh] at hc
      exact h3 (by rw [hh, (hu c).mp (Option.some.inj hc)])
  · intro c hc
    obtain ⟨d, hd, rfl⟩ := List.mem_map.mp hc
    rw [hv, hu]
    exact h4 d hd
  · unfold textDigits
    rw [List.filterMap_map]
    exact List.filterMap_congr fun c _ => hv c

/-- C68: the case of the digits does not matter. -/
theorem C68_case (hr : 2 ≤ r ∧ r ≤ 36) (hs : Accepted r s) :
    fromStrRadix r (s.map Char.toLower) = fromStrRadix r s ∧
    fromStrRadix r (s.map Char.toUpper) = fromStrRadix r s := by
  obtain ⟨h1, h2⟩ := map_accepted (r := r) (s := s) (f := Char.toLower)
    (fun c => (case_digit c).1) (fun c => (case_digit c).2.2.1) hs
  obtain ⟨h3, h4⟩ := map_accepted (r := r) (s := s) (f := Char.toUpper)
    (fun c => (case_digit c).2.1) (fun c => (case_digit c).2.2.2) hs
  exact ⟨C68_same_digits hr h1 hs h2, C68_same_digits hr h3 hs h4⟩

/-- C68: leading zeros are accepted and do not change the value (the documentation of
`from_str_radix` says that they are an error). -/
theorem C68_leading_zeros (hr : r ∈ [2, 4, 8, 16, 32]) (hs : Accepted r s) (k : Nat) :
    ∃ c d, fromStrRadix r s = .ok (.ok c) ∧
      fromStrRadix r (List.replicate k '0' ++ s) = .ok (.ok d) ∧ d.uval = c.uval := by
  have h0 : charVal '0' = some 0 := rfl
  have ha : Accepted r (List.replicate k '0' ++ s) := by
    obtain ⟨h1, h2, h3, h4⟩ := hs
    refine ⟨by simp [h1], ?_, ?_, ?_⟩
    · cases k with
      | zero => simpa using h2
      | succ k => simp [List.replicate_succ]
    · rw [List.getLast?_append_of_ne_nil _ h1]
      exact h3
    · intro c hc
      rcases List.mem_append.mp hc with hc | hc
      · rw [List.eq_of_mem_replicate hc]
        refine .inr ⟨0, h0, ?_⟩
        simp only [List.mem_cons, List.not_mem_nil, or_false] at hr
        omega
      · exact h4 c hc
  have hd : textDigits (List.replicate k '0' ++ s) = List.replicate k 0 ++ textDigits s := by
    unfold textDigits
    rw [List.filterMap_append]
    congr 1
    clear ha
    induction k with
    | zero => rfl
    | succ k ih => rw [List.replicate_succ, List.filterMap_cons, h0, List.replicate_succ, ih]
  obtain ⟨c, e, _, v, _⟩ := C39_parse_pow2 hr hs
  obtain ⟨d, e', _, v', _⟩ := C39_parse_pow2 hr ha
  refine ⟨c, d, e, e', ?_⟩
  rw [v, v', hd, numeral_append]
  have : numeral r (List.replicate k 0) = 0 := by
    rw [numeral_eq, List.reverse_replicate]
    exact Nat.ofDigits_replicate_zero
  rw [this]
  omega

theorem canonical_length (b : Nat) (al : List Char) (v : Nat) :
    (canonical b al v).length = if v = 0 then 1 else (Nat.digits b v).length := by
  unfold canonical
  split
  · rfl
  · simp

/-- C68: the text has as many digits as the number needs, and so never more than the width allows:
`w` in binary and a quarter of that, rounded up, in hexadecimal. -/
theorem C68_length (ha : a.WF) {t u v : List Char} (h1 : a.fmtBinary = .ok t)
    (h2 : a.fmtLowerHex = .ok u) (h3 : a.fmtUpperHex = .ok v) :
    1 ≤ t.length ∧ t.length ≤ a.w ∧ u.length ≤ (a.w + 3) / 4 ∧ v.length = u.length ∧
    (∀ n, t.length ≤ n + 1 ↔ a.uval < 2 ^ (n + 1)) ∧
    (∀ n, u.length ≤ n + 1 ↔ a.uval < 16 ^ (n + 1)) := by
  obtain ⟨g1, g2, g3⟩ := C42_format ha
  cases h1.symm.trans g1
  cases h2.symm.trans g2
  cases h3.symm.trans g3
  have key : ∀ (b : Nat) (al : List Char), 2 ≤ b → ∀ n,
      ((canonical b al a.uval).length ≤ n + 1 ↔ a.uval < b ^ (n + 1)) := by
    intro b al hb n
    rw [canonical_length]
    split
    · rename_i h0
      rw [h0]
      exact ⟨fun _ => Nat.pow_pos (by omega), fun _ => by omega⟩
    · exact Nat.digits_length_le_iff (by omega) a.uval
  have hp := a.pos_w
  have hlt := ha.2
  refine ⟨?_, ?_, ?_, ?_, key 2 _ (by decide), key 16 _ (by decide)⟩
  · rw [canonical_length]
    split
    · exact Nat.le_refl 1
    · rename_i h0
      exact List.length_pos_of_ne_nil (Nat.digits_ne_nil_iff_ne_zero.mpr h0)
  · obtain ⟨n, hn⟩ : ∃ n, a.w = n + 1 := ⟨a.w - 1, by omega⟩
    rw [hn, key 2 _ (by decide), ← hn]
    exact hlt
  · obtain ⟨n, hn⟩ : ∃ n, (a.w + 3) / 4 = n + 1 := ⟨(a.w + 3) / 4 - 1, by omega⟩
    rw [hn, key 16 _ (by decide), ← hn, show (16 : Nat) = 2 ^ 4 from rfl, ← Nat.pow_mul]
    exact Nat.lt_of_lt_of_le hlt (Nat.pow_le_pow_right (by decide) (by omega))
  · rw [canonical_length, canonical_length]

/-! ## The order of texts -/

theorem numeral_cons (r d : Nat) (ds : List Nat) :
    numeral r (d :: ds) = d * r ^ ds.length + numeral r ds := by
  have h := numeral_append r [d] ds
  simpa [numeral] using h

theorem numeral_lt (r : Nat) : ∀ (ds : List Nat), (∀ d ∈ ds, d < r) → numeral r ds < r ^ ds.length
  | [], _ => by simp [numeral]
  | d :: ds, h => by
    have ih := numeral_lt r ds fun x hx => h x (List.mem_cons_of_mem _ hx)
    have hd : d + 1 ≤ r := h d List.mem_cons_self
    rw [numeral_cons, List.length_cons, Nat.pow_succ, Nat.mul_comm (r ^ _)]
    have := Nat.mul_le_mul_right (r ^ ds.length) hd
    rw [Nat.add_mul, Nat.one_mul] at this
    omega

/-- Numerals of the same length compare like words, when the letters compare like the digits. -/
theorem numeral_lex {r : Nat} {f : Nat → Char} (hf : ∀ x y, x < y → y < r → f x < f y) :
    ∀ (ds es : List Nat), ds.length = es.length → (∀ d ∈ ds, d < r) → (∀ d ∈ es, d < r) →
      numeral r ds < numeral r es → ds.map f < es.map f
  | [], [], _, _, _, h => absurd h (Nat.lt_irrefl _)
  | d :: ds, e :: es, hl, hd, he, h => by
    have hl' : ds.length = es.length := by simpa using hl
    have h1 := numeral_lt r ds fun x hx => hd x (List.mem_cons_of_mem _ hx)
    have h2 := numeral_lt r es fun x hx => he x (List.mem_cons_of_mem _ hx)
    rw [numeral_cons, numeral_cons, hl'] at h
    rw [hl'] at h1
    rw [List.map_cons, List.map_cons]
    rcases Nat.lt_trichotomy d e with hlt | rfl | hgt
    · exact List.Lex.rel (hf d e hlt (he e List.mem_cons_self))
    · refine List.Lex.cons (numeral_lex hf ds es hl' (fun x hx => hd x (List.mem_cons_of_mem _ hx))
        (fun x hx => he x (List.mem_cons_of_mem _ hx)) ?_)
      omega
    · have := Nat.mul_le_mul_right (r ^ es.length) hgt
      rw [Nat.succ_mul] at this
      omega

theorem canonical_eq_map {b : Nat} {al : List Char} (h0 : al.getD 0 '?' = '0') (v : Nat) :
    ∃ ds : List Nat, canonical b al v = ds.map (fun d => al.getD d '?') ∧
      ds = (if v = 0 then [0] else (Nat.digits b v).reverse) := by
  refine ⟨_, ?_, rfl⟩
  unfold canonical
  split
  · rw [List.map_singleton, h0]
  · rfl

theorem canonical_shortlex {b : Nat} {al : List Char} (hb : 2 ≤ b) (h0 : al.getD 0 '?' = '0')
    (hf : ∀ x y, x < y → y < b → al.getD x '?' < al.getD y '?') {u v : Nat} (h : u < v) :
    (canonical b al u).length < (canonical b al v).length ∨
    (canonical b al u).length = (canonical b al v).length ∧ canonical b al u < canonical b al v := by
  have hv : v ≠ 0 := by omega
  have num : ∀ n, numeral b (if n = 0 then [0] else (Nat.digits b n).reverse) = n := by
    intro n
    split
    · rename_i h; rw [h]; simp [numeral]
    · rw [numeral_eq, List.reverse_reverse, Nat.ofDigits_digits]
  have small : ∀ n, ∀ d ∈ (if n = 0 then [0] else (Nat.digits b n).reverse), d < b := by
    intro n d hd
    split at hd
    · simp at hd; omega
    · exact Nat.digits_lt_base (by omega) (List.mem_reverse.mp hd)
  obtain ⟨ds, e1, f1⟩ := canonical_eq_map (b := b) h0 u
  obtain ⟨es, e2, f2⟩ := canonical_eq_map (b := b) h0 v
  have n1 := num u
  have n2 := num v
  have s1 := small u
  have s2 := small v
  rw [← f1] at n1 s1
  rw [← f2] at n2 s2
  have hle : (canonical b al u).length ≤ (canonical b al v).length := by
    rw [canonical_length, canonical_length, if_neg hv]
    have hpos : 1 ≤ (Nat.digits b v).length :=
      List.length_pos_of_ne_nil (Nat.digits_ne_nil_iff_ne_zero.mpr hv)
    split
    · exact hpos
    · exact Nat.le_length_digits_le b u v (by omega)
  rcases Nat.lt_or_ge (canonical b al u).length (canonical b al v).length with hlt | hge
  · exact .inl hlt
  · refine .inr ⟨by omega, ?_⟩
    have hl : (canonical b al u).length = (canonical b al v).length := by omega
    rw [e1, e2] at hl ⊢
    exact numeral_lex hf ds es (by simpa using hl) s1 s2 (by rw [n1, n2]; exact h)

/-- C68: sorting texts by length and then alphabetically sorts the numbers: this holds for binary
and hexadecimal text, of integers of the same or different widths. -/
theorem C68_order {b : ApInt} (ha : a.WF) (hb : b.WF) {s t : List Char}
    (h : a.fmtBinary = .ok s ∧ b.fmtBinary = .ok t ∨ a.fmtLowerHex = .ok s ∧ b.fmtLowerHex = .ok t ∨
      a.fmtUpperHex = .ok s ∧ b.fmtUpperHex = .ok t) :
    a.uval < b.uval ↔ s.length < t.length ∨ s.length = t.length ∧ s < t := by
  have key : ∀ (r : Nat) (al : List Char), 2 ≤ r → al.getD 0 '?' = '0' →
      (∀ x y, x < y → y < r → al.getD x '?' < al.getD y '?') → ∀ u v : Nat,
      (u < v ↔ (canonical r al u).length < (canonical r al v).length ∨
        (canonical r al u).length = (canonical r al v).length ∧
          canonical r al u < canonical r al v) := by
    intro r al hr h0 hf u v
    refine ⟨canonical_shortlex hr h0 hf, fun h => ?_⟩
    rcases Nat.lt_trichotomy u v with hlt | rfl | hgt
    · exact hlt
    · rcases h with h | ⟨-, h⟩
      · omega
      · exact absurd h (List.lt_irrefl _)
    · exfalso
      rcases canonical_shortlex hr h0 hf hgt with h' | ⟨h', h''⟩
      · rcases h with h | ⟨h, -⟩ <;> omega
      · rcases h with h | ⟨-, h⟩
        · omega
        · exact List.lt_asymm h h''
  obtain ⟨a1, a2, a3⟩ := C42_format ha
  obtain ⟨b1, b2, b3⟩ := C42_format hb
  rcases h with ⟨h1, h2⟩ | ⟨h1, h2⟩ | ⟨h1, h2⟩
  · cases h1.symm.trans a1
    cases h2.symm.trans b1
    exact key 2 _ (by decide) rfl (fun x y h1 h2 => by
      have : ∀ y < 2, ∀ x < y, binAlphabet.getD x '?' < binAlphabet.getD y '?' := by decide +kernel
      exact this y h2 x h1) _ _
  · cases h1.symm.trans a2
    cases h2.symm.trans b2
    exact key 16 _ (by decide) rfl (fun x y h1 h2 => by
      have : ∀ y < 16, ∀ x < y, hexLower.getD x '?' < hexLower.getD y '?' := by decide +kernel
      exact this y h2 x h1) _ _
  · cases h1.symm.trans a3
    cases h2.symm.trans b3
    exact key 16 _ (by decide) rfl (fun x y h1 h2 => by
      have : ∀ y < 16, ∀ x < y, hexUpper.getD x '?' < hexUpper.getD y '?' := by decide +kernel
      exact this y h2 x h1) _ _

/-- Two texts of one length, and two of different lengths. -/
example : "1fe".toList < "1ff".toList ∧ ¬ "ff".toList < "1ff".toList := by decide +kernel

/-! ## Examples -/

example : Accepted 16 "00_fF".toList ∧ Accepted 10 "0042".toList := by
  rw [accepted_dec, accepted_dec]
  decide +kernel

example : (fromStrRadix 16 "00_fF".toList).map (fun r => r.toOption.map fun c => c.uval) =
    .ok (some 255) := by decide +kernel

end Verif.Props
