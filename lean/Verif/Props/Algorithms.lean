import Verif.Proof.Algorithms

/-!
# C87: textbook algorithms

The functions of `Algorithms.lean` are what a user writes with the operators of `UInt` and `Int`.
`x.Is t a` says that the `UInt` (or `Int`) `x` is well formed, has width `t` and stands for the
number `a`.  Every theorem says that the function returns, so that no operator in it panics and no
loop runs out of rounds, and which number it returns.
-/

namespace Verif.Props

open ApInt Ex

variable {x y m : UInt} {t t' : BitWidth} {a b k : Nat}

/-- C87: Euclid's algorithm finds the greatest common divisor, in at most `2 * w + 2` rounds. -/
theorem C87_gcd (hx : x.Is t a) (hy : y.Is t b) (n : Nat) (hn : 2 * t.toUsize + 2 ≤ n) :
    Yields (Algo.gcd n x y) (UInt.Is t (Nat.gcd a b)) :=
  Algo.gcd_any hx hy n hn

example : Yields (Algo.gcd 16 ⟨a7⟩ ⟨b7⟩) (UInt.Is (bw 7) 20) :=
  C87_gcd (t := bw 7) (a := 100) (b := 60) ⟨a7_wf, rfl, rfl⟩ ⟨b7_wf, rfl, rfl⟩ 16 (by decide)

/-- C87: repeated squaring computes powers modulo `2 ^ w`, with a round for every bit of the
exponent. -/
theorem C87_pow (hx : x.Is t a) (e n : Nat) (h : e < 2 ^ n) :
    Yields (Algo.pow (n + 1) x e) (UInt.Is t (a ^ e % 2 ^ t.toUsize)) :=
  Algo.pow_is hx e n h

example : Yields (Algo.pow 11 ⟨b7⟩ 1023) (UInt.Is (bw 7) 0) := by
  have h := C87_pow (t := bw 7) (a := 60) ⟨b7_wf, rfl, rfl⟩ 1023 10 (by decide)
  rwa [show 60 ^ 1023 % 2 ^ (bw 7).toUsize = 0 by decide +kernel] at h

/-- C87: with twice the width, products modulo `m` are exact. -/
theorem C87_mul_mod (hx : x.Is t a) (hy : y.Is t b) (hm : m.Is t k) (h0 : k ≠ 0)
    (ht : 2 * t.toUsize ≤ t'.toUsize) :
    Yields (Algo.mulMod t' x y m) (UInt.Is t (a * b % k)) :=
  Algo.mulMod_is hx hy hm h0 ht

example : Yields (Algo.mulMod (bw 14) ⟨a7⟩ ⟨b7⟩ ⟨⟨bw 7, .inl 97⟩⟩) (UInt.Is (bw 7) 83) :=
  C87_mul_mod (t := bw 7) (t' := bw 14) (a := 100) (b := 60) (k := 97) ⟨a7_wf, rfl, rfl⟩
    ⟨b7_wf, rfl, rfl⟩ ⟨by decide, rfl, rfl⟩ (by decide) (by decide)

/-- C87: powers modulo any `m` that is not zero. -/
theorem C87_pow_mod (hx : x.Is t a) (hm : m.Is t k) (h0 : k ≠ 0)
    (ht : 2 * t.toUsize ≤ t'.toUsize) (e n : Nat) (h : e < 2 ^ n) :
    Yields (Algo.powMod t' (n + 1) x e m) (UInt.Is t (a ^ e % k)) :=
  Algo.powMod_is hx hm h0 ht e n h

-- Fermat: 60 ^ 96 = 1 modulo 97
example : Yields (Algo.powMod (bw 14) 8 ⟨b7⟩ 96 ⟨⟨bw 7, .inl 97⟩⟩) (UInt.Is (bw 7) 1) := by
  have h := C87_pow_mod (t := bw 7) (t' := bw 14) (x := ⟨b7⟩) (m := ⟨⟨bw 7, .inl 97⟩⟩) (a := 60)
    (k := 97) ⟨b7_wf, rfl, rfl⟩ ⟨by decide, rfl, rfl⟩ (by decide) (by decide) 96 7 (by decide)
  rwa [show 60 ^ 96 % 97 = 1 by decide +kernel] at h

/-- C87: repeated division by ten gives the decimal text of a `UInt`. -/
theorem C87_decimal (hx : x.Is t a) (h4 : 4 ≤ t'.toUsize) (ht : t.toUsize ≤ t'.toUsize) (n : Nat)
    (h : t.toUsize ≤ n) : Algo.decimal t' (n + 1) x = .ok (toString a).toList := by
  rw [Algo.decimal_is hx h4 ht n h]
  simp [Nat.toString_eq_repr, Nat.repr]

example : Algo.decimal (bw 7) 8 ⟨a7⟩ = .ok ['1', '0', '0'] :=
  C87_decimal (t := bw 7) (t' := bw 7) (a := 100) ⟨a7_wf, rfl, rfl⟩ (by decide) (by decide) 7
    (by decide)

/-- C87: the decimal text of an `Int` is a minus sign if it is negative, and the text of its
absolute value as a `UInt`; that is right for the minimum, too. -/
theorem C87_signed_decimal {x : SInt} {z : Int} (hx : x.Is t z) (h4 : 4 ≤ t'.toUsize)
    (ht : t.toUsize ≤ t'.toUsize) (n : Nat) (h : t.toUsize ≤ n) :
    Algo.signedDecimal t' (n + 1) x = .ok (toString z).toList := by
  rw [Algo.signedDecimal_is hx h4 ht n h]
  obtain ⟨v, rfl | rfl⟩ := z.eq_nat_or_neg
  · rw [if_neg (by omega)]
    simp [Nat.repr, Int.toString_eq_repr, Int.repr]
  · cases v with
    | zero => rfl
    | succ v =>
      rw [if_pos (by omega), Int.natAbs_neg, Int.natAbs_natCast]
      show _ = Except.ok (toString (Int.negSucc v)).toList
      simp [Nat.repr, Int.toString_eq_repr, Int.repr]

-- the minimum of 7 bits
example : Algo.signedDecimal (bw 7) 8 ⟨⟨bw 7, .inl 64⟩⟩ = .ok ['-', '6', '4'] :=
  C87_signed_decimal (t := bw 7) (t' := bw 7) (z := -64) ⟨by decide, rfl, rfl⟩ (by decide)
    (by decide) 7 (by decide)

/-- C87: reading decimal digits from left to right gives their number modulo `2 ^ w`. -/
theorem C87_parse (t : BitWidth) (s : List Char) (hs : ∀ c ∈ s, c.isDigit) :
    Yields (Algo.parseDecimal t s) (UInt.Is t (Nat.ofDigitChars 10 s 0 % 2 ^ t.toUsize)) := by
  obtain ⟨c, e, hc⟩ := Algo.parseDecimal_is t s fun c h => by
    have := Char.isDigit_iff_toNat.1 (hs c h)
    have h9 : '9'.toNat = 57 := rfl
    omega
  refine ⟨c, e, ?_⟩
  rw [Nat.ofDigitChars_eq_foldl]
  have : (fun (v : Nat) (c : Char) => v * 10 + (c.toNat - 48)) =
      fun v c => 10 * v + (c.toNat - '0'.toNat) := by
    funext v c
    rw [Nat.mul_comm]
    rfl
  rwa [this] at hc

example : Yields (Algo.parseDecimal (bw 7) ['3', '0', '0']) (UInt.Is (bw 7) 44) := by
  have h := C87_parse (bw 7) ['3', '0', '0'] (by decide)
  rwa [show Nat.ofDigitChars 10 ['3', '0', '0'] 0 % 2 ^ (bw 7).toUsize = 44 by decide +kernel] at h

/-- C87: reading the decimal text of an integer gives the integer back. -/
theorem C87_decimal_round_trip (hx : x.Is t a) (h4 : 4 ≤ t'.toUsize)
    (ht : t.toUsize ≤ t'.toUsize) :
    ∃ s, Algo.decimal t' (t.toUsize + 1) x = .ok s ∧
      Yields (Algo.parseDecimal t s) (UInt.Is t a) := by
  refine ⟨_, Algo.decimal_is hx h4 ht _ (Nat.le_refl _), ?_⟩
  have h := C87_parse t (Nat.toDigits 10 a) fun c h =>
    Nat.isDigit_of_mem_toDigits (by decide) (by decide) h
  rwa [Nat.ofDigitChars_ten_toDigits, Nat.mod_eq_of_lt hx.lt] at h

example : ∃ s, Algo.decimal (bw 150) 151 ⟨a150⟩ = .ok s ∧
    Yields (Algo.parseDecimal (bw 150) s) (UInt.Is (bw 150) a150.uval) :=
  C87_decimal_round_trip (t := bw 150) (t' := bw 150) ⟨a150_wf, rfl, rfl⟩ (by decide) (by decide)

/-- C87: deciding bit by bit gives the integer square root. -/
theorem C87_sqrt (hx : x.Is t a) :
    Yields (Algo.sqrt x) fun c => ∃ r, c.Is t r ∧ r * r ≤ a ∧ a < (r + 1) * (r + 1) := by
  obtain ⟨c, e, hc⟩ := Algo.sqrt_is hx
  exact ⟨c, e, _, hc, Nat.sqrt_le a, Nat.lt_succ_sqrt a⟩

example : Yields (Algo.sqrt ⟨b7⟩) fun c => ∃ r, c.Is (bw 7) r ∧ r * r ≤ 60 ∧ 60 < (r + 1) * (r + 1) :=
  C87_sqrt (t := bw 7) (a := 60) ⟨b7_wf, rfl, rfl⟩

/-- C87: Newton's method finds the inverse of an odd number modulo `2 ^ w`, in as many rounds as
the width has bits. -/
theorem C87_inverse (hx : x.Is t a) (ho : a % 2 = 1) (n : Nat) (hn : t.toUsize ≤ 2 ^ n) :
    Yields (Algo.inverse n x) fun c => ∃ v, c.Is t v ∧ a * v % 2 ^ t.toUsize = 1 := by
  obtain ⟨c, v, e, hc, hv⟩ := Algo.inverse_is hx ho n hn
  exact ⟨c, e, v, hc, hv⟩

example : Yields (Algo.inverse 7 ⟨b65⟩) fun c => ∃ v, c.Is (bw 65) v ∧ 5 * v % 2 ^ 65 = 1 :=
  C87_inverse (t := bw 65) (a := 5) ⟨b65_wf, rfl, rfl⟩ (by decide) 7 (by decide)

/-- C87: the sum is smaller than an operand exactly when it does not fit. -/
theorem C87_add_or_none (hx : x.Is t a) (hy : y.Is t b) :
    (a + b < 2 ^ t.toUsize → ∃ c, Algo.addOrNone x y = .ok (some c) ∧ c.Is t (a + b)) ∧
    (2 ^ t.toUsize ≤ a + b → Algo.addOrNone x y = .ok none) :=
  Algo.addOrNone_is hx hy

example : Algo.addOrNone ⟨a7⟩ ⟨b7⟩ = .ok none :=
  (C87_add_or_none (t := bw 7) (a := 100) (b := 60) ⟨a7_wf, rfl, rfl⟩ ⟨b7_wf, rfl, rfl⟩).2 (by decide)

/-- C87: comparing first tells whether a difference is negative. -/
theorem C87_sub_or_none (hx : x.Is t a) (hy : y.Is t b) :
    (b ≤ a → ∃ c, Algo.subOrNone x y = .ok (some c) ∧ c.Is t (a - b)) ∧
    (a < b → Algo.subOrNone x y = .ok none) :=
  Algo.subOrNone_is hx hy

example : ∃ c, Algo.subOrNone ⟨a7⟩ ⟨b7⟩ = .ok (some c) ∧ c.Is (bw 7) 40 :=
  (C87_sub_or_none (t := bw 7) (a := 100) (b := 60) ⟨a7_wf, rfl, rfl⟩ ⟨b7_wf, rfl, rfl⟩).1 (by decide)

/-- C87: dividing the product by one factor gives the other one back exactly when the product
fits. -/
theorem C87_mul_or_none (hx : x.Is t a) (hy : y.Is t b) :
    (a * b < 2 ^ t.toUsize → ∃ c, Algo.mulOrNone x y = .ok (some c) ∧ c.Is t (a * b)) ∧
    (2 ^ t.toUsize ≤ a * b → Algo.mulOrNone x y = .ok none) :=
  Algo.mulOrNone_is hx hy

example : Algo.mulOrNone ⟨a7⟩ ⟨b7⟩ = .ok none :=
  (C87_mul_or_none (t := bw 7) (a := 100) (b := 60) ⟨a7_wf, rfl, rfl⟩ ⟨b7_wf, rfl, rfl⟩).2 (by decide)

/-- C87: the sum of two `Int`s differs in sign from both exactly when it does not fit. -/
theorem C87_signed_add_or_none {x y : SInt} {z u : Int} (hx : x.Is t z) (hy : y.Is t u) :
    (-2 ^ (t.toUsize - 1) ≤ z + u ∧ z + u < 2 ^ (t.toUsize - 1) →
      ∃ c, Algo.signedAddOrNone x y = .ok (some c) ∧ c.Is t (z + u)) ∧
    (z + u < -2 ^ (t.toUsize - 1) ∨ 2 ^ (t.toUsize - 1) ≤ z + u →
      Algo.signedAddOrNone x y = .ok none) :=
  Algo.signedAddOrNone_is hx hy

example : Algo.signedAddOrNone ⟨b7⟩ ⟨b7⟩ = .ok none :=
  (C87_signed_add_or_none (t := bw 7) (z := 60) (u := 60) ⟨b7_wf, rfl, rfl⟩ ⟨b7_wf, rfl, rfl⟩).2
    (by decide)

/-- C87: with twice the width, both halves of a product are exact. -/
theorem C87_wide_mul (hx : x.Is t a) (hy : y.Is t b) (ht : 2 * t.toUsize ≤ t'.toUsize) :
    ∃ hi lo h l, Algo.wideMul t' x y = .ok (hi, lo) ∧ hi.Is t h ∧ lo.Is t l ∧
      a * b = h * 2 ^ t.toUsize + l := by
  obtain ⟨hi, lo, e, h1, h2⟩ := Algo.wideMul_is hx hy ht
  exact ⟨hi, lo, _, _, e, h1, h2, (Nat.div_add_mod' _ _).symm⟩

example : ∃ hi lo h l, Algo.wideMul (bw 128) ⟨a64⟩ ⟨b64⟩ = .ok (hi, lo) ∧ hi.Is (bw 64) h ∧
    lo.Is (bw 64) l ∧ a64.uval * b64.uval = h * 2 ^ 64 + l :=
  C87_wide_mul (t := bw 64) (t' := bw 128) ⟨a64_wf, rfl, rfl⟩ ⟨b64_wf, rfl, rfl⟩ (by decide)

/-- C87: sorting `UInt`s of one width by `<=` returns the same integers in increasing order. -/
theorem C87_sort {l : List UInt} (h : ∀ x ∈ l, x.value.WF ∧ x.value.len = t) :
    ∃ l', Algo.sort UInt.le l = .ok l' ∧ l'.Perm l ∧
      l'.Pairwise fun x y => x.value.uval ≤ y.value.uval := by
  let R : UInt → UInt → Bool := fun x y => decide (x.value.uval ≤ y.value.uval)
  have e := Algo.sort_is (le := UInt.le) (P := fun x => x.value.WF ∧ x.value.len = t) (R := R)
    (fun u v hu hv => UInt.Is.le_op (t := t) ⟨hu.1, hu.2, rfl⟩ ⟨hv.1, hv.2, rfl⟩) h
  refine ⟨_, e, List.perm_insertionSort _ l, ?_⟩
  have : Std.Total fun x y : UInt => R x y = true := ⟨fun x y => by
    simp only [R, decide_eq_true_eq]; omega⟩
  have : IsTrans UInt fun x y : UInt => R x y = true := ⟨fun x y z => by
    simp only [R, decide_eq_true_eq]; omega⟩
  have hs := List.pairwise_insertionSort (fun x y : UInt => R x y = true) l
  exact hs.imp fun h => by simpa [R] using h

example : ∃ l', Algo.sort UInt.le [⟨a7⟩, ⟨b7⟩, ⟨a7⟩] = .ok l' ∧ l'.Perm [⟨a7⟩, ⟨b7⟩, ⟨a7⟩] ∧
    l'.Pairwise fun x y => x.value.uval ≤ y.value.uval :=
  C87_sort (t := bw 7) (by
    intro x hx
    simp only [List.mem_cons, List.not_mem_nil, or_false] at hx
    rcases hx with rfl | rfl | rfl
    exacts [⟨a7_wf, rfl⟩, ⟨b7_wf, rfl⟩, ⟨a7_wf, rfl⟩])

/-- C87: sorting `Int`s of one width by `<=` returns the same integers in increasing order. -/
theorem C87_signed_sort {l : List SInt} (h : ∀ x ∈ l, x.value.WF ∧ x.value.len = t) :
    ∃ l', Algo.sort SInt.le l = .ok l' ∧ l'.Perm l ∧
      l'.Pairwise fun x y => x.value.sval ≤ y.value.sval := by
  let R : SInt → SInt → Bool := fun x y => decide (x.value.sval ≤ y.value.sval)
  have e := Algo.sort_is (le := SInt.le) (P := fun x => x.value.WF ∧ x.value.len = t) (R := R)
    (fun u v hu hv => by
      have hw : u.value.w = v.value.w := by unfold w; rw [hu.2, hv.2]
      rw [(C29_signed_operators hu.1 hv.1).2.1]
      simp [R, hw]) h
  refine ⟨_, e, List.perm_insertionSort _ l, ?_⟩
  have : Std.Total fun x y : SInt => R x y = true := ⟨fun x y => by
    simp only [R, decide_eq_true_eq]; omega⟩
  have : IsTrans SInt fun x y : SInt => R x y = true := ⟨fun x y z => by
    simp only [R, decide_eq_true_eq]; omega⟩
  have hs := List.pairwise_insertionSort (fun x y : SInt => R x y = true) l
  exact hs.imp fun h => by simpa [R] using h

-- as an `Int`, `a7` is -28
example : Algo.sort SInt.le [⟨b7⟩, ⟨a7⟩] = .ok [⟨a7⟩, ⟨b7⟩] := by decide +kernel

end Verif.Props
