import Verif.Algorithms
import Verif.Props.WrapRest
import Mathlib.Tactic.Ring
import Mathlib.Tactic.NormNum
import Mathlib.Tactic.Linarith
import Mathlib.Data.Nat.Sqrt
import Mathlib.Data.List.Sort
import Mathlib.Tactic.Positivity

/-!
# Lemmas about textbook algorithms

Rules for the calls, over the numbers that the integers stand for, and the invariants of the loops.
-/

namespace Verif

open ApInt Props

namespace UInt

variable {x y : UInt} {t : BitWidth} {a b : Nat}

theorem Is.lt (h : x.Is t a) : a < 2 ^ t.toUsize := by
  obtain ⟨h1, h2, h3⟩ := h
  have := h1.2
  rw [h3] at this
  unfold w at this
  rwa [h2] at this

theorem Is.add (hx : x.Is t a) (hy : y.Is t b) :
    ∃ c, x.opAdd y = .ok c ∧ x.opAddAssign y = .ok c ∧ c.Is t ((a + b) % 2 ^ t.toUsize) := by
  obtain ⟨hx, rfl, rfl⟩ := hx
  obtain ⟨hy, h, rfl⟩ := hy
  obtain ⟨⟨c, -, -, e, e', p⟩, -⟩ := C49_unsigned_arith hx hy h.symm
  exact ⟨c, e, e', p⟩

theorem Is.sub (hx : x.Is t a) (hy : y.Is t b) :
    ∃ c, x.opSub y = .ok c ∧ c.Is t (wrap t.toUsize (a - b)) := by
  obtain ⟨hx, rfl, rfl⟩ := hx
  obtain ⟨hy, h, rfl⟩ := hy
  obtain ⟨-, ⟨c, -, -, e, e', p⟩, -⟩ := C49_unsigned_arith hx hy h.symm
  exact ⟨c, e, p⟩

theorem Is.mul (hx : x.Is t a) (hy : y.Is t b) :
    ∃ c, x.opMul y = .ok c ∧ x.opMulAssign y = .ok c ∧ c.Is t (a * b % 2 ^ t.toUsize) := by
  obtain ⟨hx, rfl, rfl⟩ := hx
  obtain ⟨hy, h, rfl⟩ := hy
  obtain ⟨-, -, ⟨c, -, -, e, e', p⟩⟩ := C49_unsigned_arith hx hy h.symm
  exact ⟨c, e, e', p⟩

theorem Is.div (hx : x.Is t a) (hy : y.Is t b) (h0 : b ≠ 0) :
    ∃ c, x.opDiv y = .ok c ∧ c.Is t (a / b) := by
  obtain ⟨hx, rfl, rfl⟩ := hx
  obtain ⟨hy, h, rfl⟩ := hy
  obtain ⟨⟨c, -, -, e, e', p⟩, -⟩ := C49_unsigned_div hx hy h.symm h0
  exact ⟨c, e, p⟩

theorem Is.rem (hx : x.Is t a) (hy : y.Is t b) (h0 : b ≠ 0) :
    ∃ c, x.opRem y = .ok c ∧ x.opRemAssign y = .ok c ∧ c.Is t (a % b) := by
  obtain ⟨hx, rfl, rfl⟩ := hx
  obtain ⟨hy, h, rfl⟩ := hy
  obtain ⟨-, ⟨c, -, -, e, e', p⟩⟩ := C49_unsigned_div hx hy h.symm h0
  exact ⟨c, e, e', p⟩

theorem Is.isZero (hx : x.Is t a) : x.isZero = .ok (decide (a = 0)) := by
  obtain ⟨hx, rfl, rfl⟩ := hx
  exact isZero_ok hx.1

theorem Is.lt_op (hx : x.Is t a) (hy : y.Is t b) : x.lt y = .ok (decide (a < b)) := by
  obtain ⟨hx, rfl, rfl⟩ := hx
  obtain ⟨hy, h, rfl⟩ := hy
  rw [(C29_unsigned_operators hx hy).1]
  simp [w, h]

theorem Is.le_op (hx : x.Is t a) (hy : y.Is t b) : x.le y = .ok (decide (a ≤ b)) := by
  obtain ⟨hx, rfl, rfl⟩ := hx
  obtain ⟨hy, h, rfl⟩ := hy
  rw [(C29_unsigned_operators hx hy).2.1]
  simp [w, h]

theorem Is.eq_op (hx : x.Is t a) (hy : y.Is t b) : x.value.eq y.value = .ok (decide (a = b)) := by
  obtain ⟨hx, rfl, rfl⟩ := hx
  obtain ⟨hy, h, rfl⟩ := hy
  rw [C03_eq hx hy]
  simp [w, h]

theorem Is.width (hx : x.Is t a) : x.width = t := hx.2.1

theorem one_is (t : BitWidth) : ∃ c, UInt.one t = .ok c ∧ c.Is t 1 :=
  (C49_unsigned_construct t false 0 0 0 0 0).2.1

theorem zero_is (t : BitWidth) : ∃ c, UInt.zero t = .ok c ∧ c.Is t 0 :=
  (C49_unsigned_construct t false 0 0 0 0 0).1

theorem u8_is (v : BitVec 8) : ∃ c, UInt.fromU8 v = .ok c ∧ c.Is BitWidth.w8 v.toNat :=
  (C49_unsigned_construct BitWidth.w8 false v 0 0 0 0).2.2.2.2.2.2.2.1

theorem Is.extend (hx : x.Is t a) {t' : BitWidth} (h : t.toUsize ≤ t'.toUsize) :
    ∃ c, unwrapRes (x.intoExtend t') = .ok c ∧ c.Is t' a := by
  obtain ⟨hx, rfl, rfl⟩ := hx
  obtain ⟨c, -, e, p⟩ := (C49_unsigned_width hx t').2.2.1 h
  exact ⟨c, by rw [e]; rfl, p⟩

theorem Is.truncate (hx : x.Is t a) {t' : BitWidth} (h : t'.toUsize ≤ t.toUsize) :
    ∃ c, unwrapRes (x.intoTruncate t') = .ok c ∧ c.Is t' (a % 2 ^ t'.toUsize) := by
  obtain ⟨hx, rfl, rfl⟩ := hx
  obtain ⟨c, -, e, p⟩ := (C49_unsigned_width hx t').1 h
  exact ⟨c, by rw [e]; rfl, p⟩

theorem Is.resize (hx : x.Is t a) (t' : BitWidth) :
    ∃ c, x.intoResize t' = .ok c ∧ c.Is t' (a % 2 ^ t'.toUsize) := by
  obtain ⟨hx, rfl, rfl⟩ := hx
  obtain ⟨-, -, -, -, ⟨c, e, p⟩, e'⟩ := C49_unsigned_width hx t'
  exact ⟨c, e'.trans e, p⟩

theorem Is.shr (hx : x.Is t a) {s : Nat} (h : s < t.toUsize) :
    ∃ c, x.opShr s = .ok c ∧ c.Is t (a / 2 ^ s) := by
  obtain ⟨hx, rfl, rfl⟩ := hx
  obtain ⟨-, ⟨c, -, -, e, -, p⟩⟩ := C49_unsigned_shift hx h
  exact ⟨c, e, p⟩

theorem Is.toU8 (hx : x.Is t a) : x.resizeToU8 = .ok (BitVec.ofNat 8 a) := by
  obtain ⟨hx, rfl, rfl⟩ := hx
  exact (C31_unsigned_wrapper hx).2.1

theorem Is.setBit (hx : x.Is t a) {p : Nat} (h : p < t.toUsize) :
    ∃ c, unwrapMut (x.setBitAt p) = .ok c ∧ c.Is t (a ||| 2 ^ p) := by
  obtain ⟨hx, rfl, rfl⟩ := hx
  obtain ⟨-, ⟨c, e, h1, h2, h3⟩, -⟩ := C20_unsigned hx h
  refine ⟨c, by rw [e]; rfl, h1, h2, ?_⟩
  apply Nat.eq_of_testBit_eq
  intro i
  rw [h3, Nat.testBit_or, Nat.testBit_two_pow]
  by_cases hi : i = p
  · simp [hi]
  · simp [hi, Ne.symm hi]

end UInt

namespace Algo

variable {x y : UInt} {t : BitWidth} {a b : Nat}

/-! ## The greatest common divisor -/

theorem gcd_ordered : ∀ (k : Nat) {x y : UInt} {a b : Nat}, x.Is t a → y.Is t b → b ≤ a →
    a * b < 2 ^ k → ∀ n, k < n → ∃ c, gcd n x y = .ok c ∧ c.Is t (Nat.gcd a b) := by
  intro k
  induction k with
  | zero =>
    intro x y a b hx hy hab hk n hn
    obtain ⟨n, rfl⟩ := Nat.exists_eq_succ_of_ne_zero (Nat.pos_iff_ne_zero.1 hn)
    have hb : b = 0 := by
      rcases Nat.mul_eq_zero.1 (show a * b = 0 by omega) with h | h <;> omega
    subst hb
    exact ⟨x, by rw [gcd, hy.isZero]; rfl, by rwa [Nat.gcd_zero_right]⟩
  | succ k ih =>
    intro x y a b hx hy hab hk n hn
    obtain ⟨n, rfl⟩ := Nat.exists_eq_succ_of_ne_zero (by omega : n ≠ 0)
    by_cases hb : b = 0
    · subst hb
      exact ⟨x, by rw [gcd, hy.isZero]; rfl, by rwa [Nat.gcd_zero_right]⟩
    · obtain ⟨r, -, e, hr⟩ := hx.rem hy hb
      have h1 : a % b < b := Nat.mod_lt _ (by omega)
      have h2 : 2 * (a % b) ≤ a := by
        have := Nat.div_add_mod a b
        have : 1 ≤ a / b := Nat.div_pos hab (by omega)
        have : b * 1 ≤ b * (a / b) := Nat.mul_le_mul_left _ this
        omega
      have h3 : b * (a % b) < 2 ^ k := by
        have : 2 * (b * (a % b)) ≤ a * b := by
          calc 2 * (b * (a % b)) = 2 * (a % b) * b := by ring
            _ ≤ a * b := Nat.mul_le_mul_right _ h2
        rw [Nat.pow_succ] at hk
        omega
      obtain ⟨c, e', hc⟩ := ih hy hr h1.le h3 n (by omega)
      refine ⟨c, ?_, ?_⟩
      · rw [gcd, hy.isZero, decide_eq_false hb, run_bind_ok, if_neg (by simp), e, run_bind_ok, e']
      · rwa [Nat.gcd_comm a b, Nat.gcd_rec, Nat.gcd_comm (a % b) b]

theorem gcd_any (hx : x.Is t a) (hy : y.Is t b) (n : Nat) (hn : 2 * t.toUsize + 2 ≤ n) :
    ∃ c, gcd n x y = .ok c ∧ c.Is t (Nat.gcd a b) := by
  have ha := hx.lt
  have hb := hy.lt
  have hp : a * b < 2 ^ (2 * t.toUsize) := by
    rw [two_mul, pow_add]
    exact Nat.mul_lt_mul'' ha hb
  by_cases hab : b ≤ a
  · exact gcd_ordered _ hx hy hab hp n (by omega)
  · obtain ⟨n, rfl⟩ := Nat.exists_eq_succ_of_ne_zero (by omega : n ≠ 0)
    have hb0 : b ≠ 0 := by omega
    obtain ⟨r, -, e, hr⟩ := hx.rem hy hb0
    rw [Nat.mod_eq_of_lt (by omega)] at hr
    obtain ⟨c, e', hc⟩ := gcd_ordered _ hy hr (by omega) (by rwa [Nat.mul_comm]) n (by omega)
    refine ⟨c, ?_, by rwa [Nat.gcd_comm]⟩
    rw [gcd, hy.isZero, decide_eq_false hb0, run_bind_ok, if_neg (by simp), e, run_bind_ok, e']

/-! ## Powers -/

theorem powLoop_is : ∀ (n : Nat) {r x : UInt} {v a e : Nat}, r.Is t (v % 2 ^ t.toUsize) →
    x.Is t (a % 2 ^ t.toUsize) → e < 2 ^ n →
    ∃ c, powLoop (n + 1) r x e = .ok c ∧ c.Is t (v * a ^ e % 2 ^ t.toUsize) := by
  intro n
  induction n with
  | zero =>
    intro r x v a e hr hx he
    obtain rfl : e = 0 := by simpa using he
    exact ⟨r, rfl, by simpa using hr⟩
  | succ n ih =>
    intro r x v a e hr hx he
    by_cases h0 : e = 0
    · subst h0
      exact ⟨r, rfl, by simpa using hr⟩
    · obtain ⟨x', -, e1, hx'⟩ := hx.mul hx
      rw [← Nat.mul_mod] at hx'
      have hd : e = 2 * (e / 2) + e % 2 := (Nat.div_add_mod e 2).symm
      have he' : e / 2 < 2 ^ n := by rw [Nat.pow_succ] at he; omega
      by_cases h2 : e % 2 = 1
      · obtain ⟨r', -, e2, hr'⟩ := hr.mul hx
        rw [← Nat.mul_mod] at hr'
        obtain ⟨c, e3, hc⟩ := ih hr' hx' he'
        refine ⟨c, ?_, ?_⟩
        · rw [powLoop, if_neg h0, if_pos h2, e2, run_bind_ok]
          show (do let x ← x.opMulAssign x; powLoop (n + 1) r' x (e / 2)) = _
          rw [e1, run_bind_ok, e3]
        · have : v * a * (a * a) ^ (e / 2) = v * a ^ e := by
            conv_rhs => rw [hd, h2, pow_add, pow_mul, pow_one, pow_two]
            ring
          rwa [this] at hc
      · obtain ⟨c, e3, hc⟩ := ih hr hx' he'
        refine ⟨c, ?_, ?_⟩
        · rw [powLoop, if_neg h0, if_neg h2]
          show (do let x ← x.opMulAssign x; powLoop (n + 1) r x (e / 2)) = _
          rw [e1, run_bind_ok, e3]
        · have : v * (a * a) ^ (e / 2) = v * a ^ e := by
            conv_rhs => rw [hd, show e % 2 = 0 by omega, add_zero, pow_mul, pow_two]
          rwa [this] at hc

theorem pow_is (hx : x.Is t a) (e n : Nat) (h : e < 2 ^ n) :
    ∃ c, pow (n + 1) x e = .ok c ∧ c.Is t (a ^ e % 2 ^ t.toUsize) := by
  obtain ⟨o, eo, ho⟩ := UInt.one_is t
  have ha := hx.lt
  have h1 : 1 % 2 ^ t.toUsize = 1 := Nat.mod_eq_of_lt ho.lt
  obtain ⟨c, ec, hc⟩ := powLoop_is n (v := 1) (by rwa [h1]) (by rwa [Nat.mod_eq_of_lt ha]) h
  refine ⟨c, ?_, by rwa [one_mul] at hc⟩
  rw [pow, hx.width, eo, run_bind_ok, ec]

/-! ## Products and powers modulo a number -/

theorem mulMod_is {m : UInt} {k : Nat} (hx : x.Is t a) (hy : y.Is t b) (hm : m.Is t k)
    (h0 : k ≠ 0) {t' : BitWidth} (ht : 2 * t.toUsize ≤ t'.toUsize) :
    ∃ c, mulMod t' x y m = .ok c ∧ c.Is t (a * b % k) := by
  have le : t.toUsize ≤ t'.toUsize := by omega
  obtain ⟨x', e1, hx'⟩ := hx.extend le
  obtain ⟨y', e2, hy'⟩ := hy.extend le
  obtain ⟨m', e3, hm'⟩ := hm.extend le
  obtain ⟨p, e4, -, hp⟩ := hx'.mul hy'
  have hlt : a * b < 2 ^ t'.toUsize := by
    calc a * b < 2 ^ t.toUsize * 2 ^ t.toUsize := Nat.mul_lt_mul'' hx.lt hy.lt
      _ = 2 ^ (2 * t.toUsize) := by rw [two_mul, pow_add]
      _ ≤ 2 ^ t'.toUsize := Nat.pow_le_pow_right (by omega) ht
  rw [Nat.mod_eq_of_lt hlt] at hp
  obtain ⟨r, e5, -, hr⟩ := hp.rem hm' h0
  obtain ⟨c, e6, hc⟩ := hr.truncate (t' := t) le
  have hs : a * b % k < 2 ^ t.toUsize := (Nat.mod_lt _ (by omega)).trans hm.lt
  rw [Nat.mod_eq_of_lt hs] at hc
  refine ⟨c, ?_, hc⟩
  rw [mulMod, e1, run_bind_ok, e2, run_bind_ok, e3, run_bind_ok, e4, run_bind_ok, e5, run_bind_ok,
    hm.width, e6]

theorem powModLoop_is {m : UInt} {k : Nat} (hm : m.Is t k) (h0 : k ≠ 0) {t' : BitWidth}
    (ht : 2 * t.toUsize ≤ t'.toUsize) : ∀ (n : Nat) {r x : UInt} {v a e : Nat},
    r.Is t (v % k) → x.Is t a → e < 2 ^ n →
    ∃ c, powModLoop t' m (n + 1) r x e = .ok c ∧ c.Is t (v * a ^ e % k) := by
  intro n
  induction n with
  | zero =>
    intro r x v a e hr hx he
    obtain rfl : e = 0 := by simpa using he
    exact ⟨r, rfl, by simpa using hr⟩
  | succ n ih =>
    intro r x v a e hr hx he
    by_cases h0' : e = 0
    · subst h0'
      exact ⟨r, rfl, by simpa using hr⟩
    · obtain ⟨x', e1, hx'⟩ := mulMod_is hx hx hm h0 ht
      have hd : e = 2 * (e / 2) + e % 2 := (Nat.div_add_mod e 2).symm
      have he' : e / 2 < 2 ^ n := by rw [Nat.pow_succ] at he; omega
      by_cases h2 : e % 2 = 1
      · obtain ⟨r', e2, hr'⟩ := mulMod_is hr hx hm h0 ht
        rw [Nat.mod_mul_mod] at hr'
        obtain ⟨c, e3, hc⟩ := ih hr' hx' he'
        refine ⟨c, ?_, ?_⟩
        · rw [powModLoop, if_neg h0', if_pos h2, e2, run_bind_ok]
          show (do let x ← mulMod t' x x m; powModLoop t' m (n + 1) r' x (e / 2)) = _
          rw [e1, run_bind_ok, e3]
        · have : v * a * (a * a % k) ^ (e / 2) % k = v * a ^ e % k := by
            rw [Nat.mul_mod, ← Nat.pow_mod, ← Nat.mul_mod]
            congr 1
            conv_rhs => rw [hd, h2, pow_add, pow_mul, pow_one, pow_two]
            ring
          rwa [this] at hc
      · obtain ⟨c, e3, hc⟩ := ih hr hx' he'
        refine ⟨c, ?_, ?_⟩
        · rw [powModLoop, if_neg h0', if_neg h2]
          show (do let x ← mulMod t' x x m; powModLoop t' m (n + 1) r x (e / 2)) = _
          rw [e1, run_bind_ok, e3]
        · have : v * (a * a % k) ^ (e / 2) % k = v * a ^ e % k := by
            rw [Nat.mul_mod, ← Nat.pow_mod, ← Nat.mul_mod]
            congr 1
            conv_rhs => rw [hd, show e % 2 = 0 by omega, add_zero, pow_mul, pow_two]
          rwa [this] at hc

theorem powMod_is {m : UInt} {k : Nat} (hx : x.Is t a) (hm : m.Is t k) (h0 : k ≠ 0)
    {t' : BitWidth} (ht : 2 * t.toUsize ≤ t'.toUsize) (e n : Nat) (h : e < 2 ^ n) :
    ∃ c, powMod t' (n + 1) x e m = .ok c ∧ c.Is t (a ^ e % k) := by
  obtain ⟨o, eo, ho⟩ := UInt.one_is t
  obtain ⟨r, er, -, hr⟩ := ho.rem hm h0
  obtain ⟨c, ec, hc⟩ := powModLoop_is hm h0 ht n hr hx h
  refine ⟨c, ?_, by rwa [one_mul] at hc⟩
  rw [powMod, hm.width, eo, run_bind_ok, er, run_bind_ok, ec]

/-! ## Decimal text -/

theorem ten_is (ht : 4 ≤ t.toUsize) :
    ∃ o c, UInt.fromU8 10#8 = .ok o ∧ o.intoResize t = .ok c ∧ c.Is t 10 := by
  obtain ⟨o, eo, ho⟩ := UInt.u8_is 10#8
  obtain ⟨c, ec, hc⟩ := ho.resize t
  have : (10#8).toNat % 2 ^ t.toUsize = 10 := by
    have : 2 ^ 4 ≤ 2 ^ t.toUsize := Nat.pow_le_pow_right (by omega) ht
    exact Nat.mod_eq_of_lt (by show 10 < _; omega)
  exact ⟨o, c, eo, ec, by rwa [this] at hc⟩

theorem toDigits_step (a : Nat) (s : List Char) :
    Nat.toDigits 10 a ++ s =
      if a / 10 = 0 then Nat.digitChar (a % 10) :: s
      else Nat.toDigits 10 (a / 10) ++ Nat.digitChar (a % 10) :: s := by
  by_cases h : a / 10 = 0
  · rw [if_pos h, Nat.toDigits_of_lt_base (by omega), Nat.mod_eq_of_lt (by omega)]; rfl
  · rw [if_neg h, Nat.toDigits_of_base_le (by omega) (by omega), List.append_assoc]; rfl

theorem digitChar_of_lt {d : Nat} (h : d < 10) : Char.ofNat (48 + d) = Nat.digitChar d := by
  interval_cases d <;> rfl

theorem decimalLoop_is {ten : UInt} (h10 : ten.Is t 10) : ∀ (n : Nat) {x : UInt} {a : Nat}
    (s : List Char), x.Is t a → a < 2 ^ n →
    decimalLoop ten (n + 1) x s = .ok (Nat.toDigits 10 a ++ s) := by
  intro n
  induction n with
  | zero =>
    intro x a s hx ha
    obtain ⟨d, e1, -, hd⟩ := hx.rem h10 (by omega)
    obtain ⟨q, e2, hq⟩ := hx.div h10 (by omega)
    have h0 : a / 10 = 0 := by omega
    have hc : (BitVec.ofNat 8 (a % 10)).toNat = a % 10 := by
      rw [BitVec.toNat_ofNat]; omega
    rw [decimalLoop, e1, run_bind_ok, hd.toU8, run_bind_ok, e2, run_bind_ok, hq.isZero, run_bind_ok,
      if_pos (by simpa using h0), toDigits_step, if_pos h0, hc, digitChar_of_lt (by omega)]
    rfl
  | succ n ih =>
    intro x a s hx ha
    obtain ⟨d, e1, -, hd⟩ := hx.rem h10 (by omega)
    obtain ⟨q, e2, hq⟩ := hx.div h10 (by omega)
    have hc : (BitVec.ofNat 8 (a % 10)).toNat = a % 10 := by
      rw [BitVec.toNat_ofNat]; omega
    rw [decimalLoop, e1, run_bind_ok, hd.toU8, run_bind_ok, e2, run_bind_ok, hq.isZero, run_bind_ok,
      toDigits_step, hc, digitChar_of_lt (by omega)]
    by_cases h0 : a / 10 = 0
    · rw [if_pos (by simpa using h0), if_pos h0]; rfl
    · rw [if_neg (by simpa using h0), if_neg h0]
      exact ih _ hq (by rw [Nat.pow_succ] at ha; omega)

theorem decimal_is (hx : x.Is t a) {t' : BitWidth} (h4 : 4 ≤ t'.toUsize)
    (ht : t.toUsize ≤ t'.toUsize) (n : Nat) (h : t.toUsize ≤ n) :
    decimal t' (n + 1) x = .ok (Nat.toDigits 10 a) := by
  obtain ⟨o, c, e1, e2, hc⟩ := ten_is h4
  obtain ⟨x', e3, hx'⟩ := hx.extend ht
  rw [decimal, e1, run_bind_ok, e2, run_bind_ok, e3, run_bind_ok,
    decimalLoop_is hc n [] hx' (hx.lt.trans_le (Nat.pow_le_pow_right (by omega) h)), List.append_nil]

theorem parseLoop_is {ten : UInt} (h10 : ten.Is t (10 % 2 ^ t.toUsize)) :
    ∀ (s : List Char) {x : UInt} {a : Nat}, (∀ c ∈ s, c.toNat - 48 < 10) →
    x.Is t (a % 2 ^ t.toUsize) →
    ∃ c, parseLoop ten s x = .ok c ∧
      c.Is t (s.foldl (fun v c => v * 10 + (c.toNat - 48)) a % 2 ^ t.toUsize) := by
  intro s
  induction s with
  | nil => intro x a _ hx; exact ⟨x, rfl, hx⟩
  | cons ch s ih =>
    intro x a hs hx
    obtain ⟨o, e1, ho⟩ := UInt.u8_is (BitVec.ofNat 8 (ch.toNat - 48))
    have hd := hs ch (by simp)
    have hv : (BitVec.ofNat 8 (ch.toNat - 48)).toNat = ch.toNat - 48 := by
      rw [BitVec.toNat_ofNat]; omega
    rw [hv] at ho
    obtain ⟨d, e2, hd'⟩ := ho.resize t
    obtain ⟨p, -, e3, hp⟩ := hx.mul h10
    obtain ⟨q, -, e4, hq⟩ := hp.add hd'
    rw [← Nat.mul_mod, ← Nat.add_mod] at hq
    obtain ⟨c, e5, hc⟩ := ih (fun c h => hs c (by simp [h])) hq
    refine ⟨c, ?_, hc⟩
    rw [parseLoop, h10.width, e1, run_bind_ok, e2, run_bind_ok, e3, run_bind_ok, e4, run_bind_ok, e5]

theorem parseDecimal_is (t : BitWidth) (s : List Char) (hs : ∀ c ∈ s, c.toNat - 48 < 10) :
    ∃ c, parseDecimal t s = .ok c ∧
      c.Is t (s.foldl (fun v c => v * 10 + (c.toNat - 48)) 0 % 2 ^ t.toUsize) := by
  obtain ⟨o, eo, ho⟩ := UInt.u8_is 10#8
  obtain ⟨ten, et, ht⟩ := ho.resize t
  obtain ⟨z, ez, hz⟩ := UInt.zero_is t
  obtain ⟨c, ec, hc⟩ := parseLoop_is ht s (a := 0) hs (by simpa using hz)
  refine ⟨c, ?_, hc⟩
  rw [parseDecimal, eo, run_bind_ok, et, run_bind_ok, ez, run_bind_ok, ec]

/-! ## The square root -/

theorem sqrtLoop_is (hx : x.Is t a) : ∀ (p : Nat) {r : UInt} (k : Nat), p ≤ t.toUsize →
    r.Is t (2 ^ p * k) → (2 ^ p * k) * (2 ^ p * k) ≤ a →
    a < (2 ^ p * (k + 1)) * (2 ^ p * (k + 1)) →
    ∃ c, sqrtLoop x p r = .ok c ∧ c.Is t (Nat.sqrt a) := by
  intro p
  induction p with
  | zero =>
    intro r k _ hr h1 h2
    simp only [pow_zero, one_mul] at hr h1 h2
    exact ⟨r, rfl, by rwa [Nat.eq_sqrt.2 ⟨h1, h2⟩] at hr⟩
  | succ p ih =>
    intro r k hp hr h1 h2
    obtain ⟨c, e1, hc⟩ := hr.setBit (p := p) (by omega)
    have hor : 2 ^ (p + 1) * k ||| 2 ^ p = 2 ^ p * (2 * k + 1) := by
      rw [← Nat.two_pow_add_eq_or_of_lt (Nat.pow_lt_pow_right (by omega) (by omega : p < p + 1)),
        Nat.pow_succ]
      ring
    rw [hor] at hc
    have hpos : 0 < 2 ^ p * (2 * k + 1) := by positivity
    obtain ⟨q, e2, hq⟩ := hx.div hc (by omega)
    have e3 := hc.le_op hq
    rw [sqrtLoop, e1, run_bind_ok, e2, run_bind_ok, e3, run_bind_ok]
    by_cases h : 2 ^ p * (2 * k + 1) ≤ a / (2 ^ p * (2 * k + 1))
    · rw [if_pos (by simpa using h)]
      refine ih (2 * k + 1) (by omega) hc ((Nat.le_div_iff_mul_le hpos).1 h) ?_
      have : 2 ^ (p + 1) * (k + 1) = 2 ^ p * (2 * k + 1 + 1) := by rw [Nat.pow_succ]; ring
      rwa [this] at h2
    · rw [if_neg (by simpa using h)]
      have e4 : 2 ^ (p + 1) * k = 2 ^ p * (2 * k) := by rw [Nat.pow_succ]; ring
      rw [e4] at hr h1
      refine ih (2 * k) (by omega) hr h1 ?_
      rw [Nat.le_div_iff_mul_le hpos] at h
      omega

theorem sqrt_is (hx : x.Is t a) : ∃ c, sqrt x = .ok c ∧ c.Is t (Nat.sqrt a) := by
  obtain ⟨z, ez, hz⟩ := UInt.zero_is t
  have hpos := t.pos
  have hlt : a < 2 ^ ((t.toUsize + 1) / 2) * 2 ^ ((t.toUsize + 1) / 2) := by
    rw [← pow_add]
    exact hx.lt.trans_le (Nat.pow_le_pow_right (by omega) (by omega))
  obtain ⟨c, ec, hc⟩ := sqrtLoop_is hx ((t.toUsize + 1) / 2) 0 (by omega) (by simpa using hz)
    (by simp) (by simpa using hlt)
  exact ⟨c, by rw [sqrt, hx.width, ez, run_bind_ok, ec], hc⟩

/-! ## The inverse of an odd number -/

/-- The step of Newton's method doubles the number of correct bits. -/
theorem newton {a v : Int} {k : Nat} (h : (2 : Int) ^ k ∣ a * v - 1) :
    (2 : Int) ^ (2 * k) ∣ a * (v * (2 - a * v)) - 1 := by
  have : a * (v * (2 - a * v)) - 1 = -((a * v - 1) * (a * v - 1)) := by ring
  rw [this, two_mul, pow_add]
  exact (Int.dvd_neg).2 (mul_dvd_mul h h)

theorem wrap_congr (w : Nat) (z : Int) : (2 : Int) ^ w ∣ (wrap w z : Int) - z := by
  unfold wrap
  have h : (0 : Int) < 2 ^ w := by positivity
  rw [Int.toNat_of_nonneg (Int.emod_nonneg _ h.ne')]
  exact ⟨-(z / 2 ^ w), by have := Int.emod_add_mul_ediv z (2 ^ w); linarith⟩

theorem inverseLoop_is {two : UInt} (ha : x.Is t a) {b2 : Nat} (h2 : two.Is t b2)
    (hb : (2 : Int) ^ t.toUsize ∣ (b2 : Int) - 2) : ∀ (n : Nat) {y : UInt} {v k : Nat},
    y.Is t v → (2 : Int) ^ (min k t.toUsize) ∣ (a : Int) * v - 1 →
    ∃ c v', inverseLoop x two n y = .ok c ∧ c.Is t v' ∧
      (2 : Int) ^ (min (2 ^ n * k) t.toUsize) ∣ (a : Int) * v' - 1 := by
  intro n
  induction n with
  | zero => intro y v k hy h; exact ⟨y, v, rfl, hy, by simpa using h⟩
  | succ n ih =>
    intro y v k hy h
    obtain ⟨p, e1, -, hp⟩ := ha.mul hy
    obtain ⟨d, e2, hd⟩ := h2.sub hp
    obtain ⟨z, -, e3, hz⟩ := hy.mul hd
    have key : (2 : Int) ^ (min (2 * k) t.toUsize) ∣
        (a : Int) * ((v * wrap t.toUsize (b2 - (a * v % 2 ^ t.toUsize : Nat)) % 2 ^ t.toUsize : Nat) : Int)
          - 1 := by
      have hN := newton h
      have hle : (2 : Int) ^ (min (2 * k) t.toUsize) ∣ 2 ^ (2 * min k t.toUsize) :=
        pow_dvd_pow _ (by omega)
      have hle' : (2 : Int) ^ (min (2 * k) t.toUsize) ∣ 2 ^ t.toUsize := pow_dvd_pow _ (by omega)
      have c1 := wrap_congr t.toUsize (b2 - (a * v % 2 ^ t.toUsize : Nat))
      have c2 : (2 : Int) ^ t.toUsize ∣ ((a * v % 2 ^ t.toUsize : Nat) : Int) - a * v := by
        push_cast
        exact ⟨-((a * v : Int) / 2 ^ t.toUsize), by
          have := Int.emod_add_mul_ediv (a * v : Int) (2 ^ t.toUsize); linarith⟩
      generalize wrap t.toUsize (b2 - (a * v % 2 ^ t.toUsize : Nat)) = u at c1 ⊢
      generalize ((a * v % 2 ^ t.toUsize : Nat) : Int) = q at c1 c2
      have c3 : (2 : Int) ^ t.toUsize ∣ ((v * u % 2 ^ t.toUsize : Nat) : Int) - v * u := by
        push_cast
        exact ⟨-((v * u : Int) / 2 ^ t.toUsize), by
          have := Int.emod_add_mul_ediv (v * u : Int) (2 ^ t.toUsize); linarith⟩
      generalize ((v * u % 2 ^ t.toUsize : Nat) : Int) = s at c3 ⊢
      have c4 : (2 : Int) ^ t.toUsize ∣ (u : Int) - (2 - a * v) := by
        have : (u : Int) - (2 - a * v) = (u - (b2 - q)) + (b2 - 2) - (q - a * v) := by ring
        rw [this]
        exact dvd_sub (dvd_add c1 hb) c2
      have : (a : Int) * s - 1 =
          a * (s - v * u) + a * v * (u - (2 - a * v)) + (a * (v * (2 - a * v)) - 1) := by ring
      rw [this]
      exact dvd_add (dvd_add ((hle'.trans c3).mul_left _) ((hle'.trans c4).mul_left _))
        (hle.trans hN)
    obtain ⟨c, v', e4, hc, hv⟩ := ih hz key
    refine ⟨c, v', ?_, hc, ?_⟩
    · rw [inverseLoop, e1, run_bind_ok, e2, run_bind_ok, e3, run_bind_ok, e4]
    · rwa [show 2 ^ (n + 1) * k = 2 ^ n * (2 * k) by ring]

theorem inverse_is (hx : x.Is t a) (ho : a % 2 = 1) (n : Nat) (hn : t.toUsize ≤ 2 ^ n) :
    ∃ c v, inverse n x = .ok c ∧ c.Is t v ∧ a * v % 2 ^ t.toUsize = 1 := by
  obtain ⟨o, eo, h1⟩ := UInt.one_is t
  obtain ⟨tw, et, -, h2⟩ := h1.add h1
  have hb : (2 : Int) ^ t.toUsize ∣ (((1 + 1) % 2 ^ t.toUsize : Nat) : Int) - 2 := by
    push_cast
    exact ⟨-((2 : Int) / 2 ^ t.toUsize), by
      have := Int.emod_add_mul_ediv (2 : Int) (2 ^ t.toUsize)
      norm_num at this ⊢; linarith⟩
  have hs : (2 : Int) ^ (min 1 t.toUsize) ∣ (a : Int) * (1 : Nat) - 1 := by
    rw [Nat.min_eq_left t.pos]
    exact ⟨a / 2, by push_cast; omega⟩
  obtain ⟨c, v, e, hc, hv⟩ := inverseLoop_is hx h2 hb n h1 hs
  refine ⟨c, v, by rw [inverse, hx.width, eo, run_bind_ok, et, run_bind_ok, e], hc, ?_⟩
  rw [mul_one, Nat.min_eq_right hn] at hv
  have h3 : (1 : Nat) < 2 ^ t.toUsize := h1.lt
  have h4 : (a * v : Int) % 2 ^ t.toUsize = 1 := by
    have := Int.emod_emod_of_dvd
    obtain ⟨k, hk⟩ := hv
    have : (a * v : Int) = 1 + 2 ^ t.toUsize * k := by linarith
    rw [this, Int.add_mul_emod_self_left]
    exact Int.emod_eq_of_lt (by omega) (by exact_mod_cast h3)
  exact_mod_cast h4

/-! ## Overflow -/

theorem addOrNone_is (hx : x.Is t a) (hy : y.Is t b) :
    (a + b < 2 ^ t.toUsize → ∃ c, addOrNone x y = .ok (some c) ∧ c.Is t (a + b)) ∧
    (2 ^ t.toUsize ≤ a + b → addOrNone x y = .ok none) := by
  obtain ⟨s, e, -, hs⟩ := hx.add hy
  have ha := hx.lt
  have hb := hy.lt
  constructor <;> intro h
  · rw [Nat.mod_eq_of_lt h] at hs
    refine ⟨s, ?_, hs⟩
    rw [addOrNone, e, run_bind_ok, hs.lt_op hx, run_bind_ok, if_neg (by simp)]
    rfl
  · have hv : (a + b) % 2 ^ t.toUsize = a + b - 2 ^ t.toUsize := by
      rw [Nat.mod_eq_sub_mod h, Nat.mod_eq_of_lt (by omega)]
    rw [addOrNone, e, run_bind_ok, hs.lt_op hx, run_bind_ok, if_pos (by rw [hv]; simp; omega)]
    rfl

theorem subOrNone_is (hx : x.Is t a) (hy : y.Is t b) :
    (b ≤ a → ∃ c, subOrNone x y = .ok (some c) ∧ c.Is t (a - b)) ∧
    (a < b → subOrNone x y = .ok none) := by
  constructor <;> intro h
  · obtain ⟨s, e, hs⟩ := hx.sub hy
    have ha := hx.lt
    have hv : wrap t.toUsize (a - b) = a - b := by
      unfold wrap
      rw [← Int.ofNat_sub h, Int.emod_eq_of_lt (by omega) (by
        have : ((a - b : Nat) : Int) ≤ a := by omega
        have ha' : (a : Int) < 2 ^ t.toUsize := by exact_mod_cast ha
        omega), Int.toNat_natCast]
    rw [hv] at hs
    refine ⟨s, ?_, hs⟩
    rw [subOrNone, hx.lt_op hy, run_bind_ok, if_neg (by simpa using h), e]
    rfl
  · rw [subOrNone, hx.lt_op hy, run_bind_ok, if_pos (by simpa using h)]
    rfl

theorem mulOrNone_is (hx : x.Is t a) (hy : y.Is t b) :
    (a * b < 2 ^ t.toUsize → ∃ c, mulOrNone x y = .ok (some c) ∧ c.Is t (a * b)) ∧
    (2 ^ t.toUsize ≤ a * b → mulOrNone x y = .ok none) := by
  obtain ⟨p, e, -, hp⟩ := hx.mul hy
  constructor <;> intro h
  · by_cases h0 : a = 0
    · subst h0
      refine ⟨x, ?_, by simpa using hx⟩
      rw [mulOrNone, hx.isZero, run_bind_ok, if_pos (by simp)]
      rfl
    · rw [Nat.mod_eq_of_lt h] at hp
      obtain ⟨q, e2, hq⟩ := hp.div hx h0
      rw [Nat.mul_div_cancel_left _ (Nat.pos_iff_ne_zero.2 h0)] at hq
      refine ⟨p, ?_, hp⟩
      rw [mulOrNone, hx.isZero, run_bind_ok, if_neg (by simpa using h0), e, run_bind_ok, e2,
        run_bind_ok, hq.eq_op hy, run_bind_ok, if_pos (by simp)]
      rfl
  · have h0 : a ≠ 0 := by
      rintro rfl
      have : 0 < 2 ^ t.toUsize := by positivity
      omega
    obtain ⟨q, e2, hq⟩ := hp.div hx h0
    have hne : a * b % 2 ^ t.toUsize / a ≠ b := by
      intro hb
      have h1 := Nat.div_mul_le_self (a * b % 2 ^ t.toUsize) a
      rw [hb, Nat.mul_comm b a] at h1
      have := hp.lt
      omega
    rw [mulOrNone, hx.isZero, run_bind_ok, if_neg (by simpa using h0), e, run_bind_ok, e2,
      run_bind_ok, hq.eq_op hy, run_bind_ok, if_neg (by simpa using hne)]
    rfl

theorem wideMul_is (hx : x.Is t a) (hy : y.Is t b) {t' : BitWidth}
    (ht : 2 * t.toUsize ≤ t'.toUsize) :
    ∃ hi lo, wideMul t' x y = .ok (hi, lo) ∧ hi.Is t (a * b / 2 ^ t.toUsize) ∧
      lo.Is t (a * b % 2 ^ t.toUsize) := by
  have hpos := t.pos
  have le : t.toUsize ≤ t'.toUsize := by omega
  obtain ⟨x', e1, hx'⟩ := hx.extend le
  obtain ⟨y', e2, hy'⟩ := hy.extend le
  obtain ⟨p, e4, -, hp⟩ := hx'.mul hy'
  have hlt' : a * b < 2 ^ t.toUsize * 2 ^ t.toUsize := Nat.mul_lt_mul'' hx.lt hy.lt
  have hlt : a * b < 2 ^ t'.toUsize := by
    calc a * b < 2 ^ t.toUsize * 2 ^ t.toUsize := hlt'
      _ = 2 ^ (2 * t.toUsize) := by rw [two_mul, pow_add]
      _ ≤ 2 ^ t'.toUsize := Nat.pow_le_pow_right (by omega) ht
  rw [Nat.mod_eq_of_lt hlt] at hp
  obtain ⟨lo, e5, hlo⟩ := hp.truncate (t' := t) le
  obtain ⟨s, e6, hs⟩ := hp.shr (s := t.toUsize) (by omega)
  obtain ⟨hi, e7, hhi⟩ := hs.truncate (t' := t) le
  rw [Nat.mod_eq_of_lt (Nat.div_lt_of_lt_mul hlt')] at hhi
  refine ⟨hi, lo, ?_, hhi, hlo⟩
  rw [wideMul, e1, run_bind_ok, e2, run_bind_ok, e4, run_bind_ok, hx.width, e5, run_bind_ok, e6,
    run_bind_ok, e7]
  rfl

/-! ## Signed integers -/

theorem top_bit {c : ApInt} (h : c.WF) : c.uval.testBit (c.w - 1) = decide (c.sval < 0) := by
  have hlt := h.2
  have hpos : 0 < c.w := c.len.pos
  have hw : 2 ^ c.w = 2 * 2 ^ (c.w - 1) := by
    rw [← Nat.pow_succ', Nat.succ_eq_add_one, Nat.sub_add_cancel hpos]
  have hwI : (2 : Int) ^ c.w = 2 * ((2 ^ (c.w - 1) : Nat) : Int) := by exact_mod_cast hw
  rw [Nat.testBit_eq_decide_div_mod_eq]
  unfold sval
  rw [hw] at hlt
  rw [hwI]
  generalize 2 ^ (c.w - 1) = p at hlt ⊢
  by_cases hc : c.uval < p
  · rw [if_pos hc, Nat.div_eq_of_lt hc]
    simp
  · have h1 : c.uval / p = 1 := by
      apply Nat.div_eq_of_lt_le <;> omega
    rw [if_neg hc, h1]
    simp
    omega

theorem signedAddOrNone_is {x y : SInt} {z u : Int} (hx : x.Is t z) (hy : y.Is t u) :
    (-2 ^ (t.toUsize - 1) ≤ z + u ∧ z + u < 2 ^ (t.toUsize - 1) →
      ∃ c, signedAddOrNone x y = .ok (some c) ∧ c.Is t (z + u)) ∧
    (z + u < -2 ^ (t.toUsize - 1) ∨ 2 ^ (t.toUsize - 1) ≤ z + u →
      signedAddOrNone x y = .ok none) := by
  obtain ⟨hx, rfl, rfl⟩ := hx
  obtain ⟨hy, hl, rfl⟩ := hy
  obtain ⟨⟨s, -, -, e1, -, hs, hsl, hsv⟩, -⟩ := C49_signed_arith hx hy hl.symm
  obtain ⟨-, -, ⟨p, -, -, e2, -, hp, hpl, hpv⟩, -⟩ := C49_signed_bitwise hx hs hsl.symm
  obtain ⟨-, -, ⟨q, -, -, e3, -, hq, hql, hqv⟩, -⟩ := C49_signed_bitwise hy hs (hl.trans hsl.symm)
  obtain ⟨⟨o, -, -, e4, -, ho, hol, hov⟩, -⟩ := C49_signed_bitwise hp hq (by rw [hpl, hql, hl])
  have e5 := (C35_sign ho).1
  have key : (o.value.sval < 0) ↔
      ((x.value.sval < 0) ≠ (s.value.sval < 0) ∧ (y.value.sval < 0) ≠ (s.value.sval < 0)) := by
    have ww : ∀ {c : SInt}, c.value.len = x.value.len → c.value.w = x.value.w := fun h => by
      unfold w; rw [h]
    have bx := top_bit hx
    have b_y := top_bit hy
    have bs := top_bit hs
    have bo := top_bit ho
    rw [ww (hol.trans hpl)] at bo
    rw [ww hl] at b_y
    rw [ww hsl] at bs
    rw [hov, hpv, hqv, Nat.testBit_and, Nat.testBit_xor, Nat.testBit_xor, bx, b_y, bs] at bo
    rw [← decide_eq_true_eq (p := o.value.sval < 0), ← bo]
    by_cases h1 : x.value.sval < 0 <;> by_cases h2 : y.value.sval < 0 <;>
      by_cases h3 : s.value.sval < 0 <;> simp [h1, h2, h3]
  have hr : -2 ^ (x.value.w - 1) ≤ x.value.sval ∧ x.value.sval < 2 ^ (x.value.w - 1) := by
    have := sval_range hx; exact ⟨by omega, by omega⟩
  have hr' : -2 ^ (x.value.w - 1) ≤ y.value.sval ∧ y.value.sval < 2 ^ (x.value.w - 1) := by
    have h := sval_range hy
    have e : y.value.w = x.value.w := by unfold w; rw [hl]
    rw [e] at h; exact ⟨by omega, by omega⟩
  have hwI : ((2 ^ x.value.w : Nat) : Int) = 2 * (2 : Int) ^ (x.value.w - 1) := by
    have hpos : 0 < x.value.w := x.value.len.pos
    push_cast
    rw [← pow_succ', Nat.sub_add_cancel hpos]
  change (-2 ^ (x.value.w - 1) ≤ _ ∧ _ < (2 : Int) ^ (x.value.w - 1) → _) ∧
    (_ < -(2 : Int) ^ (x.value.w - 1) ∨ (2 : Int) ^ (x.value.w - 1) ≤ _ → _)
  have run : signedAddOrNone x y = if o.value.sval < 0 then .ok none else .ok (some s) := by
    rw [signedAddOrNone, e1, run_bind_ok, e2, run_bind_ok, e3, run_bind_ok, e4, run_bind_ok, e5,
      run_bind_ok]
    by_cases h : o.value.sval < 0
    · rw [if_pos h, if_pos (by simpa using h)]; rfl
    · rw [if_neg h, if_neg (by simpa using h)]; rfl
  have bm := Int.bmod_def (x.value.sval + y.value.sval) (2 ^ x.value.w)
  constructor
  · rintro ⟨h1, h2⟩
    have hv : s.value.sval = x.value.sval + y.value.sval := by
      rw [hsv]
      apply Int.bmod_eq_of_le <;> rw [hwI] <;> omega
    refine ⟨s, ?_, hs, hsl, hv⟩
    rw [run, if_neg]
    rw [key, hv]
    by_cases h3 : x.value.sval < 0 <;> by_cases h4 : y.value.sval < 0 <;>
      by_cases h5 : x.value.sval + y.value.sval < 0 <;> simp [h3, h4, h5] <;> omega
  · intro h
    have hv : s.value.sval = x.value.sval + y.value.sval + 2 * (2 : Int) ^ (x.value.w - 1) ∧
        x.value.sval + y.value.sval < -(2 : Int) ^ (x.value.w - 1) ∨
        s.value.sval = x.value.sval + y.value.sval - 2 * (2 : Int) ^ (x.value.w - 1) ∧
        (2 : Int) ^ (x.value.w - 1) ≤ x.value.sval + y.value.sval := by
      have hr2 := sval_range hs
      have e : s.value.w = x.value.w := by unfold w; rw [hsl]
      rw [e] at hr2
      obtain ⟨k, hk⟩ : ∃ k : Int, s.value.sval = x.value.sval + y.value.sval +
          2 * (2 : Int) ^ (x.value.w - 1) * k := by
        rw [hsv, ← hwI]
        exact ⟨-Int.bdiv (x.value.sval + y.value.sval) (2 ^ x.value.w), by
          have := Int.bmod_add_bdiv (x.value.sval + y.value.sval) (2 ^ x.value.w)
          linarith⟩
      rcases h with h | h
      · left
        refine ⟨?_, h⟩
        have hk1 : k = 1 := by
          have hp : (0 : Int) < 2 ^ (x.value.w - 1) := by positivity
          generalize (2 : Int) ^ (x.value.w - 1) = m at *
          have h1 : 0 < k := by
            by_contra hc
            have : 2 * m * k ≤ 0 := by
              apply mul_nonpos_of_nonneg_of_nonpos <;> omega
            omega
          have h2 : k < 2 := by
            by_contra hc
            have : 2 * m * 2 ≤ 2 * m * k := by
              apply mul_le_mul_of_nonneg_left <;> omega
            omega
          omega
        rw [hk, hk1, mul_one]
      · right
        refine ⟨?_, h⟩
        have hk1 : k = -1 := by
          have hp : (0 : Int) < 2 ^ (x.value.w - 1) := by positivity
          generalize (2 : Int) ^ (x.value.w - 1) = m at *
          have h1 : k < 0 := by
            by_contra hc
            have : 0 ≤ 2 * m * k := by
              apply mul_nonneg <;> omega
            omega
          have h2 : -2 < k := by
            by_contra hc
            have : 2 * m * k ≤ 2 * m * (-2) := by
              apply mul_le_mul_of_nonneg_left <;> omega
            omega
          omega
        rw [hk, hk1]; ring
    rw [run, if_pos]
    rw [key]
    generalize (2 : Int) ^ (x.value.w - 1) = m at *
    rcases hv with ⟨hv, hc⟩ | ⟨hv, hc⟩
    · have h1 : x.value.sval < 0 := by omega
      have h2 : y.value.sval < 0 := by omega
      have h3 : ¬ s.value.sval < 0 := by omega
      simp [h1, h2, h3]
    · have h1 : ¬ x.value.sval < 0 := by omega
      have h2 : ¬ y.value.sval < 0 := by omega
      have h3 : s.value.sval < 0 := by omega
      simp [h1, h2, h3]

/-- The magnitude of a negative integer as an unsigned integer, the minimum included. -/
theorem abs_unsigned {x : SInt} {z : Int} (hx : x.Is t z) :
    ∃ c, x.intoAbs = .ok c ∧ c.intoUnsigned.Is t z.natAbs := by
  obtain ⟨hx, rfl, rfl⟩ := hx
  obtain ⟨-, e, -, h1, h2⟩ := C38_abs hx
  have hv : ∀ {c : ApInt}, c.WF → 0 ≤ c.sval → (c.uval : Int) = c.sval := by
    intro c hc h0
    have := hc.2
    unfold sval at h0 ⊢
    split at h0 <;> rename_i hh
    · rw [if_pos hh]
    · have : (c.uval : Int) < 2 ^ c.w := by exact_mod_cast this
      omega
  by_cases hm : x.value.sval = -2 ^ (x.value.w - 1)
  · refine ⟨x, e.trans (h1 hm), hx, rfl, ?_⟩
    show x.value.uval = _
    have hpos : 0 < x.value.w := x.value.len.pos
    have hwI : (2 : Int) ^ x.value.w = 2 * 2 ^ (x.value.w - 1) := by
      rw [← pow_succ', Nat.sub_add_cancel hpos]
    have hp : (0 : Int) < 2 ^ (x.value.w - 1) := by positivity
    have : (x.value.uval : Int) = 2 ^ (x.value.w - 1) := by
      have h3 := hm
      unfold sval at h3
      rw [hwI] at h3
      generalize (2 : Int) ^ (x.value.w - 1) = m at *
      split at h3 <;> omega
    rw [hm]
    generalize (2 : Int) ^ (x.value.w - 1) = m at *
    omega
  · obtain ⟨c, e', hc, hl, hs⟩ := h2 hm
    refine ⟨c, e.trans e', hc, hl, ?_⟩
    show c.value.uval = _
    have := hv hc (by rw [hs]; exact abs_nonneg _)
    rw [hs, Int.abs_eq_natAbs] at this
    exact_mod_cast this

theorem signedDecimal_is {x : SInt} {z : Int} (hx : x.Is t z) {t' : BitWidth} (h4 : 4 ≤ t'.toUsize)
    (ht : t.toUsize ≤ t'.toUsize) (n : Nat) (h : t.toUsize ≤ n) :
    signedDecimal t' (n + 1) x =
      .ok (if z < 0 then '-' :: Nat.toDigits 10 z.natAbs else Nat.toDigits 10 z.natAbs) := by
  have e := (C35_sign hx.1).1
  rw [hx.2.2] at e
  by_cases h0 : z < 0
  · obtain ⟨c, ec, hc⟩ := abs_unsigned hx
    rw [signedDecimal, e, run_bind_ok, if_pos (by simpa using h0), ec, run_bind_ok,
      decimal_is hc h4 ht n h, if_pos h0]
    rfl
  · have hu : x.intoUnsigned.Is t z.natAbs := by
      refine ⟨hx.1, hx.2.1, ?_⟩
      show x.value.uval = _
      have h1 := hx.2.2
      have h2 := hx.1.2
      unfold sval at h1
      have h3 : (x.value.uval : Int) < 2 ^ x.value.w := by exact_mod_cast h2
      split at h1 <;> omega
    rw [signedDecimal, e, run_bind_ok, if_neg (by simpa using h0), decimal_is hu h4 ht n h,
      if_neg h0]

/-! ## Sorting -/

variable {α : Type} {le : α → α → Run Bool} {P : α → Prop} {R : α → α → Bool}

theorem insert_is (hle : ∀ u v, P u → P v → le u v = .ok (R u v)) {u : α} (hu : P u) :
    ∀ {l : List α}, (∀ v ∈ l, P v) →
    Algo.insert le u l = .ok (List.orderedInsert (fun a b => R a b = true) u l) := by
  intro l
  induction l with
  | nil => intro _; rfl
  | cons v l ih =>
    intro h
    rw [Algo.insert, hle u v hu (h v (by simp)), run_bind_ok, List.orderedInsert_cons]
    by_cases hr : R u v = true
    · rw [if_pos hr, if_pos hr]; rfl
    · rw [if_neg hr, if_neg hr, ih fun w hw => h w (by simp [hw])]; rfl

theorem sort_is (hle : ∀ u v, P u → P v → le u v = .ok (R u v)) :
    ∀ {l : List α}, (∀ v ∈ l, P v) →
    sort le l = .ok (List.insertionSort (fun a b => R a b = true) l) := by
  intro l
  induction l with
  | nil => intro _; rfl
  | cons v l ih =>
    intro h
    have hl : ∀ w ∈ l, P w := fun w hw => h w (by simp [hw])
    rw [sort, ih hl, run_bind_ok, insert_is hle (h v (by simp)), List.insertionSort_cons]
    intro w hw
    exact hl w ((List.perm_insertionSort _ l).mem_iff.1 hw)

end Algo

end Verif
