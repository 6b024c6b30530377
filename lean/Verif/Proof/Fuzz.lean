import Verif.Model.Fuzz
import Verif.Proof.Div
import Verif.Proof.Overflow
import Verif.Props.Arith
import Verif.Props.Shifts
import Verif.Props.Casts
import Verif.Props.Compare
import Verif.Props.Construct
import Verif.Props.Bits
import Verif.Props.Tests
import Verif.Props.ToPrim
import Verif.Props.Div
import Verif.Props.Overflow

/-! # The crate's own property tests: helper lemmas -/

namespace Verif

open ApInt Fuzz Props

/-- `c` is a well-formed integer of width `len` that stands for `z` modulo `2 ^ len`. -/
def Is (c : ApInt) (len : BitWidth) (z : Int) : Prop :=
  c.WF ∧ c.len = len ∧ c.uval = wrap len.toUsize z

/-- The call returns such an integer. -/
def GivesMod (r : Run ApInt) (len : BitWidth) (z : Int) : Prop := ∃ c, r = .ok c ∧ Is c len z

theorem GivesMod.of {r : Run ApInt} {len : BitWidth} {v : Nat} {z : Int} (h : Returns r len v)
    (hz : v = wrap len.toUsize z) : GivesMod r len z := by
  obtain ⟨c, e, h1, h2, h3⟩ := h
  exact ⟨c, e, h1, h2, h3.trans hz⟩

theorem GivesMod.then {β : Type} {r : Run ApInt} {f : ApInt → Run β} {len : BitWidth} {z : Int}
    {b : Run β} (h : GivesMod r len z) (hf : ∀ c, Is c len z → f c = b) : (r >>= f) = b := by
  obtain ⟨c, rfl, h⟩ := h
  exact hf c h

theorem ok_then {α β : Type} {r : Run α} {a : α} {f : α → Run β} {b : Run β} (h : r = .ok a)
    (hf : f a = b) : (r >>= f) = b := by
  rw [h]; exact hf

theorem Is.w {a : ApInt} {len : BitWidth} {x : Int} (h : Is a len x) : a.w = len.toUsize := by
  unfold ApInt.w; rw [h.2.1]

theorem Is.self {a : ApInt} (h : a.WF) : Is a a.len a.uval :=
  ⟨h, rfl, by rw [wrap_natCast, Nat.mod_eq_of_lt h.2]⟩

/-- The value an integer stands for, up to a multiple of the modulus. -/
theorem Is.mod {a : ApInt} {len : BitWidth} {x : Int} (h : Is a len x) :
    ∃ k : Int, (a.uval : Int) = x + 2 ^ len.toUsize * k := by
  rw [h.2.2, wrap_cast]
  refine ⟨-(x / 2 ^ len.toUsize), ?_⟩
  have := Int.emod_add_mul_ediv x (2 ^ len.toUsize)
  rw [mul_neg]
  omega

theorem Is.congr {a : ApInt} {len : BitWidth} {x y : Int} (h : Is a len x)
    (e : ∃ k, x = y + 2 ^ len.toUsize * k) : Is a len y :=
  ⟨h.1, h.2.1, h.2.2.trans (wrap_eq e)⟩

section
variable {a b : ApInt} {len : BitWidth} {x y : Int} {s : Nat}

theorem Is.clone (h : Is a len x) : GivesMod a.clone len x := ⟨a, clone_ok h.1.1, h⟩

theorem Is.len_eq (ha : Is a len x) (hb : Is b len y) : a.len = b.len := ha.2.1.trans hb.2.1.symm

theorem Is.add (ha : Is a len x) (hb : Is b len y) :
    GivesMod (unwrapRes (a.intoWrappingAdd b)) len (x + y) := by
  obtain ⟨i, hi⟩ := ha.mod
  obtain ⟨j, hj⟩ := hb.mod
  have := unwrapRes_ok (C04_add ha.1 hb.1 (ha.len_eq hb)).2.1
  rw [ha.2.1, ha.w] at this
  refine .of this (wrap_of_nat ⟨i + j, ?_⟩)
  push_cast; rw [hi, hj]; ring

theorem Is.sub (ha : Is a len x) (hb : Is b len y) :
    GivesMod (unwrapRes (a.intoWrappingSub b)) len (x - y) := by
  obtain ⟨i, hi⟩ := ha.mod
  obtain ⟨j, hj⟩ := hb.mod
  have := unwrapRes_ok (C05_sub ha.1 hb.1 (ha.len_eq hb)).2.1
  rw [ha.2.1, ha.w] at this
  refine .of this (wrap_eq ⟨i - j, ?_⟩)
  rw [hi, hj]; ring

theorem Is.mul (ha : Is a len x) (hb : Is b len y) :
    GivesMod (unwrapRes (a.intoWrappingMul b)) len (x * y) := by
  obtain ⟨i, hi⟩ := ha.mod
  obtain ⟨j, hj⟩ := hb.mod
  have := unwrapRes_ok (C07_mul ha.1 hb.1 (ha.len_eq hb)).2.1
  rw [ha.2.1, ha.w] at this
  refine .of this (wrap_of_nat ⟨x * j + y * i + 2 ^ len.toUsize * i * j, ?_⟩)
  push_cast; rw [hi, hj]; ring

theorem Is.inc (ha : Is a len x) :
    GivesMod a.wrappingInc len (x + 1) ∧ GivesMod a.intoWrappingInc len (x + 1) := by
  obtain ⟨i, hi⟩ := ha.mod
  obtain ⟨h1, h2, -⟩ := C06_inc_dec_neg ha.1
  rw [ha.2.1, ha.w] at h1 h2
  have : (a.uval + 1) % 2 ^ len.toUsize = wrap len.toUsize (x + 1) :=
    wrap_of_nat ⟨i, by push_cast; rw [hi]; ring⟩
  exact ⟨.of h1 this, .of h2 this⟩

theorem Is.dec (ha : Is a len x) : GivesMod a.wrappingDec len (x - 1) := by
  obtain ⟨i, hi⟩ := ha.mod
  obtain ⟨-, -, h1, -⟩ := C06_inc_dec_neg ha.1
  rw [ha.2.1, ha.w] at h1
  exact .of h1 (wrap_eq ⟨i, by rw [hi]; ring⟩)

theorem Is.neg (ha : Is a len x) : GivesMod a.intoWrappingNeg len (-x) := by
  obtain ⟨i, hi⟩ := ha.mod
  obtain ⟨-, -, -, -, -, h1, -⟩ := C06_inc_dec_neg ha.1
  rw [ha.2.1, ha.w] at h1
  exact .of h1 (wrap_eq ⟨-i, by rw [hi]; ring⟩)

theorem Is.shl (ha : Is a len x) (hs : s < len.toUsize) :
    GivesMod (unwrapRes (a.intoWrappingShl s)) len (x * 2 ^ s) := by
  obtain ⟨i, hi⟩ := ha.mod
  have := unwrapRes_ok (C15_shl ha.1 (by rw [ha.w]; exact hs)).2.1
  rw [ha.2.1, ha.w] at this
  refine .of this (wrap_of_nat ⟨i * 2 ^ s, ?_⟩)
  push_cast; rw [hi]; ring

theorem Is.shlAssign (ha : Is a len x) (hs : s < len.toUsize) :
    GivesMod (unwrapMut (a.wrappingShlAssign s)) len (x * 2 ^ s) := by
  obtain ⟨i, hi⟩ := ha.mod
  have := unwrapMut_ok (C15_shl ha.1 (by rw [ha.w]; exact hs)).1
  rw [ha.2.1, ha.w] at this
  refine .of this (wrap_of_nat ⟨i * 2 ^ s, ?_⟩)
  push_cast; rw [hi]; ring

theorem all_set_is (len : BitWidth) : GivesMod (allSet len) len (-1) := by
  refine .of (C30_constants len).2.2.2.1 ?_
  have h : (2:Nat) ^ len.toUsize - 1 < 2 ^ len.toUsize := by
    have := Nat.two_pow_pos len.toUsize; omega
  rw [← Nat.mod_eq_of_lt h]
  refine wrap_of_nat ⟨1, ?_⟩
  have := Nat.two_pow_pos len.toUsize
  rw [Nat.cast_sub (by omega)]
  push_cast; ring

theorem zero_is (len : BitWidth) : GivesMod (zero len) len 0 :=
  .of (C30_constants len).1 (by rw [show (0:Int) = (0:Nat) from rfl, wrap_natCast]; simp)

theorem resize_small {c : ApInt} (h : c.WF) (len : BitWidth) :
    GivesMod (c.intoZeroResize len) len c.uval := by
  obtain ⟨d, -, e, h1, h2, h3, h4⟩ := (C26_resize h len).1
  refine ⟨d, e, h1, h2, ?_⟩
  rw [wrap_natCast]
  rcases Nat.le_total len.toUsize c.w with hle | hle
  · exact (h3 hle).1
  · rw [(h4 hle).1, Nat.mod_eq_of_lt]
    exact Nat.lt_of_lt_of_le h.2 (Nat.pow_le_pow_right (by decide) hle)

theorem unit_is (len : BitWidth) : GivesMod (unit len) len 1 := by
  obtain ⟨c, e, h1, h2, h3⟩ := (C30_constants BitWidth.w1).2.2.2.2.2.1
  have := resize_small h1 len
  unfold unit
  rw [e]
  rw [h3] at this
  exact this

theorem small_is (v : BitVec 8) (len : BitWidth) : GivesMod (small v len) len v.toNat := by
  obtain ⟨c, e, h1, h2, h3⟩ := (C30_from_primitive true v 0 0 0 0).2.1
  have := resize_small h1 len
  unfold small
  rw [e]
  rw [h3] at this
  exact this

theorem Is.assert (ha : Is a len x) (hb : Is b len y) (h : ∃ k, x = y + 2 ^ len.toUsize * k) :
    assertEq a b = .ok () := by
  unfold assertEq
  rw [C03_eq ha.1 hb.1, decide_eq_true ⟨by rw [ha.w, hb.w], by rw [ha.2.2, hb.2.2, wrap_eq h]⟩]
  rfl

theorem Is.assert_rfl (ha : Is a len x) (hb : Is b len x) : assertEq a b = .ok () :=
  ha.assert hb ⟨0, by ring⟩

theorem assert_then {β : Type} {f : Unit → Run β} {z : Run β} (h : assertEq a b = .ok ())
    (hf : f () = z) : (assertEq a b >>= f) = z := ok_then h hf

end

/-! ## `identities` -/

section
variable {lhs rhs third tmp1 : ApInt} {len : BitWidth} {s : Nat}

theorem identitiesAdd_ok (h : lhs.WF) (hl : lhs.len = len) : identitiesAdd len lhs = .ok () := by
  subst hl
  have hs := Is.self h
  unfold identitiesAdd
  refine hs.clone.then fun c hc => hc.inc.2.then fun t ht => ?_
  refine hs.clone.then fun c hc => (unit_is _).then fun u hu => (hc.add hu).then fun d hd => ?_
  refine assert_then (ht.assert_rfl hd) ?_
  refine hs.clone.then fun c hc => (all_set_is _).then fun u hu => (hc.sub hu).then fun d hd => ?_
  refine assert_then (ht.assert hd ⟨0, by ring⟩) ?_
  refine ht.dec.then fun t ht => assert_then (ht.assert hs ⟨0, by ring⟩) ?_
  refine ht.dec.then fun t ht => ?_
  refine hs.clone.then fun c hc => (unit_is _).then fun u hu => (hc.sub hu).then fun d hd => ?_
  refine assert_then (ht.assert hd ⟨0, by ring⟩) ?_
  refine hs.clone.then fun c hc => (all_set_is _).then fun u hu => (hc.add hu).then fun d hd => ?_
  refine assert_then (ht.assert hd ⟨0, by ring⟩) ?_
  exact ht.inc.1.then fun t ht => ht.assert hs ⟨0, by ring⟩

theorem identitiesShl_ok (h : lhs.WF) (hl : lhs.len = len) (hs : s < len.toUsize)
    (ht : Is tmp1 len (2 ^ s)) : identitiesShl len s lhs tmp1 = .ok () := by
  subst hl
  have hi := Is.self h
  unfold identitiesShl
  refine hi.clone.then fun c hc => (hc.shl hs).then fun d hd => ?_
  refine hi.clone.then fun e he => (he.mul ht).then fun f hf => ?_
  refine assert_then (hd.assert_rfl hf) ?_
  refine hi.clone.then fun c hc => hc.neg.then fun n hn => (hn.shl hs).then fun d hd => ?_
  refine hi.clone.then fun e he => (all_set_is _).then fun m hm => (hm.shl hs).then fun o ho => ?_
  exact (he.mul ho).then fun f hf => hd.assert hf ⟨0, by ring⟩

/-- Truncated division, corrected by one, is floored division. -/
theorem tdiv_floor (x m : Int) (hm : 0 < m) :
    x / m = x.tdiv m - (if x < 0 ∧ x.tmod m ≠ 0 then 1 else 0) := by
  have h1 := Int.tdiv_eq_ediv (a := x) (b := m)
  have h2 : m ∣ x ↔ x.tmod m = 0 := Int.dvd_iff_tmod_eq_zero
  have h3 : m.sign = 1 := Int.sign_eq_one_of_pos hm
  rw [h1, h3]
  by_cases hx : 0 ≤ x
  · rw [if_pos (Or.inl hx), if_neg (by omega)]; omega
  · by_cases hd : m ∣ x
    · rw [if_pos (Or.inr hd), if_neg (fun h => h.2 (h2.1 hd))]; omega
    · rw [if_neg (by tauto), if_pos ⟨by omega, by rw [Ne, ← h2]; exact hd⟩]; omega

theorem msb_sign {a : ApInt} (h : a.WF) : a.msb = .ok (decide (a.sval < 0)) := by
  rw [msb_ok h.1, testBit_top a.pos_w h.2]
  have h1 := h.2
  congr 1
  rw [decide_eq_decide]
  unfold sval
  have h3 : ((2:Nat) ^ a.w : Int) = (2:Int) ^ a.w := by push_cast; rfl
  split
  · omega
  · rw [← h3]; omega

theorem sval_pow {a : ApInt} {s : Nat} (hs : s < a.w) (hv : a.uval = 2 ^ s) :
    a.sval = if s = a.w - 1 then -2 ^ (a.w - 1) else 2 ^ s := by
  have hp := two_pow_pred a.pos_w
  unfold sval
  rw [hv]
  by_cases e : s = a.w - 1
  · rw [if_neg (by rw [e]; omega), if_pos e, e]
    have : (2:Int) ^ a.w = 2 * 2 ^ (a.w - 1) := by exact_mod_cast hp
    push_cast
    omega
  · rw [if_pos (Nat.pow_lt_pow_right (by decide) (by omega)), if_neg e]
    push_cast; rfl

theorem wrap_zero_iff {w : Nat} {x : Int} (h1 : -2 ^ w < x) (h2 : x < 2 ^ w) :
    wrap w x = 0 ↔ x = 0 := by
  constructor
  · intro h
    have := wrap_cast w x
    rw [h] at this
    have hd : (2:Int) ^ w ∣ x := Int.dvd_of_emod_eq_zero this.symm
    obtain ⟨k, rfl⟩ := hd
    have hp : (0:Int) < 2 ^ w := by positivity
    have k1 : k < 1 := by
      by_contra hk
      nlinarith
    have k2 : -1 < k := by
      by_contra hk
      nlinarith
    rw [show k = 0 by omega, mul_zero]
  · rintro rfl
    simp [wrap]

theorem Is.pow {a : ApInt} {len : BitWidth} {s : Nat} (h : Is a len (2 ^ s))
    (hs : s < len.toUsize) : a.uval = 2 ^ s := by
  rw [h.2.2, show ((2:Int) ^ s) = ((2 ^ s : Nat) : Int) by push_cast; rfl, wrap_natCast,
    Nat.mod_eq_of_lt (Nat.pow_lt_pow_right (by decide) hs)]

/-- The arithmetic of the signed half of the shift test. -/
theorem ashr_sdiv {w s : Nat} {x t : Int} (h1 : -2 ^ (w - 1) ≤ x)
    (h2 : x < 2 ^ (w - 1)) (ht : t = if s = w - 1 then -2 ^ (w - 1) else 2 ^ s)
    (hne : ¬ (s = w - 1 ∧ x = -2 ^ (w - 1))) :
    x / 2 ^ s = x.tdiv t - (if x < 0 ∧ x.tmod t ≠ 0 then 1 else 0) := by
  have hp : (0:Int) < 2 ^ s := by positivity
  by_cases e : s = w - 1
  · rw [if_pos e] at ht
    subst ht
    have hx : -2 ^ (w - 1) < x := by
      rcases lt_or_eq_of_le h1 with h | h
      · exact h
      · exact absurd ⟨e, h.symm⟩ hne
    rw [← e] at h2 hx ⊢
    rw [tdiv_floor x _ hp, Int.tdiv_neg, Int.tmod_neg]
    have : x.tdiv (2 ^ s) = 0 := by
      rcases le_or_gt 0 x with h | h
      · exact Int.tdiv_eq_zero_of_lt h h2
      · have := Int.tdiv_eq_zero_of_lt (a := -x) (b := 2 ^ s) (by omega) (by omega)
        rw [Int.neg_tdiv] at this
        omega
    rw [this]; omega
  · rw [if_neg e] at ht
    subst ht
    exact tdiv_floor x _ hp

theorem identitiesShr_ok (h : lhs.WF) (hl : lhs.len = len) (hs : s < len.toUsize)
    (ht : Is tmp1 len (2 ^ s)) : identitiesShr len.toUsize len s lhs tmp1 = .ok () := by
  subst hl
  have hi := Is.self h
  have hv := ht.pow hs
  have hz : tmp1.uval ≠ 0 := by rw [hv]; exact Nat.ne_of_gt (Nat.two_pow_pos _)
  have hlen : lhs.len = tmp1.len := ht.2.1.symm
  have hpos := lhs.pos_w
  obtain ⟨r1, r2⟩ := sval_range h
  have hts : tmp1.sval = if s = lhs.w - 1 then -2 ^ (lhs.w - 1) else 2 ^ s := by
    have := sval_pow (a := tmp1) (s := s) (by rw [ht.w]; exact hs) hv
    rwa [ht.w] at this
  unfold identitiesShr
  obtain ⟨c, e, a1, a2, a3⟩ := unwrapRes_ok (C16_lshr h hs).2
  obtain ⟨d, e', b1, b2, b3⟩ := unwrapRes_ok (C09_consuming h ht.1 hlen hz).1
  have hcd : c = d := ext_of_uval a1.1 b1.1 (by rw [a2, b2]) (by rw [a3, b3, hv])
  subst hcd
  refine ok_then (clone_ok h.1) (ok_then e (ok_then (clone_ok h.1) (ok_then e' ?_)))
  refine assert_then ((Is.self a1).assert_rfl (Is.self a1)) ?_
  refine ok_then (csub_ok (by omega)) (ok_then (C03_eq h ht.1) ?_)
  by_cases hc : s = lhs.len.toUsize - 1 ∧ lhs.uval = tmp1.uval
  · rw [if_pos ⟨hc.1, by rw [decide_eq_true ⟨by rw [ht.w], hc.2⟩]⟩]
    obtain ⟨q, eq, c1, c2, c3⟩ := unwrapRes_ok (C11_signed_division h ht.1 hlen hz).2.2.2.2.1
    refine ok_then (clone_ok h.1) (ok_then eq ?_)
    refine (unit_is _).then fun u hu => ?_
    refine Is.assert_rfl (x := 1) ⟨c1, c2, ?_⟩ hu
    have hsame : lhs = tmp1 := ext_of_uval h.1 ht.1.1 hlen hc.2
    rw [c3, ← hsame, Int.tdiv_self]
    rw [hsame, hts, if_pos hc.1]
    have : (0:Int) < 2 ^ (lhs.w - 1) := by positivity
    omega
  · rw [if_neg (by rw [decide_eq_true_iff]; tauto)]
    obtain ⟨q, r, eq, c1, d1, c2, d2, c3, d3⟩ := (C11_signed_division h ht.1 hlen hz).1
    refine ok_then (clone_ok h.1) (ok_then eq (ok_then rfl ?_))
    have hsd := ashr_sdiv (x := lhs.sval) (t := tmp1.sval) r1 r2 hts (by
      rintro ⟨g1, g2⟩
      apply hc
      refine ⟨g1, ?_⟩
      have := wrap_sval h
      have h' := wrap_sval ht.1
      rw [hts, if_pos g1, ht.w] at h'
      rw [g2] at this
      rw [← this, ← h'])
    have hrz : r.uval = 0 ↔ lhs.sval.tmod tmp1.sval = 0 := by
      rw [d3]
      have hp := two_pow_pred hpos
      have hp' : (2:Int) ^ lhs.w = 2 * 2 ^ (lhs.w - 1) := by exact_mod_cast hp
      have hp0 : (0:Int) < 2 ^ (lhs.w - 1) := by positivity
      have hb : |lhs.sval.tmod tmp1.sval| ≤ |lhs.sval| := by
        rw [Int.abs_eq_natAbs, Int.abs_eq_natAbs, Int.natAbs_tmod]
        exact_mod_cast Nat.mod_le _ _
      have hb2 : |lhs.sval| ≤ 2 ^ (lhs.w - 1) := abs_le.2 ⟨by omega, by omega⟩
      have hb3 := abs_le.1 (le_trans hb hb2)
      exact wrap_zero_iff (by omega) (by omega)
    obtain ⟨v, ev', ev, f1, f2, f3⟩ := C17_ashr h hs
    have hvI : Is v lhs.len (lhs.sval / 2 ^ s) :=
      ⟨f1, f2, by rw [← f3, ← wrap_sval f1]; unfold ApInt.w; rw [f2]⟩
    have fin : ∀ {t : ApInt}, Is t lhs.len (lhs.sval / 2 ^ s) →
        (do assertEq t (← unwrapRes ((← lhs.clone).intoWrappingAshr s))) = Except.ok () := by
      intro t hI
      refine ok_then (clone_ok h.1) (ok_then (a := v) (by rw [ev]; rfl) ?_)
      exact hI.assert_rfl hvI
    have hq : Is q lhs.len (lhs.sval.tdiv tmp1.sval) := ⟨c1, c2, c3⟩
    by_cases hcond : lhs.sval < 0 ∧ lhs.sval.tmod tmp1.sval ≠ 0
    · rw [if_pos hcond] at hsd
      obtain ⟨q', eq', hq'⟩ := hq.dec
      refine ok_then (a := q') ?_ ?_
      · refine ok_then (msb_sign h) (ok_then (isZero_ok d1.1) ?_)
        rw [decide_eq_true hcond.1, decide_eq_false (by rw [hrz]; exact hcond.2)]
        exact eq'
      · rw [← hsd] at hq'
        exact fin hq'
    · rw [if_neg hcond, sub_zero] at hsd
      refine ok_then (a := q) ?_ ?_
      · refine ok_then (msb_sign h) (ok_then (isZero_ok d1.1) ?_)
        rw [if_neg]
        · rfl
        · simp only [Bool.and_eq_true, decide_eq_true_eq, Bool.not_eq_true', decide_eq_false_iff_not, hrz]
          exact hcond
      · rw [← hsd] at hq
        exact fin hq

theorem Is.resize {a : ApInt} {x : Int} {t : BitWidth} (h : Is a len x)
    (ht : t.toUsize ≤ len.toUsize) : GivesMod (a.intoZeroResize t) t x := by
  obtain ⟨k, hk⟩ := h.mod
  obtain ⟨c, e, h1, h2, h3⟩ := resize_small h.1 t
  refine ⟨c, e, h1, h2, h3.trans (wrap_eq ⟨2 ^ (len.toUsize - t.toUsize) * k, ?_⟩)⟩
  rw [hk, ← mul_assoc, ← pow_add, Nat.add_sub_cancel' ht]

theorem extend_is {a : ApInt} {t : BitWidth} (h : a.WF) (ht : a.w ≤ t.toUsize) :
    GivesMod (unwrapRes (a.intoZeroExtend t)) t a.uval := by
  refine .of (unwrapRes_ok (C24_zero_extend h ht).2) ?_
  rw [wrap_natCast, Nat.mod_eq_of_lt]
  exact Nat.lt_of_lt_of_le h.2 (Nat.pow_le_pow_right (by decide) ht)

theorem new_ok {n : Nat} (h : 0 < n) : expect (BitWidth.new n) = .ok ⟨n, h⟩ := by
  unfold BitWidth.new
  rw [dif_neg (by omega)]
  rfl

theorem identitiesMul_ok (hl : lhs.WF) (hr : rhs.WF) (el : lhs.len = len) (er : rhs.len = len)
    {t : BitWidth} (ht : t.toUsize ≤ len.toUsize) :
    identitiesMul len.toUsize t lhs rhs = .ok () := by
  have hp := len.pos
  have wl : lhs.w = len.toUsize := by unfold ApInt.w; rw [el]
  have wr : rhs.w = len.toUsize := by unfold ApInt.w; rw [er]
  have il : Is lhs len lhs.uval := el ▸ Is.self hl
  have ir : Is rhs len rhs.uval := er ▸ Is.self hr
  unfold identitiesMul
  refine ok_then (clone_ok hl.1) (ok_then (new_ok (by omega)) ?_)
  refine (extend_is hl (by show lhs.w ≤ len.toUsize * 2; omega)).then fun l il2 => ?_
  refine ok_then (clone_ok hr.1) (ok_then (new_ok (by omega)) ?_)
  refine (extend_is hr (by show rhs.w ≤ len.toUsize * 2; omega)).then fun r ir2 => ?_
  refine (il2.mul ir2).then fun p ip => ?_
  refine (ip.resize (t := t) (by show t.toUsize ≤ len.toUsize * 2; omega)).then fun p' ip' => ?_
  refine ok_then (clone_ok hl.1) ?_
  refine (il.mul ir).then fun q iq => (iq.resize ht).then fun q' iq' => ?_
  exact ip'.assert_rfl iq'

/-- The mask keeps the product of the fuzzer below the modulus. -/
theorem antiOverflowMask_ok (hl : lhs.WF) (hr : rhs.WF) (el : lhs.len = len) (er : rhs.len = len) :
    ∃ m, antiOverflowMask len.toUsize len lhs rhs = .ok m ∧ m.WF ∧ m.len = len ∧
      (lhs.uval &&& m.uval) * rhs.uval < 2 ^ len.toUsize := by
  have wl : lhs.w = len.toUsize := by unfold ApInt.w; rw [el]
  have wr : rhs.w = len.toUsize := by unfold ApInt.w; rw [er]
  obtain ⟨n, e, n1, n2, -⟩ := leadingZeros_ok hl
  obtain ⟨k, e', k1, k2, -⟩ := leadingZeros_ok hr
  rw [wl] at n1 n2
  rw [wr] at k1 k2
  have key : ∀ {x i : Nat}, x < 2 ^ i → i + (len.toUsize - k) ≤ len.toUsize →
      x * rhs.uval < 2 ^ len.toUsize := by
    intro x i hx hi
    calc x * rhs.uval < 2 ^ i * 2 ^ (len.toUsize - k) :=
          Nat.mul_lt_mul'' hx k2
      _ = 2 ^ (i + (len.toUsize - k)) := (pow_add _ _ _).symm
      _ ≤ 2 ^ len.toUsize := Nat.pow_le_pow_right (by decide) hi
  unfold antiOverflowMask
  simp only [e, e', run_bind_ok]
  by_cases h1 : n + k < len.toUsize
  · rw [if_pos h1]
    by_cases h2 : k = 0
    · rw [if_pos h2]
      obtain ⟨m, em, m1, m2, m3⟩ := (C30_constants len).1
      refine ⟨m, em, m1, m2, ?_⟩
      rw [m3, Nat.and_zero, Nat.zero_mul]
      exact Nat.two_pow_pos _
    · rw [if_neg h2]
      have hk : BitWidth.from k = .ok ⟨k, by omega⟩ := new_ok (by omega)
      rw [hk]
      obtain ⟨c, ec, c1, c2, c3⟩ := (C30_constants ⟨k, by omega⟩).2.2.2.2.2.1
      have cw : c.w = k := by unfold ApInt.w; rw [c2]
      obtain ⟨m, em, m1, m2, m3⟩ := unwrapRes_ok
        (C24_zero_extend (t := len) c1 (by rw [cw]; exact k1)).2
      refine ⟨m, ?_, m1, m2, ?_⟩
      · simp only [run_bind_ok, ec, em]
      · refine key (i := k) ?_ (by omega)
        have h3 := Nat.and_le_right (n := lhs.uval) (m := m.uval)
        have h4 := Nat.two_pow_pos k
        rw [m3, c3] at h3 ⊢
        show _ < 2 ^ k
        change _ ≤ 2 ^ k - 1 at h3
        omega
  · rw [if_neg h1]
    obtain ⟨m, em, m1, m2, m3⟩ := (C30_constants len).2.2.2.2.2.1
    refine ⟨m, em, m1, m2, key (i := len.toUsize - n) ?_ (by omega)⟩
    exact Nat.lt_of_le_of_lt Nat.and_le_left n2

theorem and_ok {a b : ApInt} (ha : a.WF) (hb : b.WF) (h : a.len = b.len) :
    ∃ c, a.opBitAnd b = .ok c ∧ c.WF ∧ c.len = a.len ∧ c.uval = a.uval &&& b.uval := by
  obtain ⟨⟨c, -, -, e, -, c1, c2, c3⟩, -⟩ := C19_binary ha hb h
  exact ⟨c, e, c1, c2, Nat.eq_of_testBit_eq fun i => by rw [c3, Nat.testBit_and]⟩

theorem identitiesDiv_ok {zero mask : ApInt} (hz : zero.WF) (hl : lhs.WF) (hr : rhs.WF)
    (ht : third.WF) (hm : mask.WF) (ez : zero.len = len) (el : lhs.len = len) (er : rhs.len = len)
    (et : third.len = len) (em : mask.len = len) (vz : zero.uval = 0)
    (hlt : (lhs.uval &&& mask.uval) * rhs.uval < 2 ^ len.toUsize) :
    identitiesDiv zero lhs rhs third mask = .ok () := by
  obtain ⟨x, ex, x1, x2, x3⟩ := and_ok hl hm (el.trans em.symm)
  have wr : rhs.w = len.toUsize := by unfold ApInt.w; rw [er]
  have xw : x.w = len.toUsize := by unfold ApInt.w; rw [x2, el]
  rw [← x3] at hlt
  obtain ⟨p, ep, p1, p2, p3⟩ := unwrapRes_ok (C07_mul x1 hr (x2.trans (el.trans er.symm))).2.1
  rw [xw, Nat.mod_eq_of_lt hlt] at p3
  have p2' : p.len = len := p2.trans (x2.trans el)
  have pw : p.w = len.toUsize := by unfold ApInt.w; rw [p2']
  unfold identitiesDiv
  refine ok_then (clone_ok hl.1) (ok_then ex (ok_then ep (ok_then (C03_eq hr hz) ?_)))
  by_cases h0 : rhs.uval = 0
  · rw [decide_eq_true ⟨by unfold ApInt.w; rw [er, ez], by rw [h0, vz]⟩]
    rfl
  · rw [decide_eq_false (by rw [vz]; tauto)]
    obtain ⟨r, er', r1, r2, r3⟩ := unwrapRes_ok (C09_consuming ht hr (et.trans er.symm) h0).2
    have r2' : r.len = len := r2.trans et
    obtain ⟨c, ec, c1, c2, c3⟩ := C54_behaviour p1 r1 (p2'.trans r2'.symm) _ rfl
    refine ok_then (clone_ok ht.1) (ok_then er' (ok_then (clone_ok p1.1) (ok_then ec ?_)))
    rw [pw] at c3 ⊢
    generalize hk : (if len.toUsize % 64 = 0 then len.toUsize
      else 64 * (len.toUsize / 64) + (64 - len.toUsize % 64)) = k at *
    by_cases ho : 2 ^ k ≤ p.uval + r.uval
    · rw [decide_eq_true ho]; rfl
    · rw [decide_eq_false ho]
      rw [Nat.mod_eq_of_lt (by omega)] at c3
      have hrl : r.uval < rhs.uval := by rw [r3]; exact Nat.mod_lt _ (Nat.pos_of_ne_zero h0)
      have hq : c.uval / rhs.uval = x.uval := by
        rw [c3, p3, Nat.mul_comm, Nat.mul_add_div (Nat.pos_of_ne_zero h0), Nat.div_eq_of_lt hrl,
          Nat.add_zero]
      have hrm : c.uval % rhs.uval = r.uval := by
        rw [c3, p3, Nat.mul_comm, Nat.mul_add_mod, Nat.mod_eq_of_lt hrl]
      have c2' : c.len = len := c2.trans p2'
      have cw : c.w = len.toUsize := by unfold ApInt.w; rw [c2']
      obtain ⟨q, s, eqs, q1, s1, q2, s2, q3, s3⟩ := wrappingUdivremAssign_shape c1 hr
        (c2'.trans er.symm) h0 (by rw [hq, cw, ← xw]; exact x1.2)
      refine ok_then rfl (ok_then (clone_ok hr.1) (ok_then eqs (ok_then rfl ?_)))
      refine ok_then (clone_ok hl.1) (ok_then ex ?_)
      have hqx : q = x := ext_of_uval q1.1 x1.1 (by rw [q2, c2', x2, el]) (by rw [q3, hq])
      have hsr : s = r := ext_of_uval s1.1 r1.1 (by rw [s2, c2', r2']) (by rw [s3, hrm])
      rw [hqx, hsr]
      exact assert_then ((Is.self x1).assert_rfl (Is.self x1))
        ((Is.self r1).assert_rfl (Is.self r1))

theorem identities_ok (draw draw' : Nat) {zero : ApInt} (hz : zero.WF) (hl : lhs.WF) (hr : rhs.WF)
    (ht : third.WF) (ez : zero.len = len) (el : lhs.len = len) (er : rhs.len = len)
    (et : third.len = len) (vz : zero.uval = 0) :
    identities draw draw' len.toUsize len zero lhs rhs third = .ok () := by
  have hp := len.pos
  have hcrem : ∀ d, crem d len.toUsize = .ok (d % len.toUsize) := by
    intro d
    unfold crem
    rw [if_neg (by omega)]
    rfl
  have hlt : ∀ d, d % len.toUsize < len.toUsize := fun d => Nat.mod_lt _ hp
  unfold identities
  refine ok_then (hcrem _) (ok_then (identitiesAdd_ok hl el) ?_)
  refine (unit_is len).then fun u hu => (hu.shl (hlt draw)).then fun t1 ht1 => ?_
  rw [one_mul] at ht1
  refine ok_then (identitiesShl_ok hl el (hlt _) ht1) ?_
  refine ok_then (identitiesShr_ok hl el (hlt _) ht1) ?_
  refine ok_then (hcrem _) (ok_then (new_ok (by omega)) ?_)
  refine ok_then (identitiesMul_ok hl hr el er (hlt draw')) ?_
  obtain ⟨m, em, m1, m2, m3⟩ := antiOverflowMask_ok hl hr el er
  exact ok_then em (identitiesDiv_ok hz hl hr ht m1 ez el er et m2 vz m3)

end

/-! ## The fuzzers -/

section
variable {len : BitWidth}

/-- The three integers of the fuzzer are well-formed and have its width. -/
def Triple.Good (len : BitWidth) (t : Triple) : Prop :=
  (t.lhs.WF ∧ t.lhs.len = len) ∧ (t.rhs.WF ∧ t.rhs.len = len) ∧ t.third.WF ∧ t.third.len = len

theorem fuzzMask_ok (d : Draws) (h : len.toUsize % 2 ^ 32 ≠ 0) :
    ∃ m, fuzzMask d len.toUsize len = .ok m ∧ m.WF ∧ m.len = len := by
  have hp := len.pos
  have hcrem : ∀ x, crem x (len.toUsize % 2 ^ 32) = .ok (x % (len.toUsize % 2 ^ 32)) := by
    intro x
    unfold crem
    rw [if_neg h]
    rfl
  have hlt : ∀ x, x % (len.toUsize % 2 ^ 32) < len.toUsize := fun x =>
    Nat.lt_of_lt_of_le (Nat.mod_lt _ (Nat.pos_of_ne_zero h)) (Nat.mod_le _ _)
  have hlt0 := hlt d.r0.toNat
  have hlt1 := hlt d.r1.toNat
  unfold fuzzMask
  simp only [hcrem, run_bind_ok]
  generalize d.r0.toNat % (len.toUsize % 2 ^ 32) = r0 at *
  generalize d.r1.toNat % (len.toUsize % 2 ^ 32) = r1 at *
  have hr0 : 0 < (if r0 = 0 then 1 else r0) ∧ (if r0 = 0 then 1 else r0) ≤ len.toUsize := by
    split <;> omega
  generalize (if r0 = 0 then 1 else r0) = r at *
  rw [new_ok hr0.1]
  obtain ⟨c, ec, c1, c2, c3⟩ := (C30_constants ⟨r, hr0.1⟩).2.2.2.2.2.1
  have cw : c.w = r := by unfold ApInt.w; rw [c2]
  obtain ⟨o, eo, o1, o2, -⟩ := unwrapRes_ok
    (C24_zero_extend (t := len) c1 (by rw [cw]; exact hr0.2)).2
  have ow : o.w = len.toUsize := by unfold ApInt.w; rw [o2]
  simp only [run_bind_ok, ec, eo, clone_ok o1.1]
  by_cases h1 : r1 = 0
  · rw [if_pos h1]
    exact ⟨o, rfl, o1, o2⟩
  · rw [if_neg h1]
    obtain ⟨x, ex, x1, x2, -⟩ := unwrapRes_ok (C15_shl o1 (s := r1) (by rw [ow]; exact hlt1)).2.1
    obtain ⟨y, ey, y1, y2, -⟩ := unwrapRes_ok
      (C16_lshr o1 (s := len.toUsize - r1) (by rw [ow]; omega)).2
    obtain ⟨-, ⟨z, -, -, ez, -, z1, z2, -⟩, -⟩ := C19_binary x1 y1 (x2.trans y2.symm)
    refine ⟨z, ?_, z1, z2.trans (x2.trans o2)⟩
    simp only [ex, run_bind_ok, csub_ok (show r1 ≤ len.toUsize by omega), ey, ez]

theorem fuzzPick_ok {t : Triple} (h : Triple.Good len t) {m : ApInt} (hm : m.WF) (hl : m.len = len)
    (pick : Bool × Bool × Bool × Bool) :
    ∃ t', fuzzPick pick m t = .ok t' ∧ Triple.Good len t' := by
  obtain ⟨⟨a1, a2⟩, ⟨b1, b2⟩, c1, c2⟩ := h
  obtain ⟨⟨x1, -, -, -, e1, f1, g1, -⟩, ⟨x2, -, -, -, e2, f2, g2, -⟩, x3, -, -, -, e3, f3, g3, -⟩ :=
    C19_binary a1 hm (a2.trans hl.symm)
  obtain ⟨⟨y1, -, -, -, e4, f4, g4, -⟩, ⟨y2, -, -, -, e5, f5, g5, -⟩, y3, -, -, -, e6, f6, g6, -⟩ :=
    C19_binary b1 hm (b2.trans hl.symm)
  obtain ⟨⟨z1, -, -, -, e7, f7, g7, -⟩, ⟨z2, -, -, -, e8, f8, g8, -⟩, z3, -, -, -, e9, f9, g9, -⟩ :=
    C19_binary c1 hm (c2.trans hl.symm)
  unfold fuzzPick
  have r1 : ∀ {x : ApInt}, x.WF → x.len = t.lhs.len → Triple.Good len { t with lhs := x } :=
    fun h1 h2 => ⟨⟨h1, h2.trans a2⟩, ⟨b1, b2⟩, c1, c2⟩
  have r2 : ∀ {x : ApInt}, x.WF → x.len = t.rhs.len → Triple.Good len { t with rhs := x } :=
    fun h1 h2 => ⟨⟨a1, a2⟩, ⟨h1, h2.trans b2⟩, c1, c2⟩
  have r3 : ∀ {x : ApInt}, x.WF → x.len = t.third.len → Triple.Good len { t with third := x } :=
    fun h1 h2 => ⟨⟨a1, a2⟩, ⟨b1, b2⟩, h1, h2.trans c2⟩
  split <;> simp only [e1, e2, e3, e4, e5, e6, e7, e8, e9, run_bind_ok, run_pure] <;>
    refine ⟨_, rfl, ?_⟩ <;>
    first
    | exact r1 f1 g1 | exact r1 f2 g2 | exact r1 f3 g3
    | exact r2 f4 g4 | exact r2 f5 g5 | exact r2 f6 g6
    | exact r3 f7 g7 | exact r3 f8 g8 | exact r3 f9 g9

theorem identitiesOn_ok (d : Nat × Nat) {zero x y z : ApInt} (hz : zero.WF ∧ zero.len = len)
    (vz : zero.uval = 0) (h1 : x.WF ∧ x.len = len) (h2 : y.WF ∧ y.len = len)
    (h3 : z.WF ∧ z.len = len) : identitiesOn d len.toUsize len zero x y z = .ok () := by
  unfold identitiesOn
  simp only [clone_ok h1.1.1, clone_ok h2.1.1, clone_ok h3.1.1, run_bind_ok]
  exact identities_ok _ _ hz.1 h1.1 h2.1 h3.1 hz.2 h1.2 h2.2 h3.2 vz

theorem fuzzRound_ok (h : len.toUsize % 2 ^ 32 ≠ 0) {zero : ApInt} (hz : zero.WF ∧ zero.len = len)
    (vz : zero.uval = 0) (d : Draws) {t : Triple} (ht : Triple.Good len t) :
    ∃ t', fuzzRound len.toUsize len zero d t = .ok t' ∧ Triple.Good len t' := by
  obtain ⟨m, em, m1, m2⟩ := fuzzMask_ok d h
  obtain ⟨t', et, ht'⟩ := fuzzPick_ok ht m1 m2 d.pick
  refine ⟨t', ?_, ht'⟩
  obtain ⟨h1, h2, h3⟩ := ht'
  unfold fuzzRound
  simp only [em, run_bind_ok, et, identitiesOn_ok _ hz vz h1 h1 h2, identitiesOn_ok _ hz vz h1 h2 h3,
    identitiesOn_ok _ hz vz h2 h1 h3, identitiesOn_ok _ hz vz h3 h1 h2,
    identitiesOn_ok _ hz vz h1 h3 h2, identitiesOn_ok _ hz vz h3 h2 h1,
    identitiesOn_ok _ hz vz h2 h3 h1, run_pure]

theorem fuzzRounds_ok (h : len.toUsize % 2 ^ 32 ≠ 0) {zero : ApInt} (hz : zero.WF ∧ zero.len = len)
    (vz : zero.uval = 0) (ds : List Draws) :
    ∀ {t : Triple}, Triple.Good len t → fuzzRounds len.toUsize len zero ds t = .ok () := by
  induction ds with
  | nil => intro t _; rfl
  | cons d ds ih =>
    intro t ht
    obtain ⟨t', e, ht'⟩ := fuzzRound_ok h hz vz d ht
    unfold fuzzRounds
    rw [e]
    exact ih ht'

theorem small_zero (len : BitWidth) :
    ∃ c, small 0#8 len = .ok c ∧ (c.WF ∧ c.len = len) ∧ c.uval = 0 := by
  obtain ⟨c, e, c1, c2, c3⟩ := small_is 0#8 len
  exact ⟨c, e, ⟨c1, c2⟩, by rw [c3]; simp [wrap]⟩

theorem fuzzRandom_ok {size : Nat} (h : size % 2 ^ 32 ≠ 0) (ds : List Draws) :
    fuzzRandom size ds = .ok () := by
  have hp : 0 < size := by
    rcases Nat.eq_zero_or_pos size with rfl | h'
    · simp at h
    · exact h'
  obtain ⟨z, e, hz, vz⟩ := small_zero ⟨size, hp⟩
  unfold fuzzRandom
  rw [new_ok hp]
  simp only [run_bind_ok, e]
  exact fuzzRounds_ok (len := ⟨size, hp⟩) h hz vz ds ⟨hz, hz, hz⟩

theorem edgeDigits_succ (cd i : Nat) :
    edgeDigits (cd + 1) i = edgeDigit i :: edgeDigits cd (i / 4) := by
  unfold edgeDigits
  rw [List.range_succ_eq_map, List.map_cons, List.map_map]
  congr 1
  apply List.map_congr_left
  intro j _
  show edgeDigit (i >>> ((j + 1) * 2)) = edgeDigit ((i / 4) >>> (j * 2))
  rw [show (j + 1) * 2 = 2 + j * 2 by omega, Nat.shiftRight_add,
    Nat.shiftRight_eq_div_pow i 2]

theorem edgeDigit_mod (x : Nat) : edgeDigit x = edgeDigit (x % 4) := by
  unfold edgeDigit; rw [Nat.mod_mod]

theorem edgeDigit_inj {x y : Nat} (h : edgeDigit x = edgeDigit y) : x % 4 = y % 4 := by
  rw [edgeDigit_mod x, edgeDigit_mod y] at h
  have := (by decide +kernel : ∀ s t : Fin 4, edgeDigit s.val = edgeDigit t.val → s.val = t.val)
    ⟨x % 4, by omega⟩ ⟨y % 4, by omega⟩ h
  exact this

theorem edgeDigits_inj : ∀ cd i j, i < 4 ^ cd → j < 4 ^ cd → edgeDigits cd i = edgeDigits cd j → i = j
  | 0, i, j, hi, hj, _ => by simp at hi hj; omega
  | cd + 1, i, j, hi, hj, h => by
    rw [edgeDigits_succ, edgeDigits_succ] at h
    obtain ⟨h1, h2⟩ := List.cons.inj h
    have h3 := edgeDigit_inj h1
    rw [Nat.pow_succ] at hi hj
    have h4 := edgeDigits_inj cd (i / 4) (j / 4) (by omega) (by omega) h2
    omega

theorem edgeDigits_surj : ∀ (ds : List (BitVec 64)),
    (∀ d ∈ ds, d = 0#64 ∨ d = 1#64 ∨ d = BitVec.allOnes 64 - 1#64 ∨ d = BitVec.allOnes 64) →
    ∃ i, i < 4 ^ ds.length ∧ edgeDigits ds.length i = ds
  | [], _ => ⟨0, by simp, rfl⟩
  | d :: ds, h => by
    obtain ⟨hd, h'⟩ := List.forall_mem_cons.1 h
    obtain ⟨i, hi, he⟩ := edgeDigits_surj ds h'
    have : ∃ r, r < 4 ∧ edgeDigit r = d := by
      rcases hd with rfl | rfl | rfl | rfl
      · exact ⟨0, by decide, rfl⟩
      · exact ⟨1, by decide, rfl⟩
      · exact ⟨2, by decide, rfl⟩
      · exact ⟨3, by decide, rfl⟩
    obtain ⟨r, hr, hr'⟩ := this
    refine ⟨4 * i + r, ?_, ?_⟩
    · rw [List.length_cons, Nat.pow_succ]; omega
    · rw [List.length_cons, edgeDigits_succ, edgeDigit_mod, show (4 * i + r) % 4 = r by omega,
        show (4 * i + r) / 4 = i by omega, hr', he]
theorem edgeValue_ok {size cd : Nat} (hp : 0 < size)
    (hcd : cd = if size % 64 = 0 then size / 64 else size / 64 + 1) (i : Nat) :
    ∃ c, edgeValue size cd i = .ok c ∧ c.WF ∧ c.len = ⟨size, hp⟩ ∧
      c.uval = (edgeDigits cd i).foldl (fun acc d => acc * 2 ^ 64 + d.toNat) 0 % 2 ^ size := by
  have hlen : (edgeDigits cd i).length = cd := by simp [edgeDigits]
  have hc0 : 0 < cd := by rw [hcd]; split <;> omega
  have hcs : size ≤ 64 * cd := by rw [hcd]; split <;> omega
  have hne : edgeDigits cd i ≠ [] := by
    intro h
    rw [h] at hlen
    simp at hlen
    omega
  have hv : fromVecU64 (edgeDigits cd i) = fromArray (edgeDigits cd i) := by
    unfold fromVecU64 fromArray
    rw [if_neg (by simpa using hne)]
  obtain ⟨c, ec, c1, c2, c3⟩ := C30_from_array hne
  obtain ⟨d, ed, d1, d2, d3⟩ := unwrapRes_ok
    (C23_truncate (t := ⟨size, hp⟩) c1 (by rw [c2, hlen]; exact hcs)).2
  refine ⟨d, ?_, d1, d2, by rw [d3, c3]⟩
  unfold edgeValue
  rw [hv, ec]
  have hb : BitWidth.from size = .ok ⟨size, hp⟩ := new_ok hp
  simp only [run_bind_ok, hb, ed]

theorem explode_ok {cd : Nat} {f : Nat → Run Unit} (h : ∀ i, f i = .ok ()) :
    explode cd f = .ok () := by
  unfold explode
  induction List.range (2 ^ (cd * 2)) with
  | nil => rfl
  | cons i is ih =>
    show (f i >>= fun _ => is.forM f) = .ok ()
    rw [h]
    exact ih

theorem fuzzEdge_ok {size : Nat} (hp : 0 < size) (draw : Nat → Nat → Nat → Nat × Nat) :
    fuzzEdge size draw = .ok () := by
  obtain ⟨z, e, hz, vz⟩ := small_zero ⟨size, hp⟩
  unfold fuzzEdge
  rw [new_ok hp]
  simp only [run_bind_ok, e]
  refine explode_ok fun i0 => explode_ok fun i1 => explode_ok fun i2 => ?_
  obtain ⟨x, ex, x1, x2, -⟩ := edgeValue_ok hp rfl i0
  obtain ⟨y, ey, y1, y2, -⟩ := edgeValue_ok hp rfl i1
  obtain ⟨w, ew, w1, w2, -⟩ := edgeValue_ok hp rfl i2
  simp only [ex, ey, ew, run_bind_ok]
  exact identities_ok (len := ⟨size, hp⟩) _ _ hz.1 x1 y1 w1 hz.2 x2 y2 w2 vz

end

/-! ## Strings of nines -/

section

/-- A product of two numbers all of whose bytes are 255, split at the interesting places. -/
theorem nines_product (M d : Nat) (hM : 0 < M) :
    (256 ^ M - 1) * (256 ^ (M + d) - 1) =
      1 + 256 ^ M * ((256 ^ d - 1) + 256 ^ d * (256 ^ M - 2)) := by
  have h1 : 256 ≤ 256 ^ M := by
    calc 256 = 256 ^ 1 := (pow_one _).symm
      _ ≤ 256 ^ M := Nat.pow_le_pow_right (by decide) hM
  have h2 : 0 < 256 ^ d := Nat.pow_pos (by decide)
  rw [pow_add]
  generalize 256 ^ M = x at *
  generalize 256 ^ d = y at *
  obtain ⟨x, rfl⟩ : ∃ z, x = z + 2 := ⟨x - 2, by omega⟩
  obtain ⟨y, rfl⟩ : ∃ z, y = z + 1 := ⟨y - 1, by omega⟩
  have e1 : (x + 2) * (y + 1) - 1 = x * y + x + 2 * y + 1 := by
    have : (x + 2) * (y + 1) = x * y + x + 2 * y + 2 := by ring
    omega
  rw [e1, Nat.add_sub_cancel, Nat.add_sub_cancel, show x + 2 - 1 = x + 1 by omega]
  ring

theorem pow_pred_split {a i : Nat} (h : i ≤ a) :
    256 ^ a - 1 = 256 ^ i * (256 ^ (a - i) - 1) + (256 ^ i - 1) := by
  have e : 256 ^ a = 256 ^ i * 256 ^ (a - i) := by rw [← pow_add, Nat.add_sub_cancel' h]
  have h1 : 0 < 256 ^ i := Nat.pow_pos (by decide)
  have h2 : 0 < 256 ^ (a - i) := Nat.pow_pos (by decide)
  rw [e, Nat.mul_sub, Nat.mul_one]
  have : 256 ^ i ≤ 256 ^ i * 256 ^ (a - i) := Nat.le_mul_of_pos_right _ h2
  omega

theorem pow_pred_div {a i : Nat} (h : i ≤ a) : (256 ^ a - 1) / 256 ^ i = 256 ^ (a - i) - 1 := by
  have h1 : 0 < 256 ^ i := Nat.pow_pos (by decide)
  rw [pow_pred_split h, Nat.mul_add_div h1, Nat.div_eq_of_lt (by omega), Nat.add_zero]

theorem pow_pred_mod {a : Nat} (h : 0 < a) : (256 ^ a - 1) % 256 = 255 := by
  obtain ⟨b, rfl⟩ : ∃ b, a = b + 1 := ⟨a - 1, by omega⟩
  have h1 : 0 < 256 ^ b := Nat.pow_pos (by decide)
  rw [pow_succ]
  omega

/-- The bytes of such a product. -/
theorem nines_bytes (M d p : Nat) (hM : 0 < M) :
    (256 ^ M - 1) * (256 ^ (M + d) - 1) / 256 ^ p % 256 =
      if p = 0 then 1
      else if p < M then 0
      else if p < M + d then 255
      else if p = M + d then 254
      else if p < M + d + M then 255
      else 0 := by
  rw [nines_product M d hM]
  have hpp : ∀ n, 0 < 256 ^ n := fun n => Nat.pow_pos (by decide)
  generalize hQ : (256 ^ d - 1) + 256 ^ d * (256 ^ M - 2) = Q
  by_cases h0 : p = 0
  · rw [if_pos h0, h0, pow_zero, Nat.div_one]
    obtain ⟨m, rfl⟩ : ∃ m, M = m + 1 := ⟨M - 1, by omega⟩
    rw [pow_succ, Nat.mul_assoc, Nat.mul_comm (256 ^ m), Nat.mul_assoc]
    omega
  rw [if_neg h0]
  have hone : 1 < 256 ^ p := Nat.one_lt_pow h0 (by decide)
  by_cases h1 : p < M
  · rw [if_pos h1]
    have e : 256 ^ M = 256 ^ p * (256 * 256 ^ (M - p - 1)) := by
      rw [← Nat.pow_succ', ← pow_add]; congr 1; omega
    rw [e, Nat.mul_assoc, Nat.add_comm, Nat.mul_add_div (hpp p), Nat.div_eq_of_lt hone,
      Nat.add_zero, Nat.mul_assoc]
    omega
  rw [if_neg h1]
  obtain ⟨i, rfl⟩ : ∃ i, p = M + i := ⟨p - M, by omega⟩
  have hq : (1 + 256 ^ M * Q) / 256 ^ (M + i) = Q / 256 ^ i := by
    rw [pow_add, ← Nat.div_div_eq_div_mul, Nat.add_comm, Nat.mul_add_div (hpp M),
      Nat.div_eq_of_lt (Nat.one_lt_pow (by omega) (by decide)), Nat.add_zero]
  rw [hq, ← hQ]
  by_cases h2 : M + i < M + d
  · rw [if_pos h2]
    have hid : i ≤ d := by omega
    have e : 256 ^ d = 256 ^ i * 256 ^ (d - i) := by rw [← pow_add, Nat.add_sub_cancel' hid]
    rw [show 256 ^ d * (256 ^ M - 2) = 256 ^ i * (256 ^ (d - i) * (256 ^ M - 2)) by
      rw [e, Nat.mul_assoc], Nat.add_comm, Nat.mul_add_div (hpp i), pow_pred_div hid]
    obtain ⟨k, hk⟩ : ∃ k, d - i = k + 1 := ⟨d - i - 1, by omega⟩
    rw [hk, Nat.add_mod, pow_pred_mod (by omega), pow_succ, Nat.mul_right_comm,
      Nat.mul_mod_left]
  rw [if_neg h2]
  obtain ⟨j, rfl⟩ : ∃ j, i = d + j := ⟨i - d, by omega⟩
  have hq2 : ((256 ^ d - 1) + 256 ^ d * (256 ^ M - 2)) / 256 ^ (d + j) =
      (256 ^ M - 2) / 256 ^ j := by
    have := hpp d
    have h5 : (256 ^ d - 1) / 256 ^ d = 0 := Nat.div_eq_of_lt (by omega)
    rw [pow_add, ← Nat.div_div_eq_div_mul, Nat.add_comm, Nat.mul_add_div (hpp d), h5,
      Nat.add_zero]
  rw [hq2]
  have hbig : 256 ≤ 256 ^ M := by
    calc 256 = 256 ^ 1 := (pow_one _).symm
      _ ≤ 256 ^ M := Nat.pow_le_pow_right (by decide) hM
  by_cases h3 : M + (d + j) = M + d
  · rw [if_pos h3, show j = 0 by omega, pow_zero, Nat.div_one]
    have := pow_pred_mod hM
    omega
  rw [if_neg h3]
  have hj : 0 < j := by omega
  have hbj : 256 ≤ 256 ^ j := by
    calc 256 = 256 ^ 1 := (pow_one _).symm
      _ ≤ 256 ^ j := Nat.pow_le_pow_right (by decide) hj
  by_cases h4 : M + (d + j) < M + d + M
  · rw [if_pos h4]
    have hjM : j ≤ M := by omega
    have e : 256 ^ M - 2 = 256 ^ j * (256 ^ (M - j) - 1) + (256 ^ j - 2) := by
      have := pow_pred_split hjM
      omega
    rw [e, Nat.mul_add_div (hpp j), Nat.div_eq_of_lt (by omega), Nat.add_zero]
    exact pow_pred_mod (by omega)
  · rw [if_neg h4]
    have hjM : M ≤ j := by omega
    have : 256 ^ M ≤ 256 ^ j := Nat.pow_le_pow_right (by decide) hjM
    rw [Nat.div_eq_of_lt (by omega)]

theorem byte_of_mod (P n p : Nat) (h : p < n) :
    P % 256 ^ n / 256 ^ p % 256 = P / 256 ^ p % 256 := by
  obtain ⟨k, rfl⟩ : ∃ k, n = p + (k + 1) := ⟨n - p - 1, by omega⟩
  rw [pow_add, Nat.mod_mul_right_div_self, pow_succ', Nat.mod_mul_right_mod]

variable {len : BitWidth} {n : Nat}

theorem byte_ok {c : ApInt} (h : c.WF) {b : BitVec 8} (hb : c.uval % 256 = b.toNat) :
    (do assertByte (← (← c.clone).resizeToU8) b) = Except.ok () := by
  refine ok_then (clone_ok h.1) (ok_then (C31_resize_unsigned h).2.1 ?_)
  unfold assertByte
  rw [if_pos]
  · rfl
  · apply BitVec.eq_of_toNat_eq
    rw [BitVec.toNat_ofNat]
    exact hb

theorem byte_then {β : Type} {c : ApInt} (h : c.WF) {b : BitVec 8} (hb : c.uval % 256 = b.toNat)
    {f : Unit → Run β} {z : Run β} (hf : f () = z) :
    (c.clone >>= fun x => x.resizeToU8 >>= fun y => assertByte y b >>= f) = z := by
  have := byte_ok h hb
  refine ok_then (clone_ok h.1) (ok_then (C31_resize_unsigned h).2.1 ?_)
  refine ok_then (a := ()) ?_ hf
  unfold assertByte
  rw [if_pos]
  · rfl
  · apply BitVec.eq_of_toNat_eq
    rw [BitVec.toNat_ofNat]
    exact hb

/-- The result of one of the byte loops: it stopped early, or it has shifted the product on. -/
theorem ninePeel_ok (hlen : len.toUsize = n * 8) (hn : 1 < n) {R base k : Nat} {b : BitVec 8} :
    ∀ {i : Nat} {c : ApInt}, c.WF → c.len = len → c.uval = R / 256 ^ (base + i) →
      (∀ t, t < k → base + i + t + 1 < n → R / 256 ^ (base + i + t + 1) % 256 = b.toNat) →
      ninePeel n base b (List.range' i k) c = .ok none ∨
      ∃ d, ninePeel n base b (List.range' i k) c = .ok (some d) ∧ d.WF ∧ d.len = len ∧
        d.uval = R / 256 ^ (base + i + k) := by
  induction k with
  | zero =>
    intro i c h1 h2 h3 _
    exact .inr ⟨c, rfl, h1, h2, h3⟩
  | succ k ih =>
    intro i c h1 h2 h3 h4
    have cw : c.w = n * 8 := by unfold ApInt.w; rw [h2, hlen]
    rw [List.range'_succ]
    unfold ninePeel
    rw [csub_ok (by omega), run_bind_ok]
    by_cases hs : n - 1 ≤ base + i
    · rw [if_pos hs]
      exact .inl rfl
    · rw [if_neg hs]
      obtain ⟨d, ed, d1, d2, d3⟩ := unwrapMut_ok (C16_lshr h1 (s := 8) (by omega)).1
      have d3' : d.uval = R / 256 ^ (base + (i + 1)) := by
        rw [d3, h3, Nat.div_div_eq_div_mul, show (2:Nat) ^ 8 = 256 by decide, ← pow_succ]
        rfl
      have hrest := ih (i := i + 1) (c := d) d1 (d2.trans h2) d3' (by
        intro t ht hlt
        have := h4 (t + 1) (by omega) (by omega)
        rwa [show base + (i + 1) + t + 1 = base + i + (t + 1) + 1 by omega])
      have hb : d.uval % 256 = b.toNat := by
        have := h4 0 (by omega) (by omega)
        rw [d3']
        exact this
      rw [show base + i + (k + 1) = base + (i + 1) + k by omega]
      rcases hrest with e | ⟨x, e, hx⟩
      · exact .inl (ok_then ed (byte_then d1 hb e))
      · exact .inr ⟨x, ok_then ed (byte_then d1 hb e), hx⟩

theorem nineCase_ok (hlen : len.toUsize = n * 8) (hn : 1 < n) {l r : Nat} {lhs rhs : ApInt}
    (hl : lhs.WF) (hr : rhs.WF) (el : lhs.len = len) (er : rhs.len = len)
    (vl : lhs.uval = 256 ^ (l + 1) - 1) (vr : rhs.uval = 256 ^ (r + 1) - 1) :
    nineCase n l r lhs rhs = .ok () := by
  have wl : lhs.w = n * 8 := by unfold ApInt.w; rw [el, hlen]
  obtain ⟨c, ec, c1, c2, c3⟩ := unwrapRes_ok (C07_mul hl hr (el.trans er.symm)).2.1
  obtain ⟨m, hm⟩ : ∃ m, m = if l < r then l else r := ⟨_, rfl⟩
  obtain ⟨d, hd⟩ : ∃ d, d = if l > r then l - r else r - l := ⟨_, rfl⟩
  have hprod : lhs.uval * rhs.uval = (256 ^ (m + 1) - 1) * (256 ^ (m + 1 + d) - 1) := by
    rw [vl, vr, hm, hd]
    by_cases hlr : l < r
    · rw [if_pos hlr, if_neg (by omega), show l + 1 + (r - l) = r + 1 by omega]
    · rw [if_neg hlr]
      by_cases hgt : l > r
      · rw [if_pos hgt, show r + 1 + (l - r) = l + 1 by omega, Nat.mul_comm]
      · rw [if_neg hgt, show l = r by omega, Nat.sub_self, Nat.add_zero]
  rw [wl, show (2:Nat) ^ (n * 8) = 256 ^ n by
    rw [Nat.mul_comm, pow_mul, show (2:Nat) ^ 8 = 256 by decide]] at c3
  have hbyte : ∀ p, p < n → c.uval / 256 ^ p % 256 =
      if p = 0 then 1
      else if p < m + 1 then 0
      else if p < m + 1 + d then 255
      else if p = m + 1 + d then 254
      else if p < m + 1 + d + (m + 1) then 255
      else 0 := by
    intro p hp
    rw [c3, byte_of_mod _ _ _ hp, hprod, nines_bytes _ _ _ (by omega)]
  have c2' : c.len = len := c2.trans el
  unfold nineCase
  simp only [← hm, ← hd]
  refine ok_then (clone_ok hl.1) (ok_then ec ?_)
  refine byte_then c1 (by have := hbyte 0 (by omega); simpa using this) ?_
  simp only [List.range_eq_range']
  rcases ninePeel_ok hlen hn (R := c.uval) (base := 0) (k := m) (b := 0#8) (i := 0) c1 c2' (by simp)
    (by
      intro t ht hlt
      have := hbyte _ hlt
      rw [this, if_neg (by omega), if_pos (by omega)]
      rfl) with e | ⟨x, e, x1, x2, x3⟩
  · exact ok_then e rfl
  refine ok_then e ?_
  simp only
  rcases ninePeel_ok hlen hn (R := c.uval) (base := m) (k := d) (b := 255#8) (i := 0) x1 x2
    (by rw [x3]; simp)
    (by
      intro t ht hlt
      have := hbyte _ hlt
      rw [this, if_neg (by omega), if_neg (by omega), if_pos (by omega)]
      rfl) with e | ⟨y, e, y1, y2, y3⟩
  · exact ok_then e rfl
  refine ok_then e ?_
  simp only
  refine ok_then (csub_ok (by omega)) ?_
  by_cases hs : n - 1 ≤ m + d
  · rw [if_pos hs]; rfl
  rw [if_neg hs]
  have yw : y.w = n * 8 := by unfold ApInt.w; rw [y2, hlen]
  obtain ⟨z, ez, z1, z2, z3⟩ := unwrapMut_ok (C16_lshr y1 (s := 8) (by omega)).1
  have z3' : z.uval = c.uval / 256 ^ (1 + m + d) := by
    rw [z3, y3, Nat.div_div_eq_div_mul, show (2:Nat) ^ 8 = 256 by decide, ← pow_succ]
    congr 2; omega
  refine ok_then ez (byte_then z1 ?_ ?_)
  · have := hbyte (1 + m + d) (by omega)
    rw [z3', this, if_neg (by omega), if_neg (by omega), if_neg (by omega), if_pos (by omega)]
    rfl
  rcases ninePeel_ok hlen hn (R := c.uval) (base := 1 + m + d) (k := m) (b := 255#8) (i := 0) z1
    (z2.trans y2) (by rw [z3']; simp)
    (by
      intro t ht hlt
      have := hbyte _ hlt
      rw [this, if_neg (by omega), if_neg (by omega), if_neg (by omega), if_neg (by omega),
        if_pos (by omega)]
      rfl) with e | ⟨y, e, -⟩
  · exact ok_then e rfl
  · exact ok_then e rfl

/-- One more byte of nines. -/
theorem nine_more (hlen : len.toUsize = n * 8) (hn : 1 < n) {k : Nat} (hk : k < n) {c nine : ApInt}
    (hc : c.WF) (h9 : nine.WF) (ec : c.len = len) (e9 : nine.len = len)
    (vc : c.uval = 256 ^ k - 1) (v9 : nine.uval = 255) :
    ∃ x y, unwrapMut (c.wrappingShlAssign 8) = .ok x ∧ x.opBitOrAssign nine = .ok y ∧ y.WF ∧
      y.len = len ∧ y.uval = 256 ^ (k + 1) - 1 := by
  have cw : c.w = n * 8 := by unfold ApInt.w; rw [ec, hlen]
  obtain ⟨x, ex, x1, x2, x3⟩ := unwrapMut_ok (C15_shl hc (s := 8) (by omega)).1
  obtain ⟨-, ⟨y, -, -, -, ey, y1, y2, y3⟩, -⟩ := C19_binary x1 h9 (x2.trans (ec.trans e9.symm))
  refine ⟨x, y, ex, ey, y1, y2.trans (x2.trans ec), ?_⟩
  have h1 : y.uval = x.uval ||| nine.uval := Nat.eq_of_testBit_eq fun i => by
    rw [y3, Nat.testBit_or]
  have hp : 0 < 256 ^ k := Nat.pow_pos (by decide)
  have hpk : 256 ^ (k + 1) = 256 ^ k * 256 := pow_succ _ _
  have hle : 256 ^ (k + 1) ≤ 256 ^ n := Nat.pow_le_pow_right (by decide) hk
  have hx : x.uval = 2 ^ 8 * (256 ^ k - 1) := by
    rw [x3, cw, vc, show (2:Nat) ^ (n * 8) = 256 ^ n by
      rw [Nat.mul_comm, pow_mul, show (2:Nat) ^ 8 = 256 by decide], Nat.mod_eq_of_lt]
    · rw [Nat.mul_comm]
    · show (256 ^ k - 1) * 256 < 256 ^ n
      omega
  rw [h1, hx, v9, ← Nat.two_pow_add_eq_or_of_lt (by decide), hpk]
  show 256 * (256 ^ k - 1) + 255 = _
  omega

theorem nineInner_ok (hlen : len.toUsize = n * 8) (hn : 1 < n) {nine rhs : ApInt} {r : Nat}
    (h9 : nine.WF) (e9 : nine.len = len) (v9 : nine.uval = 255) (hr : rhs.WF) (er : rhs.len = len)
    (vr : rhs.uval = 256 ^ (r + 1) - 1) (k : Nat) :
    ∀ {i : Nat} {lhs : ApInt}, i + k ≤ n → lhs.WF → lhs.len = len → lhs.uval = 256 ^ i - 1 →
      nineInner n r nine rhs (List.range' i k) lhs = .ok () := by
  induction k with
  | zero => intros; rfl
  | succ k ih =>
    intro i lhs hi hl el vl
    obtain ⟨x, y, ex, ey, y1, y2, y3⟩ := nine_more hlen hn (k := i) (by omega) hl h9 el e9 vl v9
    rw [List.range'_succ]
    unfold nineInner
    refine ok_then ex (ok_then ey ?_)
    refine ok_then (nineCase_ok hlen hn y1 hr y2 er y3 vr) ?_
    exact ih (by omega) y1 y2 y3

theorem nineOuter_ok (hlen : len.toUsize = n * 8) (hn : 1 < n) {nine : ApInt}
    (h9 : nine.WF) (e9 : nine.len = len) (v9 : nine.uval = 255) (k : Nat) :
    ∀ {i : Nat} {rhs : ApInt}, i + k ≤ n → rhs.WF → rhs.len = len → rhs.uval = 256 ^ i - 1 →
      nineOuter n nine (List.range' i k) rhs = .ok () := by
  induction k with
  | zero => intros; rfl
  | succ k ih =>
    intro i rhs hi hl el vl
    obtain ⟨x, y, ex, ey, y1, y2, y3⟩ := nine_more hlen hn (k := i) (by omega) hl h9 el e9 vl v9
    obtain ⟨z, ez, z1, z2⟩ := small_zero len
    have hnew : expect (BitWidth.new (n * 8)) = .ok len := by
      have hp := len.pos
      rw [new_ok (by omega)]
      congr 1
      exact BitWidth.ext hlen.symm
    rw [List.range'_succ]
    unfold nineOuter
    refine ok_then ex (ok_then ey (ok_then hnew (ok_then ez ?_)))
    rw [List.range_eq_range']
    refine ok_then (nineInner_ok hlen hn h9 e9 v9 y1 y2 y3 n (by omega) z1.1 z1.2 (by
      rw [z2, pow_zero, Nat.sub_self])) ?_
    exact ih (by omega) y1 y2 y3

theorem nineTest_ok (hn : 1 < n) : nineTest n = .ok () := by
  have hp : 0 < n * 8 := by omega
  obtain ⟨z, ez, z1, z2⟩ := small_zero ⟨n * 8, hp⟩
  obtain ⟨c, ec, c1, c2, c3⟩ := small_is 255#8 ⟨n * 8, hp⟩
  have c3' : c.uval = 255 := by
    rw [c3, wrap_natCast]
    show 255 % 2 ^ (n * 8) = 255
    apply Nat.mod_eq_of_lt
    calc 255 < 2 ^ 8 := by decide
      _ ≤ 2 ^ (n * 8) := Nat.pow_le_pow_right (by decide) (by omega)
  unfold nineTest
  refine ok_then (new_ok hp) (ok_then ez (ok_then (new_ok hp) (ok_then ec ?_)))
  rw [List.range_eq_range']
  exact nineOuter_ok rfl hn c1 c2 c3' n (by omega) z1.1 z1.2
    (by rw [z2, pow_zero, Nat.sub_self])

end

/-! ## Shifted products and negation -/

section
variable {size l r : Nat}

theorem mulRowTest_ok (h : l + r < size) : mulRowTest size l r = .ok () := by
  have hp : 0 < size := by omega
  unfold mulRowTest
  refine ok_then (new_ok hp) ((small_is _ _).then fun a ha => (ha.shl (s := l)
    (by show l < size; omega)).then fun lhs hl => ?_)
  refine ok_then (new_ok hp) ((small_is _ _).then fun a ha => (ha.shl (s := r)
    (by show r < size; omega)).then fun rhs hr => ?_)
  refine ok_then (new_ok hp) ((small_is _ _).then fun z hz => ?_)
  refine ok_then (new_ok hp) ((small_is _ _).then fun o ho => ?_)
  refine ok_then (new_ok hp) ((small_is _ _).then fun a ha => (ha.shl (s := r + l)
    (by show r + l < size; omega)).then fun x hx => ?_)
  simp only [BitVec.toNat_ofNat, Nat.reducePow, Nat.reduceMod, Nat.cast_ofNat, Nat.cast_zero,
    Nat.cast_one] at *
  refine hl.clone.then fun c hc => (hc.mul hz).then fun d hd => ?_
  refine assert_then (hd.assert hz ⟨0, by ring⟩) ?_
  refine hz.clone.then fun c hc => (hc.mul hr).then fun d hd => ?_
  refine assert_then (hd.assert hz ⟨0, by ring⟩) ?_
  refine hl.clone.then fun c hc => (hc.mul ho).then fun d hd => ?_
  refine assert_then (hd.assert hl ⟨0, by ring⟩) ?_
  refine ho.clone.then fun c hc => (hc.mul hr).then fun d hd => ?_
  refine assert_then (hd.assert hr ⟨0, by ring⟩) ?_
  refine hl.clone.then fun c hc => (hc.mul hr).then fun d hd => ?_
  exact hd.assert hx ⟨0, by ring⟩

/-- One assertion of the division test about a quotient. -/
theorem udiv_assert {β : Type} {a b e : ApInt} (ha : a.WF) (hb : b.WF) (he : e.WF)
    (h1 : a.len = b.len) (h2 : a.len = e.len) (hz : b.uval ≠ 0) (hv : a.uval / b.uval = e.uval)
    {f : Unit → Run β} {z : Run β} (hf : f () = z) :
    (a.clone >>= fun x => unwrapRes (x.intoWrappingUdiv b) >>= fun y => assertEq y e >>= f) = z := by
  obtain ⟨c, ec, c1, c2, c3⟩ := unwrapRes_ok (C09_consuming ha hb h1 hz).1
  have : c = e := ext_of_uval c1.1 he.1 (c2.trans h2) (c3.trans hv)
  subst this
  exact ok_then (clone_ok ha.1) (ok_then ec (assert_then ((Is.self c1).assert_rfl (Is.self c1)) hf))

/-- One assertion of the division test about a remainder. -/
theorem urem_assert {β : Type} {a b e : ApInt} (ha : a.WF) (hb : b.WF) (he : e.WF)
    (h1 : a.len = b.len) (h2 : a.len = e.len) (hz : b.uval ≠ 0) (hv : a.uval % b.uval = e.uval)
    {f : Unit → Run β} {z : Run β} (hf : f () = z) :
    (a.clone >>= fun x => unwrapRes (x.intoWrappingUrem b) >>= fun y => assertEq y e >>= f) = z := by
  obtain ⟨c, ec, c1, c2, c3⟩ := unwrapRes_ok (C09_consuming ha hb h1 hz).2
  have : c = e := ext_of_uval c1.1 he.1 (c2.trans h2) (c3.trans hv)
  subst this
  exact ok_then (clone_ok ha.1) (ok_then ec (assert_then ((Is.self c1).assert_rfl (Is.self c1)) hf))

theorem divRowAsserts_ok {len : BitWidth} {lhs rhs zero one product : ApInt}
    (hl : lhs.WF) (hr : rhs.WF) (hz : zero.WF) (ho : one.WF) (hp : product.WF)
    (el : lhs.len = len) (er : rhs.len = len) (ez : zero.len = len) (eo : one.len = len)
    (ep : product.len = len) (vz : zero.uval = 0) (vo : one.uval = 1)
    (vl : 1 < lhs.uval) (vr : 1 < rhs.uval) (vp : product.uval = lhs.uval * rhs.uval)
    (hlt : product.uval + 1 < 2 ^ len.toUsize) :
    divRowAsserts lhs rhs zero one product = .ok () := by
  have sl : ∀ {x y : ApInt}, x.len = len → y.len = len → x.len = y.len :=
    fun h h' => h.trans h'.symm
  have ul : lhs.uval ≠ 0 := by omega
  have ur : rhs.uval ≠ 0 := by omega
  have uo : one.uval ≠ 0 := by omega
  unfold divRowAsserts
  refine udiv_assert hz hl hz (sl ez el) rfl ul (by rw [vz, Nat.zero_div]) ?_
  refine udiv_assert hz hr hz (sl ez er) rfl ur (by rw [vz, Nat.zero_div]) ?_
  refine udiv_assert hl ho hl (sl el eo) rfl uo (by rw [vo, Nat.div_one]) ?_
  refine udiv_assert hr ho hr (sl er eo) rfl uo (by rw [vo, Nat.div_one]) ?_
  refine udiv_assert hl hl ho rfl (sl el eo) ul (by rw [vo, Nat.div_self (by omega)]) ?_
  refine udiv_assert hr hr ho rfl (sl er eo) ur (by rw [vo, Nat.div_self (by omega)]) ?_
  refine udiv_assert hp hl hr (sl ep el) (sl ep er) ul
    (by rw [vp, Nat.mul_div_cancel_left _ (by omega)]) ?_
  refine udiv_assert hp hr hl (sl ep er) (sl ep el) ur
    (by rw [vp, Nat.mul_div_cancel _ (by omega)]) ?_
  refine urem_assert hz hl hz (sl ez el) rfl ul (by rw [vz, Nat.zero_mod]) ?_
  refine urem_assert hz hr hz (sl ez er) rfl ur (by rw [vz, Nat.zero_mod]) ?_
  refine urem_assert hl ho hz (sl el eo) (sl el ez) uo (by rw [vo, vz, Nat.mod_one]) ?_
  refine urem_assert hr ho hz (sl er eo) (sl er ez) uo (by rw [vo, vz, Nat.mod_one]) ?_
  refine urem_assert hl hl hz rfl (sl el ez) ul (by rw [vz, Nat.mod_self]) ?_
  refine urem_assert hr hr hz rfl (sl er ez) ur (by rw [vz, Nat.mod_self]) ?_
  refine urem_assert hp hl hz (sl ep el) (sl ep ez) ul (by rw [vp, vz, Nat.mul_mod_right]) ?_
  refine urem_assert hp hr hz (sl ep er) (sl ep ez) ur (by rw [vp, vz, Nat.mul_mod_left]) ?_
  have pw : product.w = len.toUsize := by unfold ApInt.w; rw [ep]
  obtain ⟨s, es, s1, s2, s3⟩ := unwrapRes_ok (C04_add hp ho (sl ep eo)).2.1
  rw [vo, pw, Nat.mod_eq_of_lt hlt, vp] at s3
  have s2' : s.len = len := s2.trans ep
  have step : ∀ {b : ApInt}, b.WF → b.len = len → 1 < b.uval → s.uval % b.uval = 1 →
      ∃ c, unwrapRes (s.intoWrappingUrem b) = .ok c ∧ assertEq c one = .ok () := by
    intro b hb eb vb hv
    obtain ⟨c, ec, c1, c2, c3⟩ := unwrapRes_ok (C09_consuming s1 hb (sl s2' eb) (by omega)).2
    have : c = one := ext_of_uval c1.1 ho.1 (by rw [c2, s2', eo]) (by rw [c3, hv, vo])
    subst this
    exact ⟨c, ec, (Is.self c1).assert_rfl (Is.self c1)⟩
  obtain ⟨c, ec, fc⟩ := step hl el vl (by
    rw [s3, Nat.mul_add_mod, Nat.mod_eq_of_lt vl])
  obtain ⟨d, ed, fd⟩ := step hr er vr (by
    rw [s3, Nat.mul_comm, Nat.mul_add_mod, Nat.mod_eq_of_lt vr])
  refine ok_then (clone_ok hp.1) (ok_then es (ok_then ec (assert_then fc ?_)))
  exact ok_then (clone_ok hp.1) (ok_then es (ok_then ed fd))

theorem divRowTest_ok (h : 55 * 2 ^ (l + r) + 1 < 2 ^ size) : divRowTest size l r = .ok () := by
  have hlr : l + r + 5 < size := by
    by_contra hn
    have h1 : 2 ^ size ≤ 2 ^ (l + r + 5) := Nat.pow_le_pow_right (by decide) (by omega)
    have h2 : 2 ^ (l + r + 5) = 2 ^ (l + r) * 32 := pow_add _ _ _
    omega
  have hp : 0 < size := by omega
  have hpl := Nat.two_pow_pos l
  have hpr := Nat.two_pow_pos r
  have e : 2 ^ (l + r) = 2 ^ l * 2 ^ r := pow_add _ _ _
  have hl5 : 5 * 2 ^ l < 2 ^ size := by nlinarith
  have hr11 : 11 * 2 ^ r < 2 ^ size := by nlinarith
  have h11 : 11 < 2 ^ size := by omega
  have val : ∀ {c : ApInt} {v : Nat}, Is c ⟨size, hp⟩ v → v < 2 ^ size → c.uval = v := by
    intro c v hc hv
    rw [hc.2.2, wrap_natCast]
    exact Nat.mod_eq_of_lt hv
  unfold divRowTest
  refine ok_then (new_ok hp) ((small_is _ _).then fun a ha => (ha.shl (s := l)
    (by show l < size; omega)).then fun lhs hl => ?_)
  refine ok_then (new_ok hp) ((small_is _ _).then fun a ha => (ha.shl (s := r)
    (by show r < size; omega)).then fun rhs hr => ?_)
  refine ok_then (new_ok hp) ((small_is _ _).then fun z hz => ?_)
  refine ok_then (new_ok hp) ((small_is _ _).then fun o ho => ?_)
  have vl : lhs.uval = 5 * 2 ^ l := val (by push_cast; exact hl) hl5
  have vr : rhs.uval = 11 * 2 ^ r := val (by push_cast; exact hr) hr11
  have vz : z.uval = 0 := val hz (by omega)
  have vo : o.uval = 1 := val ho (by omega)
  refine hl.clone.then fun c hc => (hc.mul hr).then fun p hp' => ?_
  have hvp : lhs.uval * rhs.uval = 55 * 2 ^ (l + r) := by rw [vl, vr, e]; ring
  have vp : p.uval = lhs.uval * rhs.uval := by
    refine val ?_ (by rw [hvp]; omega)
    rw [vl, vr]
    push_cast
    exact hp'
  exact divRowAsserts_ok hl.1 hr.1 hz.1 ho.1 hp'.1 hl.2.1 hr.2.1 hz.2.1 ho.2.1 hp'.2.1 vz vo
    (by omega) (by omega) vp (by rw [vp, hvp]; exact h)

theorem assertSymmetry_ok {a b : ApInt} {len : BitWidth} {x : Int} (ha : Is a len x)
    (hb : Is b len (-x)) : assertSymmetry a b = .ok () := by
  unfold assertSymmetry
  refine ha.clone.then fun c hc => hc.neg.then fun d hd => assert_then (hd.assert_rfl hb) ?_
  exact hb.neg.then fun d hd => hd.assert ha ⟨0, by ring⟩

theorem neg_is {n : Nat} {r : BitVec n → Run ApInt} {len : BitWidth} (hw : len.toUsize = n)
    (hr : ∀ v, Returns (r v) len v.toNat) (v : BitVec n) :
    GivesMod (r v) len v.toNat ∧ GivesMod (r (-v)) len (-(v.toNat : Int)) := by
  constructor
  · refine .of (hr v) ?_
    rw [wrap_natCast, hw, Nat.mod_eq_of_lt v.isLt]
  · refine .of (hr (-v)) ?_
    rw [BitVec.toNat_neg, hw]
    refine wrap_of_nat ⟨1, ?_⟩
    have := v.isLt
    rw [Nat.cast_sub (by omega)]
    push_cast
    ring

theorem negTest_ok {v : BitVec 128} (h : v ≠ BitVec.intMin 128) : negTest v = .ok () := by
  have hc : cneg v = .ok (-v) := by
    unfold cneg
    rw [if_neg h]
    rfl
  have hs : ∀ n, (-v).setWidth n = -(v.setWidth n) ∨ 128 < n := by
    intro n
    by_cases hn : n ≤ 128
    · exact .inl (BitVec.setWidth_neg_of_le hn)
    · exact .inr (by omega)
  have p8 := (hs 8).resolve_right (by omega)
  have p16 := (hs 16).resolve_right (by omega)
  have p32 := (hs 32).resolve_right (by omega)
  have p64 := (hs 64).resolve_right (by omega)
  obtain ⟨a1, b1⟩ := neg_is (r := fromI8) (len := BitWidth.w8) rfl
    (fun v => (C30_from_primitive true v 0 0 0 0).2.2.1) (v.setWidth 8)
  obtain ⟨a2, b2⟩ := neg_is (r := fromI16) (len := BitWidth.w16) rfl
    (fun v => (C30_from_primitive true 0 v 0 0 0).2.2.2.2.1) (v.setWidth 16)
  obtain ⟨a3, b3⟩ := neg_is (r := fromI32) (len := BitWidth.w32) rfl
    (fun v => (C30_from_primitive true 0 0 v 0 0).2.2.2.2.2.2.1) (v.setWidth 32)
  obtain ⟨a4, b4⟩ := neg_is (r := fromI64) (len := BitWidth.w64) rfl
    (fun v => (C30_from_primitive true 0 0 0 v 0).2.2.2.2.2.2.2.2.1) (v.setWidth 64)
  obtain ⟨a5, b5⟩ := neg_is (r := fromI128) (len := BitWidth.w128) rfl
    (fun v => (C30_from_primitive true 0 0 0 0 v).2.2.2.2.2.2.2.2.2.2) v
  unfold negTest
  rw [hc]
  simp only [run_bind_ok, p8, p16, p32, p64]
  refine a1.then fun x hx => b1.then fun y hy => ok_then (assertSymmetry_ok hx hy) ?_
  refine a2.then fun x hx => b2.then fun y hy => ok_then (assertSymmetry_ok hx hy) ?_
  refine a3.then fun x hx => b3.then fun y hy => ok_then (assertSymmetry_ok hx hy) ?_
  refine a4.then fun x hx => b4.then fun y hy => ok_then (assertSymmetry_ok hx hy) ?_
  exact a5.then fun x hx => b5.then fun y hy => assertSymmetry_ok hx hy

end

end Verif
