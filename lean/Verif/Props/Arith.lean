import Verif.Proof.Ops
import Verif.Props.Witness

/-!
# Addition, subtraction, negation, multiplication (C04 to C08)

`a.uval` is the unsigned number, `a.sval` the signed one, `wrap w x` the number below `2 ^ w`
congruent to `x`.  `Updates r len v`, `ReturnsOk r len v` and `Returns r len v` say that the call
`r` succeeds and produces a well-formed integer of width `len` with unsigned value `v`.
-/

namespace Verif.Props

open ApInt Ex

/-- C04: addition of equal widths is addition modulo `2 ^ w`, in all four forms. -/
theorem C04_add {a b : ApInt} (ha : a.WF) (hb : b.WF) (h : a.len = b.len) :
    Updates (a.wrappingAddAssign b) a.len ((a.uval + b.uval) % 2 ^ a.w) ∧
    ReturnsOk (a.intoWrappingAdd b) a.len ((a.uval + b.uval) % 2 ^ a.w) ∧
    Returns (a.opAdd b) a.len ((a.uval + b.uval) % 2 ^ a.w) ∧
    Returns (a.opAddAssign b) a.len ((a.uval + b.uval) % 2 ^ a.w) := by
  have h1 := wrappingAddAssign_ok ha.1 hb.1 h
  have h2 := into_of_updates h1
  exact ⟨h1, h2, unwrapRes_ok h2, unwrapMut_ok h1⟩

example : Updates (a65.wrappingAddAssign b65) a65.len 4 := (C04_add a65_wf b65_wf rfl).1
example : Updates (a128.wrappingAddAssign b128) a128.len (9 * 2 ^ 64 + 2) :=
  (C04_add a128_wf b128_wf rfl).1

/-- C04, signed reading: the sum of the signed values, reduced to the signed range. -/
theorem C04_add_signed {a b c : ApInt} (ha : a.WF) (hb : b.WF) (h : a.len = b.len)
    (hc : a.wrappingAddAssign b = .ok (.ok (), c)) :
    c.sval = Int.bmod (a.sval + b.sval) (2 ^ a.w) := by
  obtain ⟨c', e, h1, h2, h3⟩ := (C04_add ha hb h).1
  rw [e] at hc
  cases hc
  have hw : b.w = a.w := by unfold w; rw [h]
  have hcw : c.w = a.w := by unfold w; rw [h2]
  rw [← hcw]
  refine sval_of_wrap h1 ?_
  rw [hcw, h3]
  obtain ⟨k1, e1⟩ := sval_mod (a := a)
  obtain ⟨k2, e2⟩ := sval_mod (a := b)
  apply wrap_of_nat
  refine ⟨-k1 - k2, ?_⟩
  rw [e1, e2, hw]
  push_cast
  ring

example : ∃ c, a7.wrappingAddAssign b7 = .ok (.ok (), c) ∧ c.sval = 32 ∧
    Int.bmod (a7.sval + b7.sval) (2 ^ 7) = 32 := by
  obtain ⟨c, e, _⟩ := (C04_add a7_wf b7_wf rfl).1
  exact ⟨c, e, C04_add_signed a7_wf b7_wf rfl e, by decide⟩

/-- C05: subtraction of equal widths is subtraction modulo `2 ^ w`, in all four forms. -/
theorem C05_sub {a b : ApInt} (ha : a.WF) (hb : b.WF) (h : a.len = b.len) :
    Updates (a.wrappingSubAssign b) a.len (wrap a.w (a.uval - b.uval)) ∧
    ReturnsOk (a.intoWrappingSub b) a.len (wrap a.w (a.uval - b.uval)) ∧
    Returns (a.opSub b) a.len (wrap a.w (a.uval - b.uval)) ∧
    Returns (a.opSubAssign b) a.len (wrap a.w (a.uval - b.uval)) := by
  have h1 := wrappingSubAssign_ok ha.1 hb h
  rw [wrappingSub_wrap hb h] at h1
  have h2 := into_of_updates h1
  exact ⟨h1, h2, unwrapRes_ok h2, unwrapMut_ok h1⟩

example : Updates (b65.wrappingSubAssign a65) a65.len 6 := (C05_sub b65_wf a65_wf rfl).1
example : Updates (b128.wrappingSubAssign a128) a128.len (2 ^ 128 - 7 * 2 ^ 64 + 4) :=
  (C05_sub b128_wf a128_wf rfl).1

/-- C05, signed reading. -/
theorem C05_sub_signed {a b c : ApInt} (ha : a.WF) (hb : b.WF) (h : a.len = b.len)
    (hc : a.wrappingSubAssign b = .ok (.ok (), c)) :
    c.sval = Int.bmod (a.sval - b.sval) (2 ^ a.w) := by
  obtain ⟨c', e, h1, h2, h3⟩ := (C05_sub ha hb h).1
  rw [e] at hc
  cases hc
  have hw : b.w = a.w := by unfold w; rw [h]
  have hcw : c.w = a.w := by unfold w; rw [h2]
  rw [← hcw]
  refine sval_of_wrap h1 ?_
  rw [hcw, h3]
  obtain ⟨k1, e1⟩ := sval_mod (a := a)
  obtain ⟨k2, e2⟩ := sval_mod (a := b)
  apply wrap_eq
  refine ⟨k2 - k1, ?_⟩
  rw [e1, e2, hw]
  ring

example : ∃ c, a7.wrappingSubAssign b7 = .ok (.ok (), c) ∧ c.sval = 40 ∧
    Int.bmod (a7.sval - b7.sval) (2 ^ 7) = 40 := by
  obtain ⟨c, e, _⟩ := (C05_sub a7_wf b7_wf rfl).1
  exact ⟨c, e, C05_sub_signed a7_wf b7_wf rfl e, by decide⟩

/-- C06: increment, decrement and negation modulo `2 ^ w`, in place, consuming and (for the
negation) as an operator. -/
theorem C06_inc_dec_neg {a : ApInt} (ha : a.WF) :
    Returns a.wrappingInc a.len ((a.uval + 1) % 2 ^ a.w) ∧
    Returns a.intoWrappingInc a.len ((a.uval + 1) % 2 ^ a.w) ∧
    Returns a.wrappingDec a.len (wrap a.w (a.uval - 1)) ∧
    Returns a.intoWrappingDec a.len (wrap a.w (a.uval - 1)) ∧
    Returns a.wrappingNeg a.len (wrap a.w (-a.uval)) ∧
    Returns a.intoWrappingNeg a.len (wrap a.w (-a.uval)) ∧
    Returns a.opNeg a.len (wrap a.w (-a.uval)) := by
  have hp := two_pow_w_pos a.w
  have h1 := wrappingInc_ok ha.1
  have h2 := wrappingDec_ok ha.1
  rw [show (a.uval + (2 ^ a.w - 1)) % 2 ^ a.w = wrap a.w (a.uval - 1) from
    wrap_of_nat ⟨1, by push_cast [Nat.cast_sub hp]; ring⟩] at h2
  have h3 := wrappingNeg_ok ha
  rw [show (2 ^ a.w - a.uval) % 2 ^ a.w = wrap a.w (-a.uval) from
    wrap_of_nat ⟨1, by push_cast [Nat.cast_sub (Nat.le_of_lt ha.2)]; ring⟩] at h3
  have e : ∀ f : ApInt → Run ApInt, forwardMutImpl a f = f a := fun f => forwardMutImpl_eq a f
  refine ⟨h1, ?_, h2, ?_, h3, ?_, ?_⟩
  · rw [intoWrappingInc, e]; exact h1
  · rw [intoWrappingDec, e]; exact h2
  · rw [intoWrappingNeg, e]; exact h3
  · rw [opNeg, intoWrappingNeg, e]; exact h3

example : Returns a65.wrappingInc a65.len 0 := (C06_inc_dec_neg a65_wf).1
example : Returns a65.wrappingNeg a65.len 1 := (C06_inc_dec_neg a65_wf).2.2.2.2.1
example : Returns a150.wrappingDec a150.len (9 * 2 ^ 128 + 2 ^ 63 - 1) :=
  (C06_inc_dec_neg a150_wf).2.2.1

/-- C06: increment and decrement undo each other, negation undoes itself. -/
theorem C06_undo {a : ApInt} (ha : a.WF) :
    (a.wrappingInc >>= fun b => b.wrappingDec) = .ok a ∧
    (a.wrappingDec >>= fun b => b.wrappingInc) = .ok a ∧
    (a.wrappingNeg >>= fun b => b.wrappingNeg) = .ok a := by
  have hlt := Nat.mod_eq_of_lt ha.2
  obtain ⟨h1, -, h2, -, h3, -⟩ := C06_inc_dec_neg ha
  refine ⟨Returns.eq (Returns.bind h1 ?_) ha.self, Returns.eq (Returns.bind h2 ?_) ha.self,
    Returns.eq (Returns.bind h3 ?_) ha.self⟩
  · intro c hc hl hv
    have hw : c.w = a.w := by unfold w; rw [hl]
    have := (C06_inc_dec_neg hc).2.2.1
    rw [hl, hw, hv, ← wrap_natCast] at this
    rw [show wrap a.w ((wrap a.w ((a.uval + 1 : Nat) : Int) : Int) - 1) = a.uval from by
      conv_rhs => rw [← hlt, ← wrap_natCast]
      rw [wrap_cast]
      apply wrap_eq
      refine ⟨-(((a.uval + 1 : Nat) : Int) / 2 ^ a.w), ?_⟩
      have := Int.emod_add_mul_ediv ((a.uval + 1 : Nat) : Int) (2 ^ a.w)
      push_cast at *
      linear_combination this] at this
    exact this
  · intro c hc hl hv
    have hw : c.w = a.w := by unfold w; rw [hl]
    have := (C06_inc_dec_neg hc).1
    rw [hl, hw, hv] at this
    rw [show (wrap a.w ((a.uval : Int) - 1) + 1) % 2 ^ a.w = a.uval from by
      conv_rhs => rw [← hlt, ← wrap_natCast]
      apply wrap_of_nat
      refine ⟨-(((a.uval : Int) - 1) / 2 ^ a.w), ?_⟩
      push_cast
      rw [wrap_cast]
      have := Int.emod_add_mul_ediv ((a.uval : Int) - 1) (2 ^ a.w)
      linear_combination this] at this
    exact this
  · intro c hc hl hv
    have hw : c.w = a.w := by unfold w; rw [hl]
    have := (C06_inc_dec_neg hc).2.2.2.2.1
    rw [hl, hw, hv] at this
    rw [show wrap a.w (-(wrap a.w (-(a.uval : Int)) : Int)) = a.uval from by
      conv_rhs => rw [← hlt, ← wrap_natCast]
      rw [wrap_cast]
      apply wrap_eq
      refine ⟨(-(a.uval : Int)) / 2 ^ a.w, ?_⟩
      have := Int.emod_add_mul_ediv (-(a.uval : Int)) (2 ^ a.w)
      linear_combination -this] at this
    exact this

example : (a65.wrappingInc >>= fun b => b.wrappingDec) = .ok a65 := (C06_undo a65_wf).1

/-- C07: multiplication of equal widths is multiplication modulo `2 ^ w`, in all four forms. -/
theorem C07_mul {a b : ApInt} (ha : a.WF) (hb : b.WF) (h : a.len = b.len) :
    Updates (a.wrappingMulAssign b) a.len ((a.uval * b.uval) % 2 ^ a.w) ∧
    ReturnsOk (a.intoWrappingMul b) a.len ((a.uval * b.uval) % 2 ^ a.w) ∧
    Returns (a.opMul b) a.len ((a.uval * b.uval) % 2 ^ a.w) ∧
    Returns (a.opMulAssign b) a.len ((a.uval * b.uval) % 2 ^ a.w) := by
  have h1 := wrappingMulAssign_ok ha.1 hb.1 h
  have h2 := into_of_updates h1
  exact ⟨h1, h2, unwrapRes_ok h2, unwrapMut_ok h1⟩

example : Updates (a65.wrappingMulAssign b65) a65.len (2 ^ 65 - 5) := (C07_mul a65_wf b65_wf rfl).1
example : Updates (a128.wrappingMulAssign b128) a128.len
    ((8 * 2 ^ 64 - 1) * (2 ^ 64 + 3) % 2 ^ 128) := (C07_mul a128_wf b128_wf rfl).1
example : Updates (a150.wrappingMulAssign b150) a150.len
    ((2 ^ 63 + 9 * 2 ^ 128) * (2 ^ 149 + 2 ^ 64) % 2 ^ 150) := (C07_mul a150_wf b150_wf rfl).1

/-- C07, signed reading. -/
theorem C07_mul_signed {a b c : ApInt} (ha : a.WF) (hb : b.WF) (h : a.len = b.len)
    (hc : a.wrappingMulAssign b = .ok (.ok (), c)) :
    c.sval = Int.bmod (a.sval * b.sval) (2 ^ a.w) := by
  obtain ⟨c', e, h1, h2, h3⟩ := (C07_mul ha hb h).1
  rw [e] at hc
  cases hc
  have hw : b.w = a.w := by unfold w; rw [h]
  have hcw : c.w = a.w := by unfold w; rw [h2]
  rw [← hcw]
  refine sval_of_wrap h1 ?_
  rw [hcw, h3]
  obtain ⟨k1, e1⟩ := sval_mod (a := a)
  obtain ⟨k2, e2⟩ := sval_mod (a := b)
  apply wrap_of_nat
  refine ⟨-k1 * b.uval - k2 * a.uval - 2 ^ a.w * k1 * k2, ?_⟩
  rw [e1, e2, hw]
  push_cast
  ring

example : ∃ c, a7.wrappingMulAssign b7 = .ok (.ok (), c) ∧ c.sval = -16 ∧
    Int.bmod (a7.sval * b7.sval) (2 ^ 7) = -16 := by
  obtain ⟨c, e, _⟩ := (C07_mul a7_wf b7_wf rfl).1
  exact ⟨c, e, C07_mul_signed a7_wf b7_wf rfl e, by decide⟩

section Ring

variable {a b c : ApInt}

/-- C08: addition and multiplication are commutative. -/
theorem C08_comm (ha : a.WF) (hb : b.WF) (h : a.len = b.len) :
    a.opAdd b = b.opAdd a ∧ a.opMul b = b.opMul a := by
  have hw : b.w = a.w := by unfold w; rw [h]
  have h1 := (C04_add hb ha h.symm).2.2.1
  have h2 := (C07_mul hb ha h.symm).2.2.1
  rw [hw, ← h, Nat.add_comm] at h1
  rw [hw, ← h, Nat.mul_comm] at h2
  exact ⟨(C04_add ha hb h).2.2.1.eq h1, (C07_mul ha hb h).2.2.1.eq h2⟩

example : a150.opMul b150 = b150.opMul a150 := (C08_comm a150_wf b150_wf rfl).2

/-- C08: addition and multiplication are associative. -/
theorem C08_assoc (ha : a.WF) (hb : b.WF) (hc : c.WF) (h : a.len = b.len) (h' : b.len = c.len) :
    (do let x ← a.opAdd b; x.opAdd c) = (do let y ← b.opAdd c; a.opAdd y) ∧
    (do let x ← a.opMul b; x.opMul c) = (do let y ← b.opMul c; a.opMul y) := by
  have hwb : b.w = a.w := by unfold w; rw [h]
  constructor
  · refine Returns.eq (len := a.len) (v := (a.uval + b.uval + c.uval) % 2 ^ a.w)
      ((C04_add ha hb h).2.2.1.bind ?_) ((C04_add hb hc h').2.2.1.bind ?_)
    · intro x hx hl hv
      have hw : x.w = a.w := by unfold w; rw [hl]
      have := (C04_add hx hc (by rw [hl, h, h'])).2.2.1
      rwa [hl, hw, hv, Nat.mod_add_mod] at this
    · intro x hx hl hv
      have := (C04_add ha hx (by rw [hl, h])).2.2.1
      rwa [hv, hwb, Nat.add_mod_mod, ← Nat.add_assoc] at this
  · refine Returns.eq (len := a.len) (v := (a.uval * b.uval * c.uval) % 2 ^ a.w)
      ((C07_mul ha hb h).2.2.1.bind ?_) ((C07_mul hb hc h').2.2.1.bind ?_)
    · intro x hx hl hv
      have hw : x.w = a.w := by unfold w; rw [hl]
      have := (C07_mul hx hc (by rw [hl, h, h'])).2.2.1
      rwa [hl, hw, hv, Nat.mod_mul_mod] at this
    · intro x hx hl hv
      have := (C07_mul ha hx (by rw [hl, h])).2.2.1
      rwa [hv, hwb, Nat.mul_mod_mod, ← Nat.mul_assoc] at this

example : (do let x ← a65.opMul b65; x.opMul a65) = (do let y ← b65.opMul a65; a65.opMul y) :=
  (C08_assoc a65_wf b65_wf a65_wf rfl rfl).2

/-- C08: multiplication distributes over addition. -/
theorem C08_distrib (ha : a.WF) (hb : b.WF) (hc : c.WF) (h : a.len = b.len) (h' : b.len = c.len) :
    (do let x ← b.opAdd c; a.opMul x) =
      (do let x ← a.opMul b; let y ← a.opMul c; x.opAdd y) := by
  have hwb : b.w = a.w := by unfold w; rw [h]
  refine Returns.eq (len := a.len) (v := (a.uval * (b.uval + c.uval)) % 2 ^ a.w)
    ((C04_add hb hc h').2.2.1.bind ?_) ((C07_mul ha hb h).2.2.1.bind ?_)
  · intro x hx hl hv
    have := (C07_mul ha hx (by rw [hl, h])).2.2.1
    rwa [hv, hwb, Nat.mul_mod_mod] at this
  · intro x hx hl hv
    refine (C07_mul ha hc (h.trans h')).2.2.1.bind ?_
    intro y hy hl' hv'
    have hw : x.w = a.w := by unfold w; rw [hl]
    have := (C04_add hx hy (by rw [hl, hl'])).2.2.1
    rwa [hl, hw, hv, hv', ← Nat.add_mod, ← Nat.mul_add] at this

example : (do let x ← b65.opAdd b65; a65.opMul x) =
    (do let x ← a65.opMul b65; let y ← a65.opMul b65; x.opAdd y) :=
  C08_distrib a65_wf b65_wf b65_wf rfl rfl

/-- C08: `zero(w)` is neutral for addition, `one(w)` for multiplication. -/
theorem C08_neutral (ha : a.WF) :
    (do let z ← ApInt.zero a.len; a.opAdd z) = .ok a ∧
    (do let o ← ApInt.one a.len; a.opMul o) = .ok a := by
  have hlt := Nat.mod_eq_of_lt ha.2
  constructor
  · refine Returns.eq ((zero_ok a.len).bind ?_) ha.self
    intro x hx hl hv
    have := (C04_add ha hx hl.symm).2.2.1
    rwa [hv, Nat.add_zero, hlt] at this
  · refine Returns.eq ((one_ok a.len).bind ?_) ha.self
    intro x hx hl hv
    have := (C07_mul ha hx hl.symm).2.2.1
    rwa [hv, Nat.mul_one, hlt] at this

example : (do let o ← ApInt.one a150.len; a150.opMul o) = .ok a150 := (C08_neutral a150_wf).2

/-- C08: subtracting is adding the negation, and adding the negation gives zero. -/
theorem C08_neg (ha : a.WF) (hb : b.WF) (h : a.len = b.len) :
    (do let n ← b.opNeg; a.opAdd n) = a.opSub b ∧
    (do let n ← a.opNeg; a.opAdd n) = ApInt.zero a.len := by
  have hwb : b.w = a.w := by unfold w; rw [h]
  constructor
  · refine Returns.eq ((C06_inc_dec_neg hb).2.2.2.2.2.2.bind ?_) (C05_sub ha hb h).2.2.1
    intro x hx hl hv
    have := (C04_add ha hx (by rw [hl, h])).2.2.1
    rw [hv, hwb] at this
    rwa [show (a.uval + wrap a.w (-b.uval)) % 2 ^ a.w = wrap a.w (a.uval - b.uval) from by
      apply wrap_of_nat
      refine ⟨-((-(b.uval : Int)) / 2 ^ a.w), ?_⟩
      push_cast
      rw [wrap_cast]
      have := Int.emod_add_mul_ediv (-(b.uval : Int)) (2 ^ a.w)
      linear_combination this] at this
  · refine Returns.eq ((C06_inc_dec_neg ha).2.2.2.2.2.2.bind ?_) (zero_ok a.len)
    intro x hx hl hv
    have := (C04_add ha hx hl.symm).2.2.1
    rw [hv] at this
    rwa [show (a.uval + wrap a.w (-a.uval)) % 2 ^ a.w = 0 from by
      have h0 : wrap a.w ((0 : Nat) : Int) = 0 := by rw [wrap_natCast, Nat.zero_mod]
      rw [← h0]
      apply wrap_of_nat
      refine ⟨-((-(a.uval : Int)) / 2 ^ a.w), ?_⟩
      push_cast
      rw [wrap_cast]
      have := Int.emod_add_mul_ediv (-(a.uval : Int)) (2 ^ a.w)
      linear_combination this] at this

example : (do let n ← b65.opNeg; a65.opAdd n) = a65.opSub b65 := (C08_neg a65_wf b65_wf rfl).1

end Ring

end Verif.Props
