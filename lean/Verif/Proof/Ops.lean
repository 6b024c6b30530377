import Verif.Model.StdOps
import Verif.Proof.Mul
import Verif.Proof.Shift
import Verif.Proof.Construct

/-! # Combining calls; operators; `wrap` -/

namespace Verif

theorem wrap_lt (w : Nat) (x : Int) : wrap w x < 2 ^ w := by
  unfold wrap
  have h : (0 : ℤ) < 2 ^ w := by positivity
  have h1 := Int.emod_nonneg x (ne_of_gt h)
  have h2 := Int.emod_lt_of_pos x h
  zify
  rw [Int.toNat_of_nonneg h1]
  exact h2

theorem wrap_cast (w : Nat) (x : Int) : (wrap w x : Int) = x % 2 ^ w := by
  unfold wrap
  exact Int.toNat_of_nonneg (Int.emod_nonneg x (by positivity))

theorem wrap_natCast (w n : Nat) : wrap w (n : Int) = n % 2 ^ w := by
  unfold wrap
  norm_cast

theorem wrap_eq {w : Nat} {x y : Int} (h : ∃ k, x = y + 2 ^ w * k) : wrap w x = wrap w y := by
  obtain ⟨k, rfl⟩ := h
  unfold wrap
  rw [Int.add_mul_emod_self_left]

theorem wrap_congr {w : Nat} {x y : Int} (h : x % 2 ^ w = y % 2 ^ w) : wrap w x = wrap w y := by
  unfold wrap
  rw [h]

theorem wrap_of_nat {w n : Nat} {x : Int} (h : ∃ k, (n : Int) = x + 2 ^ w * k) :
    n % 2 ^ w = wrap w x := by
  rw [← wrap_natCast]; exact wrap_eq h

namespace ApInt

theorem Returns.eq {r1 r2 : Run ApInt} {len : BitWidth} {v : Nat} (h1 : Returns r1 len v)
    (h2 : Returns r2 len v) : r1 = r2 := by
  obtain ⟨c1, rfl, a1, a2, a3⟩ := h1
  obtain ⟨c2, rfl, b1, b2, b3⟩ := h2
  rw [ext_of_uval a1.1 b1.1 (by rw [a2, b2]) (by rw [a3, b3])]

theorem Returns.bind {r : Run ApInt} {f : ApInt → Run ApInt} {len len' : BitWidth} {v v' : Nat}
    (h : Returns r len v)
    (hf : ∀ c, c.WF → c.len = len → c.uval = v → Returns (f c) len' v') :
    Returns (r >>= f) len' v' := by
  obtain ⟨c, rfl, a1, a2, a3⟩ := h
  exact hf c a1 a2 a3

theorem unwrapRes_ok {r : Run (Res ApInt)} {len : BitWidth} {v : Nat} (h : ReturnsOk r len v) :
    Returns (unwrapRes r) len v := by
  obtain ⟨c, rfl, h⟩ := h
  exact ⟨c, rfl, h⟩

theorem unwrapMut_ok {r : Run (Res Unit × ApInt)} {len : BitWidth} {v : Nat}
    (h : Updates r len v) : Returns (unwrapMut r) len v := by
  obtain ⟨c, rfl, h⟩ := h
  exact ⟨c, rfl, h⟩

theorem WF.self {a : ApInt} (h : a.WF) : Returns (.ok a) a.len a.uval := ⟨a, rfl, h, rfl, rfl⟩

/-- The signed value is the unsigned one reduced to the range around zero. -/
theorem sval_bmod {a : ApInt} (h : a.WF) : a.sval = Int.bmod a.uval (2 ^ a.w) := by
  have h1 := h.2
  have h2 := two_pow_pred a.pos_w
  unfold sval Int.bmod
  have h3 : ((a.uval : Int) % ((2 ^ a.w : Nat) : Int)) = a.uval := by
    norm_cast
    exact Nat.mod_eq_of_lt h1
  rw [h3]
  push_cast
  have h4 : ((2:Int) ^ a.w + 1) / 2 = 2 ^ (a.w - 1) := by
    have : (2:Int) ^ a.w = 2 * 2 ^ (a.w - 1) := by exact_mod_cast h2
    omega
  rw [h4]
  have h5 : ((a.uval : Int) < 2 ^ (a.w - 1)) ↔ a.uval < 2 ^ (a.w - 1) := by norm_cast
  simp only [h5]

theorem sval_mod {a : ApInt} : ∃ k : Int, a.sval = a.uval + 2 ^ a.w * k := by
  unfold sval
  split
  · exact ⟨0, by ring⟩
  · exact ⟨-1, by ring⟩

theorem sval_range {a : ApInt} (h : a.WF) :
    -(2 ^ (a.w - 1) : Int) ≤ a.sval ∧ a.sval < 2 ^ (a.w - 1) := by
  have h1 := h.2
  have h2 := two_pow_pred a.pos_w
  have h3 : (2:Int) ^ a.w = 2 * 2 ^ (a.w - 1) := by exact_mod_cast h2
  unfold sval
  split <;> zify at * <;> omega

theorem wrap_sval {a : ApInt} (h : a.WF) : wrap a.w a.sval = a.uval := by
  obtain ⟨k, hk⟩ := sval_mod (a := a)
  rw [wrap_eq ⟨k, hk⟩, wrap_natCast, Nat.mod_eq_of_lt h.2]

/-- A well-formed integer holding `wrap` of a number has that number, reduced to the range
around zero, as its signed value. -/
theorem sval_of_wrap {c : ApInt} (h : c.WF) {x : Int} (hx : c.uval = wrap c.w x) :
    c.sval = Int.bmod x (2 ^ c.w) := by
  rw [sval_bmod h, hx, wrap_cast]
  have : (2:Int) ^ c.w = ((2 ^ c.w : Nat) : Int) := by push_cast; rfl
  rw [this, Int.emod_bmod]

theorem bmod_of_range {x : Int} {n : Nat} (hn : 0 < n) (h1 : -(2 ^ (n - 1) : Int) ≤ x)
    (h2 : x < 2 ^ (n - 1)) : Int.bmod x (2 ^ n) = x := by
  have hp := two_pow_pred hn
  rw [hp]
  apply Int.bmod_eq_of_le
  · push_cast; omega
  · push_cast; omega

/-- A well-formed integer holding `wrap` of a number in the signed range has that number as its
signed value. -/
theorem sval_of_wrap_range {c : ApInt} (h : c.WF) {x : Int} (hx : c.uval = wrap c.w x)
    (h1 : -(2 ^ (c.w - 1) : Int) ≤ x) (h2 : x < 2 ^ (c.w - 1)) : c.sval = x := by
  rw [sval_of_wrap h hx, bmod_of_range c.pos_w h1 h2]

theorem wrap_of_lt {n w : Nat} (h : n < 2 ^ w) : wrap w (n : Int) = n := by
  rw [wrap_natCast, Nat.mod_eq_of_lt h]

theorem signExtend_wrap {a : ApInt} (h : a.WF) {t : Nat} (hle : a.w ≤ t) :
    (if a.uval < 2 ^ (a.w - 1) then a.uval else a.uval + 2 ^ t - 2 ^ a.w) = wrap t a.sval := by
  have h1 : (2:Nat) ^ a.w ≤ 2 ^ t := Nat.pow_le_pow_right (by decide) hle
  have h2 := h.2
  unfold sval
  split
  · rw [wrap_of_lt (by omega)]
  · have : (a.uval + 2 ^ t - 2 ^ a.w : Nat) = (a.uval + 2 ^ t - 2 ^ a.w) % 2 ^ t :=
      (Nat.mod_eq_of_lt (by omega)).symm
    rw [this]
    apply wrap_of_nat
    refine ⟨1, ?_⟩
    push_cast [Nat.cast_sub (show 2 ^ a.w ≤ a.uval + 2 ^ t by omega)]
    ring

theorem truncate_wrap {a : ApInt} {t : Nat} (hle : t ≤ a.w) :
    a.uval % 2 ^ t = wrap t a.sval := by
  obtain ⟨k, hk⟩ := sval_mod (a := a)
  apply wrap_of_nat
  refine ⟨-(2 ^ (a.w - t) * k), ?_⟩
  rw [hk, show a.w = t + (a.w - t) by omega, pow_add, Nat.add_sub_cancel_left]
  ring

theorem signExtend_ok' {a : ApInt} (h : a.WF) {t : BitWidth} (hle : a.w ≤ t.toUsize) :
    Updates (a.signExtend t) t (wrap t.toUsize a.sval) := by
  rw [← signExtend_wrap h hle]; exact signExtend_ok h hle

theorem signResize_ok {a : ApInt} (h : a.WF) (t : BitWidth) :
    Returns (a.signResize t) t (wrap t.toUsize a.sval) := by
  by_cases hle : t.toUsize ≤ a.w
  · rw [← truncate_wrap hle]; exact signResize_trunc h hle
  · rw [← signExtend_wrap h (by omega)]; exact signResize_ext h (by omega)

theorem wrappingSub_wrap {a b : ApInt} (hb : b.WF) (h : a.len = b.len) :
    (a.uval + (2 ^ a.w - b.uval)) % 2 ^ a.w = wrap a.w (a.uval - b.uval) := by
  have h1 := hb.2
  have hw : b.w = a.w := by unfold w; rw [h]
  rw [hw] at h1
  apply wrap_of_nat
  refine ⟨1, ?_⟩
  push_cast [Nat.cast_sub (Nat.le_of_lt h1)]
  ring

end ApInt

end Verif
