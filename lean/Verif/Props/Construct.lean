import Verif.Proof.Ops
import Verif.Props.Witness

/-! # Constructors (C30) -/

namespace Verif.Props

open ApInt Ex

/-- C30: the named constants, by unsigned value. -/
theorem C30_constants (t : BitWidth) :
    Returns (zero t) t 0 ∧
    Returns (one t) t 1 ∧
    Returns (allUnset t) t 0 ∧
    Returns (allSet t) t (2 ^ t.toUsize - 1) ∧
    Returns (unsignedMinValue t) t 0 ∧
    Returns (unsignedMaxValue t) t (2 ^ t.toUsize - 1) ∧
    Returns (signedMinValue t) t (2 ^ (t.toUsize - 1)) ∧
    Returns (signedMaxValue t) t (2 ^ (t.toUsize - 1) - 1) :=
  ⟨zero_ok t, one_ok t, zero_ok t, allSet_ok t, zero_ok t, allSet_ok t, signedMinValue_ok t,
    signedMaxValue_ok t⟩

example : Returns (signedMaxValue (bw 130)) (bw 130) (2 ^ 129 - 1) :=
  (C30_constants (bw 130)).2.2.2.2.2.2.2

/-- C30: the least and greatest signed values, by signed value, are the bounds of the signed
values of that width. -/
theorem C30_signed_bounds (t : BitWidth) :
    ∃ lo hi, signedMinValue t = .ok lo ∧ signedMaxValue t = .ok hi ∧
      lo.sval = -(2 ^ (t.toUsize - 1) : Int) ∧ hi.sval = 2 ^ (t.toUsize - 1) - 1 ∧
      ∀ a : ApInt, a.WF → a.len = t → lo.sval ≤ a.sval ∧ a.sval ≤ hi.sval := by
  obtain ⟨lo, e1, h1, h2, h3⟩ := signedMinValue_ok t
  obtain ⟨hi, e2, g1, g2, g3⟩ := signedMaxValue_ok t
  have hw1 : lo.w = t.toUsize := by unfold w; rw [h2]
  have hw2 : hi.w = t.toUsize := by unfold w; rw [g2]
  have hp := two_pow_pred t.pos
  have hpos := two_pow_w_pos (t.toUsize - 1)
  have s1 : lo.sval = -(2 ^ (t.toUsize - 1) : Int) := by
    unfold sval
    rw [hw1, h3, if_neg (by omega)]
    have : (2:Int) ^ t.toUsize = 2 * 2 ^ (t.toUsize - 1) := by exact_mod_cast hp
    push_cast
    omega
  have s2 : hi.sval = 2 ^ (t.toUsize - 1) - 1 := by
    unfold sval
    rw [hw2, g3, if_pos (by omega)]
    push_cast [hpos]
    rfl
  refine ⟨lo, hi, e1, e2, s1, s2, ?_⟩
  intro a ha hl
  obtain ⟨b1, b2⟩ := sval_bounds ha
  have hw : a.w = t.toUsize := by unfold w; rw [hl]
  rw [hw] at b1 b2
  rw [s1, s2]
  omega

example : ∃ lo hi, signedMinValue (bw 130) = .ok lo ∧ signedMaxValue (bw 130) = .ok hi ∧
    lo.sval = -2 ^ 129 ∧ hi.sval = 2 ^ 129 - 1 := by
  obtain ⟨lo, hi, h1, h2, h3, h4, -⟩ := C30_signed_bounds (bw 130)
  exact ⟨lo, hi, h1, h2, h3, h4⟩

/-- C30: from primitives: the width of the primitive and its bit pattern. -/
theorem C30_from_primitive (b : Bool) (v8 : BitVec 8) (v16 : BitVec 16) (v32 : BitVec 32)
    (v64 : BitVec 64) (v128 : BitVec 128) :
    Returns (fromBool b) BitWidth.w1 (if b then 1 else 0) ∧
    Returns (fromU8 v8) BitWidth.w8 v8.toNat ∧ Returns (fromI8 v8) BitWidth.w8 v8.toNat ∧
    Returns (fromU16 v16) BitWidth.w16 v16.toNat ∧ Returns (fromI16 v16) BitWidth.w16 v16.toNat ∧
    Returns (fromU32 v32) BitWidth.w32 v32.toNat ∧ Returns (fromI32 v32) BitWidth.w32 v32.toNat ∧
    Returns (fromU64 v64) BitWidth.w64 v64.toNat ∧ Returns (fromI64 v64) BitWidth.w64 v64.toNat ∧
    Returns (fromU128 v128) BitWidth.w128 v128.toNat ∧
    Returns (fromI128 v128) BitWidth.w128 v128.toNat :=
  ⟨fromBool_ok b, fromU8_ok v8, fromU8_ok v8, fromU16_ok v16, fromU16_ok v16, fromU32_ok v32,
    fromU32_ok v32, fromU64_ok v64, fromU64_ok v64, fromU128_ok v128, fromU128_ok v128⟩

example : Returns (fromU128 0x1_0000_0000_0000_0000_0005#128) BitWidth.w128 (2 ^ 80 + 5) :=
  (C30_from_primitive true 0 0 0 0 0x1_0000_0000_0000_0000_0005#128).2.2.2.2.2.2.2.2.2.1

/-- A returned integer whose bit pattern is that of a two's complement word has the word's signed
value. -/
theorem sval_of_toNat {n : Nat} {c : ApInt} {v : BitVec n} (hw : c.w = n)
    (hv : c.uval = v.toNat) : c.sval = v.toInt := by
  have hp := two_pow_pred c.pos_w
  unfold sval
  rw [BitVec.toInt_eq_toNat_cond, hv, hw]
  rw [hw] at hp
  push_cast
  split <;> split <;> first | rfl | omega

/-- C30: from signed primitives: the signed value is the primitive's. -/
theorem C30_from_signed (v8 : BitVec 8) (v16 : BitVec 16) (v32 : BitVec 32)
    (v64 : BitVec 64) (v128 : BitVec 128) :
    (∃ c, fromI8 v8 = .ok c ∧ c.sval = v8.toInt) ∧
    (∃ c, fromI16 v16 = .ok c ∧ c.sval = v16.toInt) ∧
    (∃ c, fromI32 v32 = .ok c ∧ c.sval = v32.toInt) ∧
    (∃ c, fromI64 v64 = .ok c ∧ c.sval = v64.toInt) ∧
    (∃ c, fromI128 v128 = .ok c ∧ c.sval = v128.toInt) := by
  obtain ⟨-, -, ⟨c1, e1, -, h1, g1⟩, -, ⟨c2, e2, -, h2, g2⟩, -, ⟨c3, e3, -, h3, g3⟩, -,
    ⟨c4, e4, -, h4, g4⟩, -, ⟨c5, e5, -, h5, g5⟩⟩ := C30_from_primitive true v8 v16 v32 v64 v128
  exact ⟨⟨c1, e1, sval_of_toNat (by unfold w; rw [h1]; rfl) g1⟩,
    ⟨c2, e2, sval_of_toNat (by unfold w; rw [h2]; rfl) g2⟩,
    ⟨c3, e3, sval_of_toNat (by unfold w; rw [h3]; rfl) g3⟩,
    ⟨c4, e4, sval_of_toNat (by unfold w; rw [h4]; rfl) g4⟩,
    ⟨c5, e5, sval_of_toNat (by unfold w; rw [h5]; rfl) g5⟩⟩

example : ∃ c, fromI64 (-5#64) = .ok c ∧ c.sval = -5 := by
  obtain ⟨c, e, h⟩ := (C30_from_signed 0 0 0 (-5#64) 0).2.2.2.1
  exact ⟨c, e, by rw [h]; decide⟩

/-- C30: from arrays of 64-bit words: most significant word first, so the value is read off by
Horner's rule from the left. -/
theorem C30_from_array {l : List (BitVec 64)} (h : l ≠ []) :
    ∃ c, fromArray l = .ok c ∧ c.WF ∧ c.w = 64 * l.length ∧
      c.uval = l.foldl (fun acc d => acc * 2 ^ 64 + d.toNat) 0 := by
  obtain ⟨c, e, h1, h2, h3⟩ := fromArray_ok h
  refine ⟨c, e, h1, h2, ?_⟩
  rw [h3]
  clear h3 h2 h1 e h c
  have key : ∀ (l : List (BitVec 64)) (acc : Nat) (m : List (BitVec 64)), acc = val m →
      val (l.reverse ++ m) = l.foldl (fun acc d => acc * 2 ^ 64 + d.toNat) acc := by
    intro l
    induction l with
    | nil => intro acc m h; simpa using h.symm
    | cons d l ih =>
      intro acc m h
      rw [List.reverse_cons, List.append_assoc, List.foldl_cons]
      apply ih
      subst h
      show _ = d.toNat + 2 ^ 64 * val m
      ring
  have := key l 0 [] rfl
  rwa [List.append_nil] at this

example : ∃ c, fromArray [1#64, 2#64, 3#64] = .ok c ∧ c.w = 192 ∧
    c.uval = 2 ^ 128 + 2 * 2 ^ 64 + 3 := by
  obtain ⟨c, e, -, h1, h2⟩ := C30_from_array (l := [1#64, 2#64, 3#64]) (by simp)
  exact ⟨c, e, h1, h2⟩

end Verif.Props
