import Verif.Proof.Scratch
import Verif.Props.Witness

/-!
# C72, C73: the scratch memory of multiplication and division

C72 gives the buffers of digits that one call asks for besides the buffers of its operands, from
the width and the values alone.  C73 is about the cases that the documentation of the crate marks
"no allocation"; some of these do allocate.
-/

namespace Verif

open ApInt Ex

variable {a b : ApInt}

local instance {ε α : Type} [DecidableEq ε] [DecidableEq α] : DecidableEq (Except ε α)
  | .error x, .error y => decidable_of_iff (x = y) (by simp)
  | .ok x, .ok y => decidable_of_iff (x = y) (by simp)
  | .error _, .ok _ => isFalse (by simp)
  | .ok _, .error _ => isFalse (by simp)

namespace Ex

/-- `2^129` at 192 bits. -/
def a192 : ApInt := ⟨bw 192, .ext [0#64, 0#64, 2#64]⟩
/-- `2^129 - 1` at 192 bits. -/
def b192 : ApInt := ⟨bw 192, .ext [0xFFFFFFFFFFFFFFFF#64, 0xFFFFFFFFFFFFFFFF#64, 1#64]⟩
/-- Zero at 192 bits. -/
def z192 : ApInt := ⟨bw 192, .ext [0#64, 0#64, 0#64]⟩
/-- `2^256 - 1` at 256 bits. -/
def a256 : ApInt := ⟨bw 256, .ext [0xFFFFFFFFFFFFFFFF#64, 0xFFFFFFFFFFFFFFFF#64,
  0xFFFFFFFFFFFFFFFF#64, 0xFFFFFFFFFFFFFFFF#64]⟩
/-- `2^64 + 3` at 256 bits. -/
def b256 : ApInt := ⟨bw 256, .ext [3#64, 1#64, 0#64, 0#64]⟩
/-- `2^65` at 256 bits. -/
def c256 : ApInt := ⟨bw 256, .ext [0#64, 2#64, 0#64, 0#64]⟩
/-- `2^200 + 1` at 256 bits. -/
def d256 : ApInt := ⟨bw 256, .ext [1#64, 0#64, 0#64, 256#64]⟩

theorem a192_wf : a192.WF := by decide
theorem b192_wf : b192.WF := by decide
theorem z192_wf : z192.WF := by decide
theorem a256_wf : a256.WF := by decide
theorem b256_wf : b256.WF := by decide
theorem c256_wf : c256.WF := by decide
theorem d256_wf : d256.WF := by decide

end Ex

/-! ## C72 -/

/-- C72, multiplication: exactly the buffers of `mulBuffers`. -/
theorem C72_multiplication (ha : a.WF) (hb : b.WF) (h : a.len = b.len) :
    mulScratch a b = .ok (mulBuffers a.w a.uval b.uval) := mulScratch_ok ha hb h

-- The exact product of two numbers of two digits; a product that wraps; a small factor.
example : mulScratch b256 c256 = .ok [4] := by decide +kernel
example : mulScratch a256 c256 = .ok [4] := by decide +kernel
example : mulScratch a256 ⟨bw 256, .ext [9#64, 0#64, 0#64, 0#64]⟩ = .ok [] := by decide +kernel
example : mulScratch a150 b150 = .ok (mulBuffers 150 a150.uval b150.uval) :=
  C72_multiplication a150_wf b150_wf rfl

/-- C72, unsigned quotient and remainder in place: the buffers of the division, and a copy of the
dividend for the error of a division by zero. -/
theorem C72_unsigned_both (ha : a.WF) (hb : b.WF) (h : a.len = b.len) :
    ∃ r, DivBuffers a.w a.uval b.uval r ∧
      udivremScratch a b = .ok (r ++ if b.uval = 0 then copyBuffers a.w else []) :=
  udivremScratch_ok ha hb h

-- A long division with one buffer and one with two; a difference of less than 64 bits.
example : udivremScratch a256 b256 = .ok [4] := by decide +kernel
example : udivremScratch d256 c256 = .ok [4] := by decide +kernel
example : udivremScratch a256 ⟨bw 256, .ext [5#64, 7#64, 9#64, 0#64]⟩ = .ok [4, 4] := by
  decide +kernel
example : udivremScratch a192 b192 = .ok [3] := by decide +kernel
example : udivremScratch a192 z192 = .ok [3] := by decide +kernel
example : ∃ r, DivBuffers 150 b150.uval a150.uval r ∧ udivremScratch b150 a150 =
    .ok (r ++ if a150.uval = 0 then copyBuffers 150 else []) :=
  C72_unsigned_both b150_wf a150_wf rfl

/-- C72, unsigned quotient or remainder alone: a copy of the divisor as well. -/
theorem C72_unsigned_one (ha : a.WF) (hb : b.WF) (h : a.len = b.len) :
    ∃ r, DivBuffers a.w a.uval b.uval r ∧
      udivScratch a b =
        .ok (copyBuffers a.w ++ r ++ if b.uval = 0 then copyBuffers a.w else []) :=
  udivScratch_ok ha hb h

example : udivScratch a192 b192 = .ok [3, 3] := by decide +kernel
example : ∃ r, DivBuffers 150 b150.uval a150.uval r ∧ udivScratch b150 a150 =
    .ok (copyBuffers 150 ++ r ++ if a150.uval = 0 then copyBuffers 150 else []) :=
  C72_unsigned_one b150_wf a150_wf rfl

/-- C72, signed quotient and remainder in place: the buffers of the division of the magnitudes, or
a copy of the dividend when the divisor is zero. -/
theorem C72_signed_both (ha : a.WF) (hb : b.WF) (h : a.len = b.len) :
    ∃ r, DivBuffers a.w a.sval.natAbs b.sval.natAbs r ∧
      sdivremScratch a b = .ok (if b.sval = 0 then copyBuffers a.w else r) :=
  sdivremScratch_ok ha hb h

example : sdivremScratch a256 b256 = .ok [] := by decide +kernel -- -1 by a number of two digits
example : ∃ r, DivBuffers 150 b150.sval.natAbs a150.sval.natAbs r ∧ sdivremScratch b150 a150 =
    .ok (if a150.sval = 0 then copyBuffers 150 else r) :=
  C72_signed_both b150_wf a150_wf rfl

/-- C72, signed quotient or remainder alone: a copy of the divisor, or of the dividend when the
divisor is zero. -/
theorem C72_signed_one (ha : a.WF) (hb : b.WF) (h : a.len = b.len) :
    ∃ r, DivBuffers a.w a.sval.natAbs b.sval.natAbs r ∧
      sdivScratch a b = .ok (copyBuffers a.w ++ r) := sdivScratch_ok ha hb h

example : sdivScratch d256 c256 = .ok [4, 4] := by decide +kernel
example : ∃ r, DivBuffers 150 b150.sval.natAbs a150.sval.natAbs r ∧ sdivScratch b150 a150 =
    .ok (copyBuffers 150 ++ r) := C72_signed_one b150_wf a150_wf rfl

/-- C72: a call that is refused because the widths differ asks for nothing. -/
theorem C72_mismatch (h : a.len ≠ b.len) :
    mulScratch a b = .ok [] ∧ udivremScratch a b = .ok [] ∧ udivScratch a b = .ok [] := by
  simp [mulScratch, udivremScratch, udivScratch, zipAccessData_err h]

example : udivScratch a150 b128 = .ok [] := (C72_mismatch (by decide)).2.2

/-- C72: the scratch memory is linear in the width, whatever the values: at most three buffers, and
none of more than one digit beyond the width. -/
theorem C72_linear (ha : a.WF) (hb : b.WF) (h : a.len = b.len) :
    ∃ m u v s t, mulScratch a b = .ok m ∧ udivremScratch a b = .ok u ∧ udivScratch a b = .ok v ∧
      sdivremScratch a b = .ok s ∧ sdivScratch a b = .ok t ∧
      ∀ l ∈ [m, u, v, s, t], l.length ≤ 3 ∧ ∀ n ∈ l, 0 < n ∧ n ≤ (a.w + 63) / 64 + 1 := by
  have hp : 0 < digitsFor a.w := by have := a.pos_w; unfold digitsFor; omega
  have hc : (copyBuffers a.w).length ≤ 1 ∧
      ∀ n ∈ copyBuffers a.w, 0 < n ∧ n ≤ digitsFor a.w + 1 := by
    unfold copyBuffers
    split <;> simp
    omega
  have hd : ∀ {x y r}, DivBuffers a.w x y r → r.length ≤ 2 ∧ (y = 0 → r = []) ∧
      ∀ n ∈ r, 0 < n ∧ n ≤ digitsFor a.w + 1 := by
    intro x y r hr
    have h3 : r = [] ∨ r = [digitsFor a.w] ∨ r = [digitsFor a.w, digitsFor a.w] := by
      unfold DivBuffers at hr
      split at hr
      · exact .inl hr
      split at hr
      · exact .inr (.inl hr)
      · exact .inr hr
    refine ⟨?_, fun hy => divBuffers_zero (hy ▸ hr), ?_⟩ <;> rcases h3 with h3 | h3 | h3 <;>
      rw [h3] <;> simp <;> omega
  obtain ⟨u, hu, eu⟩ := C72_unsigned_both ha hb h
  obtain ⟨v, hv, ev⟩ := C72_unsigned_one ha hb h
  obtain ⟨s, hs, es⟩ := C72_signed_both ha hb h
  obtain ⟨t, ht, et⟩ := C72_signed_one ha hb h
  refine ⟨_, _, _, _, _, C72_multiplication ha hb h, eu, ev, es, et, ?_⟩
  have key : ∀ {l : List Nat}, (l.length ≤ 3 ∧ ∀ n ∈ l, 0 < n ∧ n ≤ digitsFor a.w + 1) →
      l.length ≤ 3 ∧ ∀ n ∈ l, 0 < n ∧ n ≤ (a.w + 63) / 64 + 1 := id
  have app : ∀ {i j : Nat} {l k : List Nat},
      (l.length ≤ i ∧ ∀ n ∈ l, 0 < n ∧ n ≤ digitsFor a.w + 1) →
      (k.length ≤ j ∧ ∀ n ∈ k, 0 < n ∧ n ≤ digitsFor a.w + 1) → i + j ≤ 3 →
      (l ++ k).length ≤ 3 ∧ ∀ n ∈ l ++ k, 0 < n ∧ n ≤ digitsFor a.w + 1 := by
    intro i j l k h1 h2 h3
    refine ⟨by simp; omega, fun n hn => ?_⟩
    rcases List.mem_append.mp hn with hn | hn
    · exact h1.2 n hn
    · exact h2.2 n hn
  intro l hl
  simp only [List.mem_cons, List.not_mem_nil, or_false] at hl
  apply key
  rcases hl with rfl | rfl | rfl | rfl | rfl
  · unfold mulBuffers
    split
    · simp
    split
    · have : digitsFor (Nat.size a.uval) + digitsFor (Nat.size b.uval) ≤ digitsFor a.w + 1 := by
        simp only [digitsFor] at *
        omega
      have : 0 < Nat.size a.uval := Nat.size_pos.mpr (by omega)
      have : 0 < digitsFor (Nat.size a.uval) := by unfold digitsFor; omega
      simp
      omega
    · simp
      omega
  · by_cases hz : b.uval = 0
    · rw [(hd hu).2.1 hz, if_pos hz]
      exact ⟨by simp; omega, by simpa using hc.2⟩
    · rw [if_neg hz, List.append_nil]
      exact ⟨by have := (hd hu).1; omega, (hd hu).2.2⟩
  · by_cases hz : b.uval = 0
    · rw [(hd hv).2.1 hz, if_pos hz, List.append_nil]
      exact app hc hc (by omega)
    · rw [if_neg hz, List.append_nil]
      exact app hc ⟨(hd hv).1, (hd hv).2.2⟩ (by omega)
  · split
    · exact ⟨by omega, hc.2⟩
    · exact ⟨by have := (hd hs).1; omega, (hd hs).2.2⟩
  · exact app hc ⟨(hd ht).1, (hd ht).2.2⟩ (by omega)

example : ∃ m u v s t, mulScratch b150 a150 = .ok m ∧ udivremScratch b150 a150 = .ok u ∧
    udivScratch b150 a150 = .ok v ∧ sdivremScratch b150 a150 = .ok s ∧
    sdivScratch b150 a150 = .ok t ∧ ∀ l ∈ [m, u, v, s, t], l.length ≤ 3 ∧
      ∀ n ∈ l, 0 < n ∧ n ≤ (150 + 63) / 64 + 1 := C72_linear b150_wf a150_wf rfl

/-! ## C73 -/

/-- C73, the multiplications documented as free of allocation: a factor that is zero or fits one
digit, or a width of at most one digit. -/
theorem C73_multiplication (ha : a.WF) (hb : b.WF) (h : a.len = b.len)
    (hs : a.w ≤ 64 ∨ a.uval < 2 ^ 64 ∨ b.uval < 2 ^ 64) : mulScratch a b = .ok [] := by
  rw [C72_multiplication ha hb h]
  unfold mulBuffers
  rw [if_pos hs]

example : mulScratch a65 b65 = .ok [] :=
  C73_multiplication a65_wf b65_wf rfl (.inr (.inr (by decide)))

/-- C73 in part.  Missing: the quotient one when the dividend has more bits than the divisor, and
the calls that return only the quotient or only the remainder; in both the documentation is wrong,
see the two theorems below.  The documented divisions that do not allocate: by a divisor of one
digit, of a dividend of one digit (in particular zero), and with a quotient of zero, or of one with
equal numbers of bits. -/
theorem C73_division_partial (ha : a.WF) (hb : b.WF) (h : a.len = b.len) (hz : b.uval ≠ 0)
    (hs : a.uval < 2 ^ 64 ∨ b.uval < 2 ^ 64 ∨ a.uval < b.uval ∨
      ∃ k, 2 ^ k ≤ a.uval ∧ a.uval < 2 ^ (k + 1) ∧ 2 ^ k ≤ b.uval ∧ b.uval < 2 ^ (k + 1)) :
    udivremScratch a b = .ok [] := by
  obtain ⟨r, hr, e⟩ := C72_unsigned_both ha hb h
  rw [e, if_neg hz, List.append_nil]
  unfold DivBuffers at hr
  have hp : (2 : Nat) ^ 64 ≤ 2 ^ 128 := Nat.pow_le_pow_right (by omega) (by omega)
  rw [if_pos] at hr
  · rw [hr]
  rcases hs with hs | hs | hs | ⟨k, h1, h2, h3, h4⟩
  · exact .inr (.inl (by omega))
  · exact .inr (.inr (.inl hs))
  · exact .inr (.inr (.inr (Nat.size_le_size (Nat.le_of_lt hs))))
  · refine .inr (.inr (.inr ?_))
    have := Nat.size_le.mpr h2
    have := Nat.lt_size.mpr h3
    omega

example : udivremScratch a150 b150 = .ok [] :=
  C73_division_partial a150_wf b150_wf rfl (by decide) (.inr (.inr (.inl (by decide))))

/-- C73 is false: a division with quotient one that asks for a buffer. -/
theorem C73_quotient_one : ∃ a b : ApInt, a.WF ∧ b.WF ∧ a.len = b.len ∧ a.uval / b.uval = 1 ∧
    udivremScratch a b = .ok [3] :=
  ⟨a192, b192, a192_wf, b192_wf, rfl, by decide, by decide +kernel⟩

/-- C73 is false: above one digit, the calls that return only the quotient or only the remainder
always ask for a buffer, even to divide zero. -/
theorem C73_always_copied (ha : a.WF) (hb : b.WF) (h : a.len = b.len) (hw : 64 < a.w) :
    udivScratch a b ≠ .ok [] ∧ sdivScratch a b ≠ .ok [] := by
  obtain ⟨u, -, eu⟩ := C72_unsigned_one ha hb h
  obtain ⟨s, -, es⟩ := C72_signed_one ha hb h
  have hc : copyBuffers a.w = [digitsFor a.w] := by unfold copyBuffers; rw [if_neg (by omega)]
  rw [eu, es, hc]
  simp

example : udivScratch z192 b192 ≠ .ok [] ∧ sdivScratch z192 b192 ≠ .ok [] :=
  C73_always_copied z192_wf b192_wf rfl (by decide)

end Verif
