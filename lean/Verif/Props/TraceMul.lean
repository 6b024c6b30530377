import Verif.Proof.TraceMul
import Verif.Props.TraceTyped
import Verif.Props.TraceAsk

/-!
# C100: what multiplication shows

`Model/TraceMul.lean` has `wrapping_mul_assign` with a trace.  It is stated exactly what the trace tells.
-/

namespace Verif

open ApInt Ex Watched

variable {a b a' b' : ApInt}

/-- C100: the traced method returns what the method returns. -/
theorem C100_same_calls (x y : ApInt) :
    result (Trace.wrappingMulAssign x y) = x.wrappingMulAssign y := result_mul x y

example : seen (Trace.wrappingMulAssign a64 b64) = some [.read .self 0, .read .rhs 0,
    .write .self 0] := by decide +kernel
example : seen (Trace.wrappingMulAssign a7 b7) = some [.read .self 0, .read .rhs 0, .write .self 0,
    .read .self 0, .write .self 0] := by decide +kernel
-- Both factors have two digits and the product needs three: the wrapping branch.
example : seen (Trace.wrappingMulAssign a128 b128) = some ([.read .rhs 1, .test true, .read .self 1,
    .test true, .read .self 1, .read .rhs 1, .test false, .read .self 0, .read .rhs 0, .alloc 2,
    .write .fresh 0, .read .rhs 1, .write .fresh 1, .read .fresh 0, .write .self 0, .read .self 1,
    .read .rhs 0, .read .fresh 1, .write .self 1]) := by decide +kernel
-- By one digit at 150 bits: the search goes down to the last digit.
example : seen (Trace.wrappingMulAssign c150 ⟨c150.len, .ext [5#64, 0#64, 0#64]⟩) = some ([
    .read .rhs 2, .test false, .read .rhs 1, .test false, .read .rhs 0, .test true, .read .self 2,
    .test true, .read .rhs 0, .read .self 0, .write .self 0, .read .rhs 0, .read .self 1, .write .self 1,
    .read .rhs 0, .read .self 2, .write .self 2, .read .self 2, .write .self 2]) := by decide +kernel
-- One digit by two.
example : seen (Trace.wrappingMulAssign ⟨c150.len, .ext [5#64, 0#64, 0#64]⟩
    ⟨c150.len, .ext [5#64, 6#64, 0#64]⟩) = some ([
    .read .rhs 2, .test false, .read .rhs 1, .test true, .read .self 2, .test false, .read .self 1,
    .test false, .read .self 0, .test true, .read .self 0, .read .rhs 0, .write .self 0,
    .read .rhs 1, .write .self 1, .write .self 2, .read .self 2, .write .self 2]) := by decide +kernel
-- One digit by one.
example : seen (Trace.wrappingMulAssign ⟨a128.len, .ext [5#64, 0#64]⟩ ⟨a128.len, .ext [5#64, 0#64]⟩) =
    some ([.read .rhs 1, .test false, .read .rhs 0, .test true, .read .self 1, .test false,
    .read .self 0, .test true, .read .self 0, .read .rhs 0, .write .self 0, .write .self 1]) := by
  decide +kernel
-- By zero.
example : seen (Trace.wrappingMulAssign a128 ⟨a128.len, .ext [0#64, 0#64]⟩) =
    some ([.read .rhs 1, .test false, .read .rhs 0, .test false, .write .self 0, .write .self 1]) := by
  decide +kernel
-- Two digits by two where the product has room at 192 bits.
example : seen (Trace.wrappingMulAssign ⟨bw 192, .ext [5#64, 6#64, 0#64]⟩
    ⟨bw 192, .ext [7#64, 8#64, 0#64]⟩) = some ([
    .read .rhs 2, .test false, .read .rhs 1, .test true, .read .self 2, .test false, .read .self 1,
    .test true, .read .self 1, .read .rhs 1, .test true, .read .self 0, .read .rhs 0, .alloc 4,
    .write .fresh 0, .read .rhs 1, .write .fresh 1, .write .fresh 2, .read .self 1, .read .rhs 0,
    .read .fresh 1, .write .fresh 1, .read .rhs 1, .read .fresh 2, .write .fresh 2, .write .fresh 3] ++
    Trace.copies .fresh 0 .self 0 3) := by
  decide +kernel

/-- C100: beyond 64 bits a multiplication shows how many high digits of the argument are zero; if the
argument is not zero, how many high digits of the receiver are zero; if both have more than one digit,
whether their bit lengths together exceed the bits of the digits; and nothing else. -/
theorem C100_mul (ha : a.WF) (hb : b.WF) (ha' : a'.WF) (hb' : b'.WF) (e : b.w = a.w) (e1 : a'.w = a.w)
    (e2 : b'.w = a.w) (hw : 64 < a.w) :
    seen (Trace.wrappingMulAssign a b) = seen (Trace.wrappingMulAssign a' b') ↔
      (∀ k, b.uval < 2 ^ (64 * k) ↔ b'.uval < 2 ^ (64 * k)) ∧
      (b.uval ≠ 0 → ∀ k, a.uval < 2 ^ (64 * k) ↔ a'.uval < 2 ^ (64 * k)) ∧
      (2 ^ 64 ≤ a.uval → 2 ^ 64 ≤ b.uval →
        (Nat.size a.uval + Nat.size b.uval ≤ 64 * ((a.w + 63) / 64) ↔
          Nat.size a'.uval + Nat.size b'.uval ≤ 64 * ((a.w + 63) / 64))) :=
  mul_leak ha.1 hb.1 ha'.1 hb'.1 (BitWidth.ext e.symm) (BitWidth.ext e1.symm)
    (BitWidth.ext (e1.trans e2.symm)) hw

-- Multiplying by a number of one digit is told from multiplying by one of two.
example : seen (Trace.wrappingMulAssign a128 b128) ≠
    seen (Trace.wrappingMulAssign a128 ⟨a128.len, .ext [5#64, 0#64]⟩) := by
  rw [ne_eq, C100_mul (a := a128) (b := b128) (a' := a128) (b' := ⟨a128.len, .ext [5#64, 0#64]⟩)
    (by decide +kernel) (by decide +kernel) (by decide +kernel) (by decide +kernel) rfl rfl rfl (by decide)]
  exact fun h => absurd ((h.1 1).2 (by decide +kernel)) (by decide +kernel)
-- At 192 bits a product with room is told from one without, although the digits are as many.
example : seen (Trace.wrappingMulAssign ⟨bw 192, .ext [5#64, 6#64, 0#64]⟩
      ⟨bw 192, .ext [7#64, 8#64, 0#64]⟩) ≠
    seen (Trace.wrappingMulAssign ⟨bw 192, .ext [5#64, 0xFFFFFFFFFFFFFFFF#64, 0#64]⟩
      ⟨bw 192, .ext [7#64, 8#64, 0#64]⟩) := by decide +kernel

/-- C100: up to 64 bits a multiplication shows the width only. -/
theorem C100_small (ha : a.WF) (hb : b.WF) (ha' : a'.WF) (hb' : b'.WF) (e : b.w = a.w)
    (e1 : a'.w = a.w) (e2 : b'.w = a.w) (hw : a.w ≤ 64) :
    seen (Trace.wrappingMulAssign a b) = seen (Trace.wrappingMulAssign a' b') :=
  (mul_inl_twin ha.1 hb.1 ha'.1 hb'.1 (BitWidth.ext e.symm) (BitWidth.ext e1.symm)
    (BitWidth.ext (e1.trans e2.symm)) hw).seen

example : seen (Trace.wrappingMulAssign a7 b7) = seen (Trace.wrappingMulAssign b7 b7) :=
  C100_small a7_wf b7_wf b7_wf b7_wf rfl rfl rfl (by decide)

/-- C100: factors of different widths are refused and nothing is shown. -/
theorem C100_refused (e : a.w ≠ b.w) : seen (Trace.wrappingMulAssign a b) = some [] := by
  unfold Trace.wrappingMulAssign
  rw [zipAccessData_err fun h => e (congrArg BitWidth.toUsize h)]
  rfl

example : seen (Trace.wrappingMulAssign a65 a150) = some [] := C100_refused (by decide)

/-- C100: a multiplication by zero shows nothing of the receiver. -/
theorem C100_by_zero (ha : a.WF) (hb : b.WF) (ha' : a'.WF) (e : b.w = a.w) (e1 : a'.w = a.w)
    (z : b.uval = 0) :
    seen (Trace.wrappingMulAssign a b) = seen (Trace.wrappingMulAssign a' b) := by
  by_cases hw : a.w ≤ 64
  · exact C100_small ha hb ha' hb e e1 e hw
  · rw [C100_mul ha hb ha' hb e e1 e (by omega)]
    exact ⟨fun _ => Iff.rfl, fun n => absurd z n, fun _ n => absurd (z ▸ n) (by decide)⟩

example : seen (Trace.wrappingMulAssign a150 ⟨a150.len, .ext [0#64, 0#64, 0#64]⟩) =
    seen (Trace.wrappingMulAssign ⟨a150.len, .ext [1#64, 0#64, 0#64]⟩
      ⟨a150.len, .ext [0#64, 0#64, 0#64]⟩) :=
  C100_by_zero a150_wf (by decide +kernel) (by decide +kernel) rfl rfl (by decide +kernel)

/-- C100: that is not so with the factors swapped. -/
theorem C100_of_zero : ∃ z b b' : ApInt, z.WF ∧ b.WF ∧ b'.WF ∧ b.w = z.w ∧ b'.w = z.w ∧ z.uval = 0 ∧
    seen (Trace.wrappingMulAssign z b) ≠ seen (Trace.wrappingMulAssign z b') ∧
    seen (Trace.wrappingMulAssign b z) = seen (Trace.wrappingMulAssign b' z) :=
  ⟨⟨bw 128, .ext [0#64, 0#64]⟩, a128, ⟨bw 128, .ext [5#64, 0#64]⟩, by decide +kernel, by decide +kernel,
    by decide +kernel, rfl, rfl, by decide +kernel, by decide +kernel, by decide +kernel⟩

/-- C100: beyond 64 bits a multiplication shows which of the factors it found to be zero, so an observer
knows whether the exact product is zero. -/
theorem C100_zero (ha : a.WF) (hb : b.WF) (ha' : a'.WF) (hb' : b'.WF) (e : b.w = a.w)
    (e1 : a'.w = a.w) (e2 : b'.w = a.w) (hw : 64 < a.w)
    (s : seen (Trace.wrappingMulAssign a b) = seen (Trace.wrappingMulAssign a' b')) :
    a.uval * b.uval = 0 ↔ a'.uval * b'.uval = 0 := by
  obtain ⟨h1, h2, -⟩ := (C100_mul ha hb ha' hb' e e1 e2 hw).1 s
  have h1 := h1 0
  simp only [Nat.mul_zero, Nat.pow_zero, Nat.lt_one_iff] at h1
  rw [Nat.mul_eq_zero, Nat.mul_eq_zero, ← h1]
  by_cases z : b.uval = 0
  · simp [z]
  · have h2 := h2 z 0
    simp only [Nat.mul_zero, Nat.pow_zero, Nat.lt_one_iff] at h2
    rw [h2]

example : seen (Trace.wrappingMulAssign a150 b150) ≠
    seen (Trace.wrappingMulAssign a150 ⟨a150.len, .ext [0#64, 0#64, 0#64]⟩) := fun s =>
  absurd ((C100_zero (b' := ⟨a150.len, .ext [0#64, 0#64, 0#64]⟩) a150_wf b150_wf a150_wf
    (by decide +kernel) rfl rfl rfl (by decide) s).2
    (by decide +kernel)) (by decide +kernel)

/-- C100: of factors whose top digits are not zero a multiplication shows nothing. -/
theorem C100_full (ha : a.WF) (hb : b.WF) (ha' : a'.WF) (hb' : b'.WF) (e : b.w = a.w)
    (e1 : a'.w = a.w) (e2 : b'.w = a.w)
    (t : ∀ x ∈ [a, b, a', b'], 2 ^ (64 * ((a.w + 63) / 64 - 1)) ≤ x.uval) :
    seen (Trace.wrappingMulAssign a b) = seen (Trace.wrappingMulAssign a' b') := by
  by_cases hw : a.w ≤ 64
  · exact C100_small ha hb ha' hb' e e1 e2 hw
  have hn : 2 ≤ (a.w + 63) / 64 := by omega
  have cover : a.w ≤ 64 * ((a.w + 63) / 64) := by omega
  rw [C100_mul ha hb ha' hb' e e1 e2 (by omega)]
  generalize (a.w + 63) / 64 = n at *
  simp only [List.mem_cons, List.not_mem_nil, or_false, forall_eq_or_imp, forall_eq] at t
  obtain ⟨ta, tb, ta', tb'⟩ := t
  have above {x : ApInt} (hx : x.WF) (ew : x.w = a.w) (tx : 2 ^ (64 * (n - 1)) ≤ x.uval) (k : Nat) :
      x.uval < 2 ^ (64 * k) ↔ n ≤ k := by
    constructor
    · intro h
      have := (Nat.pow_lt_pow_iff_right (by decide : 1 < 2)).1 (Nat.lt_of_le_of_lt tx h)
      omega
    · intro h
      refine Nat.lt_of_lt_of_le hx.2 (Nat.pow_le_pow_right (by decide) ?_)
      rw [ew]
      have : 64 * n ≤ 64 * k := Nat.mul_le_mul_left _ h
      omega
  have long {x : ApInt} (tx : 2 ^ (64 * (n - 1)) ≤ x.uval) : 64 * (n - 1) < Nat.size x.uval :=
    Nat.lt_size.2 tx
  have l1 := long ta
  have l2 := long tb
  have l3 := long ta'
  have l4 := long tb'
  refine ⟨fun k => ?_, fun _ k => ?_, fun _ _ => ?_⟩
  · rw [above hb e tb, above hb' e2 tb']
  · rw [above ha rfl ta, above ha' e1 ta']
  · constructor <;> intro <;> omega

example : seen (Trace.wrappingMulAssign a150 b150) = seen (Trace.wrappingMulAssign b150 c150) :=
  C100_full a150_wf b150_wf b150_wf c150_wf rfl rfl rfl (by decide +kernel)

/-- C100: what C96 says of programs with multiplications is exact for each multiplication. -/
theorem C100_facts (ha : a.WF) (hb : b.WF) (ha' : a'.WF) (hb' : b'.WF) (e1 : a'.w = a.w)
    (e2 : b'.w = b.w) :
    seen (Trace.wrappingMulAssign a b) = seen (Trace.wrappingMulAssign a' b') ↔
      ToldBy.mul a b a' b' := by
  by_cases e : a.w = b.w
  · by_cases hw : a.w ≤ 64
    · exact iff_of_true (C100_small ha hb ha' hb' e.symm e1 (e2.trans e.symm) hw) (.inr (.inl hw))
    · rw [C100_mul ha hb ha' hb' e.symm e1 (e2.trans e.symm) (by omega)]
      constructor
      · exact fun s => .inr (.inr s)
      · rintro (s | s | s)
        · exact absurd e s
        · exact absurd s hw
        · exact s
  · refine iff_of_true ?_ (.inl e)
    rw [C100_refused e, C100_refused (by rw [e1, e2]; exact e)]

namespace Ex

/-- Multiply into a new integer, add to it, and multiply in place. -/
def multiplied : List Trace.Loud := [.opMul 0 1, .quiet (.bin .add 2 0), .mul 1 0]

/-- `2^149 - 1` at 150 bits. -/
def d150 : ApInt := ⟨bw 150, .ext [0xFFFFFFFFFFFFFFFF#64, 0xFFFFFFFFFFFFFFFF#64, 0x1FFFFF#64]⟩

theorem d150_wf : d150.WF := by decide +kernel

end Ex

-- Factors whose top digits are not zero, in a program.
example : (Trace.runLoud multiplied [a150, b150]).2.2 = (Trace.runLoud multiplied [d150, c150]).2.2 := by
  have k : ∀ {a b a' b' : ApInt}, a.WF → b.WF → a'.WF → b'.WF → b.w = a.w → a'.w = a.w → b'.w = a.w →
      (∀ x ∈ [a, b, a', b'], 2 ^ (64 * ((a.w + 63) / 64 - 1)) ≤ x.uval) → ToldBy.mul a b a' b' :=
    fun ha hb ha' hb' e e1 e2 t =>
      (C100_facts ha hb ha' hb' e1 (e2.trans e.symm)).1 (C100_full ha hb ha' hb' e e1 e2 t)
  refine (C96_program multiplied (b := [a150, b150]) (b' := [d150, c150])
    (List.forall_mem_cons.2 ⟨a150_wf, List.forall_mem_cons.2 ⟨b150_wf, nofun⟩⟩)
    (List.forall_mem_cons.2 ⟨d150_wf, List.forall_mem_cons.2 ⟨c150_wf, nofun⟩⟩) rfl ?_).1
  refine ⟨?_, ?_⟩
  · intro x h1 y h2 x' h3 y' h4
    cases h1; cases h2; cases h3; cases h4
    exact k a150_wf b150_wf d150_wf c150_wf rfl rfl rfl (by decide +kernel)
  show ToldBy.program _ [a150, b150, _] [d150, c150, _]
  refine ⟨trivial, ?_⟩
  show ToldBy.program _ [a150, b150, _] [d150, c150, _]
  refine ⟨?_, trivial⟩
  intro x h1 y h2 x' h3 y' h4
  cases h1; cases h2; cases h3; cases h4
  exact k b150_wf a150_wf c150_wf d150_wf rfl rfl rfl (by decide +kernel)
-- And factors that are told apart.
example : (Trace.runLoud multiplied [a150, b150]).2.2 ≠
    (Trace.runLoud multiplied [a150, ⟨a150.len, .ext [1#64, 0#64, 0#64]⟩]).2.2 := by decide +kernel

end Verif
