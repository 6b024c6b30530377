import Verif.Spec

/-!
# Concrete integers

Used beside the property theorems to show that their hypotheses can be met by non-trivial
values: widths below, at and above one digit, multiples of 64 and not.
-/

namespace Verif

namespace ApInt

instance (a : ApInt) : Decidable a.Shape := by
  unfold Shape
  split <;> infer_instance

instance (a : ApInt) : Decidable a.WF := by
  unfold WF
  infer_instance

end ApInt

namespace Ex

/-- A width, for literals. -/
def bw (n : Nat) (h : 0 < n := by decide) : BitWidth := ⟨n, h⟩

/-- 100 at 7 bits; -28 when read as signed. -/
def a7 : ApInt := ⟨bw 7, .inl 100#64⟩
/-- 60 at 7 bits. -/
def b7 : ApInt := ⟨bw 7, .inl 60#64⟩
/-- `2^64 - 1` at 64 bits. -/
def a64 : ApInt := ⟨bw 64, .inl 0xFFFFFFFFFFFFFFFF#64⟩
/-- 2 at 64 bits. -/
def b64 : ApInt := ⟨bw 64, .inl 2#64⟩
/-- `2^65 - 1` at 65 bits. -/
def a65 : ApInt := ⟨bw 65, .ext [0xFFFFFFFFFFFFFFFF#64, 1#64]⟩
/-- 5 at 65 bits. -/
def b65 : ApInt := ⟨bw 65, .ext [5#64, 0#64]⟩
/-- `7 * 2^64 + (2^64 - 1)` at 128 bits. -/
def a128 : ApInt := ⟨bw 128, .ext [0xFFFFFFFFFFFFFFFF#64, 7#64]⟩
/-- `2^64 + 3` at 128 bits. -/
def b128 : ApInt := ⟨bw 128, .ext [3#64, 1#64]⟩
/-- `2^63 + 9 * 2^128` at 150 bits. -/
def a150 : ApInt := ⟨bw 150, .ext [0x8000000000000000#64, 0#64, 9#64]⟩
/-- `2^149 + 2^64` at 150 bits, a negative number when read as signed. -/
def b150 : ApInt := ⟨bw 150, .ext [0#64, 1#64, 0x200000#64]⟩

theorem a7_wf : a7.WF := by decide
theorem b7_wf : b7.WF := by decide
theorem a64_wf : a64.WF := by decide
theorem b64_wf : b64.WF := by decide
theorem a65_wf : a65.WF := by decide
theorem b65_wf : b65.WF := by decide
theorem a128_wf : a128.WF := by decide
theorem b128_wf : b128.WF := by decide
theorem a150_wf : a150.WF := by decide
theorem b150_wf : b150.WF := by decide

end Ex

end Verif
