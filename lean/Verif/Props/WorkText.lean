import Verif.Proof.WorkText
import Verif.Props.Work
import Verif.Props.Text

/-!
# C92: the work of parsing and printing

`Model/WorkText.lean` has `from_str_radix` and the formatting with a count of the bytes, digits and
characters that are touched; growing a vector counts moving its elements.
-/

namespace Verif

open ApInt Ex

variable {a : ApInt} {r : Nat} {s : List Char}

/-- The number of bytes of a text in UTF-8. -/
def bytesOf (s : List Char) : Nat := (String.ofList s).utf8ByteSize

theorem utf8Bytes_length (s : List Char) : (utf8Bytes s).length = bytesOf s := by
  unfold bytesOf utf8Bytes
  rw [← String.size_toByteArray, String.toByteArray_ofList, List.utf8Encode]
  simp [List.length_flatMap]

/-- C92: parsing in the radices 2, 4, 8, 16 and 32 touches at most seven bytes, elements and digits
for each byte of the text, whatever the text is. -/
theorem C92_parse_pow2 (hr : r ∈ [2, 4, 8, 16, 32]) :
    Takes (Count.fromStrRadix r s) (fromStrRadix r s) (7 * bytesOf s + 6) := by
  rw [← utf8Bytes_length]
  exact fromStrRadix_costs.mono fun _ _ h => h.1 hr

-- 13 digits of five bits make two digits of 64 bits: the last vector is made with room for both.
example : count (Count.fromStrRadix 32 "vvv_vvvvvvvvvv".toList) = some 89 := by decide +kernel
example : Takes (Count.fromStrRadix 32 "vvv_vvvvvvvvvv".toList)
    (fromStrRadix 32 "vvv_vvvvvvvvvv".toList) 104 := C92_parse_pow2 (by decide)

/-- C92: parsing in any other radix, and the panic for a number that is not a radix. -/
theorem C92_parse_other (hr : r ∉ [2, 4, 8, 16, 32]) :
    Takes (Count.fromStrRadix r s) (fromStrRadix r s) (4 * bytesOf s + bytesOf s / 4 + 10) := by
  rw [← utf8Bytes_length]
  exact fromStrRadix_costs.mono fun _ _ h => h.2.1 hr

-- The bound is met.
example : count (Count.fromStrRadix 36 "zyxwvutsrqpon".toList) = some 65 := by decide +kernel
example : Takes (Count.fromStrRadix 36 "zyxwvutsrqpon".toList)
    (fromStrRadix 36 "zyxwvutsrqpon".toList) (4 * 13 + 13 / 4 + 10) := C92_parse_other (by decide)

/-- C92: a text that is not accepted is read once and copied into the error. -/
theorem C92_parse_rejected (hr : 2 ≤ r ∧ r ≤ 36) (h : ¬ Accepted r s) :
    Takes (Count.fromStrRadix r s) (fromStrRadix r s) (4 * bytesOf s + 2) := by
  rw [← utf8Bytes_length]
  obtain ⟨h1, h2⟩ := fromStrRadix_costs (r := r) (s := s)
  refine ⟨h1, fun v hv => ?_⟩
  obtain ⟨k, e, h3⟩ := h2 v hv
  rw [(Props.C40_error_iff (r := r) (s := s) hr).2.2 h] at hv
  cases hv
  exact ⟨k, e, h3.2.2 _ rfl⟩

-- The euro sign has three bytes; the first of them ends the loop.
example : count (Count.fromStrRadix 10 "12_€3".toList) = some 22 := by decide +kernel
example : Takes (Count.fromStrRadix 10 "12_€3".toList) (fromStrRadix 10 "12_€3".toList)
    (4 * 7 + 2) := C92_parse_rejected (by decide) (by decide)

/-- C92: printing touches 66 digits and characters for each digit of the width in base 2 and 18 in
base 16. -/
theorem C92_print (ha : a.WF) :
    Takes (Count.fmtBinary a) (fmtBinary a) (66 * digitsOf a.w) ∧
    Takes (Count.fmtLowerHex a) (fmtLowerHex a) (18 * digitsOf a.w) ∧
    Takes (Count.fmtUpperHex a) (fmtUpperHex a) (18 * digitsOf a.w) ∧
    Takes (Count.fmtOctal a) (fmtOctal a) (digitsOf a.w + 1) := by
  refine ⟨fmt_costs ha.1 (by decide) (by decide) rfl (by decide),
    fmt_costs ha.1 (by decide) (by decide) rfl (by decide),
    fmt_costs ha.1 (by decide) (by decide) rfl (by decide), ?_⟩
  unfold Count.fmtOctal fmtOctal
  refine Costs.bind Costs.charge ?_
  rintro z _ ⟨_, rfl⟩
  refine Costs.ite (fun _ => Costs.charge_ok ?_) fun _ => Costs.error
  rw [Count.digits, lenDigits_eq]
  exact Nat.le_refl _

example : count (Count.fmtLowerHex a256) = some 72 := by decide +kernel
example : Takes (Count.fmtLowerHex a256) (fmtLowerHex a256) (18 * 4) := (C92_print a256_wf).2.1

end Verif
