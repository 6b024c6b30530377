import Verif.Proof.TraceText
import Verif.Props.TraceAsk

/-!
# C101: what writing an integer in binary or hexadecimal shows

`Model/TraceText.lean` has `fmt::Binary`, `fmt::LowerHex` and `fmt::UpperHex` with a trace.  It is stated
exactly what the trace tells.
-/

namespace Verif

open ApInt Ex Watched

variable {a a' : ApInt}

/-- C101: the traced methods write what the methods write. -/
theorem C101_same_calls (a : ApInt) :
    result (Trace.fmtBinary a) = a.fmtBinary ∧ result (Trace.fmtLowerHex a) = a.fmtLowerHex ∧
    result (Trace.fmtUpperHex a) = a.fmtUpperHex :=
  ⟨result_fmtBinary a, result_fmtLowerHex a, result_fmtUpperHex a⟩

-- The integer `2 ^ 64` at 150 bits: the lowest digit is zero, and so is the highest.
example : seen (Trace.fmtLowerHex ⟨bw 150, .ext [0#64, 1#64, 0#64]⟩) = some [.read .self 0, .test true,
    .read .self 1, .test false, .test false, .read .self 2, .test true, .read .self 1, .test false,
    .read .self 0] := by decide +kernel
example : result (Trace.fmtLowerHex ⟨bw 150, .ext [0#64, 1#64, 0#64]⟩) =
    .ok "10000000000000000".toList := by decide +kernel
example : seen (Trace.fmtBinary ⟨bw 7, .inl 0#64⟩) = some [.read .self 0, .test true] := by
  decide +kernel

/-- C101: writing in binary or hexadecimal shows how many high digits are zero, and of integers of more
than one digit also how many low digits are, and nothing else. -/
theorem C101_text (h : a.WF) (h' : a'.WF) (e : a.w = a'.w) :
    ∀ fmt ∈ [Trace.fmtBinary, Trace.fmtLowerHex, Trace.fmtUpperHex],
      (seen (fmt a) = seen (fmt a') ↔
        (∀ k, a.uval < 2 ^ (64 * k) ↔ a'.uval < 2 ^ (64 * k)) ∧
        (a.w ≤ 64 ∨ ∀ k, 2 ^ (64 * k) ∣ a.uval ↔ 2 ^ (64 * k) ∣ a'.uval)) := by
  intro fmt hf
  simp only [List.mem_cons, List.not_mem_nil, or_false] at hf
  rcases hf with rfl | rfl | rfl <;> exact fmtWith_leak _ _ _ h h' (BitWidth.ext e)

example : seen (Trace.fmtBinary a150) ≠ seen (Trace.fmtBinary b150) := by
  rw [ne_eq, C101_text a150_wf b150_wf rfl _ (by simp)]
  rintro ⟨-, h⟩
  rcases h with h | h
  · exact absurd h (by decide +kernel)
  · exact absurd ((h 1).2 (by decide +kernel)) (by decide +kernel)

/-- C101: the three show the same of every pair. -/
theorem C101_alike (h : a.WF) (h' : a'.WF) (e : a.w = a'.w) :
    (seen (Trace.fmtBinary a) = seen (Trace.fmtBinary a') ↔
      seen (Trace.fmtLowerHex a) = seen (Trace.fmtLowerHex a')) ∧
    (seen (Trace.fmtBinary a) = seen (Trace.fmtBinary a') ↔
      seen (Trace.fmtUpperHex a) = seen (Trace.fmtUpperHex a')) :=
  ⟨(C101_text h h' e _ (by simp)).trans (C101_text h h' e _ (by simp)).symm,
    (C101_text h h' e _ (by simp)).trans (C101_text h h' e _ (by simp)).symm⟩

example : seen (Trace.fmtUpperHex a150) = seen (Trace.fmtUpperHex c150) :=
  (C101_alike a150_wf c150_wf rfl).2.1 (by decide +kernel)

/-- C101: at up to 64 bits nothing is shown but whether the integer is zero. -/
theorem C101_small (h : a.WF) (h' : a'.WF) (e : a.w = a'.w) (hw : a.w ≤ 64) :
    ∀ fmt ∈ [Trace.fmtBinary, Trace.fmtLowerHex, Trace.fmtUpperHex],
      (seen (fmt a) = seen (fmt a') ↔ (a.uval = 0 ↔ a'.uval = 0)) := by
  intro fmt hf
  rw [C101_text h h' e fmt hf]
  constructor
  · rintro ⟨q, -⟩
    simpa using q 0
  · intro q
    refine ⟨fun k => ?_, .inl hw⟩
    rcases k with _ | k
    · simpa using q
    · have b := h.2
      have b' := h'.2
      have p : 2 ^ a.w ≤ 2 ^ (64 * (k + 1)) := Nat.pow_le_pow_right (by decide) (by omega)
      rw [← e] at b'
      exact iff_of_true (by omega) (by omega)

example : seen (Trace.fmtLowerHex a7) = seen (Trace.fmtLowerHex b7) :=
  (C101_small a7_wf b7_wf rfl (by decide) _ (by simp)).2 (by decide +kernel)
example : seen (Trace.fmtLowerHex a7) ≠ seen (Trace.fmtLowerHex ⟨bw 7, .inl 0#64⟩) := by
  rw [ne_eq, C101_small (a' := ⟨bw 7, .inl 0#64⟩) a7_wf (by decide +kernel) rfl (by decide) _ (by simp)]
  decide +kernel

/-- C101: of integers whose lowest and highest digits are not zero nothing is shown. -/
theorem C101_full (h : a.WF) (h' : a'.WF) (e : a.w = a'.w)
    (t : ∀ x ∈ [a, a'], 2 ^ (64 * ((a.w + 63) / 64 - 1)) ≤ x.uval ∧ x.uval % 2 ^ 64 ≠ 0) :
    ∀ fmt ∈ [Trace.fmtBinary, Trace.fmtLowerHex, Trace.fmtUpperHex], seen (fmt a) = seen (fmt a') := by
  intro fmt hf
  rw [C101_text h h' e fmt hf]
  obtain ⟨t1, t2⟩ := t a (by simp)
  obtain ⟨t1', t2'⟩ := t a' (by simp)
  have b := h.2
  have b' := h'.2
  rw [← e] at b'
  refine ⟨fun k => ?_, .inr fun k => ?_⟩
  · by_cases hk : (a.w + 63) / 64 ≤ k
    · have p : 2 ^ a.w ≤ 2 ^ (64 * k) := Nat.pow_le_pow_right (by decide) (by omega)
      exact iff_of_true (by omega) (by omega)
    · have p : 2 ^ (64 * k) ≤ 2 ^ (64 * ((a.w + 63) / 64 - 1)) :=
        Nat.pow_le_pow_right (by decide) (by omega)
      exact iff_of_false (by omega) (by omega)
  · rcases k with _ | k
    · simp
    · have no : ∀ {u : Nat}, u % 2 ^ 64 ≠ 0 → ¬ 2 ^ (64 * (k + 1)) ∣ u := by
        intro u hu hd
        exact hu (Nat.mod_eq_zero_of_dvd (Nat.dvd_trans (Nat.pow_dvd_pow 2 (by omega)) hd))
      exact iff_of_false (no t2) (no t2')

example : seen (Trace.fmtLowerHex a150) = seen (Trace.fmtLowerHex c150) :=
  C101_full (a := a150) (a' := c150) a150_wf c150_wf rfl (by decide +kernel) _ (by simp)

namespace Ex

/-- Add, and write the sum and the other integer. -/
def written : List Trace.Loud :=
  [.quiet (.bin .add 0 1), .ask .lowerHex 0, .ask .binary 1]

end Ex

-- Sums whose lowest and highest digits are not zero, in a program.
example : (Trace.runLoud written [a150, c150]).2.2 = (Trace.runLoud written [c150, c150]).2.2 := by
  have k : ∀ {a a' : ApInt}, a.WF → a'.WF → a.w = a'.w →
      (∀ x ∈ [a, a'], 2 ^ (64 * ((a.w + 63) / 64 - 1)) ≤ x.uval ∧ x.uval % 2 ^ 64 ≠ 0) →
      ToldBy.ask .lowerHex a a' := fun h h' e t =>
    (C101_text h h' e _ (by simp)).1 (C101_full h h' e t Trace.fmtBinary (by simp))
  refine (C96_program written (b := [a150, c150]) (b' := [c150, c150])
    (List.forall_mem_cons.2 ⟨a150_wf, List.forall_mem_cons.2 ⟨c150_wf, nofun⟩⟩)
    (List.forall_mem_cons.2 ⟨c150_wf, List.forall_mem_cons.2 ⟨c150_wf, nofun⟩⟩) rfl ?_).1
  refine ⟨trivial, ?_⟩
  show ToldBy.program _ [⟨bw 150, .ext [0x8000000000000001#64, 2#64, 12#64]⟩, c150]
    [⟨bw 150, .ext [2#64, 4#64, 6#64]⟩, c150]
  refine ⟨?_, ?_⟩
  · intro x h1 x' h2
    cases h1; cases h2
    exact k (by decide +kernel) (by decide +kernel) rfl (by decide +kernel)
  show ToldBy.program _ [⟨bw 150, .ext [0x8000000000000001#64, 2#64, 12#64]⟩, c150]
    [⟨bw 150, .ext [2#64, 4#64, 6#64]⟩, c150]
  refine ⟨?_, trivial⟩
  intro x h1 x' h2
  cases h1; cases h2
  exact k c150_wf c150_wf rfl (by decide +kernel)

end Verif
