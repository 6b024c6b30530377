import Verif.Proof.TraceAskRun
import Verif.Props.Trace

/-!
# C96: what questions show, and programs that show only what they may

`Model/TraceAsk.lean` has equality, the comparisons, the counts of zeros, `is_one` and `is_all_set`
with a trace.  For each of them it is stated exactly what the trace tells.  A program that mixes them
and the other calls of C89 shows nothing but the widths and what its calls tell one by one, as listed
in `SpecTrace.lean`.
-/

namespace Verif

open ApInt Ex Watched

variable {a a' b b' : ApInt}

/-- C96: the traced calls return what the calls return. -/
theorem C96_same_calls (a b : ApInt) :
    result (Trace.eq a b) = a.eq b ∧ result (Trace.checkedUle a b) = a.checkedUle b ∧
    result (Trace.checkedUgt a b) = a.checkedUgt b ∧ result (Trace.checkedUge a b) = a.checkedUge b ∧
    result (Trace.checkedSlt a b) = a.checkedSlt b ∧ result (Trace.checkedSle a b) = a.checkedSle b ∧
    result (Trace.checkedSgt a b) = a.checkedSgt b ∧ result (Trace.checkedSge a b) = a.checkedSge b ∧
    result (Trace.leadingZeros a) = a.leadingZeros ∧
    result (Trace.trailingZeros a) = a.trailingZeros ∧
    result (Trace.isOne a) = a.isOne ∧ result (Trace.isAllSet a) = a.isAllSet :=
  ⟨result_eq a b, result_checkedUle a b, result_checkedUgt a b, result_checkedUge a b,
    result_checkedSlt a b, result_checkedSle a b, result_checkedSgt a b, result_checkedSge a b,
    result_leadingZeros a, result_trailingZeros a, result_isOne a, result_isAllSet a⟩

example : seen (Trace.eq a150 b150) = some [.read .self 0, .read .rhs 0, .test false] := by
  decide +kernel

/-- C96: the test for equality shows how many of the low digits agree, and nothing else.  (For equal
integers all of them do.) -/
theorem C96_eq (ha : a.WF) (hb : b.WF) (ha' : a'.WF) (hb' : b'.WF) (e : b.w = a.w)
    (e1 : a'.w = a.w) (e2 : b'.w = a.w) :
    seen (Trace.eq a b) = seen (Trace.eq a' b') ↔
      ∀ k, a.uval % 2 ^ (64 * k) = b.uval % 2 ^ (64 * k) ↔
        a'.uval % 2 ^ (64 * k) = b'.uval % 2 ^ (64 * k) :=
  eq_leak ha.1 hb.1 ha'.1 hb'.1 (BitWidth.ext e.symm) (BitWidth.ext e1.symm) (BitWidth.ext e2.symm)

-- Low digits that differ hide all that is above them.
example : seen (Trace.eq a150 b150) = seen (Trace.eq c150 a150) := by decide +kernel
example : seen (Trace.eq a150 a150) ≠ seen (Trace.eq a150 b150) := by
  rw [ne_eq, C96_eq a150_wf a150_wf a150_wf b150_wf rfl rfl rfl]
  intro h
  exact absurd ((h 1).1 (by decide +kernel)) (by decide +kernel)

/-- C96: the signed comparison shows both signs, the order, and how many of the high digits agree,
and nothing else. -/
theorem C96_slt (ha : a.WF) (hb : b.WF) (ha' : a'.WF) (hb' : b'.WF) (e : b.w = a.w)
    (e1 : a'.w = a.w) (e2 : b'.w = a.w) (hw : 64 < a.w) :
    seen (Trace.checkedSlt a b) = seen (Trace.checkedSlt a' b') ↔
      (a.sval < 0 ↔ a'.sval < 0) ∧ (b.sval < 0 ↔ b'.sval < 0) ∧
      (a.uval < b.uval ↔ a'.uval < b'.uval) ∧ (b.uval < a.uval ↔ b'.uval < a'.uval) ∧
      ∀ k, a.uval / 2 ^ (64 * k) = b.uval / 2 ^ (64 * k) ↔
        a'.uval / 2 ^ (64 * k) = b'.uval / 2 ^ (64 * k) :=
  slt_leak ha hb ha' hb' (BitWidth.ext e.symm) (BitWidth.ext e1.symm) (BitWidth.ext e2.symm) hw

example : seen (Trace.checkedSlt c150 a150) ≠ seen (Trace.checkedSlt a150 b150) := by
  rw [ne_eq, C96_slt c150_wf a150_wf a150_wf b150_wf rfl rfl rfl (by decide)]
  intro h
  exact absurd (h.2.1.2 (by decide +kernel)) (by decide +kernel)
example : seen (Trace.checkedSlt c150 b150) = seen (Trace.checkedSlt a150 b150) := by
  rw [C96_slt c150_wf b150_wf a150_wf b150_wf rfl rfl rfl (by decide)]
  refine ⟨by decide +kernel, Iff.rfl, by decide +kernel, by decide +kernel, fun k => ?_⟩
  exact (sameUOrder_of_signs c150_wf b150_wf a150_wf b150_wf rfl rfl rfl (by decide +kernel)
    rfl (by decide +kernel)).2.2 k

/-- C96: the other comparisons show what `<` shows of the same operands, or of the operands swapped. -/
theorem C96_orders (a b a' b' : ApInt) :
    (seen (Trace.checkedUge a b) = seen (Trace.checkedUge a' b') ↔
      seen (Trace.checkedUlt a b) = seen (Trace.checkedUlt a' b')) ∧
    (seen (Trace.checkedUgt a b) = seen (Trace.checkedUgt a' b') ↔
      seen (Trace.checkedUlt b a) = seen (Trace.checkedUlt b' a')) ∧
    (seen (Trace.checkedUle a b) = seen (Trace.checkedUle a' b') ↔
      seen (Trace.checkedUlt b a) = seen (Trace.checkedUlt b' a')) ∧
    (seen (Trace.checkedSge a b) = seen (Trace.checkedSge a' b') ↔
      seen (Trace.checkedSlt a b) = seen (Trace.checkedSlt a' b')) ∧
    (seen (Trace.checkedSgt a b) = seen (Trace.checkedSgt a' b') ↔
      seen (Trace.checkedSlt b a) = seen (Trace.checkedSlt b' a')) ∧
    (seen (Trace.checkedSle a b) = seen (Trace.checkedSle a' b') ↔
      seen (Trace.checkedSlt b a) = seen (Trace.checkedSlt b' a')) := by
  unfold Trace.checkedUge Trace.checkedUgt Trace.checkedUle Trace.checkedSge Trace.checkedSgt
    Trace.checkedSle
  simp only [seen_map, seen_swapped, and_self]

example : seen (Trace.checkedUle a150 b150) = some [.read .rhs 2, .read .self 2, .test false,
    .test true] := by decide +kernel

/-- C96: counting the leading zeros shows how many of the high digits are zero, and nothing else. -/
theorem C96_leading_zeros (h : a.WF) (h' : a'.WF) (e : a.w = a'.w) :
    seen (Trace.leadingZeros a) = seen (Trace.leadingZeros a') ↔
      ∀ k, a.uval < 2 ^ (64 * k) ↔ a'.uval < 2 ^ (64 * k) :=
  leading_leak h h' (BitWidth.ext e)

example : seen (Trace.leadingZeros a65) ≠ seen (Trace.leadingZeros b65) := by
  rw [ne_eq, C96_leading_zeros a65_wf b65_wf rfl]
  intro h
  exact absurd ((h 1).2 (by decide +kernel)) (by decide +kernel)
example : seen (Trace.leadingZeros a150) = seen (Trace.leadingZeros b150) := by decide +kernel

/-- C96: counting the trailing zeros shows how many of the low digits are zero, and nothing else. -/
theorem C96_trailing_zeros (h : a.WF) (h' : a'.WF) (e : a.w = a'.w) :
    seen (Trace.trailingZeros a) = seen (Trace.trailingZeros a') ↔
      ∀ k, 2 ^ (64 * k) ∣ a.uval ↔ 2 ^ (64 * k) ∣ a'.uval :=
  trailing_leak h h' (BitWidth.ext e)

example : seen (Trace.trailingZeros a150) ≠ seen (Trace.trailingZeros b150) := by
  rw [ne_eq, C96_trailing_zeros a150_wf b150_wf rfl]
  intro h
  exact absurd ((h 1).2 (by decide +kernel)) (by decide +kernel)
example : seen (Trace.trailingZeros a150) = seen (Trace.trailingZeros c150) := by decide +kernel

/-- C96: `is_one` shows whether the most significant digit is one, and then how many of the digits
below it are zero, and nothing else. -/
theorem C96_is_one (h : a.WF) (h' : a'.WF) (e : a.w = a'.w) (hw : 64 < a.w) :
    seen (Trace.isOne a) = seen (Trace.isOne a') ↔
      (a.uval / 2 ^ (64 * ((a.w - 1) / 64)) = 1 ↔ a'.uval / 2 ^ (64 * ((a.w - 1) / 64)) = 1) ∧
      (a.uval / 2 ^ (64 * ((a.w - 1) / 64)) = 1 → ∀ k, k ≤ (a.w - 1) / 64 →
        (2 ^ (64 * k) ∣ a.uval ↔ 2 ^ (64 * k) ∣ a'.uval)) :=
  isOne_leak h h' (BitWidth.ext e) hw

example : seen (Trace.isOne a65) ≠ seen (Trace.isOne b65) := by
  rw [ne_eq, C96_is_one a65_wf b65_wf rfl (by decide)]
  intro h
  exact absurd (h.1.1 (by decide +kernel)) (by decide +kernel)
example : seen (Trace.isOne a150) = seen (Trace.isOne b150) := by decide +kernel

/-- C96: `is_all_set` shows whether the partly used most significant digit is full, and then how many
of the low digits are, and nothing else.  At multiples of 64 bits it shows the second only. -/
theorem C96_is_all_set (h : a.WF) (h' : a'.WF) (e : a.w = a'.w) :
    (a.w % 64 ≠ 0 →
      (seen (Trace.isAllSet a) = seen (Trace.isAllSet a') ↔
        (a.uval / 2 ^ (64 * ((a.w - 1) / 64)) = 2 ^ (a.w % 64) - 1 ↔
          a'.uval / 2 ^ (64 * ((a.w - 1) / 64)) = 2 ^ (a.w % 64) - 1) ∧
        (a.uval / 2 ^ (64 * ((a.w - 1) / 64)) = 2 ^ (a.w % 64) - 1 → ∀ k, k ≤ (a.w - 1) / 64 →
          (2 ^ (64 * k) ∣ a.uval + 1 ↔ 2 ^ (64 * k) ∣ a'.uval + 1)))) ∧
    (a.w % 64 = 0 →
      (seen (Trace.isAllSet a) = seen (Trace.isAllSet a') ↔ ∀ k, k ≤ (a.w - 1) / 64 →
        (2 ^ (64 * k) ∣ a.uval + 1 ↔ 2 ^ (64 * k) ∣ a'.uval + 1))) :=
  ⟨isAllSet_leak h h' (BitWidth.ext e), isAllSet_leak_aligned h h' (BitWidth.ext e)⟩

example : seen (Trace.isAllSet a65) ≠ seen (Trace.isAllSet b65) := by
  rw [ne_eq, (C96_is_all_set a65_wf b65_wf rfl).1 (by decide)]
  intro h
  exact absurd (h.1.1 (by decide +kernel)) (by decide +kernel)
example : seen (Trace.isAllSet a128) ≠ seen (Trace.isAllSet b128) := by
  rw [ne_eq, (C96_is_all_set a128_wf b128_wf rfl).2 (by decide)]
  intro h
  exact absurd ((h 1 (by decide)).1 (by decide +kernel)) (by decide +kernel)

/-- C96: `sign_resize` returns what it returns, shows exactly the sign when it makes the integer wider,
and nothing when it does not. -/
theorem C96_sign_resize (h : a.WF) (h' : a'.WF) (e : a.w = a'.w) (t : BitWidth) :
    result (Trace.signResize a t) = a.signResize t ∧
    (a.w < t.toUsize →
      (seen (Trace.signResize a t) = seen (Trace.signResize a' t) ↔ (a.sval < 0 ↔ a'.sval < 0))) ∧
    (t.toUsize ≤ a.w → seen (Trace.signResize a t) = seen (Trace.signResize a' t)) :=
  ⟨result_signResize a t, signResize_leak h h' (BitWidth.ext e),
    fun ht => (signResize_trunc_twin (Alike.of_shape h.1 h'.1 (BitWidth.ext e)) ht).seen⟩

example : seen (Trace.signResize a150 (bw 200)) ≠ seen (Trace.signResize b150 (bw 200)) := by
  rw [ne_eq, (C96_sign_resize a150_wf b150_wf rfl (bw 200)).2.1 (by decide)]
  decide +kernel
example : seen (Trace.signResize a150 (bw 70)) = seen (Trace.signResize b150 (bw 70)) :=
  (C96_sign_resize a150_wf b150_wf rfl (bw 70)).2.2 (by decide)

/-- C96: on integers of one digit the signed comparison and `is_one` show nothing, and comparing
integers of different widths shows nothing at all. -/
theorem C96_nothing (ha : a.WF) (hb : b.WF) :
    (∀ a' b' : ApInt, a'.WF → b'.WF → b.w = a.w → a'.w = a.w → b'.w = a.w → a.w ≤ 64 →
      seen (Trace.checkedSlt a b) = seen (Trace.checkedSlt a' b') ∧
      seen (Trace.isOne a) = seen (Trace.isOne a')) ∧
    (a.w ≠ b.w → seen (Trace.eq a b) = some [] ∧ seen (Trace.checkedUlt a b) = some [] ∧
      seen (Trace.checkedSlt a b) = some []) := by
  constructor
  · intro a' b' ha' hb' e e1 e2 hw
    have q := BitWidth.ext e.symm
    have q1 := BitWidth.ext e1.symm
    have q2 := BitWidth.ext e2.symm
    exact ⟨slt_small ha.1 hb.1 ha'.1 hb'.1 q q1 q2 hw, isOne_small ha.1 ha'.1 q1 hw⟩
  · intro e
    have q : a.len ≠ b.len := fun h => e (by unfold ApInt.w; rw [h])
    exact ⟨eq_quiet e, ult_unmatched q, slt_unmatched q⟩

example : seen (Trace.checkedSlt a7 b7) = seen (Trace.checkedSlt b7 b7) :=
  ((C96_nothing a7_wf b7_wf).1 b7 b7 b7_wf b7_wf rfl rfl rfl (by decide)).1
example : seen (Trace.eq a65 a128) = some [] := ((C96_nothing a65_wf a128_wf).2 (by decide)).1

/-- C96: the traced programs return the answers and the integers, and stop with the faults, of the
programs. -/
theorem C96_same_programs (p : List Trace.Loud) (b : Bank) :
    ((Trace.runLoud p b).1, (Trace.runLoud p b).2.1) = run (p.map Trace.Loud.instr) b :=
  result_runLoud p b

/-- C96: if two runs of a program on integers of the same widths agree in what `SpecTrace.lean`
lists for their calls, then they show the same accesses and branches, and they end alike. -/
theorem C96_program (p : List Trace.Loud) {b b' : Bank} (hb : ∀ a ∈ b, a.WF) (hb' : ∀ a ∈ b', a.WF)
    (h : b.map (·.w) = b'.map (·.w)) (k : ToldBy.program p b b') :
    (Trace.runLoud p b).2.2 = (Trace.runLoud p b').2.2 ∧
      EndAlike (Trace.runLoud p b).2.1 (Trace.runLoud p b').2.1 := by
  obtain ⟨h1, h2⟩ := runLoud_twin p (alikeBank_of_widths hb hb' h) hb hb' k
  refine ⟨h1, ?_⟩
  generalize (Trace.runLoud p b).2.1 = r at *
  generalize (Trace.runLoud p b').2.1 = r' at *
  cases r <;> cases r'
  · exact h2
  · exact h2
  · exact h2
  · exact widths_of_alike h2

namespace Ex

/-- Add, compare with the other integer, and mask. -/
def whispered : List Trace.Loud :=
  [.quiet (.bin .add 0 1), .ask2 .eq 0 1, .un (.ashr 3) 0, .quiet (.bin .xor 0 1)]

end Ex

-- `a150 + c150` and `c150 + c150` are both positive and differ from `c150` in the lowest digit.
example : (Trace.runLoud whispered [a150, c150]).2.2 = (Trace.runLoud whispered [c150, c150]).2.2 := by
  refine (C96_program whispered (b := [a150, c150]) (b' := [c150, c150])
    (List.forall_mem_cons.2 ⟨a150_wf, List.forall_mem_cons.2 ⟨c150_wf, nofun⟩⟩)
    (List.forall_mem_cons.2 ⟨c150_wf, List.forall_mem_cons.2 ⟨c150_wf, nofun⟩⟩) rfl ?_).1
  refine ⟨trivial, ?_⟩
  show ToldBy.program _ [⟨bw 150, .ext [0x8000000000000001#64, 2#64, 12#64]⟩, c150]
    [⟨bw 150, .ext [2#64, 4#64, 6#64]⟩, c150]
  refine ⟨?_, ?_⟩
  · intro x h1 y h2 x' h3 y' h4
    cases h1; cases h2; cases h3; cases h4
    refine .inr fun k => ?_
    cases k with
    | zero => simp [Nat.mod_one]
    | succ k =>
      have low : ∀ {x y : Nat}, x % 2 ^ 64 ≠ y % 2 ^ 64 →
          ¬ x % 2 ^ (64 * (k + 1)) = y % 2 ^ (64 * (k + 1)) := by
        intro x y hn he
        apply hn
        have := congrArg (· % 2 ^ 64) he
        rwa [pow_digit, Nat.mod_mul_right_mod, Nat.mod_mul_right_mod] at this
      exact iff_of_false (low (by decide +kernel)) (low (by decide +kernel))
  show ToldBy.program _ [⟨bw 150, .ext [0x8000000000000001#64, 2#64, 12#64]⟩, c150]
    [⟨bw 150, .ext [2#64, 4#64, 6#64]⟩, c150]
  refine ⟨?_, ?_⟩
  · intro x h1 x' h2
    cases h1; cases h2
    unfold ToldBy.un ToldBy.SameSign
    decide +kernel
  · refine ⟨trivial, ?_⟩
    trivial

/-- C96: nothing is left out: the trace of a program is the traces of all its calls, one after the other. -/
theorem C96_every_call :
    (∀ (i : Trace.Loud) (b : Bank) r c n, i.exec b = Except.ok ((r, c), n) →
      Trace.runLoud [i] b = ([r], .ok c, n)) ∧
    ∀ (p q : List Trace.Loud) (b c : Bank), (Trace.runLoud p b).2.1 = .ok c →
      Trace.runLoud (p ++ q) b = ((Trace.runLoud p b).1 ++ (Trace.runLoud q c).1, (Trace.runLoud q c).2.1,
        (Trace.runLoud p b).2.2 ++ (Trace.runLoud q c).2.2) := by
  constructor
  · intro i b r c n h
    unfold Trace.runLoud
    rw [h]
    unfold Trace.runLoud
    simp
  · intro p
    induction p with
    | nil =>
      intro q b c h
      cases h
      show Trace.runLoud q b = ([] ++ _, _, [] ++ _)
      simp
    | cons i p ih =>
      intro q b c h
      rw [List.cons_append]
      have step : ∀ (j : Trace.Loud) (l : List Trace.Loud) (d : Bank), Trace.runLoud (j :: l) d =
          match j.exec d with
          | Except.ok ((r, d), n) => (r :: (Trace.runLoud l d).1, (Trace.runLoud l d).2.1, n ++ (Trace.runLoud l d).2.2)
          | Except.error f => ([], .error f, []) := fun _ _ _ => rfl
      rw [step] at h
      rw [step, step]
      rcases he : i.exec b with e | ⟨⟨r, d⟩, n⟩
      · rw [he] at h
        cases h
      · rw [he] at h
        dsimp only at h ⊢
        rw [ih q d c h]
        rw [List.append_assoc]
        rfl

example : (Trace.runLoud whispered [a150, c150]).2.2.length = 31 := by decide +kernel

end Verif
