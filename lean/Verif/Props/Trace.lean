import Verif.Proof.TraceRun
import Verif.Proof.TraceLeak
import Verif.Model.Work
import Verif.Props.Scratch

/-!
# C89: what an observer of memory accesses and branches learns

`Model/Trace.lean` has the calls with a trace: which digits are read and written in which order, what
is allocated, and which way every branch on the contents of a digit goes.  Programs of additions,
subtractions, bit operations, shifts to the left, logical shifts to the right, copies, truncations
and zero extensions have a trace that depends on nothing but the widths.  For the other calls it is
stated exactly what the trace tells.
-/

namespace Verif

open ApInt Ex Watched

variable {a a' b b' : ApInt}

/-- Both runs return and leave integers of the same widths, or both stop with the same fault. -/
def EndAlike : Run Bank → Run Bank → Prop
  | .ok b, .ok b' => b.map (·.w) = b'.map (·.w)
  | .error e, .error e' => e = e'
  | _, _ => False

theorem alikeBank_of_widths {b b' : Bank} (hb : ∀ a ∈ b, a.WF) (hb' : ∀ a ∈ b', a.WF)
    (h : b.map (·.w) = b'.map (·.w)) : AlikeBank b b' := by
  induction b generalizing b' with
  | nil =>
    rw [List.map_nil] at h
    rw [List.map_eq_nil_iff.1 h.symm]
    exact .nil
  | cons a b ih =>
    rcases b' with _ | ⟨a', b'⟩
    · simp at h
    · simp only [List.map_cons, List.cons.injEq] at h
      refine .cons (Alike.of_shape (hb a (by simp)).1 (hb' a' (by simp)).1 ?_)
        (ih (fun x hx => hb x (by simp [hx])) (fun x hx => hb' x (by simp [hx])) h.2)
      exact BitWidth.ext h.1

theorem widths_of_alike {b b' : Bank} (h : AlikeBank b b') : b.map (·.w) = b'.map (·.w) := by
  induction h with
  | nil => rfl
  | cons h _ ih =>
    rw [List.map_cons, List.map_cons, ih]
    unfold ApInt.w
    rw [h.1]

/-- C89: programs made of the calls in `Trace.Quiet`, run on integers of the same widths, show the
same accesses and branches whatever the values are, and end alike. -/
theorem C89_quiet (p : List Trace.Quiet) {b b' : Bank} (hb : ∀ a ∈ b, a.WF) (hb' : ∀ a ∈ b', a.WF)
    (h : b.map (·.w) = b'.map (·.w)) :
    (Trace.run p b).2.2 = (Trace.run p b').2.2 ∧
      EndAlike (Trace.run p b).2.1 (Trace.run p b').2.1 := by
  obtain ⟨h1, h2⟩ := run_twin p (alikeBank_of_widths hb hb' h) hb hb'
  refine ⟨h1, ?_⟩
  generalize (Trace.run p b).2.1 = r at *
  generalize (Trace.run p b').2.1 = r' at *
  cases r <;> cases r'
  · exact h2
  · exact h2
  · exact h2
  · exact widths_of_alike h2

/-- C89: the traced programs return the answers and the integers, and stop with the faults, of the
programs. -/
theorem C89_same_programs (p : List Trace.Quiet) (b : Bank) :
    ((Trace.run p b).1, (Trace.run p b).2.1) = run (p.map Trace.Quiet.instr) b := result_run p b

namespace Ex

/-- Add, shift, mask, ask. -/
def hushed : List Trace.Quiet :=
  [.bin .add 0 1, .un (.shl 70) 0, .intoBin .xor 1 0, .alter (.flipBit 3) 2, .ask .countOnes 2,
    .un (.truncate (bw 65)) 0]

/-- One integer of the same width. -/
def c150 : ApInt := ⟨bw 150, .ext [1#64, 2#64, 3#64]⟩

/-- Zero. -/
def zero256 : ApInt := ⟨bw 256, .ext [0#64, 0#64, 0#64, 0#64]⟩

theorem c150_wf : c150.WF := by decide +kernel

end Ex

example : (Trace.run hushed [a150, b150]).2.2 = (Trace.run hushed [c150, a150]).2.2 :=
  (C89_quiet hushed (b := [a150, b150]) (b' := [c150, a150]) (by simpa using ⟨a150_wf, b150_wf⟩) 
    (by simpa using ⟨c150_wf, a150_wf⟩) rfl).1

-- The trace is not empty, and the values are not the same.
example : (Trace.run hushed [a150, b150]).2.2.length = 50 ∧
    (Trace.run hushed [a150, b150]).1 ≠ (Trace.run hushed [c150, a150]).1 := by decide +kernel

example : (Trace.run [.bin .add 0 1] [a150, b150]).2.2 =
    [.read .self 0, .read .rhs 0, .write .self 0, .read .self 1, .read .rhs 1, .write .self 1,
      .read .self 2, .read .rhs 2, .write .self 2, .read .self 2, .write .self 2] := by
  decide +kernel

/-- C89: the traced calls that show something return what the calls return. -/
theorem C89_same_calls (a b : ApInt) (s : Nat) (t : BitWidth) :
    result (Trace.wrappingInc a) = a.wrappingInc ∧ result (Trace.wrappingDec a) = a.wrappingDec ∧
    result (Trace.wrappingNeg a) = a.wrappingNeg ∧ result (Trace.isZero a) = a.isZero ∧
    result (Trace.checkedUlt a b) = a.checkedUlt b ∧
    result (Trace.wrappingAshrAssign a s) = a.wrappingAshrAssign s ∧
    result (Trace.signExtend a t) = a.signExtend t :=
  ⟨result_wrappingInc a, result_wrappingDec a, result_wrappingNeg a, result_isZero a,
    result_checkedUlt a b, result_wrappingAshrAssign a s, result_signExtend a t⟩

example : seen (Trace.wrappingInc a128) = some [.read .self 0, .write .self 0, .test true,
    .read .self 1, .write .self 1, .test false] := by decide +kernel

/-- C89: incrementing shows how many digits the carry runs through, and nothing else. -/
theorem C89_inc (h : a.WF) (h' : a'.WF) (e : a.w = a'.w) (hw : 64 < a.w) :
    seen (Trace.wrappingInc a) = seen (Trace.wrappingInc a') ↔
      ∀ k, 2 ^ (64 * k) ∣ a.uval + 1 ↔ 2 ^ (64 * k) ∣ a'.uval + 1 :=
  inc_leak h.1 h'.1 (BitWidth.ext e) hw

example : seen (Trace.wrappingInc a128) ≠ seen (Trace.wrappingInc b128) := by
  rw [ne_eq, C89_inc a128_wf b128_wf rfl (by decide)]
  intro h
  exact absurd ((h 1).1 (by decide +kernel)) (by decide +kernel)

/-- C89: decrementing shows how many of the low digits are zero, and nothing else. -/
theorem C89_dec (h : a.WF) (h' : a'.WF) (e : a.w = a'.w) (hw : 64 < a.w) :
    seen (Trace.wrappingDec a) = seen (Trace.wrappingDec a') ↔
      ∀ k, 2 ^ (64 * k) ∣ a.uval ↔ 2 ^ (64 * k) ∣ a'.uval :=
  dec_leak h.1 h'.1 (BitWidth.ext e) hw

example : seen (Trace.wrappingDec a150) ≠ seen (Trace.wrappingDec b150) := by
  rw [ne_eq, C89_dec a150_wf b150_wf rfl (by decide)]
  intro h
  exact absurd ((h 1).2 (by decide +kernel)) (by decide +kernel)

/-- C89: negating shows how many of the low digits are zero, up to the last whole digit, and nothing
else. -/
theorem C89_neg (h : a.WF) (h' : a'.WF) (e : a.w = a'.w) (hw : 64 < a.w) :
    seen (Trace.wrappingNeg a) = seen (Trace.wrappingNeg a') ↔
      ∀ k, 64 * k ≤ a.w → (2 ^ (64 * k) ∣ a.uval ↔ 2 ^ (64 * k) ∣ a'.uval) :=
  neg_leak h h' (BitWidth.ext e) hw

example : seen (Trace.wrappingNeg a150) ≠ seen (Trace.wrappingNeg b150) := by
  rw [ne_eq, C89_neg a150_wf b150_wf rfl (by decide)]
  intro h
  exact absurd ((h 1 (by decide)).2 (by decide +kernel)) (by decide +kernel)

/-- C89: the test for zero shows how many of the low digits are zero, and nothing else. -/
theorem C89_is_zero (h : a.WF) (h' : a'.WF) (e : a.w = a'.w) (hw : 64 < a.w) :
    seen (Trace.isZero a) = seen (Trace.isZero a') ↔
      ∀ k, 2 ^ (64 * k) ∣ a.uval ↔ 2 ^ (64 * k) ∣ a'.uval :=
  isZero_leak h.1 h'.1 (BitWidth.ext e) hw

example : seen (Trace.isZero a150) ≠ seen (Trace.isZero b150) := by
  rw [ne_eq, C89_is_zero a150_wf b150_wf rfl (by decide)]
  intro h
  exact absurd ((h 1).2 (by decide +kernel)) (by decide +kernel)

/-- C89: comparing shows the order of the operands and how many of their high digits agree, and
nothing else. -/
theorem C89_ult (ha : a.WF) (hb : b.WF) (ha' : a'.WF) (hb' : b'.WF) (e : b.w = a.w)
    (e1 : a'.w = a.w) (e2 : b'.w = a.w) (hw : 64 < a.w) :
    seen (Trace.checkedUlt a b) = seen (Trace.checkedUlt a' b') ↔
      (a.uval < b.uval ↔ a'.uval < b'.uval) ∧ (b.uval < a.uval ↔ b'.uval < a'.uval) ∧
      ∀ k, a.uval / 2 ^ (64 * k) = b.uval / 2 ^ (64 * k) ↔
        a'.uval / 2 ^ (64 * k) = b'.uval / 2 ^ (64 * k) :=
  ult_leak ha.1 hb.1 ha'.1 hb'.1 (BitWidth.ext e.symm) (BitWidth.ext e1.symm)
    (BitWidth.ext e2.symm) hw

-- Both `a150 < b150` and `c150 < a150`, with the difference in the top digit.
example : seen (Trace.checkedUlt a150 b150) = seen (Trace.checkedUlt c150 a150) := by
  decide +kernel
example : seen (Trace.checkedUlt a150 a150) ≠ seen (Trace.checkedUlt c150 a150) := by
  rw [ne_eq, C89_ult a150_wf a150_wf c150_wf a150_wf rfl rfl rfl (by decide)]
  intro h
  exact absurd (h.1.2 (by decide +kernel)) (by decide +kernel)

/-- C89: arithmetic shifts to the right and sign extensions show the sign, and nothing else. -/
theorem C89_sign (h : a.WF) (h' : a'.WF) (e : a.w = a'.w) :
    (∀ s, seen (Trace.wrappingAshrAssign a s) = seen (Trace.wrappingAshrAssign a' s) ↔
      (a.sval < 0 ↔ a'.sval < 0)) ∧
    ∀ t : BitWidth, a.w < t.toUsize →
      (seen (Trace.signExtend a t) = seen (Trace.signExtend a' t) ↔ (a.sval < 0 ↔ a'.sval < 0)) := by
  have neg : ∀ {x : ApInt}, x.WF → (x.sval < 0 ↔ 2 ^ (x.w - 1) ≤ x.uval) := by
    intro x hx
    have h1 := hx.2
    have h3 : ((2 : Int) ^ x.w) = ((2 ^ x.w : Nat) : Int) := by push_cast; rfl
    unfold sval
    rw [h3]
    generalize 2 ^ x.w = p at *
    generalize 2 ^ (x.w - 1) = q at *
    split <;> omega
  rw [neg h, neg h', ← e]
  exact ⟨fun _ => ashr_leak h h' (BitWidth.ext e),
    fun _ ht => signExtend_leak h h' (BitWidth.ext e) ht⟩

example : seen (Trace.wrappingAshrAssign a150 70) = seen (Trace.wrappingAshrAssign c150 70) :=
  ((C89_sign a150_wf c150_wf rfl).1 70).2 (by decide +kernel)
example : seen (Trace.wrappingAshrAssign a150 70) ≠ seen (Trace.wrappingAshrAssign b150 70) := by
  rw [ne_eq, (C89_sign a150_wf b150_wf rfl).1 70]
  decide +kernel
example : seen (Trace.signExtend a150 (bw 200)) ≠ seen (Trace.signExtend b150 (bw 200)) := by
  rw [ne_eq, (C89_sign a150_wf b150_wf rfl).2 (bw 200) (by decide)]
  decide +kernel

/-- C89: on integers of one digit all these calls but those that look at the sign show nothing. -/
theorem C89_one_digit (ha : a.WF) (hb : b.WF) (ha' : a'.WF) (hb' : b'.WF) (e : b.w = a.w)
    (e1 : a'.w = a.w) (e2 : b'.w = a.w) (hw : a.w ≤ 64) :
    seen (Trace.wrappingInc a) = seen (Trace.wrappingInc a') ∧
    seen (Trace.wrappingDec a) = seen (Trace.wrappingDec a') ∧
    seen (Trace.wrappingNeg a) = seen (Trace.wrappingNeg a') ∧
    seen (Trace.isZero a) = seen (Trace.isZero a') ∧
    seen (Trace.checkedUlt a b) = seen (Trace.checkedUlt a' b') := by
  have q := BitWidth.ext e.symm
  have q1 := BitWidth.ext e1.symm
  have q2 := BitWidth.ext e2.symm
  exact ⟨(inc_small ha.1 ha'.1 q1 hw).seen, (dec_small ha.1 ha'.1 q1 hw).seen,
    (neg_small ha ha' q1 hw).seen, isZero_small ha.1 ha'.1 q1 hw,
    ult_small ha.1 hb.1 ha'.1 hb'.1 q q1 q2 hw⟩

example : seen (Trace.checkedUlt a7 b7) = seen (Trace.checkedUlt b7 b7) :=
  (C89_one_digit a7_wf b7_wf b7_wf b7_wf rfl rfl rfl (by decide)).2.2.2.2
example : seen (Trace.wrappingNeg a7) = some [.read .self 0, .write .self 0, .read .self 0,
    .write .self 0, .read .self 0, .write .self 0, .read .self 0, .write .self 0] := by
  decide +kernel

/-- C89: multiplication and division are not among the calls that show nothing: the number of digits
they touch depends on the values. -/
theorem C89_products_show :
    (∃ a a' b : ApInt, a.WF ∧ a'.WF ∧ b.WF ∧ a.w = b.w ∧ a'.w = b.w ∧
      (Count.wrappingMulAssign a b).toOption.map (·.2) ≠
        (Count.wrappingMulAssign a' b).toOption.map (·.2)) ∧
    ∃ a a' b : ApInt, a.WF ∧ a'.WF ∧ b.WF ∧ a.w = b.w ∧ a'.w = b.w ∧
      (Count.wrappingUdivAssign a b).toOption.map (·.2) ≠
        (Count.wrappingUdivAssign a' b).toOption.map (·.2) :=
  ⟨⟨a256, zero256, d256, a256_wf, by decide +kernel, d256_wf, rfl, rfl,
      by decide +kernel⟩,
    ⟨a256, zero256, b256, a256_wf, by decide +kernel, b256_wf, rfl, rfl,
      by decide +kernel⟩⟩

/-- C89: nothing is left out: the trace of a program is the traces of all its calls, one after the other. -/
theorem C89_every_call :
    (∀ (i : Trace.Quiet) (b : Bank) r c n, i.exec b = Except.ok ((r, c), n) →
      Trace.run [i] b = ([r], .ok c, n)) ∧
    ∀ (p q : List Trace.Quiet) (b c : Bank), (Trace.run p b).2.1 = .ok c →
      Trace.run (p ++ q) b = ((Trace.run p b).1 ++ (Trace.run q c).1, (Trace.run q c).2.1,
        (Trace.run p b).2.2 ++ (Trace.run q c).2.2) := by
  constructor
  · intro i b r c n h
    unfold Trace.run
    rw [h]
    unfold Trace.run
    simp
  · intro p
    induction p with
    | nil =>
      intro q b c h
      cases h
      show Trace.run q b = ([] ++ _, _, [] ++ _)
      simp
    | cons i p ih =>
      intro q b c h
      rw [List.cons_append]
      have step : ∀ (j : Trace.Quiet) (l : List Trace.Quiet) (d : Bank), Trace.run (j :: l) d =
          match j.exec d with
          | Except.ok ((r, d), n) => (r :: (Trace.run l d).1, (Trace.run l d).2.1, n ++ (Trace.run l d).2.2)
          | Except.error f => ([], .error f, []) := fun _ _ _ => rfl
      rw [step] at h
      rw [step, step]
      rcases he : i.exec b with e | ⟨⟨r, d⟩, n⟩
      · rw [he] at h
        cases h
      · rw [he] at h
        dsimp only at h ⊢
        rw [ih q d c h]
        rw [List.append_assoc]
        rfl

example : (Trace.run [.bin .add 0 1, .bin .xor 0 1] [a150, b150]).2.2.length = 20 := by decide +kernel

end Verif
