import Verif.Proof.WorkProgramRun

/-!
# C95: the work of whole programs

`Model/WorkProgram.lean` has every call of a program with a count of the digits and bytes that are
touched; `SpecWorkProgram.lean` says how many that may be.
-/

namespace Verif

open ApInt Ex

variable {W : Nat} {b : Bank}

namespace Ex

/-- Two numbers of different width, made from text, multiplied, divided and printed. -/
def mixed : List Instr :=
  [.make (.parse 3 "ffff_ffff_ffff_ffff_1".toList), .make (.i64 (-3)), .un (.signExtend (bw 128)) 1,
    .bin .mul 0 1, .op .add 0 1, .ask .lowerHex 2, .pair .sdivrem 2 1, .bin .sdiv 0 1,
    .ask2 .slt 0 1, .ask .leadingZeros 2, .alter (.setBit 100) 2, .ask (.tryTo .i128) 2, .drop 0]

theorem mixed_within : ∀ i ∈ mixed, i.Within 128 := by
  intro i hi
  simp only [mixed, List.mem_cons, List.not_mem_nil, or_false] at hi
  rcases hi with rfl | rfl | rfl | rfl | rfl | rfl | rfl | rfl | rfl | rfl | rfl | rfl | rfl <;>
    first
      | exact trivial
      | exact Nat.le_refl 128
      | (intro z hz
         have hw : z.width = 128 ∨ z.width = 64 := by
           revert hz
           simp only [Make.spec]
           split
           · intro hz
             cases hz
             exact Or.inl (by decide)
           · intro hz
             cases hz
         omega)
      | (intro z hz; cases hz; exact (by decide : 64 ≤ 128))

theorem bank_within : ∀ a ∈ [a150, b65, b150], a.WF ∧ a.w ≤ 192 := by decide +kernel

end Ex

/-- C95: every call does what it does without the count, faults included, and touches at most
quadratically many digits if it multiplies or divides, linearly many if it does anything else, and
seven bytes and digits for each byte that it parses.  The bank may hold integers of any widths up to
`W`; the call may be one that fails. -/
theorem C95_call (i : Instr) (hi : i.Within W) (hb : ∀ a ∈ b, a.WF ∧ a.w ≤ W) :
    Takes (Count.exec i b) (i.exec b) (i.mayTouch (digitsOf W)) :=
  exec_bnd i hi hb

-- A signed comparison of two negative numbers looks at the top digits and then compares from above.
example : count (Count.exec (.ask2 .slt 0 0) [b150]) = some 14 := by decide +kernel
example : count (Count.exec (.ask2 .eq 0 2) [a150, b65, b150]) = some 6 := by decide +kernel
example : count (Count.exec (.ask .leadingZeros 1) [a150, b65]) = some 2 := by decide +kernel
example : count (Count.exec (.ask .trailingZeros 2) [a150, b65, b150]) = some 2 := by decide +kernel
example : count (Count.exec (.ask (.tryTo .u8) 1) [a150, b65]) = some 2 := by decide +kernel
example : count (Count.exec (.ask (.tryTo .u128) 0) [a150, b65]) = some 9 := by decide +kernel
example : count (Count.exec (.make (.signedMax (bw 150))) []) = some 13 := by decide +kernel
example : count (Count.exec (.alter (.randomize fun _ => 7#64) 0) [a150]) = some 8 := by decide +kernel
example : count (Count.exec (.intoUn (.signResize (bw 192)) 0) [b65]) = some 13 := by decide +kernel
-- Operands of different widths: the divisor is negated before the mismatch is noticed.
example : Takes (Count.exec (.bin .sdiv 0 1) [a150, b65, b150])
    ((Instr.bin .sdiv 0 1).exec [a150, b65, b150]) 428 :=
  C95_call (W := 192) _ trivial bank_within

/-- C95: no call of such a program makes an integer of more than `W` bits. -/
theorem C95_widths (i : Instr) (hi : i.Within W) (hb : ∀ a ∈ b, a.WF ∧ a.w ≤ W) {r : Res Out}
    {c : Bank} (h : i.exec b = .ok (r, c)) : ∀ a ∈ c, a.WF ∧ a.w ≤ W :=
  exec_within i hi hb h

example : ∀ a ∈ [a150, b65, b150, a150], a.WF ∧ a.w ≤ 192 :=
  C95_widths (r := .ok .unit) (.clone 0) trivial bank_within (by decide +kernel)

/-- C95: a program gives the answers it gives without the count, ends as it does, and touches at most
what its calls may touch. -/
theorem C95_program (p : List Instr) (hp : ∀ i ∈ p, i.Within W) (hb : ∀ a ∈ b, a.WF ∧ a.w ≤ W) :
    ((Count.run p b).1, (Count.run p b).2.1) = run p b ∧
    (Count.run p b).2.2 ≤ (p.map (Instr.mayTouch (digitsOf W))).sum := by
  obtain ⟨h1, h2, h3⟩ := run_bnd p hp hb
  exact ⟨Prod.ext h1 h2, h3⟩

/-- C95: so a program of `n` calls on integers of at most `W` bits touches at most `n` times
quadratically many digits, and seven for each byte that it parses. -/
theorem C95_quadratic (p : List Instr) (hp : ∀ i ∈ p, i.Within W) (hb : ∀ a ∈ b, a.WF ∧ a.w ≤ W) :
    (Count.run p b).2.2 ≤ p.length * (14 * digitsOf W ^ 2 + 72 * digitsOf W + 86) +
      7 * (p.map Instr.textBytes).sum := by
  refine Nat.le_trans (C95_program p hp hb).2 ?_
  clear hp hb
  induction p with
  | nil => exact Nat.zero_le _
  | cons i p ih =>
    rw [List.map_cons, List.map_cons, List.sum_cons, List.sum_cons, List.length_cons, Nat.add_mul]
    have : i.mayTouch (digitsOf W) ≤
        14 * digitsOf W ^ 2 + 72 * digitsOf W + 86 + 7 * i.textBytes := by
      unfold Instr.mayTouch
      split <;> omega
    omega

-- 13 calls on integers of up to 128 bits.
example : (Count.run mixed []).2.2 = 249 := by decide +kernel
example : (Count.run mixed []).2.2 ≤ 13 * (14 * 2 ^ 2 + 72 * 2 + 86) + 7 * 21 :=
  C95_quadratic mixed mixed_within (by simp)

/-- C95: and without multiplications and divisions linearly many. -/
theorem C95_linear (p : List Instr) (hp : ∀ i ∈ p, i.Within W) (hl : ∀ i ∈ p, i.heavy = false)
    (hb : ∀ a ∈ b, a.WF ∧ a.w ≤ W) :
    (Count.run p b).2.2 ≤ p.length * (66 * digitsOf W + 12) + 7 * (p.map Instr.textBytes).sum := by
  refine Nat.le_trans (C95_program p hp hb).2 ?_
  clear hp hb
  induction p with
  | nil => exact Nat.zero_le _
  | cons i p ih =>
    rw [List.map_cons, List.map_cons, List.sum_cons, List.sum_cons, List.length_cons, Nat.add_mul]
    have h := ih fun j hj => hl j (by simp [hj])
    have : i.mayTouch (digitsOf W) = 66 * digitsOf W + 12 + 7 * i.textBytes := by
      unfold Instr.mayTouch
      rw [hl i (by simp)]
      rfl
    omega

example : (Count.run [.un .neg 0, .ask .binary 0, .ask2 .sle 0 2] [a150, b65, b150]).2.2 ≤
    3 * (66 * 3 + 12) :=
  C95_linear (W := 192) _ (by simp [Instr.Within, Un.Within]) (by decide) bank_within

/-- C95: nothing is left out: the count of a program is the sum of the counts of all its calls. -/
theorem C95_every_call :
    (∀ (i : Instr) (b : Bank) r c n, Count.exec i b = Except.ok ((r, c), n) →
      Count.run [i] b = ([r], .ok c, n)) ∧
    ∀ (p q : List Instr) (b c : Bank), (Count.run p b).2.1 = .ok c →
      Count.run (p ++ q) b = ((Count.run p b).1 ++ (Count.run q c).1, (Count.run q c).2.1,
        (Count.run p b).2.2 + (Count.run q c).2.2) := by
  constructor
  · intro i b r c n h
    unfold Count.run
    rw [h]
    unfold Count.run
    simp
  · intro p
    induction p with
    | nil =>
      intro q b c h
      cases h
      show Count.run q b = ([] ++ _, _, 0 + _)
      simp
    | cons i p ih =>
      intro q b c h
      rw [List.cons_append]
      have step : ∀ (j : Instr) (l : List Instr) (d : Bank), Count.run (j :: l) d =
          match Count.exec j d with
          | Except.ok ((r, d), n) => (r :: (Count.run l d).1, (Count.run l d).2.1, n + (Count.run l d).2.2)
          | Except.error f => ([], .error f, 0) := fun _ _ _ => rfl
      rw [step] at h
      rw [step, step]
      rcases he : Count.exec i b with e | ⟨⟨r, d⟩, n⟩
      · rw [he] at h
        cases h
      · rw [he] at h
        dsimp only at h ⊢
        rw [ih q d c h]
        rw [Nat.add_assoc]
        rfl

example : (Count.run [.un .neg 0, .ask .binary 0] [a150]).2.2 = 169 := by decide +kernel

end Verif
