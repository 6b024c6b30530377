import Verif.Proof.TypedWork
import Verif.Props.WorkProgram

/-!
# C97: the work of whole programs over `UInt` and `Int`

`Model/TypedWork.lean` counts the digits and bytes that the methods of `UInt` and `Int` touch through
their fields; `SpecTypedWork.lean` says how many that may be.
-/

namespace Verif

open ApInt Ex

variable {W : Nat} {b : TBank}

namespace Ex

/-- Two signed numbers made from text, multiplied, divided, compared and printed. -/
def tmixed : List TInstr :=
  [.make (.parse .signed 3 "ffff_ffff_ffff_ffff_1".toList), .make (.i64 (-3)),
    .un (.extend (bw 128)) 1, .clone 0, .bin .mul 0 1, .op .add 0 1, .ask .lowerHex 0,
    .opAssign .div 0 1, .intoBin .rem 0 1, .ask2 .partialCmp 0 1, .un .abs 1, .ask .signum 1,
    .intoUnsigned 1, .ask .leadingZeros 1, .drop 0]

theorem tmixed_within : ∀ i ∈ tmixed, i.Within 128 := by
  intro i hi
  simp only [tmixed, List.mem_cons, List.not_mem_nil, or_false] at hi
  rcases hi with rfl | rfl | rfl | rfl | rfl | rfl | rfl | rfl | rfl | rfl | rfl | rfl | rfl | rfl |
    rfl <;>
    first
      | exact trivial
      | exact Nat.le_refl 128
      | (intro z hz
         have hw : z.width = 128 ∨ z.width = 64 := by
           revert hz
           simp only [TMake.spec]
           split
           · intro hz
             cases hz
             exact Or.inl (by decide)
           · intro hz
             cases hz
         omega)
      | (intro z hz; cases hz; exact (by decide : 64 ≤ 128))

/-- A bank of both types and different widths. -/
def tbank : TBank := [.s ⟨b150⟩, .u ⟨b65⟩, .s ⟨a150⟩, .u ⟨a150⟩]

theorem tbank_within : ∀ a ∈ tbank, a.value.WF ∧ a.value.w ≤ 192 := by decide +kernel

end Ex

/-- C97: every call does what it does without the count, faults included, and touches at most
quadratically many digits if it multiplies or divides, linearly many if it does anything else, and
seven bytes and digits for each byte that it parses.  The bank may hold integers of both types and of
any widths up to `W`; the call may be one that fails or panics. -/
theorem C97_call (i : TInstr) (hi : i.Within W) (hb : ∀ a ∈ b, a.value.WF ∧ a.value.w ≤ W) :
    Takes (Count.texec i b) (i.exec b) (i.mayTouch (digitsOf W)) :=
  (texec_bnd i hi hb).1

-- `abs` asks for the sign and negates; `signum` asks for zero and for the sign.
example : count (Count.texec (.un .abs 0) tbank) = some 17 := by decide +kernel
example : count (Count.texec (.un .abs 2) tbank) = some 1 := by decide +kernel
example : count (Count.texec (.ask .signum 0) tbank) = some 5 := by decide +kernel
-- The order of two integers is found with `<` and `==`.
example : count (Count.texec (.ask2 .partialCmp 0 2) tbank) = some 2 := by decide +kernel
example : count (Count.texec (.ask2 .partialCmp 0 0) tbank) = some 20 := by decide +kernel
-- Integers of different types are no Rust program; of different widths an error.
example : count (Count.texec (.bin .add 0 3) tbank) = some 0 := by decide +kernel
example : count (Count.texec (.bin .div 1 3) tbank) = some 0 := by decide +kernel
example : Takes (Count.texec (.bin .div 0 2) tbank) ((TInstr.bin .div 0 2).exec tbank) 428 :=
  C97_call (W := 192) _ trivial tbank_within
-- A panic.
example : Takes (Count.texec (.op .add 1 3) tbank) (.error .panic) 420 :=
  C97_call (W := 192) (.op .add 1 3) trivial tbank_within

/-- C97: no call of such a program makes an integer of more than `W` bits. -/
theorem C97_widths (i : TInstr) (hi : i.Within W) (hb : ∀ a ∈ b, a.value.WF ∧ a.value.w ≤ W)
    {r : Res TOut} {c : TBank} (h : i.exec b = .ok (r, c)) :
    ∀ a ∈ c, a.value.WF ∧ a.value.w ≤ W :=
  (texec_bnd i hi hb).2 r c h

example : ∀ a ∈ tbank ++ [.u ⟨b65⟩], a.value.WF ∧ a.value.w ≤ 192 :=
  C97_widths (r := .ok (.out .unit)) (.clone 1) trivial tbank_within rfl

/-- C97: a program gives the answers it gives without the count, ends as it does, and touches at most
what its calls may touch. -/
theorem C97_program (p : List TInstr) (hp : ∀ i ∈ p, i.Within W)
    (hb : ∀ a ∈ b, a.value.WF ∧ a.value.w ≤ W) :
    ((Count.trun p b).1, (Count.trun p b).2.1) = trun p b ∧
    (Count.trun p b).2.2 ≤ (p.map (TInstr.mayTouch (digitsOf W))).sum := by
  obtain ⟨h1, h2, h3⟩ := trun_bnd p hp hb
  exact ⟨Prod.ext h1 h2, h3⟩

example : ((Count.trun tmixed []).1, (Count.trun tmixed []).2.1) = trun tmixed [] :=
  (C97_program tmixed tmixed_within (by simp)).1

/-- C97: so a program of `n` calls on integers of at most `W` bits touches at most `n` times
quadratically many digits, and seven for each byte that it parses. -/
theorem C97_quadratic (p : List TInstr) (hp : ∀ i ∈ p, i.Within W)
    (hb : ∀ a ∈ b, a.value.WF ∧ a.value.w ≤ W) :
    (Count.trun p b).2.2 ≤ p.length * (14 * digitsOf W ^ 2 + 132 * digitsOf W + 86) +
      7 * (p.map TInstr.textBytes).sum := by
  refine Nat.le_trans (C97_program p hp hb).2 ?_
  clear hp hb
  induction p with
  | nil => exact Nat.zero_le _
  | cons i p ih =>
    rw [List.map_cons, List.map_cons, List.sum_cons, List.sum_cons, List.length_cons, Nat.add_mul]
    have : i.mayTouch (digitsOf W) ≤
        14 * digitsOf W ^ 2 + 132 * digitsOf W + 86 + 7 * i.textBytes := by
      unfold TInstr.mayTouch
      split <;> omega
    omega

-- 15 calls on integers of up to 128 bits.
example : (Count.trun tmixed []).2.2 = 286 := by decide +kernel
example : (Count.trun tmixed []).2.2 ≤ 15 * (14 * 2 ^ 2 + 132 * 2 + 86) + 7 * 21 :=
  C97_quadratic tmixed tmixed_within (by simp)

/-- C97: and without multiplications and divisions linearly many. -/
theorem C97_linear (p : List TInstr) (hp : ∀ i ∈ p, i.Within W) (hl : ∀ i ∈ p, i.heavy = false)
    (hb : ∀ a ∈ b, a.value.WF ∧ a.value.w ≤ W) :
    (Count.trun p b).2.2 ≤ p.length * (132 * digitsOf W + 24) +
      7 * (p.map TInstr.textBytes).sum := by
  refine Nat.le_trans (C97_program p hp hb).2 ?_
  clear hp hb
  induction p with
  | nil => exact Nat.zero_le _
  | cons i p ih =>
    rw [List.map_cons, List.map_cons, List.sum_cons, List.sum_cons, List.length_cons, Nat.add_mul]
    have h := ih fun j hj => hl j (by simp [hj])
    have : i.mayTouch (digitsOf W) = 132 * digitsOf W + 24 + 7 * i.textBytes := by
      unfold TInstr.mayTouch
      rw [hl i (by simp)]
      rfl
    omega

example : (Count.trun [.un .abs 0, .ask .binary 0, .ask2 .partialCmp 0 2] tbank).2.2 ≤
    3 * (132 * 3 + 24) :=
  C97_linear (W := 192) _ (by simp [TInstr.Within, TUn.Within]) (by decide) tbank_within

/-- C97: nothing is left out: the count of a program is the sum of the counts of all its calls. -/
theorem C97_every_call :
    (∀ (i : TInstr) (b : TBank) r c n, Count.texec i b = Except.ok ((r, c), n) →
      Count.trun [i] b = ([r], .ok c, n)) ∧
    ∀ (p q : List TInstr) (b c : TBank), (Count.trun p b).2.1 = .ok c →
      Count.trun (p ++ q) b = ((Count.trun p b).1 ++ (Count.trun q c).1, (Count.trun q c).2.1,
        (Count.trun p b).2.2 + (Count.trun q c).2.2) := by
  constructor
  · intro i b r c n h
    unfold Count.trun
    rw [h]
    unfold Count.trun
    simp
  · intro p
    induction p with
    | nil =>
      intro q b c h
      cases h
      show Count.trun q b = ([] ++ _, _, 0 + _)
      simp
    | cons i p ih =>
      intro q b c h
      rw [List.cons_append]
      have step : ∀ (j : TInstr) (l : List TInstr) (d : TBank), Count.trun (j :: l) d =
          match Count.texec j d with
          | Except.ok ((r, d), n) => (r :: (Count.trun l d).1, (Count.trun l d).2.1, n + (Count.trun l d).2.2)
          | Except.error f => ([], .error f, 0) := fun _ _ _ => rfl
      rw [step] at h
      rw [step, step]
      rcases he : Count.texec i b with e | ⟨⟨r, d⟩, n⟩
      · rw [he] at h
        cases h
      · rw [he] at h
        dsimp only at h ⊢
        rw [ih q d c h]
        rw [Nat.add_assoc]
        rfl

example : (Count.trun [.un .abs 0, .ask .signum 0] tbank).2.2 = 22 := by decide +kernel

end Verif
