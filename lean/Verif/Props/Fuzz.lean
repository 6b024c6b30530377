import Verif.Proof.Fuzz
import Verif.Props.Witness

/-! # The crate's own property tests pass for every input (C70) -/

namespace Verif.Props

open ApInt Ex Fuzz

/-- C70, what a failing test would look like: the assertion of the tests panics exactly on two
integers that differ. -/
theorem C70_assertion {a b : ApInt} (ha : a.WF) (hb : b.WF) :
    (a = b → assertEq a b = .ok ()) ∧ (a ≠ b → assertEq a b = .error .panic) := by
  have h := (C03_equivalence ha hb ha).2.2.2
  constructor
  · intro e
    unfold assertEq
    rw [h.2 e]
    rfl
  · intro e
    unfold assertEq
    rw [C03_eq ha hb] at h ⊢
    by_cases hd : a.w = b.w ∧ a.uval = b.uval
    · exact absurd (h.1 (by rw [decide_eq_true hd])) e
    · rw [decide_eq_false hd]
      rfl

example : assertEq a150 b150 = .error .panic :=
  (C70_assertion a150_wf b150_wf).2 (by decide)

/-- C70: the "identities party" of the fuzzer succeeds for any three integers of any width,
whatever shift and truncation it draws. -/
theorem C70_identities (draw draw' : Nat) {len : BitWidth} {zero lhs rhs third : ApInt}
    (hz : zero.WF) (hl : lhs.WF) (hr : rhs.WF) (ht : third.WF)
    (ez : zero.len = len) (el : lhs.len = len) (er : rhs.len = len) (et : third.len = len)
    (vz : zero.uval = 0) :
    identities draw draw' len.toUsize len zero lhs rhs third = .ok () :=
  identities_ok draw draw' hz hl hr ht ez el er et vz

/-- Zero at 150 bits. -/
def z150 : ApInt := ⟨bw 150, .ext [0#64, 0#64, 0#64]⟩

example : identities 1000 77 150 (bw 150) z150 a150 b150 a150 = .ok () :=
  C70_identities 1000 77 (len := bw 150) (by decide) a150_wf b150_wf a150_wf rfl rfl rfl rfl
    (by decide)

/-- C70: the random fuzzer never fails, for any size, number of rounds and random values.  It
takes remainders by `size as u32`, so that a size divisible by `2 ^ 32` divides by zero. -/
theorem C70_fuzz_random {size : Nat} (h : size % 2 ^ 32 ≠ 0) (draws : List Draws) :
    fuzzRandom size draws = .ok () := fuzzRandom_ok h draws

example (draws : List Draws) : fuzzRandom 193 draws = .ok () := C70_fuzz_random (by decide) draws

/-- C70: the edge case fuzzer takes each operand once for every way to fill the digits with 0, 1, the
largest digit and the one below it, and the operand is what the digits say, cut to the size. -/
theorem C70_edges {size cd : Nat} (h : 0 < size)
    (hcd : cd = if size % 64 = 0 then size / 64 else size / 64 + 1) (ds : List (BitVec 64))
    (hl : ds.length = cd)
    (hd : ∀ d ∈ ds, d.toNat ∈ [0, 1, 2 ^ 64 - 2, 2 ^ 64 - 1]) :
    ∃ i, i < 2 ^ (cd * 2) ∧ (∀ j, j < 2 ^ (cd * 2) → edgeDigits cd j = ds → j = i) ∧
      ∃ c, edgeValue size cd i = .ok c ∧ c.WF ∧ c.w = size ∧
        c.uval = ds.foldl (fun acc d => acc * 2 ^ 64 + d.toNat) 0 % 2 ^ size := by
  have hp : 2 ^ (cd * 2) = 4 ^ cd := by rw [Nat.mul_comm, Nat.pow_mul]
  obtain ⟨i, h1, h2⟩ := edgeDigits_surj ds fun d h => by
    have := hd d h
    simp only [List.mem_cons, List.not_mem_nil, or_false] at this
    rcases this with e | e | e | e
    · exact .inl (BitVec.eq_of_toNat_eq e)
    · exact .inr (.inl (BitVec.eq_of_toNat_eq e))
    · exact .inr (.inr (.inl (BitVec.eq_of_toNat_eq e)))
    · exact .inr (.inr (.inr (BitVec.eq_of_toNat_eq e)))
  rw [hl] at h1 h2
  rw [hp]
  refine ⟨i, h1, fun j hj e => edgeDigits_inj cd j i hj h1 (e.trans h2.symm), ?_⟩
  obtain ⟨c, e, c1, c2, c3⟩ := edgeValue_ok h hcd i
  exact ⟨c, e, c1, by unfold ApInt.w; rw [c2], by rw [c3, h2]⟩

example : ∃ i, ∃ c, edgeValue 65 2 i = .ok c ∧ c.w = 65 ∧ c.uval = 2 ^ 65 - 1 := by
  obtain ⟨i, -, -, c, e, -, h1, h2⟩ := C70_edges (size := 65) (cd := 2) (by decide) (by decide)
    [1#64, 0xffffffffffffffff#64] rfl (by simp)
  exact ⟨i, c, e, h1, h2.trans (by simp)⟩

/-- C70: the edge case fuzzer never fails, for any size, also those the authors found too
expensive to run. -/
theorem C70_fuzz_edge {size : Nat} (h : 0 < size) (draw : Nat → Nat → Nat → Nat × Nat) :
    fuzzEdge size draw = .ok () := fuzzEdge_ok h draw

example (draw : Nat → Nat → Nat → Nat × Nat) : fuzzEdge 256 draw = .ok () :=
  C70_fuzz_edge (by decide) draw

/-- C70: the products of strings of nines have the digits the authors derived, for any number of
bytes above one; for fewer the test itself panics, as its comment says. -/
theorem C70_nines (n : Nat) :
    (1 < n → nineTest n = .ok ()) ∧ (n ≤ 1 → nineTest n = .error .panic) := by
  refine ⟨nineTest_ok, fun h => ?_⟩
  rcases Nat.le_one_iff_eq_zero_or_eq_one.1 h with rfl | rfl
  · rfl
  · rfl

example : nineTest 1000 = .ok () := (C70_nines 1000).1 (by decide)

/-- C70: the rows of the multiplication test hold for any width and shifts that can be made. -/
theorem C70_shifted_product {size l r : Nat} (h : l + r < size) : mulRowTest size l r = .ok () :=
  mulRowTest_ok h

/-- The table of `/repo/src/apint/arithmetic.rs:2047-2058`. -/
def mulTable : List (Nat × Nat × Nat) :=
  [(7, 0, 0), (8, 1, 0), (9, 0, 1), (15, 1, 1), (16, 4, 3), (17, 7, 6), (31, 4, 4), (32, 10, 14),
    (33, 13, 10), (63, 0, 0), (64, 31, 0), (65, 25, 25), (127, 7, 0), (128, 17, 18), (129, 32, 32),
    (137, 50, 49), (200, 0, 100), (255, 64, 64), (256, 249, 0), (700, 8, 256), (907, 777, 64),
    (1024, 0, 900), (2018, 1000, 1000), (2019, 0, 0)]

example : ∀ t ∈ mulTable, mulRowTest t.1 t.2.1 t.2.2 = .ok () := fun t ht =>
  C70_shifted_product (by revert t; decide)

/-- C70: the rows of the division test hold for any width and shifts for which the product and
its successor fit. -/
theorem C70_shifted_quotient {size l r : Nat} (h : 55 * 2 ^ (l + r) + 1 < 2 ^ size) :
    divRowTest size l r = .ok () := divRowTest_ok h

/-- The table of `/repo/src/apint/arithmetic.rs:2486-2497`. -/
def divTable : List (Nat × Nat × Nat) :=
  [(7, 0, 0), (8, 1, 0), (9, 0, 1), (15, 1, 1), (16, 4, 3), (17, 6, 5), (31, 4, 4), (32, 10, 14),
    (33, 13, 10), (63, 0, 0), (64, 31, 0), (65, 25, 25), (127, 7, 0), (128, 17, 18), (129, 32, 32),
    (137, 50, 49), (200, 0, 100), (255, 64, 64), (256, 249, 0), (700, 8, 256), (907, 777, 64),
    (1024, 0, 900), (2018, 900, 1000), (2019, 0, 0)]

example : ∀ t ∈ divTable, divRowTest t.1 t.2.1 t.2.2 = .ok () := fun t ht =>
  C70_shifted_quotient (by revert t; decide +kernel)

/-- C70: negating an integer made from any `i128`, and from its low bits, gives the one made from
its negation, and back; the least `i128` has no negation. -/
theorem C70_negation (v : BitVec 128) :
    (v ≠ BitVec.intMin 128 → negTest v = .ok ()) ∧
    (v = BitVec.intMin 128 → negTest v = .error .panic) := by
  refine ⟨negTest_ok, ?_⟩
  rintro rfl
  decide +kernel

example : negTest (-77216417#128) = .ok () := (C70_negation _).1 (by decide)

end Verif.Props
