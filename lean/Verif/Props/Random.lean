import Verif.Proof.Rand
import Verif.Props.Witness

/-! # Random values (C46) -/

namespace Verif.Props

open ApInt Ex

variable {a : ApInt}

/-- C46: a random integer of width `t` is well-formed, takes `⌈t / 64⌉` digits from the generator,
and its value is the number those digits make, modulo `2 ^ t`. -/
theorem C46_random (t : BitWidth) (rng : Nat → Digit) :
    ∃ c, randomWithWidthUsing t rng = .ok (c, fun i => rng (i + (t.toUsize + 63) / 64)) ∧ c.WF ∧
      c.len = t ∧
      c.uval = val ((List.range ((t.toUsize + 63) / 64)).map rng) % 2 ^ t.toUsize :=
  randomWithWidthUsing_ok t rng

/-- C46: randomizing an integer keeps its width, depends on nothing but the generator, and gives
what a fresh random integer of that width would be. -/
theorem C46_randomize (ha : a.WF) (rng : Nat → Digit) :
    a.randomizeUsing rng = randomWithWidthUsing a.len rng := by
  obtain ⟨c, e1, h1, h2, h3⟩ := randomizeUsing_ok ha.1 rng
  obtain ⟨d, e2, g1, g2, g3⟩ := randomWithWidthUsing_ok a.len rng
  have hcd : (.ok c : Run ApInt) = .ok d :=
    Returns.eq ⟨c, rfl, h1, h2, h3⟩ ⟨d, rfl, g1, g2, g3⟩
  injection hcd with hcd
  rw [e1, e2, hcd]

/-- A generator that yields the digits `f` and then goes on like `rest`. -/
def streamOf {n : Nat} (f : Fin n → Digit) (rest : Nat → Digit) : Nat → Digit :=
  fun i => if h : i < n then f ⟨i, h⟩ else rest i

theorem streamOf_take {n : Nat} (f : Fin n → Digit) (rest : Nat → Digit) :
    (List.range n).map (streamOf f rest) = List.ofFn f := by
  apply List.ext_getElem
  · simp
  · intro i h1 h2
    have : i < n := by simpa using h1
    simp [streamOf, this]

/-- C46: every value of the width is produced by the same number of draws. -/
theorem C46_uniform (t : BitWidth) (rest : Nat → Digit) (v : Nat) (hv : v < 2 ^ t.toUsize) :
    Nat.card {f : Fin ((t.toUsize + 63) / 64) → Digit //
      ∃ c rng, randomWithWidthUsing t (streamOf f rest) = .ok (c, rng) ∧ c.uval = v} =
    2 ^ (64 * ((t.toUsize + 63) / 64) - t.toUsize) := by
  rw [← card_digits (n := (t.toUsize + 63) / 64) (by omega) hv]
  apply Nat.card_congr
  apply Equiv.subtypeEquivRight
  intro f
  obtain ⟨c, e, -, -, h⟩ := C46_random t (streamOf f rest)
  rw [streamOf_take] at h
  constructor
  · rintro ⟨c', rng, e', hc⟩
    rw [e] at e'
    cases e'
    rw [← h, hc]
  · intro hf
    exact ⟨c, _, e, by rw [h, hf]⟩

/-- Width 100: each value comes from `2 ^ 28` of the `2 ^ 128` draws. -/
example : Nat.card {f : Fin 2 → Digit // ∃ c rng,
    randomWithWidthUsing (bw 100) (streamOf f fun _ => 7#64) = .ok (c, rng) ∧
      c.uval = 2 ^ 99 + 1} = 2 ^ 28 := by
  have h := C46_uniform (bw 100) (fun _ => 7#64) (2 ^ 99 + 1) (by decide +kernel)
  exact h

example : a150.randomizeUsing (fun i => BitVec.ofNat 64 i) =
    randomWithWidthUsing (bw 150) (fun i => BitVec.ofNat 64 i) :=
  C46_randomize a150_wf _

end Verif.Props
