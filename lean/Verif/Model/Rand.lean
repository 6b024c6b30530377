import Verif.Model.Bitwise

/-!
# Random values (`/repo/src/apint/rand_impl.rs`)

A random number generator is the stream of the digits it is going to yield
(`Digit(rng.next_u64())`, lines 4-14); a function that draws `n` digits returns the stream without
its first `n` elements.  The variants seeded from the entropy of the system
(`random_with_width`, `randomize`, lines 19-25, 54-57) are the `_using` variants on some stream.
-/

namespace Verif

/-- The digits a generator will yield: `Distribution<Digit> for Standard`,
`/repo/src/apint/rand_impl.rs:4-14`. -/
abbrev Rng := Nat → Digit

/-- The first `n` digits of a generator (`Standard.sample_iter(rng).take(n)`,
`/repo/src/apint/rand_impl.rs:37`). -/
def Rng.take (rng : Rng) (n : Nat) : List Digit := (List.range n).map rng

/-- The generator after `n` digits were drawn. Used for `/repo/src/apint/rand_impl.rs:30-50`. -/
def Rng.drop (rng : Rng) (n : Nat) : Rng := fun i => rng (i + n)

namespace ApInt

/-- `random_with_width_using`, `/repo/src/apint/rand_impl.rs:30-49`. -/
def randomWithWidthUsing (width : BitWidth) (rng : Rng) : Run (ApInt × Rng) :=
  let requiredDigits := width.requiredDigits
  if ¬ (requiredDigits ≥ 1) then .error .panic
  else do
    let r ← fromIter (rng.take requiredDigits)
    let a ← expect r
    let r ← a.intoTruncate width
    let a ← expect r
    .ok (a, rng.drop requiredDigits)

/-- `randomize_using`, `/repo/src/apint/rand_impl.rs:62-70`: every digit is replaced by the next
one of the generator.  `zip` asks the digits first, so no digit is drawn in excess. -/
def randomizeUsing (self : ApInt) (rng : Rng) : Run (ApInt × Rng) := do
  let ds ← self.asDigitSlice
  let self ← self.writeDigitSlice (rng.take ds.length)
  let self ← self.clearUnusedBits
  .ok (self, rng.drop ds.length)

end ApInt

end Verif
