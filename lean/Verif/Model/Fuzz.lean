import Verif.Model.StdOps

/-!
# The crate's own property tests

Test code of `/repo/src/apint/arithmetic.rs` that takes parameters: the fuzzer `megafuzz`
(feature `dev-fuzz`), the multiplication patterns of `nine_test`, the shifted products of the
multiplication and division tests, and the symmetry check of negation.  A failed assertion is a
panic.  Random draws are parameters.
-/

namespace Verif

namespace Fuzz

open ApInt

/-- `assert_eq!(x, y)` on two integers (standard library): panics unless `x == y`. Test code,
`/repo/src/apint/arithmetic.rs:1845-3001`. -/
def assertEq (x y : ApInt) : Run Unit := do
  if ← x.eq y then pure () else throw .panic

/-- `assert_eq!(x, y)` on two bytes (standard library). Test code,
`/repo/src/apint/arithmetic.rs:1845-3001`. -/
def assertByte (x y : BitVec 8) : Run Unit := if x = y then pure () else throw .panic

/-- `x % y` on `usize`: panics when `y` is zero. Test code,
`/repo/src/apint/arithmetic.rs:1845-3001`. -/
def crem (x y : Nat) : Run Nat := if y = 0 then throw .panic else pure (x % y)

/-- `ApInt::unsigned_max_value(BitWidth::w1()).into_zero_resize(width)`,
`/repo/src/apint/arithmetic.rs:2641-2642` and three more places: the fuzzer's way to write one. -/
def unit (width : BitWidth) : Run ApInt := do
  (← unsignedMaxValue BitWidth.w1).intoZeroResize width

/-- `ApInt::from(v).into_zero_resize(width)` for a byte `v`, used all over the tests, e.g.
`/repo/src/apint/arithmetic.rs:2060-2071`. -/
def small (v : BitVec 8) (width : BitWidth) : Run ApInt := do
  (← fromU8 v).intoZeroResize width

/-! ## `identities`

`/repo/src/apint/arithmetic.rs:2627-2801`, one definition for each block of its body. -/

/-- Addition and subtraction, `/repo/src/apint/arithmetic.rs:2637-2672`. -/
def identitiesAdd (width : BitWidth) (lhs : ApInt) : Run Unit := do
  let temp ← (← lhs.clone).intoWrappingInc
  assertEq temp (← unwrapRes ((← lhs.clone).intoWrappingAdd (← unit width)))
  assertEq temp (← unwrapRes ((← lhs.clone).intoWrappingSub (← allSet width)))
  let temp ← temp.wrappingDec
  assertEq temp lhs
  let temp ← temp.wrappingDec
  assertEq temp (← unwrapRes ((← lhs.clone).intoWrappingSub (← unit width)))
  assertEq temp (← unwrapRes ((← lhs.clone).intoWrappingAdd (← allSet width)))
  let temp ← temp.wrappingInc
  assertEq temp lhs

/-- Multiplication by powers of two, `/repo/src/apint/arithmetic.rs:2679-2696`.
`tmp1` is the power of two of lines 2675-2678. -/
def identitiesShl (width : BitWidth) (shift : Nat) (lhs tmp1 : ApInt) : Run Unit := do
  assertEq (← unwrapRes ((← lhs.clone).intoWrappingShl shift))
    (← unwrapRes ((← lhs.clone).intoWrappingMul tmp1))
  assertEq (← unwrapRes ((← (← lhs.clone).intoWrappingNeg).intoWrappingShl shift))
    (← unwrapRes ((← lhs.clone).intoWrappingMul
      (← unwrapRes ((← unsignedMaxValue width).intoWrappingShl shift))))

/-- Division by powers of two, `/repo/src/apint/arithmetic.rs:2697-2720`.  The code compares
`lhs` only after `shift`; here both comparisons are made. -/
def identitiesShr (size : Nat) (width : BitWidth) (shift : Nat) (lhs tmp1 : ApInt) : Run Unit := do
  assertEq (← unwrapRes ((← lhs.clone).intoWrappingLshr shift))
    (← unwrapRes ((← lhs.clone).intoWrappingUdiv tmp1))
  let last ← csub size 1
  if shift = last ∧ (← lhs.eq tmp1) then
    assertEq (← unwrapRes ((← lhs.clone).intoWrappingSdiv tmp1)) (← unit width)
  else
    let tmp0 ← lhs.clone
    let (r, tmp0, tmp1) ← tmp0.wrappingSdivremAssign tmp1
    let () ← expect r
    let tmp0 ← (do if (← lhs.msb) && !(← tmp1.isZero) then tmp0.wrappingDec else pure tmp0)
    assertEq tmp0 (← unwrapRes ((← lhs.clone).intoWrappingAshr shift))

/-- The wrapping product is the exact one cut off, `/repo/src/apint/arithmetic.rs:2724-2739`. -/
def identitiesMul (size : Nat) (randWidth : BitWidth) (lhs rhs : ApInt) : Run Unit := do
  let l ← unwrapRes ((← lhs.clone).intoZeroExtend (← expect (BitWidth.new (size * 2))))
  let r ← unwrapRes ((← rhs.clone).intoZeroExtend (← expect (BitWidth.new (size * 2))))
  assertEq (← (← unwrapRes (l.intoWrappingMul r)).intoZeroResize randWidth)
    (← (← unwrapRes ((← lhs.clone).intoWrappingMul rhs)).intoZeroResize randWidth)

/-- The mask that keeps the next product from wrapping, `/repo/src/apint/arithmetic.rs:2740-2753`. -/
def antiOverflowMask (size : Nat) (width : BitWidth) (lhs rhs : ApInt) : Run ApInt := do
  let totLeadingZeros := (← lhs.leadingZeros) + (← rhs.leadingZeros)
  if totLeadingZeros < size then
    if (← rhs.leadingZeros) = 0 then zero width
    else unwrapRes ((← unsignedMaxValue (← BitWidth.from (← rhs.leadingZeros))).intoZeroExtend width)
  else unsignedMaxValue width

/-- Division undoes multiplication, `/repo/src/apint/arithmetic.rs:2754-2800`.  The two
comparisons panic with a message (`wrong div`, `wrong rem`) instead of `assert_eq!`. -/
def identitiesDiv (zero lhs rhs third mask : ApInt) : Run Unit := do
  let mul ← unwrapRes ((← (← lhs.clone).opBitAnd mask).intoWrappingMul rhs)
  if !(← rhs.eq zero) then
    let rem ← unwrapRes ((← third.clone).intoWrappingUrem rhs)
    let temp0 ← mul.clone
    let (o, temp0) ← temp0.overflowingUaddAssign rem
    if !(← expect o) then
      let temp1 ← rhs.clone
      let (r, temp0, temp1) ← temp0.wrappingUdivremAssign temp1
      let () ← expect r
      assertEq temp0 (← (← lhs.clone).opBitAnd mask)
      assertEq temp1 rem

/-- `identities`, `/repo/src/apint/arithmetic.rs:2627-2801`.  `draw` and `draw'` are the two
values of `random::<usize>()` (lines 2636 and 2722). -/
def identities (draw draw' size : Nat) (width : BitWidth) (zero lhs rhs third : ApInt) :
    Run Unit := do
  let shift ← crem draw size
  identitiesAdd width lhs
  let tmp1 ← unwrapRes ((← unit width).intoWrappingShl shift)
  identitiesShl width shift lhs tmp1
  identitiesShr size width shift lhs tmp1
  let randWidth ← expect (BitWidth.new ((← crem draw' size) + 1))
  identitiesMul size randWidth lhs rhs
  let mask ← antiOverflowMask size width lhs rhs
  identitiesDiv zero lhs rhs third mask

/-! ## The two fuzzers -/

/-- The random values of one round of `fuzz_random`: two of `random::<u32>()`, four of
`random::<bool>()`, and the two draws of each of the seven calls of `identities`. Test code,
`/repo/src/apint/arithmetic.rs:1845-3001`. -/
structure Draws where
  r0 : BitVec 32
  r1 : BitVec 32
  pick : Bool × Bool × Bool × Bool
  ids : Nat → Nat × Nat

/-- The three integers `fuzz_random` changes. Test code, `/repo/src/apint/arithmetic.rs:1845-3001`.
-/
structure Triple where
  lhs : ApInt
  rhs : ApInt
  third : ApInt

/-- The rotated run of ones, `/repo/src/apint/arithmetic.rs:2811-2829`.  `size as u32` keeps the
low 32 bits. -/
def fuzzMask (d : Draws) (size : Nat) (width : BitWidth) : Run ApInt := do
  let r0 ← crem d.r0.toNat (size % 2 ^ 32)
  let r0 := if r0 = 0 then 1 else r0
  let ones ← unwrapRes ((← unsignedMaxValue (← expect (BitWidth.new r0))).intoZeroExtend width)
  let r1 ← crem d.r1.toNat (size % 2 ^ 32)
  if r1 = 0 then ones.clone
  else
    (← unwrapRes ((← ones.clone).intoWrappingShl r1)).opBitOr
      (← unwrapRes ((← ones.clone).intoWrappingLshr (← csub size r1)))

/-- The update of one integer, `/repo/src/apint/arithmetic.rs:2831-2848`. -/
def fuzzPick (pick : Bool × Bool × Bool × Bool) (mask : ApInt) (t : Triple) : Run Triple :=
  match pick with
  | (false, false, false, false) => do pure { t with lhs := ← t.lhs.opBitOrAssign mask }
  | (false, false, false, true) => do pure { t with lhs := ← t.lhs.opBitAndAssign mask }
  | (false, false, true, false) => do pure { t with lhs := ← t.lhs.opBitXorAssign mask }
  | (false, false, true, true) => do pure { t with lhs := ← t.lhs.opBitXorAssign mask }
  | (false, true, false, false) => do pure { t with rhs := ← t.rhs.opBitOrAssign mask }
  | (false, true, false, true) => do pure { t with rhs := ← t.rhs.opBitAndAssign mask }
  | (false, true, true, false) => do pure { t with rhs := ← t.rhs.opBitXorAssign mask }
  | (false, true, true, true) => do pure { t with rhs := ← t.rhs.opBitXorAssign mask }
  | (true, false, false, false) => do pure { t with third := ← t.third.opBitOrAssign mask }
  | (true, false, false, true) => do pure { t with third := ← t.third.opBitAndAssign mask }
  | (true, false, true, false) => do pure { t with third := ← t.third.opBitXorAssign mask }
  | (true, false, true, true) => do pure { t with third := ← t.third.opBitXorAssign mask }
  | (true, true, false, false) => do pure { t with rhs := ← t.rhs.opBitOrAssign mask }
  | (true, true, false, true) => do pure { t with rhs := ← t.rhs.opBitAndAssign mask }
  | (true, true, true, false) => do pure { t with rhs := ← t.rhs.opBitXorAssign mask }
  | (true, true, true, true) => do pure { t with rhs := ← t.rhs.opBitXorAssign mask }

/-- One call of `identities` on copies, `/repo/src/apint/arithmetic.rs:2849-2856`. -/
def identitiesOn (d : Nat × Nat) (size : Nat) (width : BitWidth) (zero x y z : ApInt) :
    Run Unit := do
  let x ← x.clone
  let y ← y.clone
  let z ← z.clone
  identities d.1 d.2 size width zero x y z

/-- One round of `fuzz_random`, `/repo/src/apint/arithmetic.rs:2811-2904`. -/
def fuzzRound (size : Nat) (width : BitWidth) (zero : ApInt) (d : Draws) (t : Triple) :
    Run Triple := do
  let mask ← fuzzMask d size width
  let t ← fuzzPick d.pick mask t
  identitiesOn (d.ids 0) size width zero t.lhs t.lhs t.rhs
  identitiesOn (d.ids 1) size width zero t.lhs t.rhs t.third
  identitiesOn (d.ids 2) size width zero t.rhs t.lhs t.third
  identitiesOn (d.ids 3) size width zero t.third t.lhs t.rhs
  identitiesOn (d.ids 4) size width zero t.lhs t.third t.rhs
  identitiesOn (d.ids 5) size width zero t.third t.rhs t.lhs
  identitiesOn (d.ids 6) size width zero t.rhs t.third t.lhs
  pure t

/-- The loop of `fuzz_random`, `/repo/src/apint/arithmetic.rs:2810`: one round for each entry. -/
def fuzzRounds (size : Nat) (width : BitWidth) (zero : ApInt) : List Draws → Triple → Run Unit
  | [], _ => pure ()
  | d :: ds, t => do
    let t ← fuzzRound size width zero d t
    fuzzRounds size width zero ds t

/-- `fuzz_random`, `/repo/src/apint/arithmetic.rs:2804-2906`.  The list holds the random values
of each round; its length is the parameter `iterations`. -/
def fuzzRandom (size : Nat) (draws : List Draws) : Run Unit := do
  let width ← expect (BitWidth.new size)
  let lhs ← small 0#8 width
  let rhs ← small 0#8 width
  let third ← small 0#8 width
  let zero ← small 0#8 width
  fuzzRounds size width zero draws ⟨lhs, rhs, third⟩

/-- The digit of two bits of the loop counter, `/repo/src/apint/arithmetic.rs:2913-2919`. -/
def edgeDigit (x : Nat) : BitVec 64 :=
  match x % 4 with
  | 0 => 0#64
  | 1 => 1#64
  | 2 => BitVec.allOnes 64 - 1#64
  | _ => BitVec.allOnes 64

/-- The digits `explode!` builds from its loop counter, `/repo/src/apint/arithmetic.rs:2911-2920`. -/
def edgeDigits (cd i : Nat) : List (BitVec 64) :=
  (List.range cd).map fun j => edgeDigit (i >>> (j * 2))

/-- `ApInt::from_vec_u64(v).unwrap()`, `/repo/src/apint/constructors.rs:203-213`. -/
def fromVecU64 (v : List (BitVec 64)) : Run ApInt :=
  if v.isEmpty then throw .panic
  else do
    let r ← fromIter v.reverse
    expect r

/-- One operand of the edge fuzzer, `/repo/src/apint/arithmetic.rs:2942-2945`. -/
def edgeValue (size cd i : Nat) : Run ApInt := do
  unwrapRes ((← fromVecU64 (edgeDigits cd i)).intoTruncate (← BitWidth.from size))

/-- The loop counter of `explode!` runs over `0..4^cd` (`/repo/src/apint/arithmetic.rs:2910`). -/
def explode (cd : Nat) (inner : Nat → Run Unit) : Run Unit :=
  (List.range (2 ^ (cd * 2))).forM inner

/-- `fuzz_edge`, `/repo/src/apint/arithmetic.rs:2927-2958`.  `draw` gives the random values of
each call of `identities`. -/
def fuzzEdge (size : Nat) (draw : Nat → Nat → Nat → Nat × Nat) : Run Unit := do
  let width ← expect (BitWidth.new size)
  let zero ← small 0#8 width
  let cd := if size % 64 = 0 then size / 64 else size / 64 + 1
  explode cd fun i0 => explode cd fun i1 => explode cd fun i2 => do
    let x ← edgeValue size cd i0
    let y ← edgeValue size cd i1
    let z ← edgeValue size cd i2
    identities (draw i0 i1 i2).1 (draw i0 i1 i2).2 size width zero x y z

/-! ## Strings of nines

`nine_test`, `/repo/src/apint/arithmetic.rs:1960-2027`. -/

/-- One of the loops that look at the next bytes of the product, e.g.
`/repo/src/apint/arithmetic.rs:1997-2003`; `none` is `continue 'outer`. -/
def ninePeel (numU8 base : Nat) (byte : BitVec 8) : List Nat → ApInt → Run (Option ApInt)
  | [], result => pure (some result)
  | i :: is, result => do
    let last ← csub numU8 1
    if last ≤ base + i then pure none
    else do
      let result ← unwrapMut (result.wrappingLshrAssign 8)
      assertByte (← (← result.clone).resizeToU8) byte
      ninePeel numU8 base byte is result

/-- One product, `/repo/src/apint/arithmetic.rs:1979-2024`. -/
def nineCase (numU8 lhsNine rhsNine : Nat) (lhs rhs : ApInt) : Run Unit := do
  let zerosAfterOne := if lhsNine < rhsNine then lhsNine else rhsNine
  let ninesBeforeEight := if lhsNine > rhsNine then lhsNine - rhsNine else rhsNine - lhsNine
  let ninesAfterEight := if lhsNine < rhsNine then lhsNine else rhsNine
  let result ← unwrapRes ((← lhs.clone).intoWrappingMul rhs)
  assertByte (← (← result.clone).resizeToU8) 1#8
  match ← ninePeel numU8 0 0#8 (List.range zerosAfterOne) result with
  | none => pure ()
  | some result =>
    match ← ninePeel numU8 zerosAfterOne 255#8 (List.range ninesBeforeEight) result with
    | none => pure ()
    | some result =>
      let last ← csub numU8 1
      if last ≤ zerosAfterOne + ninesBeforeEight then pure ()
      else
        let result ← unwrapMut (result.wrappingLshrAssign 8)
        assertByte (← (← result.clone).resizeToU8) 254#8
        let _ ← ninePeel numU8 (1 + zerosAfterOne + ninesBeforeEight) 255#8
          (List.range ninesAfterEight) result
        pure ()

/-- The inner loop, `/repo/src/apint/arithmetic.rs:1971-2025`. -/
def nineInner (numU8 rhsNine : Nat) (nine rhs : ApInt) : List Nat → ApInt → Run Unit
  | [], _ => pure ()
  | lhsNine :: is, lhs => do
    let lhs ← unwrapMut (lhs.wrappingShlAssign 8)
    let lhs ← lhs.opBitOrAssign nine
    nineCase numU8 lhsNine rhsNine lhs rhs
    nineInner numU8 rhsNine nine rhs is lhs

/-- The outer loop, `/repo/src/apint/arithmetic.rs:1966-2026`. -/
def nineOuter (numU8 : Nat) (nine : ApInt) : List Nat → ApInt → Run Unit
  | [], _ => pure ()
  | rhsNine :: is, rhs => do
    let rhs ← unwrapMut (rhs.wrappingShlAssign 8)
    let rhs ← rhs.opBitOrAssign nine
    let lhs ← small 0#8 (← expect (BitWidth.new (numU8 * 8)))
    nineInner numU8 rhsNine nine rhs (List.range numU8) lhs
    nineOuter numU8 nine is rhs

/-- `nine_test`, `/repo/src/apint/arithmetic.rs:1960-2027`. -/
def nineTest (numU8 : Nat) : Run Unit := do
  let rhs ← small 0#8 (← expect (BitWidth.new (numU8 * 8)))
  let nine ← small 255#8 (← expect (BitWidth.new (numU8 * 8)))
  nineOuter numU8 nine (List.range numU8) rhs

/-! ## Shifted products -/

/-- One row of the table of the multiplication test, `/repo/src/apint/arithmetic.rs:2060-2083`. -/
def mulRowTest (size lhsShl rhsShl : Nat) : Run Unit := do
  let lhs ← unwrapRes ((← small 5#8 (← expect (BitWidth.new size))).intoWrappingShl lhsShl)
  let rhs ← unwrapRes ((← small 11#8 (← expect (BitWidth.new size))).intoWrappingShl rhsShl)
  let zero ← small 0#8 (← expect (BitWidth.new size))
  let one ← small 1#8 (← expect (BitWidth.new size))
  let expected ← unwrapRes ((← small 55#8 (← expect (BitWidth.new size))).intoWrappingShl
    (rhsShl + lhsShl))
  assertEq (← unwrapRes ((← lhs.clone).intoWrappingMul zero)) zero
  assertEq (← unwrapRes ((← zero.clone).intoWrappingMul rhs)) zero
  assertEq (← unwrapRes ((← lhs.clone).intoWrappingMul one)) lhs
  assertEq (← unwrapRes ((← one.clone).intoWrappingMul rhs)) rhs
  assertEq (← unwrapRes ((← lhs.clone).intoWrappingMul rhs)) expected

/-- The assertions of `divRowTest`. Test code, `/repo/src/apint/arithmetic.rs:1845-3001`. -/
def divRowAsserts (lhs rhs zero one product : ApInt) : Run Unit := do
  assertEq (← unwrapRes ((← zero.clone).intoWrappingUdiv lhs)) zero
  assertEq (← unwrapRes ((← zero.clone).intoWrappingUdiv rhs)) zero
  assertEq (← unwrapRes ((← lhs.clone).intoWrappingUdiv one)) lhs
  assertEq (← unwrapRes ((← rhs.clone).intoWrappingUdiv one)) rhs
  assertEq (← unwrapRes ((← lhs.clone).intoWrappingUdiv lhs)) one
  assertEq (← unwrapRes ((← rhs.clone).intoWrappingUdiv rhs)) one
  assertEq (← unwrapRes ((← product.clone).intoWrappingUdiv lhs)) rhs
  assertEq (← unwrapRes ((← product.clone).intoWrappingUdiv rhs)) lhs
  assertEq (← unwrapRes ((← zero.clone).intoWrappingUrem lhs)) zero
  assertEq (← unwrapRes ((← zero.clone).intoWrappingUrem rhs)) zero
  assertEq (← unwrapRes ((← lhs.clone).intoWrappingUrem one)) zero
  assertEq (← unwrapRes ((← rhs.clone).intoWrappingUrem one)) zero
  assertEq (← unwrapRes ((← lhs.clone).intoWrappingUrem lhs)) zero
  assertEq (← unwrapRes ((← rhs.clone).intoWrappingUrem rhs)) zero
  assertEq (← unwrapRes ((← product.clone).intoWrappingUrem lhs)) zero
  assertEq (← unwrapRes ((← product.clone).intoWrappingUrem rhs)) zero
  assertEq (← unwrapRes ((← unwrapRes ((← product.clone).intoWrappingAdd one)).intoWrappingUrem lhs))
    one
  assertEq (← unwrapRes ((← unwrapRes ((← product.clone).intoWrappingAdd one)).intoWrappingUrem rhs))
    one

/-- One row of the table of the division test, `/repo/src/apint/arithmetic.rs:2499-2573`. -/
def divRowTest (size lhsShl rhsShl : Nat) : Run Unit := do
  let lhs ← unwrapRes ((← small 5#8 (← expect (BitWidth.new size))).intoWrappingShl lhsShl)
  let rhs ← unwrapRes ((← small 11#8 (← expect (BitWidth.new size))).intoWrappingShl rhsShl)
  let zero ← small 0#8 (← expect (BitWidth.new size))
  let one ← small 1#8 (← expect (BitWidth.new size))
  let product ← unwrapRes ((← lhs.clone).intoWrappingMul rhs)
  divRowAsserts lhs rhs zero one product

/-! ## Negation -/

/-- `assert_symmetry`, `/repo/src/apint/arithmetic.rs:1897-1900`. -/
def assertSymmetry (input expected : ApInt) : Run Unit := do
  assertEq (← (← input.clone).intoWrappingNeg) expected
  assertEq (← expected.intoWrappingNeg) input

/-- `-v` on `i128`: panics for the least value. Test code,
`/repo/src/apint/arithmetic.rs:1845-3001`. -/
def cneg (v : BitVec 128) : Run (BitVec 128) :=
  if v = BitVec.intMin 128 then throw .panic else pure (-v)

/-- One round of the negation test, `/repo/src/apint/arithmetic.rs:1925-1943`: `v as iN` keeps
the low bits, and so does `-v as iN`. -/
def negTest (v : BitVec 128) : Run Unit := do
  assertSymmetry (← fromI8 (v.setWidth 8)) (← fromI8 ((← cneg v).setWidth 8))
  assertSymmetry (← fromI16 (v.setWidth 16)) (← fromI16 ((← cneg v).setWidth 16))
  assertSymmetry (← fromI32 (v.setWidth 32)) (← fromI32 ((← cneg v).setWidth 32))
  assertSymmetry (← fromI64 (v.setWidth 64)) (← fromI64 ((← cneg v).setWidth 64))
  assertSymmetry (← fromI128 v) (← fromI128 (← cneg v))

end Fuzz

end Verif
