import Verif.Model.Fuzz
import Verif.Model.Strings
import Verif.Model.Serde
import Verif.Model.Rand

/-!
# The unit tests of the crate, run on the model

These are **tests, not proofs**: the literal `#[test]` functions of `/repo/src`, transcribed and
evaluated on the model by Lean's kernel.  They are here because the crate cannot be run in this
environment: the expected values were written by the authors against the real code, so a model
that computes something else is not a model of it.  Nothing else depends on this file.

Left out are the tests that are empty (`#[ignore]` in `casting.rs`), those of the test helpers
themselves (`constructors.rs:421-454`, `to_primitive.rs:704-707`), that of a floating point table
(`serialization.rs:362-370`), and the accessors `repr` and `width` of digits (`digit.rs:676-690`,
`888-911`).  The parametric tests are proved for all parameters in `Verif/Props/Fuzz.lean`.
-/

namespace Verif.Conform

open ApInt Fuzz

/-- Results can be compared. -/
local instance {ε α : Type} [DecidableEq ε] [DecidableEq α] : DecidableEq (Except ε α)
  | .ok x, .ok y => if h : x = y then isTrue (by rw [h]) else isFalse fun e => h (by cases e; rfl)
  | .error x, .error y =>
    if h : x = y then isTrue (by rw [h]) else isFalse fun e => h (by cases e; rfl)
  | .ok _, .error _ => isFalse nofun
  | .error _, .ok _ => isFalse nofun

/-- `assert_eq!` on two integers that are the results of calls. -/
def same (x y : Run ApInt) : Run Unit := do assertEq (← x) (← y)

/-- `assert_ne!` on two integers. -/
def differ (x y : Run ApInt) : Run Unit := do
  if ← (← x).eq (← y) then throw .panic else pure ()

/-- `assert_eq!` on other values. -/
def is {α : Type} [DecidableEq α] (x : Run α) (y : α) : Run Unit := do
  if (← x) = y then pure () else throw .panic

/-- `assert!(x.is_err())`. -/
def isErr {α : Type} (x : Run (Res α)) : Run Unit := do
  match ← x with
  | .ok _ => throw .panic
  | .error _ => pure ()

/-- `u64::MAX`. -/
abbrev MAX : BitVec 64 := BitVec.allOnes 64

/-- `BitWidth::new(w).unwrap()`. -/
def wd (w : Nat) : Run BitWidth := expect (BitWidth.new w)

/-! ## `/repo/src/apint/arithmetic.rs` -/

/-- `inc::test`, `/repo/src/apint/arithmetic.rs:1853-1890`. -/
def inc : Run Unit := do
  same (do (← fromU8 14#8).intoWrappingInc) (fromU8 15#8)
  same (do (← fromU8 15#8).intoWrappingInc) (fromU8 16#8)
  same (do (← fromU8 16#8).intoWrappingInc) (fromU8 17#8)
  same (do (← fromU8 17#8).intoWrappingInc) (fromU8 18#8)
  same (do (← fromArray [0, 0, 0]).intoWrappingInc) (fromArray [0, 0, 1])
  same (do (← fromArray [0, 7, MAX]).intoWrappingInc) (fromArray [0, 8, 0])
  same (do (← fromArray [MAX, MAX]).intoWrappingInc) (fromArray [0, 0])
  same (do (← fromArray [0, MAX, MAX - 1]).intoWrappingInc) (fromArray [0, MAX, MAX])
  same (do (← fromArray [0, MAX, 0]).intoWrappingInc) (fromArray [0, MAX, 1])

example : inc = .ok () := by decide +kernel

/-- `wrapping_neg::simple`, `/repo/src/apint/arithmetic.rs:1912-1921`. -/
def negSimple : Run Unit := do
  assertSymmetry (← zero .w1) (← zero .w1)
  assertSymmetry (← unsignedMaxValue .w1) (← allSet .w1)

example : negSimple = .ok () := by decide +kernel

/-- `wrapping_neg::range`, `/repo/src/apint/arithmetic.rs:1902-1946`. -/
def negRange : Run Unit :=
  [0, 1, 2, 4, 5, 7, 10, 42, 50, 100, 128, 150, 1337, 123123, 999999, 987432, 77216417].forM
    fun v => negTest (BitVec.ofNat 128 v)

example : negRange = .ok () := by decide +kernel

/-- The calls of `nine_test` on small sizes, `/repo/src/apint/arithmetic.rs:2029-2045`. -/
def nines : Run Unit := do
  nineTest 2; nineTest 4; nineTest 8; nineTest 9; nineTest 16

example : nines = .ok () := by decide +kernel

/-- The last assertion of the multiplication test, `/repo/src/apint/arithmetic.rs:2085-2108`. -/
def mulLast : Run Unit := do
  same
    (unwrapRes ((← fromArray [0, 0, 0, 0, MAX, 0, MAX, MAX]).intoWrappingMul
      (← fromArray [0, 0, 0, 0, MAX, MAX, 0, MAX])))
    (fromArray [MAX, 0, 1, MAX - 3, 1, MAX, MAX, 1])

example : mulLast = .ok () := by decide +kernel

/-- One of the four cases of the macro `s!` for a method and its consuming form,
`/repo/src/apint/arithmetic.rs:2150-2160`. -/
def divCase (f : ApInt → ApInt → Run (Res Unit × ApInt)) (g : ApInt → ApInt → Run (Res ApInt))
    (lhs rhs r : Int) : Run Unit := do
  let l ← fromI8 (BitVec.ofInt 8 lhs)
  let r' ← fromI8 (BitVec.ofInt 8 rhs)
  same (unwrapMut (f l r')) (fromI8 (BitVec.ofInt 8 r))
  same (unwrapRes (g l r')) (fromI8 (BitVec.ofInt 8 r))

/-- One of the four cases of the macro `s!` for a method that changes both operands,
`/repo/src/apint/arithmetic.rs:2187-2194`. -/
def divCase2 (f : ApInt → ApInt → Run (Res Unit × ApInt × ApInt)) (lhs rhs r r' : Int) :
    Run Unit := do
  let (e, x, y) ← f (← fromI8 (BitVec.ofInt 8 lhs)) (← fromI8 (BitVec.ofInt 8 rhs))
  expect e
  same (pure x) (fromI8 (BitVec.ofInt 8 r))
  same (pure y) (fromI8 (BitVec.ofInt 8 r'))

/-- `div_rem::simple`, `/repo/src/apint/arithmetic.rs:2119-2284`. -/
def divSimple : Run Unit := do
  divCase wrappingUdivAssign intoWrappingUdiv 80 7 11
  divCase wrappingUremAssign intoWrappingUrem 80 7 3
  divCase wrappingSdivAssign intoWrappingSdiv 80 7 11
  divCase wrappingSdivAssign intoWrappingSdiv 80 (-7) (-11)
  divCase wrappingSdivAssign intoWrappingSdiv (-80) 7 (-11)
  divCase wrappingSdivAssign intoWrappingSdiv (-80) (-7) 11
  divCase wrappingSremAssign intoWrappingSrem 80 7 3
  divCase wrappingSremAssign intoWrappingSrem 80 (-7) 3
  divCase wrappingSremAssign intoWrappingSrem (-80) 7 (-3)
  divCase wrappingSremAssign intoWrappingSrem (-80) (-7) (-3)
  divCase2 wrappingUdivremAssign 80 7 11 3
  divCase2 wrappingUremdivAssign 80 7 3 11
  divCase2 wrappingSdivremAssign 80 7 11 3
  divCase2 wrappingSdivremAssign 80 (-7) (-11) 3
  divCase2 wrappingSdivremAssign (-80) 7 (-11) (-3)
  divCase2 wrappingSdivremAssign (-80) (-7) 11 (-3)
  divCase2 wrappingSremdivAssign 80 7 3 11
  divCase2 wrappingSremdivAssign 80 (-7) 3 (-11)
  divCase2 wrappingSremdivAssign (-80) 7 (-3) (-11)
  divCase2 wrappingSremdivAssign (-80) (-7) (-3) 11

example : divSimple = .ok () := by decide +kernel

/-- `a.into_wrapping_udiv(&b).unwrap() == q`. -/
def udivIs (a b q : List (BitVec 64)) : Run Unit := do
  same (unwrapRes ((← fromArray a).intoWrappingUdiv (← fromArray b))) (fromArray q)

/-- `a.into_wrapping_urem(&b).unwrap() == r`. -/
def uremIs (a b r : List (BitVec 64)) : Run Unit := do
  same (unwrapRes ((← fromArray a).intoWrappingUrem (← fromArray b))) (fromArray r)

/-- `div_rem::complex`, `/repo/src/apint/arithmetic.rs:2289-2484`. -/
def divComplex : Run Unit := do
  same (unwrapRes ((← fromU8 123#8).intoWrappingUdiv (← fromU8 7#8))) (fromU8 17#8)
  udivIs [0, 0, 0, 123] [0, 0, 0, 7] [0, 0, 0, 17]
  udivIs [0, 0, 0, 0] [0, 0, 0, 7] [0, 0, 0, 0]
  udivIs [0, 0, 0, 3] [0, 0, 0, 7] [0, 0, 0, 0]
  udivIs [0, 0, 0, 0] [0, 7, 0, 0] [0, 0, 0, 0]
  udivIs [0, 0, 0, 7] [0, 4, 0, 0] [0, 0, 0, 0]
  udivIs [0, 0, 3, 0] [0, 4, 0, 0] [0, 0, 0, 0]
  udivIs [0, 1, 0, 0] [0, 0, 0, 4] [0, 0, MAX / 4 + 1, 0]
  udivIs [0, 1, 0, 0] [0, 0, 1, 0] [0, 0, 1, 0]
  udivIs [1, 2, 3, 4] [1, 2, 3, 4] [0, 0, 0, 1]
  udivIs [0, 1, MAX, MAX, MAX, MAX, MAX, MAX] [0, 0, 0, 0, 0, 0, 0, 2]
    [0, 0, MAX, MAX, MAX, MAX, MAX, MAX]
  udivIs [MAX, MAX - 1, 1, MAX - 1, MAX - 1, 2, MAX - 1, 1] [0, 0, 0, 0, MAX, MAX, 0, MAX]
    [0, 0, 0, 0, MAX, MAX, 0, MAX]
  same (unwrapRes ((← fromU128 61924494876344321#128).intoWrappingUrem
    (← fromU128 167772160#128))) (fromU128 1#128)
  uremIs [18446744073709551615, 18446744073709551615, 1048575, 18446462598732840960]
    [0, 0, 140668768878592, 0] [0, 0, 136545601323007, 18446462598732840960]
  uremIs [1, 17293821508111564796, 2305843009213693952] [0, 1, 18446742978492891132] [0, 0, 0]
  same
    (unwrapRes ((← unwrapRes ((← fromArray [1, 18446744073692774368, 268435456]).intoWrappingAdd
        (← fromArray [0, 1, 18446744073709519359]))).intoWrappingUdiv
      (← fromArray [0, 1, 18446744073709551584])))
    (fromArray [0, 0, 18446744073701163008])
  uremIs [18446744073709551615, 18446744073709551615, 18446739675663040512, 2199023255552]
    [18446744073709551615, 18446744073709551615, 18446739675663040512, 2199023255552] [0, 0, 0, 0]
  udivIs [1, 18446462598730776592, 1047972020113] [0, 16383, 18446744056529682433]
    [0, 0, 2251782633816065]
  udivIs [54467619767447688, 18446739675392512496, 5200531536562092095, 18446744073709551615]
    [0, 8255, 18446462598732840960, 0] [0, 0, 6597337677824, 288230376151678976]

example : divComplex = .ok () := by decide +kernel

/-- `pull_request_35_regression`, `/repo/src/apint/arithmetic.rs:2586-2623`. -/
def pullRequest35 : Run Unit := do
  let width ← wd 65
  same (unwrapRes ((← fromArray [1, MAX - 64]).intoTruncate width))
    (unwrapRes ((← unwrapRes ((← fromArray [1, MAX - 1024]).intoTruncate width)).intoWrappingAshr 4))
  let v1 ← (← fromU128 ((1#128 <<< 64) ||| 7#128)).intoZeroResize width
  let v2 ← unwrapRes ((← unsignedMaxValue width).intoWrappingShl 64)
  let v3 ← unwrapRes ((← v1.clone).intoWrappingMul v2)
  same (pure v1) (do (← fromArray [1, 7]).intoZeroResize width)
  same (pure v2) (do (← fromArray [1, 0]).intoZeroResize width)
  same (pure v3) (do (← fromArray [1, 0]).intoZeroResize width)
  let width ← wd 193
  let v3 ← unwrapRes ((← (← fromArray [0, 0, 17179852800, 1073676288]).intoZeroResize
    width).intoWrappingMul (← (← fromU128 (1#128 <<< 115)).intoZeroResize width))
  same (pure v3) (do
    (← unwrapRes ((← fromArray [0, 0, 17179852800, 1073676288]).intoWrappingShl 115)).intoZeroResize
      width)

example : pullRequest35 = .ok () := by decide +kernel

/-! ## `/repo/src/apint/constructors.rs` -/

/-- `test_values_u8`, `/repo/src/apint/constructors.rs:452-456`. -/
def valuesU8 : List Nat := (List.range 8).map (2 ^ ·) ++ [255, 10, 42, 99, 123]

/-- `test_values_u16`, `/repo/src/apint/constructors.rs:496-505`. -/
def valuesU16 : List Nat :=
  valuesU8 ++ (List.range' 8 8).map (2 ^ ·) ++ [65535, 500, 1000, 1337, 7777, 42000]

/-- `test_values_u32`, `/repo/src/apint/constructors.rs:527-536`. -/
def valuesU32 : List Nat :=
  valuesU16 ++ (List.range' 16 16).map (2 ^ ·) ++ [4294967295, 1000000, 999999999, 1234567890]

/-- `test_values_u64`, `/repo/src/apint/constructors.rs:558-572`. -/
def valuesU64 : List Nat :=
  valuesU32 ++ (List.range' 32 32).map (2 ^ ·) ++
    [18446744073709551615, 1000000000000, 999999999999999999, 0x0123456789ABCDEF]

/-- `test_values_u128`, `/repo/src/apint/constructors.rs:592-606`. -/
def valuesU128 : List Nat :=
  valuesU64 ++ (List.range' 64 64).map (2 ^ ·) ++
    [2 ^ 128 - 1, 1000000000000000000000000, 999999999999999999999999999,
      0x0123456789ABCDEFFEDCBA9876543210]

/-- `from_bool`, `from_w8`, `from_w16`, `from_w32`, `from_w64` and `from_w128`,
`/repo/src/apint/constructors.rs:458-626`.  (`ApInt::from` is the same function.) -/
def fromPrimitives : Run Unit := do
  is (fromBool true) ⟨.w1, .inl 1#64⟩
  is (fromBool false) ⟨.w1, .inl 0#64⟩
  valuesU8.forM fun v => do
    is (fromU8 (BitVec.ofNat 8 v)) ⟨.w8, .inl (BitVec.ofNat 64 v)⟩
    is (fromI8 (BitVec.ofNat 8 v)) ⟨.w8, .inl (BitVec.ofNat 64 v)⟩
  valuesU16.forM fun v => do
    is (fromU16 (BitVec.ofNat 16 v)) ⟨.w16, .inl (BitVec.ofNat 64 v)⟩
    is (fromI16 (BitVec.ofNat 16 v)) ⟨.w16, .inl (BitVec.ofNat 64 v)⟩
  valuesU32.forM fun v => do
    is (fromU32 (BitVec.ofNat 32 v)) ⟨.w32, .inl (BitVec.ofNat 64 v)⟩
    is (fromI32 (BitVec.ofNat 32 v)) ⟨.w32, .inl (BitVec.ofNat 64 v)⟩
  valuesU64.forM fun v => do
    is (fromU64 (BitVec.ofNat 64 v)) ⟨.w64, .inl (BitVec.ofNat 64 v)⟩
    is (fromI64 (BitVec.ofNat 64 v)) ⟨.w64, .inl (BitVec.ofNat 64 v)⟩
  valuesU128.forM fun v => do
    let expected ← expect (← fromIter [BitVec.ofNat 64 (v &&& 18446744073709551615),
      BitVec.ofNat 64 (v >>> 64)])
    same (fromU128 (BitVec.ofNat 128 v)) (pure expected)
    same (fromI128 (BitVec.ofNat 128 v)) (pure expected)

example : fromPrimitives = .ok () := by decide +kernel

/-- The widths of `all_unset_eq_zero` and two more tests,
`/repo/src/apint/constructors.rs:648-653`. -/
def testWidths : List Nat := [1, 2, 4, 8, 10, 16, 32, 50, 64, 100, 128, 150, 200, 250, 255, 256]

/-- `zero`, `all_unset_eq_zero`, `same_signed_unsigned`, `all_set`, `unsiged_min_value_eq_zero`
and `unsiged_max_value_eq_all_set`, `/repo/src/apint/constructors.rs:628-718`. -/
def constants : Run Unit := do
  same (zero .w1) (fromBool false)
  same (zero .w8) (fromU8 0#8)
  same (zero .w16) (fromU16 0#16)
  same (zero .w32) (fromU32 0#32)
  same (zero .w64) (fromU64 0#64)
  same (zero .w128) (fromU128 0#128)
  same (zero (← wd 192)) (fromArray [0, 0, 0])
  same (zero (← wd 256)) (fromArray [0, 0, 0, 0])
  same (fromI8 (-1#8)) (fromU8 0xFF#8)
  same (fromI16 (-1#16)) (fromU16 0xFFFF#16)
  same (fromI32 (-1#32)) (fromU32 0xFFFFFFFF#32)
  same (fromI64 (-1#64)) (fromU64 0xFFFFFFFFFFFFFFFF#64)
  same (fromI128 (-1#128)) (fromU128 0xFFFFFFFFFFFFFFFFFFFFFFFFFFFFFFFF#128)
  same (allSet .w1) (fromBool true)
  same (allSet .w8) (fromI8 (-1#8))
  same (allSet .w16) (fromI16 (-1#16))
  same (allSet .w32) (fromI32 (-1#32))
  same (allSet .w64) (fromI64 (-1#64))
  same (allSet .w128) (fromI128 (-1#128))
  same (allSet (← wd 192)) (fromArray [-1, -1, -1])
  same (allSet (← wd 256)) (fromArray [-1, -1, -1, -1])
  testWidths.forM fun w => do
    let width ← wd w
    same (zero width) (allUnset width)
    same (zero width) (unsignedMinValue width)
    same (allSet width) (unsignedMaxValue width)

example : constants = .ok () := by decide +kernel

/-- `signed_min_value` and `signed_max_value`, `/repo/src/apint/constructors.rs:720-807`. -/
def signedLimits : Run Unit := do
  same (signedMinValue .w1) (fromBool true)
  same (signedMinValue .w8) (fromI8 (BitVec.intMin 8))
  same (signedMinValue .w16) (fromI16 (BitVec.intMin 16))
  same (signedMinValue .w32) (fromI32 (BitVec.intMin 32))
  same (signedMinValue .w64) (fromI64 (BitVec.intMin 64))
  same (signedMinValue .w128) (fromI128 (BitVec.intMin 128))
  same (signedMinValue (← wd 10)) (newInl (← wd 10) 0x200#64)
  same (signedMinValue .w128) (fromArray [0x8000000000000000, 0])
  same (signedMinValue (← wd 256)) (fromArray [0x8000000000000000, 0, 0, 0])
  same (signedMaxValue .w1) (fromBool false)
  same (signedMaxValue .w8) (fromI8 (BitVec.intMax 8))
  same (signedMaxValue .w16) (fromI16 (BitVec.intMax 16))
  same (signedMaxValue .w32) (fromI32 (BitVec.intMax 32))
  same (signedMaxValue .w64) (fromI64 (BitVec.intMax 64))
  same (signedMaxValue .w128) (fromI128 (BitVec.intMax 128))
  same (signedMaxValue (← wd 10)) (newInl (← wd 10) 0x1FF#64)

example : signedLimits = .ok () := by decide +kernel

/-! ## `/repo/src/apint/casting.rs` -/

/-- `test_apints`, `/repo/src/apint/casting.rs:492-539`. -/
def testApints : List (Run ApInt) :=
  [fromBool false, fromBool true,
   fromU8 0, fromU8 1, fromU8 42, fromU8 0xF0, fromU8 0x0F, allSet .w8,
   fromU16 0, fromU16 1, fromU16 42, fromU16 1337, fromU16 0xFF00, fromU16 0x0FF0, fromU16 0x00FF,
   allSet .w16,
   fromU32 0, fromU32 1, fromU32 42, fromU32 1337, fromU32 0xFFFF0000, fromU32 0x00FFFF00,
   fromU32 0x0000FFFF, allSet .w32,
   fromU64 0, fromU64 1, fromU64 42, fromU64 1337, fromU64 0xFFFFFFFF00000000,
   fromU64 0x0000FFFFFFFF0000, fromU64 0x00000000FFFFFFFF, allSet .w64,
   fromU128 0, fromU128 1, fromU128 42, fromU128 1337,
   fromU128 0xFFFFFFFFFFFFFFFF0000000000000000, fromU128 0x00000000FFFFFFFFFFFFFFFF00000000,
   fromU128 0x0000000000000000FFFFFFFFFFFFFFFF, allSet .w128]

/-- `clone::clone` and `assign::equal_width`, `/repo/src/apint/casting.rs:556-582`. -/
def cloneAssign : Run Unit :=
  testApints.forM fun r => do
    let a ← r
    same (pure a) a.clone
    let allSet ← allSet a.width
    let allUnset ← allUnset a.width
    differ (pure allSet) (pure allUnset)
    let allSet ← allSet.assign a
    let allUnset ← allUnset.assign a
    same (pure allSet) (pure allUnset)
    same (pure a) (pure allSet)
    same (pure a) (pure allUnset)

example : cloneAssign = .ok () := by decide +kernel

/-- `regression_issue15`, `/repo/src/apint/casting.rs:704-722`. -/
def issue15 : Run Unit := do
  same (unwrapRes ((← fromI64 (BitVec.intMin 64)).intoSignExtend (← wd 128)))
    (fromArray [-1, BitVec.intMin 64])
  same (unwrapRes ((← fromI128 (BitVec.intMin 128)).intoSignExtend (← wd 256)))
    (fromArray [-1, -1, BitVec.intMin 64, 0])

example : issue15 = .ok () := by decide +kernel

/-! ## `/repo/src/apint/bitwise.rs` and `/repo/src/uint.rs` -/

/-- The widths of the counting tests. -/
def countWidths : List BitWidth := [.w1, .w8, .w16, .w32, .w64, .w128]

/-- `count_ones`, `count_zeros`, `leading_zeros` and `trailing_zeros`,
`/repo/src/apint/bitwise.rs:312-440`. -/
def counting : Run Unit := do
  countWidths.forM fun w => do
    is (do (← zero w).countOnes) 0
    is (do (← signedMinValue w).countOnes) 1
    is (do (← signedMaxValue w).countOnes) (w.toUsize - 1)
    is (do (← zero w).countZeros) w.toUsize
    is (do (← signedMinValue w).countZeros) (w.toUsize - 1)
    is (do (← signedMaxValue w).countZeros) 1
    is (do (← zero w).leadingZeros) w.toUsize
    is (do (← signedMinValue w).leadingZeros) 0
    is (do (← signedMaxValue w).leadingZeros) 1
    is (do (← zero w).trailingZeros) w.toUsize
    is (do (← signedMinValue w).trailingZeros) (w.toUsize - 1)
    is (do (← signedMaxValue w).trailingZeros) (if w = .w1 then 1 else 0)

example : counting = .ok () := by decide +kernel

/-- `is_all_set` and `is_all_unset`, `/repo/src/apint/bitwise.rs:442-481`. -/
def allBits : Run Unit := do
  let input ← fromU16 0b0001101101100111#16
  is (pure input.width) BitWidth.w16
  is input.countOnes 9
  is input.isAllSet false
  is input.isZero (← input.isAllUnset)
  let input ← allSet .w32
  is (pure input.width) BitWidth.w32
  is input.countOnes 32
  is input.isAllSet true
  let input ← allUnset .w32
  is input.countOnes 0
  is input.isZero (← input.isAllUnset)

example : allBits = .ok () := by decide +kernel

/-- `one` and `count` of `UInt`, `/repo/src/uint.rs:1108-1151`. -/
def uintOne : Run Unit := do
  is (UInt.one .w1) (← UInt.fromBool true)
  is (UInt.one .w8) (← UInt.fromU8 1#8)
  is (UInt.one .w16) (← UInt.fromU16 1#16)
  is (UInt.one .w32) (← UInt.fromU32 1#32)
  is (UInt.one .w64) (← UInt.fromU64 1#64)
  is (UInt.one .w128) (← UInt.fromU128 1#128)
  is (UInt.one (← wd 192)) (← UInt.fromArray [0, 0, 1])
  countWidths.forM fun w => do
    is (do (← UInt.one w).countOnes) 1
    is (do (← UInt.one w).countZeros) (w.toUsize - 1)
    is (do (← UInt.one w).leadingZeros) (w.toUsize - 1)
    is (do (← UInt.one w).trailingZeros) 0

example : uintOne = .ok () := by decide +kernel

/-- `one` of `Int`, `/repo/src/int.rs:1184-1197`. -/
def intOne : Run Unit := do
  is (SInt.one .w1) none
  is (SInt.one .w8) (some (← SInt.fromI8 1#8))
  is (SInt.one .w16) (some (← SInt.fromI16 1#16))
  is (SInt.one .w32) (some (← SInt.fromI32 1#32))
  is (SInt.one .w64) (some (← SInt.fromI64 1#64))
  is (SInt.one .w128) (some (← SInt.fromI128 1#128))
  is (SInt.one (← wd 192)) (some (← SInt.fromArray [0, 0, 1]))

example : intOne = .ok () := by decide +kernel

/-! ## `/repo/src/apint/shift.rs` -/

/-- `test_reprs_w64`, `/repo/src/apint/shift.rs:306-316`. -/
def reprsW64 : List (BitVec 64) :=
  [0x0123456789ABCDEF, 0xFEDCBA9876543210, 0, 0x5555555555555555, 0xAAAAAAAAAAAAAAAA,
   0xFFFFFFFFFFFFFFFF]

/-- `test_reprs_w128`, `/repo/src/apint/shift.rs:322-334`. -/
def reprsW128 : List (BitVec 128) :=
  [0x0123456789ABCDEF0011223344556677, 0xFEDCBA98765432107766554433221100, 1,
   0x80000000000000000000000000000000, 0, 0x55555555555555555555555555555555,
   0xAAAAAAAAAAAAAAAAAAAAAAAAAAAAAAAA, 0xFFFFFFFFFFFFFFFFFFFFFFFFFFFFFFFF]

/-- `assign_small_ok`, `assign_large_ok`, `assign_small_fail`, `assign_large_fail`,
`into_equivalent_small` and `into_equivalent_large` of one kind of shift, e.g.
`/repo/src/apint/shift.rs:343-460`. -/
def shiftTests (f : ApInt → Nat → Run (Res Unit × ApInt)) (g : ApInt → Nat → Run (Res ApInt))
    (e : {w : Nat} → BitVec w → Nat → BitVec w) : Run Unit := do
  reprsW64.forM fun r => do
    (List.range 64).forM fun s => do
      let x ← unwrapMut (f (← fromU64 r) s)
      same (pure x) (fromU64 (e r s))
      same (pure x) (unwrapRes (g (← fromU64 r) s))
    is (do let (q, _) ← f (← fromU64 r) 64; pure q.isOk) false
  reprsW128.forM fun r => do
    (List.range 128).forM fun s => do
      let x ← unwrapMut (f (← fromU128 r) s)
      same (pure x) (fromU128 (e r s))
      same (pure x) (unwrapRes (g (← fromU128 r) s))
    is (do let (q, _) ← f (← fromU128 r) 128; pure q.isOk) false

example : shiftTests wrappingShlAssign intoWrappingShl (fun x s => x <<< s) = .ok () := by
  decide +kernel

example : shiftTests wrappingLshrAssign intoWrappingLshr (fun x s => x >>> s) = .ok () := by
  decide +kernel

example : shiftTests wrappingAshrAssign intoWrappingAshr (fun x s => x.sshiftRight s) = .ok () := by
  decide +kernel

/-- `shl::assign_xtra_large_ok`, `/repo/src/apint/shift.rs:367-420`, and
`ashr::regression_stevia_01`, `/repo/src/apint/shift.rs:534-542`. -/
def shiftMore : Run Unit := do
  let d0 : BitVec 64 := 0xFEDCBA9876543210
  let d1 : BitVec 64 := 0x5555555544444444
  let d2 : BitVec 64 := 0xAAAAAAAACCCCCCCC
  let d3 : BitVec 64 := 0xFFFF77777777FFFF
  same (unwrapRes ((← fromArray [d0, d1, d2, d3]).intoWrappingShl 100))
    (fromArray [(d1 <<< 36) ||| (d2 >>> (64 - 36)), (d2 <<< 36) ||| (d3 >>> (64 - 36)), d3 <<< 36,
      0])
  same (unwrapRes ((← fromArray [d0, d1, d2, d3]).intoWrappingShl 150))
    (fromArray [(d2 <<< 22) ||| (d3 >>> (64 - 22)), d3 <<< 22, 0, 0])
  same (unwrapRes ((← fromArray [d0, d1, d2, d3]).intoWrappingShl 200))
    (fromArray [d3 <<< 8, 0, 0, 0])
  same (unwrapRes ((← fromI32 (-8#32)).intoWrappingAshr 2)) (fromU32 0xFFFFFFFE#32)

example : shiftMore = .ok () := by decide +kernel

/-! ## `/repo/src/apint/relational.rs`, `/repo/src/apint/utils.rs` -/

/-- `simple_small` and `simple_large`, `/repo/src/apint/relational.rs:239-265`. -/
def equality : Run Unit := do
  same (fromU8 42) (fromU8 42)
  differ (fromU8 42) (fromU8 77)
  differ (fromU8 42) (fromU16 42)
  differ (fromU8 77) (fromU16 42)
  same (fromU128 42) (fromU128 42)
  differ (fromU128 42) (fromU128 1337)
  differ (fromU128 42) (fromU64 42)
  differ (fromU128 1337) (fromU64 42)

example : equality = .ok () := by decide +kernel

/-- `msb`, `/repo/src/apint/utils.rs:469-481`. -/
def msbTest : Run Unit := do
  is (do (← fromBool false).msb) false
  is (do (← fromBool true).msb) true
  is (do (← fromU8 0b01010101).msb) false
  is (do (← fromU8 0b11010101).msb) true
  is (do (← fromU16 0b0111100011010101).msb) false
  is (do (← fromU16 0b1011000101010101).msb) true
  is (do (← fromU32 0x70000000).msb) false
  is (do (← fromU32 0x80000000).msb) true
  is (do (← fromU64 0x70FCA87543211234).msb) false
  is (do (← fromU64 0x8765432155556666).msb) true

example : msbTest = .ok () := by decide +kernel

/-! ## `/repo/src/apint/to_primitive.rs` -/

/-- `test_values`, `/repo/src/apint/to_primitive.rs:582-637`. -/
def primValues : List (BitVec 64) :=
  let u : List (BitVec 64) :=
    [0, 1, 2, 3, 5, 7, 10, 11, 13, 42, 63, 64, 65, 100, 127, 128, 129, 254, 255, 256, 257, 1337,
     2047, 2048, 2049, 8001, 9999, 0xFEDCBA9876543210, 0xF0F0F0F0F0F0F0F0, 0x8000000000000000,
     0x1010101010101010, 0xFFFFFFFF00000000, 0x0000FFFFFFFF0000, 0xFFFF00000000FFFF,
     0xFFFF0000FFFF0000, 0x0000FFFF0000FFFF]
  u ++ u.map fun v => -v

/-- `test_vals_and_apints`, `/repo/src/apint/to_primitive.rs:648-700`. -/
def primCases : List (BitVec 128 × Run ApInt) :=
  primValues.flatMap fun v =>
    [(if v = 0 then 0 else 1, fromBool (v != 0)),
     ((v.setWidth 8).setWidth 128, fromI8 (v.setWidth 8)),
     ((v.setWidth 8).setWidth 128, fromU8 (v.setWidth 8)),
     ((v.setWidth 16).setWidth 128, fromI16 (v.setWidth 16)),
     ((v.setWidth 16).setWidth 128, fromU16 (v.setWidth 16)),
     ((v.setWidth 32).setWidth 128, fromI32 (v.setWidth 32)),
     ((v.setWidth 32).setWidth 128, fromU32 (v.setWidth 32)),
     (v.setWidth 128, fromI64 v),
     (v.setWidth 128, fromU64 v),
     (v.signExtend 128, fromI128 (v.signExtend 128)),
     (v.signExtend 128, fromU128 (v.signExtend 128))]

/-- `count_test_apints`, `/repo/src/apint/to_primitive.rs:704-707`. -/
example : primCases.length = 792 := by decide +kernel

/-- The expected value of the signed tests up to 64 bits, e.g.
`/repo/src/apint/to_primitive.rs:730-741`. -/
def signedDigit (val : BitVec 128) (a : ApInt) (ty : PrimitiveTy) : Run Digit :=
  if a.width.toUsize < ty.associatedWidth.toUsize then do
    let (r, d) ← Digit.signExtendFrom (val.setWidth 64) a.width
    expect r
    if ty = .i64 then pure d
    else do
      let (r, d) ← Digit.truncateTo d ty.associatedWidth
      expect r
      pure d
  else pure (val.setWidth 64)

/-- `resize::*`, `/repo/src/apint/to_primitive.rs:719-842`. -/
def resizeTests : Run Unit :=
  primCases.forM fun (val, r) => do
    let a ← r
    is a.isEven (val.toNat % 2 = 0)
    is a.isOdd (val.toNat % 2 ≠ 0)
    is a.resizeToBool (← a.isOdd)
    is a.resizeToI8 ((← signedDigit val a .i8).setWidth 8)
    is a.resizeToU8 (val.setWidth 8)
    is a.resizeToI16 ((← signedDigit val a .i16).setWidth 16)
    is a.resizeToU16 (val.setWidth 16)
    is a.resizeToI32 ((← signedDigit val a .i32).setWidth 32)
    is a.resizeToU32 (val.setWidth 32)
    is a.resizeToI64 (← signedDigit val a .i64)
    is a.resizeToU64 (val.setWidth 64)
    is a.resizeToI128 (← (do
      if a.width.toUsize < 128 then
        let (r, d) ← Digit.signExtendFrom (val.setWidth 64) a.width
        expect r
        pure (d.signExtend 128)
      else pure val))
    is a.resizeToU128 val

example : resizeTests = .ok () := by decide +kernel

/-- `resize::to_bool_true` and `resize::one_to_i8`, `/repo/src/apint/to_primitive.rs:709-717`,
`844-859`. -/
def resizeOnes : Run Unit := do
  [fromBool true, fromU8 1, fromU16 1, fromU32 1, fromU64 1, fromU128 1].forM fun r => do
    is (do (← r).resizeToBool) true
  is (do (← fromBool true).resizeToI8) (-1#8)
  [fromU8 1, fromU16 1, fromU32 1, fromU64 1, fromU128 1].forM fun r => do
    is (do (← r).resizeToI8) 1#8
  [fromI8 (-1#8), fromI16 (-1#16), fromI32 (-1#32), fromI64 (-1#64), fromI128 (-1#128)].forM
    fun r => do is (do (← r).resizeToI8) (-1#8)

example : resizeOnes = .ok () := by decide +kernel

/-- `try::to_bool_true`, `to_bool_false` and `to_bool_fail`,
`/repo/src/apint/to_primitive.rs:865-893`. -/
def tryBool : Run Unit := do
  [fromBool true, fromU8 1, fromU16 1, fromU32 1, fromU64 1, fromU128 1].forM fun r => do
    is (do (← r).tryToBool) (.ok true)
  [fromBool false, fromU8 0, fromU16 0, fromU32 0, fromU64 0, fromU128 0].forM fun r => do
    is (do (← r).tryToBool) (.ok false)
  [fromU8 2, fromI16 (-1#16), fromU32 42, fromU64 1337,
   fromU128 0xFFFFFFFFFFFFFFFFFFFFFFFFFFFF].forM fun r => do
    isErr (do (← r).tryToBool)

example : tryBool = .ok () := by decide +kernel

/-- `PrimitiveTy::is_valid_dd`, used by the tests only, `/repo/src/apint/to_primitive.rs:67-77`. -/
def isValidDd (ty : PrimitiveTy) (value : BitVec 128) : Bool :=
  match ty with
  | .bool => value == 0 || value == 1
  | .i8 | .u8 => value < 1#128 <<< 8
  | .i16 | .u16 => value < 1#128 <<< 16
  | .i32 | .u32 => value < 1#128 <<< 32
  | .i64 | .u64 => value < 1#128 <<< 64
  | .i128 | .u128 => true

/-- The shape of the tests of `try_to_*`: `Ok(expected)` when the value is valid, otherwise an
error. -/
def tryCase {n : Nat} (ty : PrimitiveTy) (val : BitVec 128) (x : Run (Res (BitVec n)))
    (expected : Run (BitVec n)) : Run Unit := do
  if isValidDd ty val then is x (.ok (← expected)) else isErr x

/-- `try::*`, `/repo/src/apint/to_primitive.rs:896-1059`. -/
def tryTests : Run Unit :=
  primCases.forM fun (val, r) => do
    let a ← r
    tryCase .i8 val a.tryToI8 (do pure ((← signedDigit val a .i8).setWidth 8))
    tryCase .i16 val a.tryToI16 (do pure ((← signedDigit val a .i16).setWidth 16))
    tryCase .i32 val a.tryToI32 (do pure ((← signedDigit val a .i32).setWidth 32))
    tryCase .i64 val a.tryToI64 (signedDigit val a .i64)
    tryCase .i128 val a.tryToI128 (do
      if a.width.toUsize < 128 then
        let m : BitVec 128 := 1#128 <<< (a.width.toUsize - 1)
        pure ((val ^^^ m) - m)
      else pure val)
    tryCase .u8 val a.tryToU8 (pure (val.setWidth 8))
    tryCase .u16 val a.tryToU16 (pure (val.setWidth 16))
    tryCase .u32 val a.tryToU32 (pure (val.setWidth 32))
    tryCase .u64 val a.tryToU64 (pure (val.setWidth 64))
    tryCase .u128 val a.tryToU128 (pure val)

example : tryTests = .ok () := by decide +kernel

/-! ## `/repo/src/apint/serialization.rs` -/

/-- `binary::small` and `binary::large`, `/repo/src/apint/serialization.rs:380-431`. -/
def binaryTests : Run Unit := do
  is (do (← zero .w32).fmtBinary) "0".toList
  is (do (← fromU32 0b1010011001101001).fmtBinary) "1010011001101001".toList
  is (do (← allSet .w32).fmtBinary) (List.replicate 32 '1')
  is (do (← signedMinValue .w32).fmtBinary) ('1' :: List.replicate 31 '0')
  is (do (← signedMaxValue .w32).fmtBinary) (List.replicate 31 '1')
  is (do (← zero .w128).fmtBinary) "0".toList
  is (do (← fromU128 0b1010011001101001).fmtBinary) "1010011001101001".toList
  is (do (← allSet .w128).fmtBinary) (List.replicate 128 '1')
  is (do (← signedMinValue .w128).fmtBinary) ('1' :: List.replicate 127 '0')
  is (do (← signedMaxValue .w128).fmtBinary) (List.replicate 127 '1')

example : binaryTests = .ok () := by decide +kernel

/-- `assert_hex`, `/repo/src/apint/serialization.rs:436-439`, with the two texts written out. -/
def assertHex (a : Run ApInt) (lower upper : String) : Run Unit := do
  is (do (← a).fmtLowerHex) lower.toList
  is (do (← a).fmtUpperHex) upper.toList

/-- `hex::small` and `hex::large`, `/repo/src/apint/serialization.rs:440-469`. -/
def hexTests : Run Unit := do
  assertHex (zero .w32) "0" "0"
  assertHex (fromU32 0xFEDCBA98) "fedcba98" "FEDCBA98"
  assertHex (allSet .w32) "ffffffff" "FFFFFFFF"
  assertHex (signedMinValue .w32) "80000000" "80000000"
  assertHex (signedMaxValue .w32) "7fffffff" "7FFFFFFF"
  assertHex (zero .w128) "0" "0"
  assertHex (fromU128 0xFEDCBA980A1B7654ABCD0123) "fedcba980a1b7654abcd0123"
    "FEDCBA980A1B7654ABCD0123"
  assertHex (allSet .w128) "ffffffffffffffffffffffffffffffff" "FFFFFFFFFFFFFFFFFFFFFFFFFFFFFFFF"
  assertHex (signedMinValue .w128) "80000000000000000000000000000000"
    "80000000000000000000000000000000"
  assertHex (signedMaxValue .w128) "7fffffffffffffffffffffffffffffff"
    "7FFFFFFFFFFFFFFFFFFFFFFFFFFFFFFF"

example : hexTests = .ok () := by decide +kernel

/-- `test_radices`, `/repo/src/apint/serialization.rs:475-479`. -/
def radices : List Nat := [2, 4, 8, 16, 32, 7, 10, 36]

/-- `empty`, `starts_with_underscore`, `ends_with_underscore` and `zero`,
`/repo/src/apint/serialization.rs:481-533` (annotations are not modelled). -/
def parseEdges : Run Unit :=
  radices.forM fun r => do
    ["", "_0", "_123", "__", "_1_0", "0_", "123_", "1_0_"].forM fun s => do
      is (fromStrRadix r s.toList) (.error (.invalidStringRepr s.toList ⟨r⟩ none))
    same (unwrapRes (fromStrRadix r ['0'])) (zero .w64)

example : parseEdges = .ok () := by decide +kernel

/-- `small_values`, `/repo/src/apint/serialization.rs:535-597`. -/
def parseSamples : List (Nat × String × Nat) :=
  [(2, "0", 0), (8, "0", 0), (10, "0", 0), (16, "0", 0), (2, "1", 1), (8, "1", 1), (10, "1", 1),
   (16, "1", 1), (2, "10", 2), (8, "10", 8), (10, "10", 10), (16, "10", 16), (2, "11", 3),
   (8, "11", 9), (10, "11", 11), (16, "11", 17), (2, "1001_0011", 0b10010011),
   (2, "0001_0001_0001_0001", 0x1111), (2, "0101_0101_0101_0101", 0x5555),
   (2, "1010_1010_1010_1010", 0xAAAA), (2, "1111_1111_1111_1111", 0xFFFF),
   (2, "1111_1111_1111_11111111_1111_1111_11111111_1111_1111_11111111_1111_1111_1111",
     18446744073709551615),
   (8, "7654_3210", 0o76543210), (8, "0123_4567", 0o01234567), (8, "777_747_666", 0o777747666),
   (8, "111", 0b01001001), (8, "7_7777_7777_7777_7777_7777", 18446744073709551615 / 2),
   (10, "100", 100), (10, "42", 42), (10, "1337", 1337), (10, "5_000_000", 5000000),
   (16, "100", 0x100), (16, "42", 0x42), (16, "1337", 0x1337), (16, "1111", 0x1111),
   (16, "5555", 0x5555), (16, "FFFF", 0xFFFF), (16, "0123_4567_89AB_CDEF", 0x0123456789ABCDEF),
   (16, "FEDC_BA98_7654_3210", 0xFEDCBA9876543210)]

/-- The loop of `small_values`, `/repo/src/apint/serialization.rs:591-597`. -/
def parseSmall : Run Unit :=
  parseSamples.forM fun (r, s, v) =>
    same (unwrapRes (fromStrRadix r s.toList)) (fromU64 (BitVec.ofNat 64 v))

example : parseSmall = .ok () := by decide +kernel

/-- The two samples the authors commented out because they "do not work, yet",
`/repo/src/apint/serialization.rs:572-573`, `578-579`. -/
def parseFailing : List (Nat × String × Nat) :=
  [(8, "17_7777_7777_7777_7777_7777", 18446744073709551615),
   (10, "18_446_744_073_709_551_615", 18446744073709551615)]

/-- On the model they fail as well. -/
example : (parseFailing.map fun (r, s, v) =>
    same (unwrapRes (fromStrRadix r s.toList)) (fromU64 (BitVec.ofNat 64 v))) =
    [.error .panic, .error .panic] := by decide +kernel

/-! ## `/repo/src/apint/rand_impl.rs`

The generator of the tests is `XorShiftRng` of the crate `rand_xorshift`, whose default seed is
replaced by four words `0x0BAD_5EED`, `0x0BAD_5EED`, `0x0BAD_5EED`, `0x0BAD_5EED`; it yields 64
bits as two words of 32, the first one low. -/

/-- The state of `XorShiftRng`. -/
structure XorShift where
  x : BitVec 32
  y : BitVec 32
  z : BitVec 32
  w : BitVec 32

/-- `XorShiftRng::next_u32`. -/
def XorShift.next (s : XorShift) : XorShift :=
  let t := s.x ^^^ (s.x <<< 11)
  ⟨s.y, s.z, s.w, s.w ^^^ (s.w >>> 19) ^^^ (t ^^^ (t >>> 8))⟩

/-- `n` steps of the generator. -/
def XorShift.steps : Nat → XorShift → XorShift
  | 0, s => s
  | n + 1, s => steps n s.next

/-- The digits the seeded generator yields. -/
def xorShift : Rng := fun i =>
  let s := XorShift.steps (2 * i + 1) ⟨0x0BAD5EED, 0x0BAD5EED, 0x0BAD5EED, 0x0BAD5EED⟩
  (s.w.setWidth 64 : BitVec 64) ||| (s.next.w.setWidth 64 <<< 32)

/-- `random_with_width_using`, `/repo/src/apint/rand_impl.rs:79-106`. -/
def randomTest : Run Unit := do
  let (a, rng) ← randomWithWidthUsing .w1 xorShift
  same (pure a) (fromBool true)
  let (a, rng) ← randomWithWidthUsing .w8 rng
  same (pure a) (fromU8 100)
  let (a, rng) ← randomWithWidthUsing .w16 rng
  same (pure a) (fromU16 30960)
  let (a, rng) ← randomWithWidthUsing .w32 rng
  same (pure a) (fromU32 1788231528)
  let (a, rng) ← randomWithWidthUsing .w64 rng
  same (pure a) (fromU64 13499822775494449820)
  let (a, _) ← randomWithWidthUsing .w128 rng
  same (pure a) (fromArray [16330942765510900160, 131735358788273206])

example : randomTest = .ok () := by decide +kernel

/-- `randomize_using`, `/repo/src/apint/rand_impl.rs:109-158`. -/
def randomizeTest : Run Unit := do
  let _ ← countWidths.foldlM (init := (xorShift, xorShift)) fun (r1, r2) w => do
    let (a, r1) ← (← zero w).randomizeUsing r1
    let (b, r2) ← randomWithWidthUsing w r2
    same (pure a) (pure b)
    pure (r1, r2)

example : randomizeTest = .ok () := by decide +kernel

/-! ## `/repo/src/apint/serde_impl.rs` -/

/-- `compact` and `human_readable`, `/repo/src/apint/serde_impl.rs:311-399`: both directions. -/
example : (fromU64 0xFEDCBA9876543210 >>= Serde.serialize false) =
    .ok (.tuple [.u64 64, .seq [.u64 0xFEDCBA9876543210]]) := rfl

example : (fromU128 0xFEDCBA98765432100101101001101001 >>= Serde.serialize false) =
    .ok (.tuple [.u64 128, .seq [.u64 0x0101101001101001, .u64 0xFEDCBA9876543210]]) := rfl

example : (fromU64 42 >>= Serde.serialize true) =
    .ok (.struct "ApInt" [("width", .tupleStruct "BitWidth" [.u64 64]),
      ("digits", .seq [.u64 42])]) := rfl

example : (fromU128 1337 >>= Serde.serialize true) =
    .ok (.struct "ApInt" [("width", .tupleStruct "BitWidth" [.u64 128]),
      ("digits", .seq [.u64 1337, .u64 0])]) := rfl

/-- The other direction. -/
def readBack : Run Unit :=
  [(false, fromU64 0xFEDCBA9876543210), (false, fromU128 0xFEDCBA98765432100101101001101001),
   (true, fromU64 42), (true, fromU128 1337)].forM fun (human, r) => do
    match ← Serde.deserialize human (← Serde.serialize human (← r)) with
    | .ok a => same (pure a) r
    | .error _ => throw .panic

example : readBack = .ok () := by decide +kernel

/-! ## `/repo/src/std_ops.rs` -/

/-- A byte from an integer literal. -/
def i8 (v : Int) : BitVec 8 := BitVec.ofInt 8 v

/-- `unary`, `binary` and `assign`, `/repo/src/std_ops.rs:233-287`. -/
def operators : Run Unit := do
  same (do (← fromI8 123).opNeg) (fromI8 (i8 (-123)))
  same (do (← fromU8 0b01101001).opNot) (fromU8 0b10010110)
  same (do (← fromU8 0b1001).opShl 4) (fromU8 0b10010000)
  same (do (← fromU8 0b0110).opBitAnd (← fromU8 0b1010)) (fromU8 0b0010)
  same (do (← fromU8 0b0110).opBitOr (← fromU8 0b1010)) (fromU8 0b1110)
  same (do (← fromU8 0b0110).opBitXor (← fromU8 0b1010)) (fromU8 0b1100)
  same (do (← fromU8 3).opAdd (← fromU8 7)) (fromU8 10)
  same (do (← fromI8 3).opSub (← fromI8 7)) (fromI8 (i8 (-4)))
  same (do (← fromU8 3).opMul (← fromU8 7)) (fromU8 21)
  same (do (← fromU8 0b1001).opShlAssign 4) (fromU8 0b10010000)
  same (do (← fromU8 0b0110).opBitAndAssign (← fromU8 0b1010)) (fromU8 0b0010)
  same (do (← fromU8 0b0110).opBitOrAssign (← fromU8 0b1010)) (fromU8 0b1110)
  same (do (← fromU8 0b0110).opBitXorAssign (← fromU8 0b1010)) (fromU8 0b1100)
  same (do (← fromI8 3).opAddAssign (← fromI8 7)) (fromU8 10)
  same (do (← fromI8 3).opSubAssign (← fromI8 7)) (fromI8 (i8 (-4)))
  same (do (← fromI8 3).opMulAssign (← fromI8 7)) (fromU8 21)

example : operators = .ok () := by decide +kernel

/-- `signed`, `/repo/src/std_ops.rs:289-327`. -/
def signedOperators : Run Unit := do
  is (do (← UInt.fromU8 199).opShr 4) (← UInt.fromU8 12)
  is (do (← SInt.fromI8 (i8 (-57))).opShr 4) (← SInt.fromI8 (i8 (-4)))
  is (do (← UInt.fromU8 199).opDiv (← UInt.fromU8 7)) (← UInt.fromU8 28)
  is (do (← UInt.fromU8 199).opRem (← UInt.fromU8 7)) (← UInt.fromU8 3)
  is (do (← SInt.fromI8 (i8 (-57))).opDiv (← SInt.fromI8 7)) (← SInt.fromI8 (i8 (-8)))
  is (do (← SInt.fromI8 (i8 (-57))).opRem (← SInt.fromI8 7)) (← SInt.fromI8 (i8 (-1)))
  is (do (← UInt.fromU8 199).opShrAssign 4) (← UInt.fromU8 12)
  is (do (← SInt.fromI8 (i8 (-57))).opShrAssign 4) (← SInt.fromI8 (i8 (-4)))
  is (do (← UInt.fromU8 199).opDivAssign (← UInt.fromU8 7)) (← UInt.fromU8 28)
  is (do (← UInt.fromU8 199).opRemAssign (← UInt.fromU8 7)) (← UInt.fromU8 3)
  is (do (← SInt.fromI8 (i8 (-57))).opDivAssign (← SInt.fromI8 7)) (← SInt.fromI8 (i8 (-8)))
  is (do (← SInt.fromI8 (i8 (-57))).opRemAssign (← SInt.fromI8 7)) (← SInt.fromI8 (i8 (-1)))

example : signedOperators = .ok () := by decide +kernel

/-! ## `/repo/src/bitpos.rs`, `/repo/src/bitwidth.rs` -/

/-- `to_digit_and_bit_pos`, `/repo/src/bitpos.rs:65-102`. -/
example : [64, 256, 0, 1, 63, 255].map toDigitAndBitPos =
    [(1, 0), (4, 0), (0, 0), (0, 1), (0, 63), (3, 63)] := by decide +kernel

/-- `excess_bits`, `/repo/src/bitwidth.rs:175-194`. -/
def excess : Run Unit := do
  [(1, some 1), (8, some 8), (16, some 16), (32, some 32), (64, none), (128, none),
   (50, some 50), (100, some 36), (150, some 22), (200, some 8), (250, some 58),
   (300, some 44)].forM fun (w, e) => do is (pure (← wd w).excessBits) e

example : excess = .ok () := by decide +kernel

/-! ## `/repo/src/digit.rs` -/

/-- `TEST_VALUES`, `/repo/src/digit.rs:593`. -/
def ddValues : List Nat := [0, 1, 2, 10, 42, 1337]

/-- `ops_add`, `ops_sub`, `ops_mul`, `ops_div` and `ops_rem`, `/repo/src/digit.rs:595-673`. -/
def ddOps : Run Unit :=
  ddValues.forM fun l => ddValues.forM fun r => do
    let x := BitVec.ofNat 128 l
    let y := BitVec.ofNat 128 r
    is (pure (DDigit.wrappingAdd x y)) (BitVec.ofNat 128 (l + r))
    is (pure (DDigit.wrappingSub x y)) (BitVec.ofInt 128 (l - r))
    is (pure (DDigit.wrappingMul x y)) (BitVec.ofNat 128 (l * r))
    if r ≠ 0 then
      is (DDigit.wrappingDivrem x y) (BitVec.ofNat 128 (l / r), BitVec.ofNat 128 (l % r))

example : ddOps = .ok () := by decide +kernel

/-- The table of `lo_hi`, `/repo/src/digit.rs:773-801`: a double digit, its upper and its lower
half. -/
def halves : List (BitVec 128 × BitVec 64 × BitVec 64) :=
  [(0, 0, 0), (1, 0, 1), (0x00000000000000010000000000000000, 1, 0),
   (0xFFFFFFFFFFFFFFFFFFFFFFFFFFFFFFFF, 0xFFFFFFFFFFFFFFFF, 0xFFFFFFFFFFFFFFFF),
   (0x0000000000000000FFFFFFFFFFFFFFFF, 0, 0xFFFFFFFFFFFFFFFF),
   (0x00000000FFFFFFFFFFFFFFFF00000000, 0xFFFFFFFF, 0xFFFFFFFF00000000),
   (0xFFFFFFFFFFFFFFFF0000000000000000, 0xFFFFFFFFFFFFFFFF, 0),
   (0x012345678910ABCDEF00000000000000, 0x012345678910ABCD, 0xEF00000000000000),
   (0x00000000000000FEDCBA019876543210, 0xFE, 0xDCBA019876543210)]

/-- `hi`, `lo`, `lo_hi` and `from_lo_hi`, `/repo/src/digit.rs:693-857`. -/
def halvesTest : Run Unit :=
  halves.forM fun (x, h, l) => do
    is (pure (DDigit.hi x)) h
    is (pure (DDigit.lo x)) l
    is (pure (DDigit.loHi x)) (l, h)
    is (pure (DDigit.fromLoHi l h)) x

example : halvesTest = .ok () := by decide +kernel

/-- `VALID_TEST_POS_VALUES`, `/repo/src/digit.rs:865-866`. -/
def validPos : List Nat := [0, 1, 2, 3, 10, 32, 42, 48, 63]

/-- `INVALID_TEST_POS_VALUES`, `/repo/src/digit.rs:868-869`. -/
def invalidPos : List Nat := [64, 65, 100, 1337, 18446744073709551615]

/-- `TEST_DIGIT_REPRS`, `/repo/src/digit.rs:871-880`. -/
def digitReprs : List (BitVec 64) :=
  [0, 1, MAX, 0x5555555555555555, 0xAAAAAAAAAAAAAAAA, 0xFFFFFFFF00000000, 0x0000FFFFFFFF0000,
   0x00000000FFFFFFFF]

/-- The digits of the tests: all bits, none, the even ones, the odd ones. -/
def someDigits : List Digit := [Digit.ONES, Digit.ZERO, 0x5555555555555555, 0xAAAAAAAAAAAAAAAA]

/-- `dd`, `get_ok`, `get_fail`, `set_ok`, `set_fail` and `retain_last_n`,
`/repo/src/digit.rs:895-974`. -/
def digitTests : Run Unit := do
  digitReprs.forM fun v => is (pure (Digit.dd v)) (BitVec.ofNat 128 v.toNat)
  validPos.forM fun p => do
    is (Digit.ONES.get p) (.ok true)
    is (Digit.ZERO.get p) (.ok false)
    is (Digit.get 0x5555555555555555 p) (.ok (p % 2 = 0))
    is (Digit.get 0xAAAAAAAAAAAAAAAA p) (.ok (p % 2 = 1))
  invalidPos.forM fun p => do
    someDigits.forM fun d => do
      is (Digit.get d p) (.error (.invalidBitAccess p .w64))
      is (do let (r, _) ← Digit.set d p; pure r) (.error (.invalidBitAccess p .w64))
  digitReprs.forM fun v => do
    let _ ← validPos.foldlM (init := v) fun d p => do
      let d ← unwrapMut (Digit.set d p)
      is (Digit.get d p) (.ok true)
      pure d
  is (unwrapMut (Digit.ONES.retainLastN 32)) 0x00000000FFFFFFFF#64

example : digitTests = .ok () := by decide +kernel

end Verif.Conform
