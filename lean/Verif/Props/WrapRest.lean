import Verif.Props.WrapUnsigned
import Verif.Props.WrapSigned
import Verif.Props.ToPrim
import Verif.Props.Random
import Verif.Props.Text

/-!
# The remaining methods of the wrapper types

Single bits, counting, conversion to primitives, assignment and random values for `UInt` and
`Int`.  Written out for each wrapper, since each has its own code.
-/

namespace Verif.Props

open ApInt Ex


/-! ## `UInt` -/

section UInt

variable {a b : UInt} {pos : Nat}

/-- C20, `UInt`: reading, setting, clearing and flipping the bit at a position below the width
affects exactly that bit. -/
theorem C20_unsigned (ha : a.value.WF) (hp : pos < a.value.w) :
    a.getBitAt pos = .ok (.ok (a.value.uval.testBit pos)) ∧
    (∃ c, a.setBitAt pos = .ok (.ok (), c) ∧ c.value.WF ∧ c.value.len = a.value.len ∧
      ∀ i, c.value.uval.testBit i = if i = pos then true else a.value.uval.testBit i) ∧
    (∃ c, a.unsetBitAt pos = .ok (.ok (), c) ∧ c.value.WF ∧ c.value.len = a.value.len ∧
      ∀ i, c.value.uval.testBit i = if i = pos then false else a.value.uval.testBit i) ∧
    (∃ c, a.flipBitAt pos = .ok (.ok (), c) ∧ c.value.WF ∧ c.value.len = a.value.len ∧
      ∀ i, c.value.uval.testBit i =
        if i = pos then !a.value.uval.testBit i else a.value.uval.testBit i) := by
  obtain ⟨h1, h2, h3, h4⟩ := C20_bit_at ha hp
  exact ⟨h1, UInt.liftMut_P h2, UInt.liftMut_P h3, UInt.liftMut_P h4⟩

example : (UInt.mk a150).getBitAt 131 = .ok (.ok true) := by
  rw [(C20_unsigned (a := ⟨a150⟩) a150_wf (pos := 131) (by decide)).1]; decide +kernel

/-- C20, `UInt`: positions at or beyond the width are rejected and nothing changes. -/
theorem C20_unsigned_invalid (hp : a.value.w ≤ pos) :
    a.getBitAt pos = .ok (.error (.invalidBitAccess pos a.value.len)) ∧
    a.setBitAt pos = .ok (.error (.invalidBitAccess pos a.value.len), a) ∧
    a.unsetBitAt pos = .ok (.error (.invalidBitAccess pos a.value.len), a) ∧
    a.flipBitAt pos = .ok (.error (.invalidBitAccess pos a.value.len), a) := by
  obtain ⟨h1, h2, h3, h4⟩ := C20_invalid hp
  exact ⟨h1, UInt.liftMut_err h2, UInt.liftMut_err h3, UInt.liftMut_err h4⟩

example : (UInt.mk a7).flipBitAt 7 = .ok (.error (.invalidBitAccess 7 a7.len), ⟨a7⟩) :=
  (C20_unsigned_invalid (a := ⟨a7⟩) (pos := 7) (by decide)).2.2.2

/-- C21, `UInt`: setting, clearing and flipping all bits. -/
theorem C21_unsigned (ha : a.value.WF) :
    (∃ c, a.setAll = .ok c ∧ c.value.WF ∧ c.value.len = a.value.len ∧
      c.value.uval = 2 ^ a.value.w - 1) ∧
    (∃ c, a.unsetAll = .ok c ∧ c.value.WF ∧ c.value.len = a.value.len ∧ c.value.uval = 0) ∧
    (∃ c, a.flipAll = .ok c ∧ c.value.WF ∧ c.value.len = a.value.len ∧
      ∀ i, c.value.uval.testBit i = (decide (i < a.value.w) && !a.value.uval.testBit i)) ∧
    a.isAllUnset = .ok (decide (a.value.uval = 0)) := by
  obtain ⟨h1, h2, h3⟩ := C21_all ha
  obtain ⟨c, e, -, -, h4⟩ := C19_bitnot ha
  exact ⟨UInt.lift_P h1, UInt.lift_P h2,
    ⟨⟨c⟩, by unfold UInt.flipAll UInt.lift; rw [h3.trans e]; rfl, h4⟩,
    (C35_zero_parity ha).2.1⟩

example : ∃ c, (UInt.mk a150).setAll = .ok c ∧ c.value.WF ∧ c.value.len = a150.len ∧
    c.value.uval = 2 ^ a150.w - 1 := (C21_unsigned (a := ⟨a150⟩) a150_wf).1

/-- C22, `UInt`: the counting methods. -/
theorem C22_unsigned (ha : a.value.WF) :
    a.countOnes = .ok ((List.range a.value.w).countP fun i => a.value.uval.testBit i) ∧
    a.countZeros = .ok ((List.range a.value.w).countP fun i => !a.value.uval.testBit i) ∧
    (∃ n, a.leadingZeros = .ok n ∧ n ≤ a.value.w ∧
      (∀ i, a.value.w - n ≤ i → a.value.uval.testBit i = false) ∧
      (n < a.value.w → a.value.uval.testBit (a.value.w - 1 - n) = true) ∧
      (n = a.value.w ↔ a.value.uval = 0)) ∧
    (∃ n, a.trailingZeros = .ok n ∧ n ≤ a.value.w ∧
      (∀ i, i < n → a.value.uval.testBit i = false) ∧
      (n < a.value.w → a.value.uval.testBit n = true) ∧ (n = a.value.w ↔ a.value.uval = 0)) :=
  ⟨(C22_counts ha).1, (C22_counts ha).2.1, (C22_leading_trailing ha).1, (C22_leading_trailing ha).2⟩

example : (UInt.mk a150).countOnes = .ok 3 := by
  rw [(C22_unsigned (a := ⟨a150⟩) a150_wf).1]; decide +kernel

/-- C31, `UInt`: truncating conversions take the unsigned value modulo `2 ^ n`. -/
theorem C31_unsigned_wrapper (ha : a.value.WF) :
    a.resizeToBool = .ok (decide (a.value.uval % 2 = 1)) ∧
    a.resizeToU8 = .ok (BitVec.ofNat 8 a.value.uval) ∧
    a.resizeToU16 = .ok (BitVec.ofNat 16 a.value.uval) ∧
    a.resizeToU32 = .ok (BitVec.ofNat 32 a.value.uval) ∧
    a.resizeToU64 = .ok (BitVec.ofNat 64 a.value.uval) ∧
    a.resizeToU128 = .ok (BitVec.ofNat 128 a.value.uval) := C31_resize_unsigned ha

example : (UInt.mk a150).resizeToU64 = .ok 0x8000000000000000#64 :=
  (C31_unsigned_wrapper (a := ⟨a150⟩) a150_wf).2.2.2.2.1

/-- C32, `UInt`: checked conversions succeed exactly for values below `2 ^ n`. -/
theorem C32_unsigned_wrapper (ha : a.value.WF) :
    AcceptsBelow 1 a.tryToBool a.value .bool (decide (a.value.uval = 1)) ∧
    AcceptsBelow 8 a.tryToU8 a.value .u8 (BitVec.ofNat 8 a.value.uval) ∧
    AcceptsBelow 16 a.tryToU16 a.value .u16 (BitVec.ofNat 16 a.value.uval) ∧
    AcceptsBelow 32 a.tryToU32 a.value .u32 (BitVec.ofNat 32 a.value.uval) ∧
    AcceptsBelow 64 a.tryToU64 a.value .u64 (BitVec.ofNat 64 a.value.uval) ∧
    AcceptsBelow 128 a.tryToU128 a.value .u128 (BitVec.ofNat 128 a.value.uval) :=
  C32_try_unsigned ha

example : (UInt.mk b65).tryToU8 = .ok (.ok 5#8) :=
  (C32_unsigned_wrapper (a := ⟨b65⟩) b65_wf).2.1.1 (by decide)

/-- C45, `UInt`: assignment copies the other integer, strict assignment does so for equal widths
and otherwise reports both widths and changes nothing. -/
theorem C45_unsigned (ha : a.value.WF) (hb : b.value.WF) :
    a.assign b = .ok b ∧
    (a.value.len = b.value.len → a.strictAssign b = .ok (.ok (), b)) ∧
    (a.value.len ≠ b.value.len →
      a.strictAssign b = .ok (.error (.unmatchingBitwidth a.value.len b.value.len), a)) := by
  obtain ⟨-, h1, h2, h3⟩ := C45_assign ha hb
  refine ⟨?_, fun h => ?_, fun h => UInt.liftMut_err (h3 h)⟩
  · unfold UInt.assign UInt.lift; rw [h1]; rfl
  · unfold UInt.strictAssign UInt.liftMut; rw [h2 h]; rfl

example : (UInt.mk a7).assign ⟨b150⟩ = .ok ⟨b150⟩ :=
  (C45_unsigned (a := ⟨a7⟩) (b := ⟨b150⟩) a7_wf b150_wf).1

/-- C46, `UInt`: random integers take their bits from the generator, one digit for every started
64 bits, and randomizing is the same as a fresh random integer. -/
theorem C46_unsigned (ha : a.value.WF) (t : BitWidth) (rng : Nat → Digit) :
    (∃ c, UInt.randomWithWidthUsing t rng =
        .ok (c, fun i => rng (i + (t.toUsize + 63) / 64)) ∧ c.value.WF ∧ c.value.len = t ∧
      c.value.uval = val ((List.range ((t.toUsize + 63) / 64)).map rng) % 2 ^ t.toUsize) ∧
    a.randomizeUsing rng = UInt.randomWithWidthUsing a.value.len rng := by
  obtain ⟨c, e, h⟩ := C46_random t rng
  refine ⟨⟨⟨c⟩, ?_, h⟩, ?_⟩
  · unfold UInt.randomWithWidthUsing; rw [e]; rfl
  · unfold UInt.randomizeUsing UInt.randomWithWidthUsing; rw [C46_randomize ha]

example : (UInt.mk a150).randomizeUsing (fun _ => 1#64) =
    UInt.randomWithWidthUsing (bw 150) (fun _ => 1#64) :=
  (C46_unsigned (a := ⟨a150⟩) a150_wf (bw 150) _).2

/-- C42, `UInt`: octal formatting is not implemented beyond zero. -/
theorem C42_unsigned_octal (ha : a.value.WF) :
    a.fmtOctal = if a.value.uval = 0 then .ok ['0'] else .error .panic :=
  (C42_unimplemented (r := 10) ha).1

example : (UInt.mk a7).fmtOctal = .error .panic := by
  rw [C42_unsigned_octal (a := ⟨a7⟩) a7_wf, if_neg (by decide)]

/-- C37, `UInt`: `is_all_set` at widths that are not a multiple of 64.  Missing: the other widths,
where the claim is false (`C37_false`). -/
theorem C37_unsigned_partial (ha : a.value.WF) (h : a.value.w % 64 ≠ 0) :
    a.isAllSet = .ok (decide (a.value.uval = 2 ^ a.value.w - 1)) :=
  C37_is_all_set_partial ha h

example : (UInt.mk a65).isAllSet = .ok true := C37_unsigned_partial (a := ⟨a65⟩) a65_wf (by decide)

/-- C36, `UInt`: `is_one` at widths up to 64.  Missing: wider integers, where the claim is false
(`C36_false`). -/
theorem C36_unsigned_partial (ha : a.value.WF) (h : a.value.w ≤ 64) :
    a.isOne = .ok (decide (a.value.uval = 1)) := C36_is_one_partial ha h

example : (UInt.mk b64).isOne = .ok false := C36_unsigned_partial (a := ⟨b64⟩) b64_wf (by decide)

/-- C36, `UInt`, what happens above 64 bits. -/
theorem C36_unsigned_wide (ha : a.value.WF) (h : 64 < a.value.w) :
    a.isOne = .ok (decide (a.value.uval = 2 ^ (64 * ((a.value.w - 1) / 64)))) ∧
    (a.value.uval = 1 → a.isOne = .ok false) := C36_wide ha h

example : (UInt.mk b65).isOne = .ok false := by
  rw [(C36_unsigned_wide (a := ⟨b65⟩) b65_wf (by decide)).1]
  decide

/-- C37, `UInt`, what happens at multiples of 64 bits. -/
theorem C37_unsigned_aligned (ha : a.value.WF) (h : a.value.w % 64 = 0) :
    a.isAllSet =
      .ok (decide (a.value.uval % 2 ^ (a.value.w - 64) = 2 ^ (a.value.w - 64) - 1)) ∧
    (a.value.uval = 2 ^ a.value.w - 1 → a.isAllSet = .ok true) := C37_aligned ha h

example : (UInt.mk b64).isAllSet = .ok true := by
  rw [(C37_unsigned_aligned (a := ⟨b64⟩) b64_wf (by decide)).1]
  decide

/-- C30, `UInt`: an array of words is the number with these words, most significant first. -/
theorem C30_unsigned_array {l : List (BitVec 64)} (h : l ≠ []) :
    ∃ c, UInt.fromArray l = .ok c ∧ c.value.WF ∧ c.value.w = 64 * l.length ∧
      c.value.uval = l.foldl (fun acc d => acc * 2 ^ 64 + d.toNat) 0 :=
  UInt.lift_P (C30_from_array h)

example : ∃ c, UInt.fromArray [1#64, 2#64] = .ok c ∧ c.value.WF ∧ c.value.w = 128 ∧
    c.value.uval = 2 ^ 64 + 2 := C30_unsigned_array (l := [1#64, 2#64]) (by simp)

end UInt

/-! ## `Int` -/

section SInt

variable {a b : SInt} {pos : Nat}

/-- C20, `Int`: reading, setting, clearing and flipping the bit at a position below the width
affects exactly that bit. -/
theorem C20_signed (ha : a.value.WF) (hp : pos < a.value.w) :
    a.getBitAt pos = .ok (.ok (a.value.uval.testBit pos)) ∧
    (∃ c, a.setBitAt pos = .ok (.ok (), c) ∧ c.value.WF ∧ c.value.len = a.value.len ∧
      ∀ i, c.value.uval.testBit i = if i = pos then true else a.value.uval.testBit i) ∧
    (∃ c, a.unsetBitAt pos = .ok (.ok (), c) ∧ c.value.WF ∧ c.value.len = a.value.len ∧
      ∀ i, c.value.uval.testBit i = if i = pos then false else a.value.uval.testBit i) ∧
    (∃ c, a.flipBitAt pos = .ok (.ok (), c) ∧ c.value.WF ∧ c.value.len = a.value.len ∧
      ∀ i, c.value.uval.testBit i =
        if i = pos then !a.value.uval.testBit i else a.value.uval.testBit i) := by
  obtain ⟨h1, h2, h3, h4⟩ := C20_bit_at ha hp
  exact ⟨h1, SInt.liftMut_P h2, SInt.liftMut_P h3, SInt.liftMut_P h4⟩

example : (SInt.mk a150).getBitAt 131 = .ok (.ok true) := by
  rw [(C20_signed (a := ⟨a150⟩) a150_wf (pos := 131) (by decide)).1]; decide +kernel

/-- C20, `Int`: positions at or beyond the width are rejected and nothing changes. -/
theorem C20_signed_invalid (hp : a.value.w ≤ pos) :
    a.getBitAt pos = .ok (.error (.invalidBitAccess pos a.value.len)) ∧
    a.setBitAt pos = .ok (.error (.invalidBitAccess pos a.value.len), a) ∧
    a.unsetBitAt pos = .ok (.error (.invalidBitAccess pos a.value.len), a) ∧
    a.flipBitAt pos = .ok (.error (.invalidBitAccess pos a.value.len), a) := by
  obtain ⟨h1, h2, h3, h4⟩ := C20_invalid hp
  exact ⟨h1, SInt.liftMut_err h2, SInt.liftMut_err h3, SInt.liftMut_err h4⟩

example : (SInt.mk a7).flipBitAt 7 = .ok (.error (.invalidBitAccess 7 a7.len), ⟨a7⟩) :=
  (C20_signed_invalid (a := ⟨a7⟩) (pos := 7) (by decide)).2.2.2

/-- C21, `Int`: setting, clearing and flipping all bits. -/
theorem C21_signed (ha : a.value.WF) :
    (∃ c, a.setAll = .ok c ∧ c.value.WF ∧ c.value.len = a.value.len ∧
      c.value.uval = 2 ^ a.value.w - 1) ∧
    (∃ c, a.unsetAll = .ok c ∧ c.value.WF ∧ c.value.len = a.value.len ∧ c.value.uval = 0) ∧
    (∃ c, a.flipAll = .ok c ∧ c.value.WF ∧ c.value.len = a.value.len ∧
      ∀ i, c.value.uval.testBit i = (decide (i < a.value.w) && !a.value.uval.testBit i)) ∧
    a.isAllUnset = .ok (decide (a.value.uval = 0)) := by
  obtain ⟨h1, h2, h3⟩ := C21_all ha
  obtain ⟨c, e, -, -, h4⟩ := C19_bitnot ha
  exact ⟨SInt.lift_P h1, SInt.lift_P h2,
    ⟨⟨c⟩, by unfold SInt.flipAll SInt.lift; rw [h3.trans e]; rfl, h4⟩,
    (C35_zero_parity ha).2.1⟩

example : ∃ c, (SInt.mk a150).setAll = .ok c ∧ c.value.WF ∧ c.value.len = a150.len ∧
    c.value.uval = 2 ^ a150.w - 1 := (C21_signed (a := ⟨a150⟩) a150_wf).1

/-- C22, `Int`: the counting methods. -/
theorem C22_signed (ha : a.value.WF) :
    a.countOnes = .ok ((List.range a.value.w).countP fun i => a.value.uval.testBit i) ∧
    a.countZeros = .ok ((List.range a.value.w).countP fun i => !a.value.uval.testBit i) ∧
    (∃ n, a.leadingZeros = .ok n ∧ n ≤ a.value.w ∧
      (∀ i, a.value.w - n ≤ i → a.value.uval.testBit i = false) ∧
      (n < a.value.w → a.value.uval.testBit (a.value.w - 1 - n) = true) ∧
      (n = a.value.w ↔ a.value.uval = 0)) ∧
    (∃ n, a.trailingZeros = .ok n ∧ n ≤ a.value.w ∧
      (∀ i, i < n → a.value.uval.testBit i = false) ∧
      (n < a.value.w → a.value.uval.testBit n = true) ∧ (n = a.value.w ↔ a.value.uval = 0)) :=
  ⟨(C22_counts ha).1, (C22_counts ha).2.1, (C22_leading_trailing ha).1, (C22_leading_trailing ha).2⟩

example : (SInt.mk a150).countOnes = .ok 3 := by
  rw [(C22_signed (a := ⟨a150⟩) a150_wf).1]; decide +kernel

/-- C31, `Int`: truncating conversions take the signed value modulo `2 ^ n`. -/
theorem C31_signed_wrapper (ha : a.value.WF) :
    a.resizeToBool = .ok (decide (a.value.uval % 2 = 1)) ∧
    a.resizeToI8 = .ok (BitVec.ofInt 8 a.value.sval) ∧
    a.resizeToI16 = .ok (BitVec.ofInt 16 a.value.sval) ∧
    a.resizeToI32 = .ok (BitVec.ofInt 32 a.value.sval) ∧
    a.resizeToI64 = .ok (BitVec.ofInt 64 a.value.sval) ∧
    a.resizeToI128 = .ok (BitVec.ofInt 128 a.value.sval) :=
  ⟨(C31_resize_unsigned ha).1, C31_resize_signed ha⟩

example : (SInt.mk a7).resizeToI64 = .ok (BitVec.ofInt 64 (-28)) :=
  (C31_signed_wrapper (a := ⟨a7⟩) a7_wf).2.2.2.2.1

/-- C32, `Int`: `try_to_bool` accepts exactly 0 and 1. -/
theorem C32_signed_bool (ha : a.value.WF) :
    AcceptsBelow 1 a.tryToBool a.value .bool (decide (a.value.uval = 1)) := (C32_try_unsigned ha).1

example : (SInt.mk b65).tryToBool = .ok (.error (.valueUnrepresentable b65 .bool)) :=
  (C32_signed_bool (a := ⟨b65⟩) b65_wf).2 (by decide)

/-- C45, `Int`: assignment copies the other integer, strict assignment does so for equal widths
and otherwise reports both widths and changes nothing. -/
theorem C45_signed (ha : a.value.WF) (hb : b.value.WF) :
    a.assign b = .ok b ∧
    (a.value.len = b.value.len → a.strictAssign b = .ok (.ok (), b)) ∧
    (a.value.len ≠ b.value.len →
      a.strictAssign b = .ok (.error (.unmatchingBitwidth a.value.len b.value.len), a)) := by
  obtain ⟨-, h1, h2, h3⟩ := C45_assign ha hb
  refine ⟨?_, fun h => ?_, fun h => SInt.liftMut_err (h3 h)⟩
  · unfold SInt.assign SInt.lift; rw [h1]; rfl
  · unfold SInt.strictAssign SInt.liftMut; rw [h2 h]; rfl

example : (SInt.mk a7).assign ⟨b150⟩ = .ok ⟨b150⟩ :=
  (C45_signed (a := ⟨a7⟩) (b := ⟨b150⟩) a7_wf b150_wf).1

/-- C46, `Int`: random integers take their bits from the generator, one digit for every started
64 bits, and randomizing is the same as a fresh random integer. -/
theorem C46_signed (ha : a.value.WF) (t : BitWidth) (rng : Nat → Digit) :
    (∃ c, SInt.randomWithWidthUsing t rng =
        .ok (c, fun i => rng (i + (t.toUsize + 63) / 64)) ∧ c.value.WF ∧ c.value.len = t ∧
      c.value.uval = val ((List.range ((t.toUsize + 63) / 64)).map rng) % 2 ^ t.toUsize) ∧
    a.randomizeUsing rng = SInt.randomWithWidthUsing a.value.len rng := by
  obtain ⟨c, e, h⟩ := C46_random t rng
  refine ⟨⟨⟨c⟩, ?_, h⟩, ?_⟩
  · unfold SInt.randomWithWidthUsing; rw [e]; rfl
  · unfold SInt.randomizeUsing SInt.randomWithWidthUsing; rw [C46_randomize ha]

example : (SInt.mk a150).randomizeUsing (fun _ => 1#64) =
    SInt.randomWithWidthUsing (bw 150) (fun _ => 1#64) :=
  (C46_signed (a := ⟨a150⟩) a150_wf (bw 150) _).2

/-- C42, `Int`: octal formatting is not implemented beyond zero. -/
theorem C42_signed_octal (ha : a.value.WF) :
    a.fmtOctal = if a.value.uval = 0 then .ok ['0'] else .error .panic :=
  (C42_unimplemented (r := 10) ha).1

example : (SInt.mk a7).fmtOctal = .error .panic := by
  rw [C42_signed_octal (a := ⟨a7⟩) a7_wf, if_neg (by decide)]

/-- C37, `Int`: `is_all_set` at widths that are not a multiple of 64.  Missing: the other widths,
where the claim is false (`C37_false`). -/
theorem C37_signed_partial (ha : a.value.WF) (h : a.value.w % 64 ≠ 0) :
    a.isAllSet = .ok (decide (a.value.uval = 2 ^ a.value.w - 1)) :=
  C37_is_all_set_partial ha h

example : (SInt.mk a65).isAllSet = .ok true := C37_signed_partial (a := ⟨a65⟩) a65_wf (by decide)

/-- C37, `Int`, what happens at multiples of 64 bits. -/
theorem C37_signed_aligned (ha : a.value.WF) (h : a.value.w % 64 = 0) :
    a.isAllSet =
      .ok (decide (a.value.uval % 2 ^ (a.value.w - 64) = 2 ^ (a.value.w - 64) - 1)) ∧
    (a.value.uval = 2 ^ a.value.w - 1 → a.isAllSet = .ok true) := C37_aligned ha h

example : (SInt.mk b64).isAllSet = .ok true := by
  rw [(C37_signed_aligned (a := ⟨b64⟩) b64_wf (by decide)).1]
  decide

/-- C30, `Int`: an array of words is the two's complement pattern with these words, most
significant first; `true` is -1 and `false` is 0 at one bit. -/
theorem C30_signed_array {l : List (BitVec 64)} (h : l ≠ []) :
    ∃ c, SInt.fromArray l = .ok c ∧ c.value.WF ∧ c.value.w = 64 * l.length ∧
      c.value.uval = l.foldl (fun acc d => acc * 2 ^ 64 + d.toNat) 0 :=
  SInt.lift_P (C30_from_array h)

example : ∃ c, SInt.fromArray [1#64, 2#64] = .ok c ∧ c.value.WF ∧ c.value.w = 128 ∧
    c.value.uval = 2 ^ 64 + 2 := C30_signed_array (l := [1#64, 2#64]) (by simp)

/-- C30, `Int`: `true` is -1 and `false` is 0 at one bit. -/
theorem C30_signed_bool (v : Bool) :
    Yields (SInt.fromBool v) (SInt.Is BitWidth.w1 (if v then -1 else 0)) := by
  cases v
  · exact ⟨⟨⟨BitWidth.w1, .inl 0#64⟩⟩, rfl, by decide, rfl, by decide⟩
  · exact ⟨⟨⟨BitWidth.w1, .inl 1#64⟩⟩, rfl, by decide, rfl, by decide⟩

example : Yields (SInt.fromBool true) (SInt.Is BitWidth.w1 (-1)) := C30_signed_bool true

/-- C21, `Int`: the most significant bit. -/
theorem C21_signed_msb (ha : a.value.WF) :
    a.msb = .ok (a.value.uval.testBit (a.value.w - 1)) ∧
    (∃ c, a.setMsb = .ok c ∧ c.value.WF ∧ c.value.len = a.value.len ∧
      ∀ i, c.value.uval.testBit i = if i = a.value.w - 1 then true else a.value.uval.testBit i) ∧
    (∃ c, a.unsetMsb = .ok c ∧ c.value.WF ∧ c.value.len = a.value.len ∧
      ∀ i, c.value.uval.testBit i = if i = a.value.w - 1 then false else a.value.uval.testBit i) ∧
    (∃ c, a.flipMsb = .ok c ∧ c.value.WF ∧ c.value.len = a.value.len ∧
      ∀ i, c.value.uval.testBit i =
        if i = a.value.w - 1 then !a.value.uval.testBit i else a.value.uval.testBit i) := by
  obtain ⟨h1, -, h2, h3, h4⟩ := C21_msb ha
  exact ⟨h1, SInt.lift_P h2, SInt.lift_P h3, SInt.lift_P h4⟩

example : (SInt.mk b150).msb = .ok true := (C21_signed_msb (a := ⟨b150⟩) b150_wf).1

end SInt

end Verif.Props
