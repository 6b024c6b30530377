import Verif.Model.SInt
import Verif.Proof.ToPrim
import Verif.Proof.Construct
import Verif.Props.Construct
import Verif.Props.Witness

/-! # Conversion to primitive integers (C31 to C34)

`BitVec.ofNat n x` and `BitVec.ofInt n x` are the `n`-bit words congruent to `x` modulo `2 ^ n`.
-/

namespace Verif.Props

open ApInt Ex

variable {a : ApInt}

/-! ## C31: truncating conversions -/

/-- C31, unsigned targets: the unsigned value modulo `2 ^ n`. -/
theorem C31_resize_unsigned (h : a.WF) :
    a.resizeToBool = .ok (decide (a.uval % 2 = 1)) ∧
    a.resizeToU8 = .ok (BitVec.ofNat 8 a.uval) ∧
    a.resizeToU16 = .ok (BitVec.ofNat 16 a.uval) ∧
    a.resizeToU32 = .ok (BitVec.ofNat 32 a.uval) ∧
    a.resizeToU64 = .ok (BitVec.ofNat 64 a.uval) ∧
    a.resizeToU128 = .ok (BitVec.ofNat 128 a.uval) := by
  obtain ⟨d1, e1, h1⟩ := resizeU h (ty := .u8) (n := 8) (by decide) rfl rfl
  obtain ⟨d2, e2, h2⟩ := resizeU h (ty := .u16) (n := 16) (by decide) rfl rfl
  obtain ⟨d3, e3, h3⟩ := resizeU h (ty := .u32) (n := 32) (by decide) rfl rfl
  obtain ⟨d4, e4, h4⟩ := resizeU h (ty := .u64) (n := 64) (by decide) rfl rfl
  refine ⟨?_, ?_, ?_, ?_, ?_, resizeToU128_ok h⟩
  · unfold resizeToBool
    rw [lsb_ok h.1, Nat.testBit_zero]
  · simp only [resizeToU8, e1, run_bind_ok, run_pure, h1]
  · simp only [resizeToU16, e2, run_bind_ok, run_pure, h2]
  · simp only [resizeToU32, e3, run_bind_ok, run_pure, h3]
  · simp only [resizeToU64, e4, ← h4, BitVec.setWidth_eq]

example : a150.resizeToU64 = .ok 0x8000000000000000#64 :=
  (C31_resize_unsigned a150_wf).2.2.2.2.1

/-- C31, signed targets: the signed value modulo `2 ^ n`, whatever the source width. -/
theorem C31_resize_signed (h : a.WF) :
    a.resizeToI8 = .ok (BitVec.ofInt 8 a.sval) ∧
    a.resizeToI16 = .ok (BitVec.ofInt 16 a.sval) ∧
    a.resizeToI32 = .ok (BitVec.ofInt 32 a.sval) ∧
    a.resizeToI64 = .ok (BitVec.ofInt 64 a.sval) ∧
    a.resizeToI128 = .ok (BitVec.ofInt 128 a.sval) := by
  obtain ⟨d1, e1, h1⟩ := resizeI h (ty := .i8) (n := 8) (by decide) rfl rfl
  obtain ⟨d2, e2, h2⟩ := resizeI h (ty := .i16) (n := 16) (by decide) rfl rfl
  obtain ⟨d3, e3, h3⟩ := resizeI h (ty := .i32) (n := 32) (by decide) rfl rfl
  obtain ⟨d4, e4, h4⟩ := resizeI h (ty := .i64) (n := 64) (by decide) rfl rfl
  refine ⟨?_, ?_, ?_, ?_, resizeToI128_ok h⟩
  · simp only [resizeToI8, e1, run_bind_ok, run_pure, h1]
  · simp only [resizeToI16, e2, run_bind_ok, run_pure, h2]
  · simp only [resizeToI32, e3, run_bind_ok, run_pure, h3]
  · simp only [resizeToI64, e4, ← h4, BitVec.setWidth_eq]

example : a7.resizeToI64 = .ok (BitVec.ofInt 64 (-28)) := (C31_resize_signed a7_wf).2.2.2.1
example : a65.resizeToI128 = .ok (BitVec.ofInt 128 (-1)) := (C31_resize_signed a65_wf).2.2.2.2

/-- C31: when the signed value fits, the primitive has exactly that value. -/
theorem C31_exact {n : Nat} (hn : 0 < n) {x : Int} (h1 : -(2 ^ (n - 1) : Int) ≤ x)
    (h2 : x < 2 ^ (n - 1)) : (BitVec.ofInt n x).toInt = x := by
  rw [BitVec.toInt_ofInt]
  exact bmod_of_range hn h1 h2

example : (BitVec.ofInt 8 (-28)).toInt = -28 := C31_exact (by decide) (by decide) (by decide)

/-! ## C32: checked conversions -/

/-- Acceptance by unsigned value: the result is `Ok(v)` if the unsigned value of `a` is below
`2 ^ n`, and otherwise the error carrying `a` and the destination type. -/
def AcceptsBelow {β : Type} (n : Nat) (r : Run (Res β)) (a : ApInt) (ty : PrimitiveTy) (v : β) :
    Prop :=
  (a.uval < 2 ^ n → r = .ok (.ok v)) ∧
  (2 ^ n ≤ a.uval → r = .ok (.error (.valueUnrepresentable a ty)))

theorem acceptsBelow_of {β : Type} {n : Nat} {r : Run (Res β)} {ty : PrimitiveTy} {v : β}
    (h : r = if a.uval < 2 ^ n then .ok (.ok v) else .ok (.error (.valueUnrepresentable a ty))) :
    AcceptsBelow n r a ty v :=
  ⟨fun hv => by rw [h, if_pos hv], fun hv => by rw [h, if_neg (by omega)]⟩

/-- C32, unsigned targets. -/
theorem C32_try_unsigned (h : a.WF) :
    AcceptsBelow 1 a.tryToBool a .bool (decide (a.uval = 1)) ∧
    AcceptsBelow 8 a.tryToU8 a .u8 (BitVec.ofNat 8 a.uval) ∧
    AcceptsBelow 16 a.tryToU16 a .u16 (BitVec.ofNat 16 a.uval) ∧
    AcceptsBelow 32 a.tryToU32 a .u32 (BitVec.ofNat 32 a.uval) ∧
    AcceptsBelow 64 a.tryToU64 a .u64 (BitVec.ofNat 64 a.uval) ∧
    AcceptsBelow 128 a.tryToU128 a .u128 (BitVec.ofNat 128 a.uval) :=
  ⟨acceptsBelow_of (tryToBool_ok h),
    acceptsBelow_of (tryU h (ty := .u8) (n := 8) (by decide) rfl rfl),
    acceptsBelow_of (tryU h (ty := .u16) (n := 16) (by decide) rfl rfl),
    acceptsBelow_of (tryU h (ty := .u32) (n := 32) (by decide) rfl rfl),
    acceptsBelow_of (tryU h (ty := .u64) (n := 64) (by decide) rfl rfl),
    acceptsBelow_of (tryToU128_ok h)⟩

example : b65.tryToU8 = .ok (.ok 5#8) := (C32_try_unsigned b65_wf).2.1.1 (by decide)
example : a150.tryToU128 = .ok (.error (.valueUnrepresentable a150 .u128)) :=
  (C32_try_unsigned a150_wf).2.2.2.2.2.2 (by decide)

/-- C32, signed targets: acceptance by the *unsigned* value, the result congruent to the signed
value modulo `2 ^ n`. -/
theorem C32_try_signed (h : a.WF) :
    AcceptsBelow 8 a.tryToI8 a .i8 (BitVec.ofInt 8 a.sval) ∧
    AcceptsBelow 16 a.tryToI16 a .i16 (BitVec.ofInt 16 a.sval) ∧
    AcceptsBelow 32 a.tryToI32 a .i32 (BitVec.ofInt 32 a.sval) ∧
    AcceptsBelow 64 a.tryToI64 a .i64 (BitVec.ofInt 64 a.sval) ∧
    AcceptsBelow 128 a.tryToI128 a .i128 (BitVec.ofInt 128 a.sval) :=
  ⟨acceptsBelow_of (tryI h (ty := .i8) (n := 8) (by decide) rfl rfl),
    acceptsBelow_of (tryI h (ty := .i16) (n := 16) (by decide) rfl rfl),
    acceptsBelow_of (tryI h (ty := .i32) (n := 32) (by decide) rfl rfl),
    acceptsBelow_of (tryI h (ty := .i64) (n := 64) (by decide) rfl rfl),
    acceptsBelow_of (tryToI128_ok h)⟩

example : a7.tryToI32 = .ok (.ok (BitVec.ofInt 32 (-28))) :=
  (C32_try_signed a7_wf).2.2.1.1 (by decide)

/-! ## C33: checked signed conversions of `Int` -/

/-- Acceptance by signed value: `Ok` of the value if it lies in the range of an `n`-bit signed
type, and otherwise the error. -/
def AcceptsRange (n : Nat) (r : Run (Res (BitVec n))) (a : ApInt) (ty : PrimitiveTy) : Prop :=
  (-(2 ^ (n - 1) : Int) ≤ a.sval ∧ a.sval < 2 ^ (n - 1) →
    r = .ok (.ok (BitVec.ofInt n a.sval))) ∧
  (¬ (-(2 ^ (n - 1) : Int) ≤ a.sval ∧ a.sval < 2 ^ (n - 1)) →
    r = .ok (.error (.valueUnrepresentable a ty)))

/-- What C33 claims. -/
def C33_claim : Prop := ∀ x : SInt, x.value.WF →
    AcceptsRange 8 x.tryToI8 x.value .i8 ∧
    AcceptsRange 16 x.tryToI16 x.value .i16 ∧
    AcceptsRange 32 x.tryToI32 x.value .i32 ∧
    AcceptsRange 64 x.tryToI64 x.value .i64 ∧
    AcceptsRange 128 x.tryToI128 x.value .i128

/-- C33 is false: 200 at 16 bits does not fit `i8` but is accepted (as -56). -/
theorem C33_false_accepts : ¬ C33_claim := by
  intro h
  have := (h ⟨⟨bw 16, .inl 200#64⟩⟩ (by decide)).1.2 (by decide)
  revert this
  decide

/-- C33 is false: -1 at 16 bits fits `i8` but is rejected. -/
theorem C33_false_rejects : ¬ C33_claim := by
  intro h
  have := (h ⟨⟨bw 16, .inl 0xFFFF#64⟩⟩ (by decide)).1.1 (by decide)
  revert this
  decide

/-- The values on which an `n`-bit checked signed conversion behaves as documented: everything
at widths up to `n`, and at larger widths the values that are nonnegative and fit, those beyond
`2 ^ n`, and the negative ones that do not fit. -/
def Faithful (n : Nat) (a : ApInt) : Prop :=
  a.w ≤ n ∨ (0 ≤ a.sval ∧ a.sval < 2 ^ (n - 1)) ∨ 2 ^ n ≤ a.sval ∨ a.sval < -2 ^ (n - 1)

theorem acceptsRange_of {n : Nat} (hn : 0 < n) (h : a.WF) {r : Run (Res (BitVec n))}
    {ty : PrimitiveTy} (hr : AcceptsBelow n r a ty (BitVec.ofInt n a.sval)) (hf : Faithful n a) :
    AcceptsRange n r a ty := by
  obtain ⟨l1, l2⟩ := sval_range h
  have hlt := h.2
  have hp1 : (2:Nat) ^ n = 2 * 2 ^ (n - 1) := two_pow_pred hn
  have hp2 : (2:Nat) ^ a.w = 2 * 2 ^ (a.w - 1) := two_pow_pred a.pos_w
  have hs : a.sval = if a.uval < 2 ^ (a.w - 1) then (a.uval : Int) else (a.uval : Int) - 2 ^ a.w :=
    rfl
  by_cases hw : a.w ≤ n
  · have h1 : (2:Nat) ^ a.w ≤ 2 ^ n := Nat.pow_le_pow_right (by decide) hw
    have h2 : (2:Nat) ^ (a.w - 1) ≤ 2 ^ (n - 1) := Nat.pow_le_pow_right (by decide) (by omega)
    refine ⟨fun _ => hr.1 (by omega), fun hc => absurd ?_ hc⟩
    zify at *
    constructor <;> omega
  · have h1 : (2:Nat) ^ n ≤ 2 ^ (a.w - 1) := Nat.pow_le_pow_right (by decide) (by omega)
    have hpos : 0 < (2:Nat) ^ (n - 1) := two_pow_w_pos _
    refine ⟨fun hc => hr.1 ?_, fun hc => hr.2 ?_⟩
    · rcases hf with hf | hf | hf | hf
      · exact absurd hf hw
      · by_cases hb : a.uval < 2 ^ (a.w - 1)
        · rw [if_pos hb] at hs; zify at *; omega
        · rw [if_neg hb] at hs; zify at *; omega
      · zify at *; omega
      · omega
    · rcases hf with hf | hf | hf | hf
      · exact absurd hf hw
      · exact absurd ⟨by zify at hpos; omega, hf.2⟩ hc
      · by_cases hb : a.uval < 2 ^ (a.w - 1)
        · rw [if_pos hb] at hs; zify at *; omega
        · omega
      · by_cases hb : a.uval < 2 ^ (a.w - 1)
        · rw [if_pos hb] at hs; zify at *; omega
        · omega

/-- C33, the part that holds.  Missing: at widths above `n`, negative values that fit (rejected)
and values from `2 ^ (n - 1)` to `2 ^ n - 1` (accepted); see `C33_wrong`. -/
theorem C33_try_signed_partial {x : SInt} (h : x.value.WF) :
    (Faithful 8 x.value → AcceptsRange 8 x.tryToI8 x.value .i8) ∧
    (Faithful 16 x.value → AcceptsRange 16 x.tryToI16 x.value .i16) ∧
    (Faithful 32 x.value → AcceptsRange 32 x.tryToI32 x.value .i32) ∧
    (Faithful 64 x.value → AcceptsRange 64 x.tryToI64 x.value .i64) ∧
    (Faithful 128 x.value → AcceptsRange 128 x.tryToI128 x.value .i128) := by
  obtain ⟨h1, h2, h3, h4, h5⟩ := C32_try_signed h
  exact ⟨acceptsRange_of (by decide) h h1, acceptsRange_of (by decide) h h2,
    acceptsRange_of (by decide) h h3, acceptsRange_of (by decide) h h4,
    acceptsRange_of (by decide) h h5⟩

example : (⟨a7⟩ : SInt).tryToI8 = .ok (.ok (BitVec.ofInt 8 (-28))) :=
  ((C33_try_signed_partial (x := ⟨a7⟩) a7_wf).1 (.inl (by decide))).1 (by decide)

/-- Outside `Faithful` the documented behaviour never occurs: the range test of the type and
the outcome of the conversion always disagree. -/
def Disagrees (n : Nat) (r : Run (Res (BitVec n))) (a : ApInt) (ty : PrimitiveTy) : Prop :=
  (-(2 ^ (n - 1) : Int) ≤ a.sval ∧ a.sval < 2 ^ (n - 1) →
    r = .ok (.error (.valueUnrepresentable a ty))) ∧
  (¬ (-(2 ^ (n - 1) : Int) ≤ a.sval ∧ a.sval < 2 ^ (n - 1)) →
    ∃ v, r = .ok (.ok v) ∧ v.toInt = a.sval - 2 ^ n)

theorem disagrees_of {n : Nat} (hn : 0 < n) (h : a.WF) {r : Run (Res (BitVec n))}
    {ty : PrimitiveTy} (hr : AcceptsBelow n r a ty (BitVec.ofInt n a.sval))
    (hf : ¬ Faithful n a) : Disagrees n r a ty := by
  have hlt := h.2
  have hp1 : (2:Nat) ^ n = 2 * 2 ^ (n - 1) := two_pow_pred hn
  have hp2 : (2:Nat) ^ a.w = 2 * 2 ^ (a.w - 1) := two_pow_pred a.pos_w
  have hs : a.sval = if a.uval < 2 ^ (a.w - 1) then (a.uval : Int) else (a.uval : Int) - 2 ^ a.w :=
    rfl
  unfold Faithful at hf
  push Not at hf
  obtain ⟨hw, f1, f2, f3⟩ := hf
  have h1 : (2:Nat) ^ n ≤ 2 ^ (a.w - 1) := Nat.pow_le_pow_right (by decide) (by omega)
  have hpos : 0 < (2:Nat) ^ (n - 1) := two_pow_w_pos _
  by_cases hb : a.uval < 2 ^ (a.w - 1)
  · rw [if_pos hb] at hs
    have f1' := f1 (by omega)
    refine ⟨fun hc => absurd hc.2 (by omega), fun _ => ⟨_, hr.1 ?_, ?_⟩⟩
    · zify at *; omega
    · rw [BitVec.toInt_ofInt]
      have e1 : (2:Int) ^ n = 2 * 2 ^ (n - 1) := by exact_mod_cast hp1
      have hb1 : Int.bmod (a.sval - 2 ^ n) (2 ^ n) = a.sval - 2 ^ n :=
        bmod_of_range hn (by omega) (by omega)
      rw [← hb1]
      have e2 : ((2 ^ n : Nat) : Int) = 2 ^ n := by push_cast; rfl
      conv_rhs => rw [← e2, Int.sub_bmod_right]
  · rw [if_neg hb] at hs
    refine ⟨fun hc => hr.2 ?_, fun hc => absurd ⟨f3, ?_⟩ hc⟩
    · omega
    · zify at *; omega

/-- C33, the rest: on every value outside `Faithful` the outcome is the wrong one. -/
theorem C33_wrong {x : SInt} (h : x.value.WF) :
    (¬ Faithful 8 x.value → Disagrees 8 x.tryToI8 x.value .i8) ∧
    (¬ Faithful 16 x.value → Disagrees 16 x.tryToI16 x.value .i16) ∧
    (¬ Faithful 32 x.value → Disagrees 32 x.tryToI32 x.value .i32) ∧
    (¬ Faithful 64 x.value → Disagrees 64 x.tryToI64 x.value .i64) ∧
    (¬ Faithful 128 x.value → Disagrees 128 x.tryToI128 x.value .i128) := by
  obtain ⟨h1, h2, h3, h4, h5⟩ := C32_try_signed h
  exact ⟨disagrees_of (by decide) h h1, disagrees_of (by decide) h h2,
    disagrees_of (by decide) h h3, disagrees_of (by decide) h h4,
    disagrees_of (by decide) h h5⟩

example : ∃ v, (⟨⟨bw 16, .inl 200#64⟩⟩ : SInt).tryToI8 = .ok (.ok v) ∧ v.toInt = 200 - 256 :=
  ((C33_wrong (x := ⟨⟨bw 16, .inl 200#64⟩⟩) (by decide)).1 (by unfold Faithful; decide)).2
    (by decide)

/-! ## C34: primitive round trips -/

/-- C34, unsigned: a primitive of `n` bits survives the trip through any width of at least `n`
bits, by both kinds of conversion. -/
theorem C34_unsigned_round_trip (v8 : BitVec 8) (v16 : BitVec 16) (v32 : BitVec 32)
    (v64 : BitVec 64) (v128 : BitVec 128) (t : BitWidth) :
    (8 ≤ t.toUsize → ∃ c c', fromU8 v8 = .ok c ∧ c.zeroResize t = .ok c' ∧ c'.len = t ∧
      c'.resizeToU8 = .ok v8 ∧ c'.tryToU8 = .ok (.ok v8)) ∧
    (16 ≤ t.toUsize → ∃ c c', fromU16 v16 = .ok c ∧ c.zeroResize t = .ok c' ∧ c'.len = t ∧
      c'.resizeToU16 = .ok v16 ∧ c'.tryToU16 = .ok (.ok v16)) ∧
    (32 ≤ t.toUsize → ∃ c c', fromU32 v32 = .ok c ∧ c.zeroResize t = .ok c' ∧ c'.len = t ∧
      c'.resizeToU32 = .ok v32 ∧ c'.tryToU32 = .ok (.ok v32)) ∧
    (64 ≤ t.toUsize → ∃ c c', fromU64 v64 = .ok c ∧ c.zeroResize t = .ok c' ∧ c'.len = t ∧
      c'.resizeToU64 = .ok v64 ∧ c'.tryToU64 = .ok (.ok v64)) ∧
    (128 ≤ t.toUsize → ∃ c c', fromU128 v128 = .ok c ∧ c.zeroResize t = .ok c' ∧ c'.len = t ∧
      c'.resizeToU128 = .ok v128 ∧ c'.tryToU128 = .ok (.ok v128)) := by
  have key : ∀ {n : Nat} {v : BitVec n} {f : Run ApInt} {len : BitWidth},
      Returns f len v.toNat → n ≤ t.toUsize →
      ∃ c c', f = .ok c ∧ c.zeroResize t = .ok c' ∧ c'.WF ∧ c'.len = t ∧ c'.uval = v.toNat := by
    intro n v f len ⟨c, e, h1, h2, h3⟩ hle
    obtain ⟨c', e', h1', h2', h3'⟩ := zeroResize_ok h1 t
    refine ⟨c, c', e, e', h1', h2', ?_⟩
    rw [h3', h3]
    exact Nat.mod_eq_of_lt (Nat.lt_of_lt_of_le v.isLt (Nat.pow_le_pow_right (by decide) hle))
  have ofn : ∀ {n : Nat} (v : BitVec n), BitVec.ofNat n v.toNat = v := fun v => by simp
  refine ⟨fun h => ?_, fun h => ?_, fun h => ?_, fun h => ?_, fun h => ?_⟩
  · obtain ⟨c, c', e, e', wf, l, v⟩ := key (fromU8_ok v8) h
    refine ⟨c, c', e, e', l, ?_, ?_⟩
    · rw [(C31_resize_unsigned wf).2.1, v, ofn]
    · rw [(C32_try_unsigned wf).2.1.1 (by rw [v]; exact v8.isLt), v, ofn]
  · obtain ⟨c, c', e, e', wf, l, v⟩ := key (fromU16_ok v16) h
    refine ⟨c, c', e, e', l, ?_, ?_⟩
    · rw [(C31_resize_unsigned wf).2.2.1, v, ofn]
    · rw [(C32_try_unsigned wf).2.2.1.1 (by rw [v]; exact v16.isLt), v, ofn]
  · obtain ⟨c, c', e, e', wf, l, v⟩ := key (fromU32_ok v32) h
    refine ⟨c, c', e, e', l, ?_, ?_⟩
    · rw [(C31_resize_unsigned wf).2.2.2.1, v, ofn]
    · rw [(C32_try_unsigned wf).2.2.2.1.1 (by rw [v]; exact v32.isLt), v, ofn]
  · obtain ⟨c, c', e, e', wf, l, v⟩ := key (fromU64_ok v64) h
    refine ⟨c, c', e, e', l, ?_, ?_⟩
    · rw [(C31_resize_unsigned wf).2.2.2.2.1, v, ofn]
    · rw [(C32_try_unsigned wf).2.2.2.2.1.1 (by rw [v]; exact v64.isLt), v, ofn]
  · obtain ⟨c, c', e, e', wf, l, v⟩ := key (fromU128_ok v128) h
    refine ⟨c, c', e, e', l, ?_, ?_⟩
    · rw [(C31_resize_unsigned wf).2.2.2.2.2, v, ofn]
    · rw [(C32_try_unsigned wf).2.2.2.2.2.1 (by rw [v]; exact v128.isLt), v, ofn]

example : ∃ c c', fromU32 77#32 = .ok c ∧ c.zeroResize (bw 200) = .ok c' ∧ c'.len = bw 200 ∧
      c'.resizeToU32 = .ok 77#32 ∧ c'.tryToU32 = .ok (.ok 77#32) :=
  (C34_unsigned_round_trip 0 0 77#32 0 0 (bw 200)).2.2.1 (by decide)

/-- C34, `bool`: at every width. -/
theorem C34_bool_round_trip (v : Bool) (t : BitWidth) :
    ∃ c c', fromBool v = .ok c ∧ c.zeroResize t = .ok c' ∧ c'.len = t ∧
      c'.resizeToBool = .ok v ∧ c'.tryToBool = .ok (.ok v) := by
  obtain ⟨c, e, h1, h2, h3⟩ := fromBool_ok v
  obtain ⟨c', e', h1', h2', h3'⟩ := zeroResize_ok h1 t
  have hv : c'.uval = if v then 1 else 0 := by
    rw [h3', h3]
    apply Nat.mod_eq_of_lt
    have : 1 < 2 ^ t.toUsize := Nat.one_lt_two_pow (Nat.pos_iff_ne_zero.mp t.pos)
    split <;> omega
  refine ⟨c, c', e, e', h2', ?_, ?_⟩
  · rw [(C31_resize_unsigned h1').1, hv]
    cases v <;> rfl
  · rw [(C32_try_unsigned h1').1.1 (by rw [hv]; split <;> decide), hv]
    cases v <;> rfl

example : ∃ c c', fromBool true = .ok c ∧ c.zeroResize (bw 200) = .ok c' ∧ c'.len = bw 200 ∧
      c'.resizeToBool = .ok true ∧ c'.tryToBool = .ok (.ok true) :=
  C34_bool_round_trip true (bw 200)

/-- C34, signed: sign-extending a primitive to any width of at least its own and converting back
returns it. -/
theorem C34_signed_round_trip (v8 : BitVec 8) (v16 : BitVec 16) (v32 : BitVec 32)
    (v64 : BitVec 64) (v128 : BitVec 128) (t : BitWidth) :
    (8 ≤ t.toUsize → ∃ c c', fromI8 v8 = .ok c ∧ c.signResize t = .ok c' ∧ c'.len = t ∧
      c'.sval = v8.toInt ∧ c'.resizeToI8 = .ok v8) ∧
    (16 ≤ t.toUsize → ∃ c c', fromI16 v16 = .ok c ∧ c.signResize t = .ok c' ∧ c'.len = t ∧
      c'.sval = v16.toInt ∧ c'.resizeToI16 = .ok v16) ∧
    (32 ≤ t.toUsize → ∃ c c', fromI32 v32 = .ok c ∧ c.signResize t = .ok c' ∧ c'.len = t ∧
      c'.sval = v32.toInt ∧ c'.resizeToI32 = .ok v32) ∧
    (64 ≤ t.toUsize → ∃ c c', fromI64 v64 = .ok c ∧ c.signResize t = .ok c' ∧ c'.len = t ∧
      c'.sval = v64.toInt ∧ c'.resizeToI64 = .ok v64) ∧
    (128 ≤ t.toUsize → ∃ c c', fromI128 v128 = .ok c ∧ c.signResize t = .ok c' ∧ c'.len = t ∧
      c'.sval = v128.toInt ∧ c'.resizeToI128 = .ok v128) := by
  have key : ∀ {n : Nat} {v : BitVec n} {f : Run ApInt} {len : BitWidth}, len.toUsize = n →
      Returns f len v.toNat → n ≤ t.toUsize →
      ∃ c c', f = .ok c ∧ c.signResize t = .ok c' ∧ c'.WF ∧ c'.len = t ∧ c'.sval = v.toInt := by
    intro n v f len hlen ⟨c, e, h1, h2, h3⟩ hle
    obtain ⟨c', e', h1', h2', h3'⟩ := signResize_ok h1 t
    have hw : c.w = n := by unfold w; rw [h2, hlen]
    have hw' : c'.w = t.toUsize := by unfold w; rw [h2']
    have hs := sval_of_toNat hw h3
    obtain ⟨r1, r2⟩ := sval_range h1
    refine ⟨c, c', e, e', h1', h2', ?_⟩
    have hmono : (2:Int) ^ (c.w - 1) ≤ 2 ^ (c'.w - 1) :=
      pow_le_pow_right₀ (by decide) (by omega)
    rw [← hs]
    exact sval_of_wrap_range h1' (by rw [h3', hw']) (by omega) (by omega)
  have ofi : ∀ {n : Nat} (v : BitVec n), BitVec.ofInt n v.toInt = v := fun v => by simp
  refine ⟨fun h => ?_, fun h => ?_, fun h => ?_, fun h => ?_, fun h => ?_⟩
  · obtain ⟨c, c', e, e', wf, l, v⟩ := key (n := 8) rfl (fromU8_ok v8) h
    exact ⟨c, c', e, e', l, v, by rw [(C31_resize_signed wf).1, v, ofi]⟩
  · obtain ⟨c, c', e, e', wf, l, v⟩ := key (n := 16) rfl (fromU16_ok v16) h
    exact ⟨c, c', e, e', l, v, by rw [(C31_resize_signed wf).2.1, v, ofi]⟩
  · obtain ⟨c, c', e, e', wf, l, v⟩ := key (n := 32) rfl (fromU32_ok v32) h
    exact ⟨c, c', e, e', l, v, by rw [(C31_resize_signed wf).2.2.1, v, ofi]⟩
  · obtain ⟨c, c', e, e', wf, l, v⟩ := key (n := 64) rfl (fromU64_ok v64) h
    exact ⟨c, c', e, e', l, v, by rw [(C31_resize_signed wf).2.2.2.1, v, ofi]⟩
  · obtain ⟨c, c', e, e', wf, l, v⟩ := key (n := 128) rfl (fromU128_ok v128) h
    exact ⟨c, c', e, e', l, v, by rw [(C31_resize_signed wf).2.2.2.2, v, ofi]⟩

example : ∃ c c', fromI16 (-300#16) = .ok c ∧ c.signResize (bw 129) = .ok c' ∧
    c'.len = bw 129 ∧ c'.sval = (-300#16).toInt ∧ c'.resizeToI16 = .ok (-300#16) :=
  (C34_signed_round_trip 0 (-300#16) 0 0 0 (bw 129)).2.1 (by decide)

end Verif.Props
