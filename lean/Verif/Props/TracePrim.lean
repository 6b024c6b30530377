import Verif.Proof.TracePrim
import Verif.Props.TraceTyped

/-!
# C99: what the conversions to primitive types show

`Model/TracePrim.lean` has `try_to_*` with a trace.  For each it is stated exactly what the trace tells.
-/

namespace Verif

open ApInt Ex Watched

variable {a a' : ApInt}

/-- C99: the traced methods return what the methods return. -/
theorem C99_same_calls (x : ApInt) :
    result (Trace.tryToBool x) = x.tryToBool ∧
    result (Trace.tryToBits x .i8 8) = x.tryToI8 ∧ result (Trace.tryToBits x .u8 8) = x.tryToU8 ∧
    result (Trace.tryToBits x .i16 16) = x.tryToI16 ∧ result (Trace.tryToBits x .u16 16) = x.tryToU16 ∧
    result (Trace.tryToBits x .i32 32) = x.tryToI32 ∧ result (Trace.tryToBits x .u32 32) = x.tryToU32 ∧
    result (Trace.tryToBits x .i64 64) = x.tryToI64 ∧ result (Trace.tryToBits x .u64 64) = x.tryToU64 ∧
    result (Trace.tryToI128 x) = x.tryToI128 ∧ result (Trace.tryToU128 x) = x.tryToU128 :=
  ⟨result_tryToBool x, result_tryToBits x _ _, result_tryToBits x _ _, result_tryToBits x _ _,
    result_tryToBits x _ _, result_tryToBits x _ _, result_tryToBits x _ _, result_tryToBits x _ _,
    result_tryToBits x _ _, result_tryToI128 x, result_tryToU128 x⟩

example : seen (Trace.tryToBits a7 .u8 8) = some [.read .self 0, .test true] := by decide +kernel
example : seen (Trace.tryToBits c150 .u64 64) = some ([.read .self 0, .test true, .read .self 1,
    .test false, .alloc 3] ++ Trace.copies .self 0 .fresh 0 3) := by decide +kernel
example : seen (Trace.tryToBool ⟨a7.len, .inl 1#64⟩) = some [.read .self 0, .test false, .test true,
    .test false, .test true] := by decide +kernel
example : seen (Trace.tryToU128 a128) = some [.read .self 0, .read .self 1] := by decide +kernel

/-- C99: a conversion to a type of `n ≤ 64` bits other than `bool` shows whether the low 64 bits fit,
and if so how many of the digits above them are zero before the first that is not, and nothing else.
Signed and unsigned types show the same. -/
theorem C99_narrow (h : a.WF) (h' : a'.WF) (e : a.w = a'.w) {ty : PrimitiveTy} {n : Nat}
    (t : (ty, n) ∈ [(PrimitiveTy.i8, 8), (.u8, 8), (.i16, 16), (.u16, 16), (.i32, 32), (.u32, 32),
      (.i64, 64), (.u64, 64)]) :
    seen (Trace.tryToBits a ty n) = seen (Trace.tryToBits a' ty n) ↔
      (a.uval % 2 ^ 64 < 2 ^ n ↔ a'.uval % 2 ^ 64 < 2 ^ n) ∧
      (a.uval % 2 ^ 64 < 2 ^ n →
        ∀ k, 2 ^ (64 * k) ∣ a.uval / 2 ^ 64 ↔ 2 ^ (64 * k) ∣ a'.uval / 2 ^ 64) := by
  have q : ty ≠ .bool ∧ (ty ≠ .u128 ∧ ty ≠ .i128) ∧ ty.associatedWidth.toUsize = n := by
    simp only [List.mem_cons, Prod.mk.injEq, List.not_mem_nil, or_false] at t
    rcases t with t | t | t | t | t | t | t | t <;> obtain ⟨rfl, rfl⟩ := t <;> decide
  obtain ⟨q1, q2, rfl⟩ := q
  rw [tryToBits_iff h h' _ q2, tryCast_iff h h' (BitWidth.ext e) q2]
  exact ⟨And.right, fun s => ⟨fun c => absurd c q1, s⟩⟩

-- `try_to_u8` does not tell 100 from 60.
example : seen (Trace.tryToBits a7 .u8 8) = seen (Trace.tryToBits b7 .u8 8) := by
  rw [C99_narrow a7_wf b7_wf rfl (by simp)]
  refine ⟨by decide +kernel, fun _ k => ?_⟩
  rw [show a7.uval / 2 ^ 64 = 0 by decide +kernel, show b7.uval / 2 ^ 64 = 0 by decide +kernel]
-- It tells an integer whose low digit fits from one whose low digit does not.
example : seen (Trace.tryToBits a128 .u8 8) ≠ seen (Trace.tryToBits b128 .u8 8) := by
  rw [ne_eq, C99_narrow (by decide +kernel : a128.WF) (by decide +kernel : b128.WF) rfl (by simp)]
  exact fun s => absurd (s.1.2 (by decide +kernel)) (by decide +kernel)

/-- C99: of integers that fit, a conversion to an integer type of at most 64 bits shows nothing. -/
theorem C99_fits (h : a.WF) (h' : a'.WF) (e : a.w = a'.w) {ty : PrimitiveTy} {n : Nat}
    (t : (ty, n) ∈ [(PrimitiveTy.i8, 8), (.u8, 8), (.i16, 16), (.u16, 16), (.i32, 32), (.u32, 32),
      (.i64, 64), (.u64, 64)]) (f : a.uval < 2 ^ n) (f' : a'.uval < 2 ^ n) :
    seen (Trace.tryToBits a ty n) = seen (Trace.tryToBits a' ty n) := by
  have q : 2 ^ n ≤ 2 ^ 64 := Nat.pow_le_pow_right (by decide) (by
    simp only [List.mem_cons, Prod.mk.injEq, List.not_mem_nil, or_false] at t
    omega)
  rw [C99_narrow h h' e t, Nat.mod_eq_of_lt (by omega), Nat.mod_eq_of_lt (by omega),
    Nat.div_eq_of_lt (by omega), Nat.div_eq_of_lt (by omega)]
  exact ⟨iff_of_true f f', fun _ _ => Iff.rfl⟩

example : seen (Trace.tryToBits a7 .i8 8) = seen (Trace.tryToBits b7 .i8 8) :=
  C99_fits a7_wf b7_wf rfl (by simp) (by decide +kernel) (by decide +kernel)

/-- C99: `try_to_bool` shows whether the low 64 bits are 0, are 1 or are neither, and if they are 0 or 1
how many of the digits above them are zero before the first that is not, and nothing else. -/
theorem C99_bool (h : a.WF) (h' : a'.WF) (e : a.w = a'.w) :
    seen (Trace.tryToBool a) = seen (Trace.tryToBool a') ↔
      (a.uval % 2 ^ 64 = 0 ↔ a'.uval % 2 ^ 64 = 0) ∧ (a.uval % 2 ^ 64 = 1 ↔ a'.uval % 2 ^ 64 = 1) ∧
      (a.uval % 2 ^ 64 ≤ 1 →
        ∀ k, 2 ^ (64 * k) ∣ a.uval / 2 ^ 64 ↔ 2 ^ (64 * k) ∣ a'.uval / 2 ^ 64) := by
  have hw : 2 ^ PrimitiveTy.bool.associatedWidth.toUsize = 2 := by decide
  rw [tryToBool_iff h h' (BitWidth.ext e), tryCast_iff h h' (BitWidth.ext e) (by decide), hw]
  generalize a.uval % 2 ^ 64 = x
  generalize a'.uval % 2 ^ 64 = y
  constructor
  · rintro ⟨s1, s2, s3⟩
    have s1 := s1 rfl
    exact ⟨s1, by omega, fun v => s3 (by omega)⟩
  · rintro ⟨s1, s2, s3⟩
    exact ⟨fun _ => s1, by omega, fun v => s3 (by omega)⟩

example : seen (Trace.tryToBool a7) = seen (Trace.tryToBool b7) := by
  rw [C99_bool a7_wf b7_wf rfl]
  exact ⟨by decide +kernel, by decide +kernel, fun c => absurd c (by decide +kernel)⟩
example : seen (Trace.tryToBool a150) ≠ seen (Trace.tryToBool b150) := by
  rw [ne_eq, C99_bool a150_wf b150_wf rfl]
  exact fun s => absurd (s.1.2 (by decide +kernel)) (by decide +kernel)

/-- C99: `try_to_u128` and `try_to_i128` show how many of the digits above the low 128 bits are zero
before the first that is not, and nothing else. -/
theorem C99_wide (h : a.WF) (h' : a'.WF) (e : a.w = a'.w) :
    (seen (Trace.tryToU128 a) = seen (Trace.tryToU128 a') ↔
      ∀ k, 2 ^ (64 * k) ∣ a.uval / 2 ^ 128 ↔ 2 ^ (64 * k) ∣ a'.uval / 2 ^ 128) ∧
    (seen (Trace.tryToI128 a) = seen (Trace.tryToI128 a') ↔
      ∀ k, 2 ^ (64 * k) ∣ a.uval / 2 ^ 128 ↔ 2 ^ (64 * k) ∣ a'.uval / 2 ^ 128) :=
  ⟨tryToU128_iff h h' (BitWidth.ext e), tryToI128_iff h h' (BitWidth.ext e)⟩

example : seen (Trace.tryToU128 a128) = seen (Trace.tryToU128 b128) := by
  rw [(C99_wide (a := a128) (a' := b128) (by decide +kernel) (by decide +kernel) rfl).1,
    show a128.uval / 2 ^ 128 = 0 by decide +kernel, show b128.uval / 2 ^ 128 = 0 by decide +kernel]
  exact fun _ => Iff.rfl
example : seen (Trace.tryToI128 a150) = some ([.read .self 0, .read .self 1, .read .self 2, .test false,
    .alloc 3] ++ Trace.copies .self 0 .fresh 0 3) := by decide +kernel

/-- C99: every conversion shows whether it succeeds. -/
theorem C99_success (h : a.WF) (h' : a'.WF) (e : a.w = a'.w) :
    (∀ {ty : PrimitiveTy} {n : Nat}, (ty, n) ∈ [(PrimitiveTy.i8, 8), (.u8, 8), (.i16, 16), (.u16, 16),
      (.i32, 32), (.u32, 32), (.i64, 64), (.u64, 64)] →
      seen (Trace.tryToBits a ty n) = seen (Trace.tryToBits a' ty n) →
      (a.uval < 2 ^ n ↔ a'.uval < 2 ^ n)) ∧
    (seen (Trace.tryToU128 a) = seen (Trace.tryToU128 a') → (a.uval < 2 ^ 128 ↔ a'.uval < 2 ^ 128)) ∧
    (seen (Trace.tryToI128 a) = seen (Trace.tryToI128 a') → (a.uval < 2 ^ 128 ↔ a'.uval < 2 ^ 128)) ∧
    (seen (Trace.tryToBool a) = seen (Trace.tryToBool a') →
      (a.uval = 0 ↔ a'.uval = 0) ∧ (a.uval = 1 ↔ a'.uval = 1)) := by
  have zero : ∀ {x y : Nat}, (∀ k, 2 ^ (64 * k) ∣ x ↔ 2 ^ (64 * k) ∣ y) → (x = 0 → y = 0) := by
    intro x y s hz
    have := (s y).1 (by rw [hz]; exact dvd_zero _)
    refine Nat.eq_zero_of_dvd_of_lt this ?_
    calc y < 2 ^ y := Nat.lt_two_pow_self
      _ ≤ 2 ^ (64 * y) := Nat.pow_le_pow_right (by decide) (by omega)
  have both : ∀ {x y : Nat}, (∀ k, 2 ^ (64 * k) ∣ x ↔ 2 ^ (64 * k) ∣ y) → (x = 0 ↔ y = 0) :=
    fun s => ⟨zero s, zero fun k => (s k).symm⟩
  have lt : ∀ x : Nat, x < 2 ^ 128 ↔ x / 2 ^ 128 = 0 := fun x => by omega
  refine ⟨fun {ty n} t s => ?_, fun s => ?_, fun s => ?_, fun s => ?_⟩
  · rw [C99_narrow h h' e t] at s
    have q : 2 ^ n ≤ 2 ^ 64 := Nat.pow_le_pow_right (by decide) (by
      simp only [List.mem_cons, Prod.mk.injEq, List.not_mem_nil, or_false] at t
      omega)
    have f : ∀ x : Nat, x < 2 ^ n ↔ x % 2 ^ 64 < 2 ^ n ∧ x / 2 ^ 64 = 0 := by
      intro x
      generalize 2 ^ n = p at *
      omega
    rw [f a.uval, f a'.uval, ← s.1]
    exact and_congr_right fun v => both (s.2 v)
  · rw [lt, lt]
    exact both ((C99_wide h h' e).1.1 s)
  · rw [lt, lt]
    exact both ((C99_wide h h' e).2.1 s)
  · rw [C99_bool h h' e] at s
    obtain ⟨s1, s2, s3⟩ := s
    have b : a.uval % 2 ^ 64 ≤ 1 → (a.uval / 2 ^ 64 = 0 ↔ a'.uval / 2 ^ 64 = 0) := fun v => both (s3 v)
    omega

example : seen (Trace.tryToU128 a150) ≠ seen (Trace.tryToU128 ⟨a150.len, .ext [0#64, 1#64, 0#64]⟩) := by
  intro s
  have := (C99_success (a' := ⟨a150.len, .ext [0#64, 1#64, 0#64]⟩) a150_wf (by decide +kernel) rfl).2.1 s
  exact absurd (this.2 (by decide +kernel)) (by decide +kernel)

/-- C99: `resize_to_*` shows nothing but the width. -/
theorem C99_resize (h : a.WF) (h' : a'.WF) (e : a.w = a'.w) (ty : PrimitiveTy) :
    result (Trace.resizeTo a ty) = resizeTo a ty ∧
      seen (Trace.resizeTo a ty) = seen (Trace.resizeTo a' ty) := by
  refine ⟨result_resizeTo a ty, ?_⟩
  have t := lask_twin (.resize ty) (Alike.of_shape h.1 h'.1 (BitWidth.ext e)) h h' trivial
  obtain ⟨r, hr, -⟩ := ask_told (.resize ty) h
  obtain ⟨r', hr', -⟩ := ask_told (.resize ty) h'
  obtain ⟨s, hs⟩ := seen_of_result ((result_resizeTo a ty).trans hr)
  obtain ⟨s', hs'⟩ := seen_of_result ((result_resizeTo a' ty).trans hr')
  have t : Twin (Trace.resizeTo a ty) (Trace.resizeTo a' ty) fun _ _ => True := t
  rw [hs, hs'] at t ⊢
  exact congrArg some t.1

example : seen (Trace.resizeTo a150 .i8) = seen (Trace.resizeTo b150 .i8) :=
  (C99_resize a150_wf b150_wf rfl .i8).2
example : seen (Trace.resizeTo a150 .i8) = some [.read .self 0] ∧
    seen (Trace.resizeTo a150 .u128) = some [.read .self 0, .read .self 1] := by decide +kernel

/-- C99: the facts that `SpecTrace.lean` lists for the checked conversions, and that C96 uses for
programs, are exactly what they show. -/
theorem C99_facts (h : a.WF) (h' : a'.WF) (e : a.w = a'.w) (ty : PrimitiveTy) :
    seen (Trace.tryTo a ty) = seen (Trace.tryTo a' ty) ↔ ToldBy.tryTo ty a.uval a'.uval := by
  refine ⟨fun s => ?_, tryTo_seen ty (BitWidth.ext e) h h'⟩
  cases ty
  case bool =>
    have s := (C99_bool h h' e).1 ((seen_tellRes _ _).symm.trans (s.trans (seen_tellRes _ _)))
    exact ⟨s.1, by omega, s.2.2⟩
  case i128 => exact (C99_wide h h' e).2.1 ((seen_tellRes _ _).symm.trans (s.trans (seen_tellRes _ _)))
  case u128 => exact (C99_wide h h' e).1.1 ((seen_tellRes _ _).symm.trans (s.trans (seen_tellRes _ _)))
  all_goals
    have s := (C99_narrow h h' e (by simp)).1 ((seen_tellRes _ _).symm.trans (s.trans (seen_tellRes _ _)))
  case i64 => exact s.2 (Nat.mod_lt _ (by decide))
  case u64 => exact s.2 (Nat.mod_lt _ (by decide))
  all_goals exact ⟨by have := s.1; omega, fun v => s.2 (by omega)⟩

namespace Ex

/-- Convert, and add. -/
def converted : List Trace.Loud := [.ask (.tryTo .u32) 0, .ask (.resize .i128) 0, .quiet (.bin .add 0 0)]

end Ex

-- A program with conversions does not tell 100 from 60 (C96).
example : (Trace.runLoud converted [a7]).2.2 = (Trace.runLoud converted [b7]).2.2 := by
  refine (C96_program converted (b := [a7]) (b' := [b7]) (List.forall_mem_cons.2 ⟨a7_wf, nofun⟩)
    (List.forall_mem_cons.2 ⟨b7_wf, nofun⟩) rfl ?_).1
  refine ⟨?_, ?_⟩
  · intro x h1 x' h2
    cases h1; cases h2
    refine ⟨by decide +kernel, fun _ k => ?_⟩
    rw [show a7.uval / 2 ^ 64 = 0 by decide +kernel, show b7.uval / 2 ^ 64 = 0 by decide +kernel]
  show ToldBy.program _ [a7] [b7]
  refine ⟨?_, ?_⟩
  · intro x h1 x' h2
    trivial
  show ToldBy.program _ [a7] [b7]
  exact ⟨trivial, trivial⟩

end Verif
