import Verif.Proof.TraceTyped
import Verif.Props.TraceAsk

/-!
# C98: what `abs`, `signum` and the order of `UInt` and `Int` show

`Model/TraceTyped.lean` has the methods of `UInt` and `Int` that branch on an answer of their field,
with a trace.  For each it is stated exactly what the trace tells.
-/

namespace Verif

open ApInt Ex Watched

variable {a a' b b' : ApInt}

/-- C98: the traced methods return what the methods return. -/
theorem C98_same_calls :
    (∀ x, result (Trace.wrappingAbs x) = SInt.wrappingAbs x) ∧
    (∀ x, result (Trace.signum x) = SInt.signum x) ∧
    (∀ x y, result (Trace.ucmp x y) = UInt.partialCmp x y) ∧
    ∀ x y, result (Trace.scmp x y) = SInt.partialCmp x y :=
  ⟨result_wrappingAbs, result_signum, result_ucmp, result_scmp⟩

example : seen (Trace.wrappingAbs ⟨a150⟩) = some [.read .self 2, .test false] := by decide +kernel
example : seen (Trace.signum ⟨b150⟩) = some [.read .self 0, .test true, .read .self 1, .test false,
    .test false, .read .self 2, .test true] := by decide +kernel

/-- C98: `abs` shows the sign, and of negative integers of more than one digit how many of the low
digits are zero, and nothing else. -/
theorem C98_abs (h : a.WF) (h' : a'.WF) (e : a.w = a'.w) :
    seen (Trace.wrappingAbs ⟨a⟩) = seen (Trace.wrappingAbs ⟨a'⟩) ↔
      (a.sval < 0 ↔ a'.sval < 0) ∧ (a.sval < 0 → 64 < a.w →
        ∀ k, 64 * k ≤ a.w → (2 ^ (64 * k) ∣ a.uval ↔ 2 ^ (64 * k) ∣ a'.uval)) :=
  abs_leak h h' (BitWidth.ext e)

example : seen (Trace.wrappingAbs ⟨a150⟩) ≠ seen (Trace.wrappingAbs ⟨b150⟩) := by
  rw [ne_eq, C98_abs a150_wf b150_wf rfl]
  intro h
  exact absurd (h.1.2 (by decide +kernel)) (by decide +kernel)
-- Of integers that are not negative it shows nothing but that.
example : seen (Trace.wrappingAbs ⟨a150⟩) = seen (Trace.wrappingAbs ⟨c150⟩) :=
  (C98_abs a150_wf c150_wf rfl).2 ⟨by decide +kernel, fun h => absurd h (by decide +kernel)⟩

/-- C98: `signum` shows its answer, and of integers of more than one digit how many of the low digits
are zero, and nothing else. -/
theorem C98_signum (h : a.WF) (h' : a'.WF) (e : a.w = a'.w) :
    seen (Trace.signum ⟨a⟩) = seen (Trace.signum ⟨a'⟩) ↔
      (a.sval = 0 ↔ a'.sval = 0) ∧ (a.sval < 0 ↔ a'.sval < 0) ∧
      (64 < a.w → ∀ k, 2 ^ (64 * k) ∣ a.uval ↔ 2 ^ (64 * k) ∣ a'.uval) := by
  have zero : ∀ {x : ApInt}, x.WF → (x.uval = 0 ↔ x.sval = 0) := by
    intro x hx
    have h1 := hx.2
    have h3 : ((2 : Int) ^ x.w) = ((2 ^ x.w : Nat) : Int) := by push_cast; rfl
    have h4 : 0 < 2 ^ (x.w - 1) := Nat.pow_pos (by decide)
    unfold sval
    rw [h3]
    generalize 2 ^ x.w = p at *
    split <;> omega
  rw [signum_leak h h' (BitWidth.ext e), zero h, zero h']
  rfl

example : seen (Trace.signum ⟨a7⟩) = seen (Trace.signum ⟨a7⟩) ∧
    seen (Trace.signum ⟨a7⟩) ≠ seen (Trace.signum ⟨b7⟩) := by
  refine ⟨rfl, ?_⟩
  rw [ne_eq, C98_signum a7_wf b7_wf rfl]
  intro h
  exact absurd (h.2.1.1 (by decide +kernel)) (by decide +kernel)
example : seen (Trace.signum ⟨a150⟩) = seen (Trace.signum ⟨c150⟩) := by decide +kernel

/-- C98: the order of two `UInt`s shows what `<` shows, the answer of `<`, and if that is `false` how
many of the low digits agree, and nothing else. -/
theorem C98_uint_order (ha : a.WF) (hb : b.WF) (ha' : a'.WF) (hb' : b'.WF) (e : b.w = a.w)
    (e1 : a'.w = a.w) (e2 : b'.w = a.w) :
    seen (Trace.ucmp ⟨a⟩ ⟨b⟩) = seen (Trace.ucmp ⟨a'⟩ ⟨b'⟩) ↔
      (64 < a.w → (a.uval < b.uval ↔ a'.uval < b'.uval) ∧ (b.uval < a.uval ↔ b'.uval < a'.uval) ∧
        ∀ k, a.uval / 2 ^ (64 * k) = b.uval / 2 ^ (64 * k) ↔
          a'.uval / 2 ^ (64 * k) = b'.uval / 2 ^ (64 * k)) ∧
      (a.uval < b.uval ↔ a'.uval < b'.uval) ∧
      (b.uval ≤ a.uval → ∀ k, a.uval % 2 ^ (64 * k) = b.uval % 2 ^ (64 * k) ↔
        a'.uval % 2 ^ (64 * k) = b'.uval % 2 ^ (64 * k)) :=
  ucmp_leak ha hb ha' hb' (BitWidth.ext e.symm) (BitWidth.ext e1.symm) (BitWidth.ext e2.symm)

example : seen (Trace.ucmp ⟨a7⟩ ⟨b7⟩) ≠ seen (Trace.ucmp ⟨b7⟩ ⟨a7⟩) := by
  rw [ne_eq, C98_uint_order a7_wf b7_wf b7_wf a7_wf rfl rfl rfl]
  intro h
  exact absurd (h.2.1.2 (by decide +kernel)) (by decide +kernel)

/-- C98: the order of two `Int`s shows what `<` shows, the answer of `<`, and if that is `false` how
many of the low digits agree, and nothing else. -/
theorem C98_int_order (ha : a.WF) (hb : b.WF) (ha' : a'.WF) (hb' : b'.WF) (e : b.w = a.w)
    (e1 : a'.w = a.w) (e2 : b'.w = a.w) :
    seen (Trace.scmp ⟨a⟩ ⟨b⟩) = seen (Trace.scmp ⟨a'⟩ ⟨b'⟩) ↔
      (64 < a.w → (a.sval < 0 ↔ a'.sval < 0) ∧ (b.sval < 0 ↔ b'.sval < 0) ∧
        (a.uval < b.uval ↔ a'.uval < b'.uval) ∧ (b.uval < a.uval ↔ b'.uval < a'.uval) ∧
        ∀ k, a.uval / 2 ^ (64 * k) = b.uval / 2 ^ (64 * k) ↔
          a'.uval / 2 ^ (64 * k) = b'.uval / 2 ^ (64 * k)) ∧
      (a.sval < b.sval ↔ a'.sval < b'.sval) ∧
      (b.sval ≤ a.sval → ∀ k, a.uval % 2 ^ (64 * k) = b.uval % 2 ^ (64 * k) ↔
        a'.uval % 2 ^ (64 * k) = b'.uval % 2 ^ (64 * k)) :=
  scmp_leak ha hb ha' hb' (BitWidth.ext e.symm) (BitWidth.ext e1.symm) (BitWidth.ext e2.symm)

example : seen (Trace.scmp ⟨a150⟩ ⟨b150⟩) ≠ seen (Trace.scmp ⟨a150⟩ ⟨a150⟩) := by
  rw [ne_eq, C98_int_order a150_wf b150_wf a150_wf a150_wf rfl rfl rfl]
  intro h
  exact absurd ((h.1 (by decide)).2.1.1 (by decide +kernel)) (by decide +kernel)

/-- C98: integers of different widths have no order, and finding that out shows nothing. -/
theorem C98_no_order (e : a.w ≠ b.w) :
    seen (Trace.ucmp ⟨a⟩ ⟨b⟩) = some [] ∧ seen (Trace.scmp ⟨a⟩ ⟨b⟩) = some [] := by
  have q : a.width ≠ b.width := fun h => e (congrArg BitWidth.toUsize h)
  unfold Trace.ucmp Trace.scmp
  rw [if_pos q, if_pos q]
  exact ⟨rfl, rfl⟩

example : seen (Trace.ucmp ⟨a65⟩ ⟨a150⟩) = some [] := (C98_no_order (by decide)).1

/-- C98: so asking for the order shows more than asking with `<`: there are integers of which `<`
shows the same and the order does not. -/
theorem C98_order_shows_more : ∃ a b b' : ApInt, a.WF ∧ b.WF ∧ b'.WF ∧ b.w = a.w ∧ b'.w = a.w ∧
    seen (Trace.checkedUlt a b) = seen (Trace.checkedUlt a b') ∧
    seen (Trace.checkedSlt a b) = seen (Trace.checkedSlt a b') ∧
    seen (Trace.ucmp ⟨a⟩ ⟨b⟩) ≠ seen (Trace.ucmp ⟨a⟩ ⟨b'⟩) ∧
    seen (Trace.scmp ⟨a⟩ ⟨b⟩) ≠ seen (Trace.scmp ⟨a⟩ ⟨b'⟩) :=
  ⟨⟨bw 128, .ext [1#64, 2#64]⟩, ⟨bw 128, .ext [1#64, 1#64]⟩, ⟨bw 128, .ext [0#64, 1#64]⟩,
    by decide +kernel⟩

end Verif
