import Verif.Model.TraceText
import Verif.Proof.TraceApart
import Verif.Proof.TraceAsk

/-!
# What writing an integer shows
-/

namespace Verif

open ApInt Watched ToldBy

section
variable {a a' : ApInt}

/-- The trace of the loops. -/
def fmtSeen : List Digit → List Sight
  | [] => []
  | d :: l => [.read .self l.length, .test (Digit.isZero d)] ++
      if Digit.isZero d then fmtSeen l else Trace.readsDown l.length

theorem fmtLoop_form (b : Nat) (ch : Nat → Char) (w : Nat) (l : List Digit) :
    Trace.fmtLoop b ch w l = Except.ok (fmtDigits b ch w l, fmtSeen l) := by
  induction l with
  | nil => rfl
  | cons d l ih =>
    unfold Trace.fmtLoop fmtDigits fmtSeen
    cases hd : Digit.isZero d
    · show Except.ok (_, _ ++ (_ ++ [])) = _
      rw [List.append_nil]
      rfl
    · rw [if_pos rfl, if_pos rfl, if_pos rfl, ih]
      rfl

theorem fmtSeen_while (pre : Nat → List Sight) :
    ∀ (l l' : List Digit) (i : Nat), l.length = l'.length →
      (fmtSeen l = fmtSeen l' ↔
        whileSeen Digit.isZero pre i l = whileSeen Digit.isZero pre i l') := by
  intro l
  induction l with
  | nil =>
    intro l' i h
    rw [List.eq_nil_of_length_eq_zero h.symm]
    simp
  | cons d l ih =>
    intro l' i h
    rcases l' with _ | ⟨d', l'⟩
    · simp at h
    · have hl : l.length = l'.length := by simpa using h
      unfold fmtSeen whileSeen
      rw [hl]
      simp only [List.cons_append, List.nil_append, List.cons.injEq, Sight.test.injEq, true_and,
        List.append_cancel_left_eq]
      refine and_congr_right fun e => ?_
      rw [← e]
      cases Digit.isZero d
      · simp
      · simpa using ih l' (i + 1) hl

theorem fmtSeen_iff (l l' : List Digit) (h : l.length = l'.length) :
    fmtSeen l.reverse = fmtSeen l'.reverse ↔ SameHighZeros (val l) (val l') := by
  have z : Digit.isZero = fun d => leadingZeros64 d == 64 := by
    funext d
    rw [Bool.eq_iff_iff, Digit.isZero_iff, beq_iff_eq, leading64_iff]
  rw [fmtSeen_while (fun i => rAt (l.length - 1 - i)) _ _ 0 (by simp [h]), z,
    leadingSeen_iff l.length l l' rfl h.symm]

theorem result_fmtWith (b : Nat) (ch : Nat → Char) (w : Nat) (a : ApInt) :
    result (Trace.fmtWith b ch w a) = (do
      let z ← a.isZero
      if z then .ok ['0']
      else do
        let ds ← a.asDigitSlice
        .ok (fmtDigits b ch w ds.reverse)) := by
  unfold Trace.fmtWith
  rw [result_bind, result_isZero]
  congr 1
  funext z
  rw [result_bind, result_note, run_bind_ok, result_ite, result_bind, result_lift]
  congr 1
  congr 1
  funext ds
  rw [fmtLoop_form]
  rfl

theorem result_fmtBinary (a : ApInt) : result (Trace.fmtBinary a) = a.fmtBinary :=
  result_fmtWith _ _ _ a

theorem result_fmtLowerHex (a : ApInt) : result (Trace.fmtLowerHex a) = a.fmtLowerHex :=
  result_fmtWith _ _ _ a

theorem result_fmtUpperHex (a : ApInt) : result (Trace.fmtUpperHex a) = a.fmtUpperHex :=
  result_fmtWith _ _ _ a

theorem fmtWith_leak (b : Nat) (ch : Nat → Char) (w : Nat) (h : a.WF) (h' : a'.WF)
    (e : a.len = a'.len) :
    seen (Trace.fmtWith b ch w a) = seen (Trace.fmtWith b ch w a') ↔
      SameHighZeros a.uval a'.uval ∧ (a.w ≤ 64 ∨ SameLowZeros a.uval a'.uval) := by
  have zero : seen (Trace.isZero a) = seen (Trace.isZero a') ↔
      a.w ≤ 64 ∨ SameLowZeros a.uval a'.uval := by
    rcases Nat.lt_or_ge 64 a.w with hw | hw
    · rw [isZero_leak h.1 h'.1 e hw]
      exact ⟨.inr, fun k => k.resolve_left (by omega)⟩
    · exact iff_of_true (isZero_small h.1 h'.1 e hw) (.inl hw)
  have body : ∀ {x : ApInt}, x.WF → ∃ y,
      (if decide (x.uval = 0) then Watched.ok ['0']
        else do
          let ds ← x.asDigitSlice
          Trace.fmtLoop b ch w ds.reverse : Watched (List Char)) =
        Except.ok (y, if x.uval = 0 then [] else fmtSeen x.digits.reverse) := by
    intro x hx
    by_cases hz : x.uval = 0
    · exact ⟨['0'], by simp [hz]; rfl⟩
    · refine ⟨fmtDigits b ch w x.digits.reverse, ?_⟩
      rw [if_neg (by simpa using hz), if_neg hz, asDigitSlice_ok hx.1, lift_bind, fmtLoop_form]
  obtain ⟨y, hy⟩ := body h
  obtain ⟨y', hy'⟩ := body h'
  have r := (result_isZero a).trans (isZero_ok h.1)
  have r' := (result_isZero a').trans (isZero_ok h'.1)
  unfold Trace.fmtWith
  rw [bind_leak (y := y) (y' := y') r r' ?_ ?_ (isZero_apart h.1 h'.1 e), zero,
    note_leak (y := y) (y' := y') ?_ ?_, hy, hy', and_comm]
  · refine and_congr_left fun _ => ?_
    show _ ∧ some _ = some _ ↔ _
    rw [Option.some_inj, decide_eq_decide]
    have f := fmtSeen_iff a.digits a'.digits (by rw [h.1.length_digits, h'.1.length_digits, ApInt.w, e])
    change _ ↔ SameHighZeros a.uval a'.uval at f
    constructor
    · rintro ⟨q, s⟩
      by_cases hz : a.uval = 0
      · rw [hz, q.1 hz]
        exact fun k => Iff.rfl
      · rw [if_neg hz, if_neg fun v => hz (q.2 v)] at s
        exact f.1 s
    · intro q
      have q0 : a.uval = 0 ↔ a'.uval = 0 := by
        have := q 0
        simpa using this
      refine ⟨q0, ?_⟩
      by_cases hz : a.uval = 0
      · rw [if_pos hz, if_pos (q0.1 hz)]
      · rw [if_neg hz, if_neg fun v => hz (q0.2 v)]
        exact f.2 q
  all_goals first
    | (rw [hy]; rfl)
    | (rw [hy']; rfl)
    | (rw [result_bind, result_note, run_bind_ok, hy]; rfl)
    | (rw [result_bind, result_note, run_bind_ok, hy']; rfl)

end

end Verif
