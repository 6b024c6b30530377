import Verif.Model.TraceMul
import Verif.Proof.TraceApart
import Verif.Proof.Mul
import Verif.Proof.Scratch
import Verif.SpecTrace

/-!
# What a multiplication shows
-/

namespace Verif

open ApInt Watched ToldBy

/-! ## Without the trace -/

theorem result_rposition (o : Side) (l : List Digit) (i : Nat) :
    result (Trace.rposition o i l) = .ok (rpositionNonzero l) := by
  induction l generalizing i with
  | nil => rfl
  | cons d l ih =>
    unfold Trace.rposition rpositionNonzero
    rw [result_bind, ih, run_bind_ok]
    cases rpositionNonzero l with
    | some j => rfl
    | none =>
      dsimp only
      rw [result_bind, result_note, run_bind_ok]
      rfl

theorem result_mulRow (m : Digit) (l : List Digit) (i : Nat) (s : List Digit × Digit) :
    result (Trace.mulRow m i l s) = .ok (mulRow m l s) := by
  induction l generalizing i s with
  | nil => rfl
  | cons d l ih =>
    obtain ⟨sum, c⟩ := s
    unfold Trace.mulRow mulRow
    rw [result_bind, result_note, run_bind_ok]
    exact ih _ _

theorem result_mulAddStep (m : Digit) (rhs : List Digit) (b i : Nat) (s : List Digit × Digit × Digit) :
    result (Trace.mulAddStep m rhs b i s) = mulAddStep m rhs b i s := by
  obtain ⟨sum, c, d⟩ := s
  unfold Trace.mulAddStep mulAddStep
  simp only [result_bind, result_rd, result_wr]
  rfl

theorem result_mulFullRow (l r : List Digit) (s i : Nat) (sum : List Digit) :
    result (Trace.mulFullRow l r s i sum) = mulFullRow l r s i sum := by
  unfold Trace.mulFullRow mulFullRow
  simp only [result_bind, result_rd, result_wr,
    result_forRange _ _ _ (result_mulAddStep _ _ _), result_note, run_bind_ok]
  rfl

theorem result_mulNonOverflow (l r : List Digit) (s t : Nat) :
    result (Trace.mulNonOverflow l r s t) = mulNonOverflow l r s t := by
  unfold Trace.mulNonOverflow mulNonOverflow
  simp only [result_bind, result_rd, result_mulRow, result_mulFullRow,
    result_forRange _ _ _ (result_mulFullRow _ _ _), result_note, run_bind_ok,
    Trace.mulStore, Trace.copyBack, result_ite, result_show]

theorem result_mulWrapRow (l r : List Digit) (s i : Nat) (sum : List Digit) :
    result (Trace.mulWrapRow l r s i sum) = mulWrapRow l r s i sum := by
  unfold Trace.mulWrapRow mulWrapRow
  simp only [result_bind, result_rd, result_wr, result_lift,
    result_forRange _ _ _ (result_mulAddStep _ _ _)]

theorem result_mulWrapping (l r : List Digit) :
    result (Trace.mulWrapping l r) = mulWrapping l r := by
  unfold Trace.mulWrapping mulWrapping
  simp only [result_bind, result_rd, result_wr, result_mulRow, result_lift,
    result_forRange _ _ _ (result_mulWrapRow _ _ _), result_note, run_bind_ok,
    Trace.copyBack, result_show]

theorem result_mulSmallLhs (l r : List Digit) (s : Nat) :
    result (Trace.mulSmallLhs l r s) = mulSmallLhs l r s := by
  unfold Trace.mulSmallLhs mulSmallLhs
  have step : ∀ (m : Digit) (i : Nat) (p : List Digit × Digit),
      result ((fun rhsI (lhs, mulCarry) => do
        let x ← Trace.rd .rhs r rhsI
        let temp := Digit.carryingMulAdd m x mulCarry
        let lhs ← Trace.wr .self lhs rhsI temp.1
        Watched.ok (lhs, temp.2) : Nat → List Digit × Digit → Watched (List Digit × Digit)) i p) =
      (fun rhsI (lhs, mulCarry) => do
        let x ← idx r rhsI
        let temp := Digit.carryingMulAdd m x mulCarry
        let lhs ← upd lhs rhsI temp.1
        Except.ok (lhs, temp.2) : Nat → List Digit × Digit → Run (List Digit × Digit)) i p := by
    rintro m i ⟨x, c⟩
    simp only [result_bind, result_rd, result_wr]
    rfl
  simp only [result_bind, result_rd, result_wr, result_lift, result_ite, result_forRange _ _ _ (step _)]

theorem result_mulSmallRhsLoop (x : Digit) (s : Nat) (p : List Digit × Digit) :
    result (Trace.mulSmallRhsLoop x s p) = mulSmallRhsLoop x s p := by
  refine result_forRange _ _ _ ?_
  rintro i ⟨l, c⟩
  dsimp only
  simp only [result_bind, result_rd, result_wr, result_note, run_bind_ok]
  rfl

theorem result_mulSmallRhs (l r : List Digit) (s : Nat) :
    result (Trace.mulSmallRhs l r s) = mulSmallRhs l r s := by
  unfold Trace.mulSmallRhs mulSmallRhs
  simp only [result_bind, result_rd, result_wr, result_lift, result_ite, result_mulSmallRhsLoop,
    result_note, run_bind_ok]

theorem result_mulCases (l r : List Digit) (s t : Nat) :
    result (Trace.mulCases l r s t) = mulCases l r s t := by
  unfold Trace.mulCases mulCases
  cases s == 0 <;> cases t == 0
  · dsimp only
    simp only [result_bind, Trace.sigBits, result_show, result_note, run_bind_ok, Trace.mulLong,
      result_ite, result_mulNonOverflow, result_mulWrapping, decide_eq_true_eq]
  · exact result_mulSmallRhs _ _ _
  · exact result_mulSmallLhs _ _ _
  · simp only [Trace.mulSmallBoth, result_bind, result_rd, result_wr]

theorem result_mulDigits (l r : List Digit) : result (Trace.mulDigits l r) = mulDigits l r := by
  unfold Trace.mulDigits mulDigits
  rw [result_bind, result_rposition, run_bind_ok]
  cases rpositionNonzero r with
  | none => rfl
  | some t =>
    unfold Trace.mulFrom
    dsimp only
    rw [result_bind, result_rposition, run_bind_ok]
    cases rpositionNonzero l with
    | none => rfl
    | some s =>
      unfold Trace.mulBoth
      dsimp only
      rw [result_bind, result_mulCases]
      rfl

theorem result_mul (a b : ApInt) : result (Trace.wrappingMulAssign a b) = a.wrappingMulAssign b := by
  unfold Trace.wrappingMulAssign wrappingMulAssign
  rw [result_bind, result_lift]
  congr 1
  funext z
  rcases z with e | z
  · rfl
  · cases z with
    | inl l r =>
      dsimp only
      rw [result_bind, result_note, run_bind_ok, result_bind, result_clearUnusedBits]
      rfl
    | ext l r =>
      dsimp only
      rw [result_bind, result_mulDigits]
      congr 1
      funext p
      obtain ⟨x, e⟩ := p
      unfold Trace.mulEnd
      cases e
      · dsimp only
        rw [if_neg (by simp), result_bind, result_clearUnusedBits]
        rfl
      · rfl

/-! ## The search for the top digit -/

/-- What is shown of the search for the most significant digit that is not zero. -/
def scanSeen (o : Side) : Nat → List Digit → List Sight
  | _, [] => []
  | i, d :: l => scanSeen o (i + 1) l ++
      if (rpositionNonzero l).isSome then [] else [.read o i, .test (!Digit.isZero d)]

theorem rposition_form (o : Side) (l : List Digit) (i : Nat) :
    Trace.rposition o i l = Except.ok (rpositionNonzero l, scanSeen o i l) := by
  induction l generalizing i with
  | nil => rfl
  | cons d l ih =>
    unfold Trace.rposition rpositionNonzero scanSeen
    rw [ih]
    cases rpositionNonzero l with
    | some j => rfl
    | none => rfl

theorem rposition_cons {d d' : Digit} {l l' : List Digit} :
    rpositionNonzero (d :: l) = rpositionNonzero (d' :: l') ↔
      rpositionNonzero l = rpositionNonzero l' ∧
        ((rpositionNonzero l).isSome = false → Digit.isZero d = Digit.isZero d') := by
  have step : ∀ (d : Digit) (l : List Digit), rpositionNonzero (d :: l) =
      match rpositionNonzero l with
      | some i => some (i + 1)
      | none => if Digit.isZero d then none else some 0 := fun _ _ => rfl
  rw [step, step]
  cases rpositionNonzero l <;> cases rpositionNonzero l' <;>
    cases Digit.isZero d <;> cases Digit.isZero d' <;> simp

theorem scan_same {o : Side} : ∀ (l l' : List Digit) (i : Nat), l.length = l'.length →
    rpositionNonzero l = rpositionNonzero l' → scanSeen o i l = scanSeen o i l' := by
  intro l
  induction l with
  | nil =>
    intro l' i h _
    rw [List.eq_nil_of_length_eq_zero h.symm]
  | cons d l ih =>
    intro l' i h e
    rcases l' with _ | ⟨d', l'⟩
    · simp at h
    · obtain ⟨e1, e2⟩ := rposition_cons.1 e
      unfold scanSeen
      rw [ih l' (i + 1) (by simpa using h) e1, ← e1]
      cases hs : (rpositionNonzero l).isSome
      · rw [e2 hs]
      · rfl

theorem scan_tells {o : Side} : ∀ (l l' : List Digit) (i : Nat) (t t' : List Sight),
    l.length = l'.length → scanSeen o i l ++ t = scanSeen o i l' ++ t' →
    rpositionNonzero l = rpositionNonzero l' := by
  intro l
  induction l with
  | nil =>
    intro l' i t t' h _
    rw [List.eq_nil_of_length_eq_zero h.symm]
  | cons d l ih =>
    intro l' i t t' h e
    rcases l' with _ | ⟨d', l'⟩
    · simp at h
    · have hl : l.length = l'.length := by simpa using h
      unfold scanSeen at e
      rw [List.append_assoc, List.append_assoc] at e
      have e1 := ih l' (i + 1) _ _ hl e
      refine rposition_cons.2 ⟨e1, fun hs => ?_⟩
      rw [scan_same l l' (i + 1) hl e1, List.append_cancel_left_eq, ← e1, hs] at e
      simp at e
      exact e.1

theorem rposition_iff {l l' : List Digit} :
    rpositionNonzero l = rpositionNonzero l' ↔ SameHighZeros (val l) (val l') := by
  have low {l : List Digit} {s k : Nat} (h : rpositionNonzero l = some s) :
      val l < 2 ^ (64 * k) ↔ s < k := by
    obtain ⟨-, h1, h2⟩ := rpositionNonzero_some h
    rw [B_pow] at h1 h2
    constructor
    · intro hk
      have := (Nat.pow_lt_pow_iff_right (by decide : 1 < 2)).1 (Nat.lt_of_le_of_lt h1 hk)
      omega
    · intro hk
      exact Nat.lt_of_lt_of_le h2 (Nat.pow_le_pow_right (by decide) (by omega))
  cases h : rpositionNonzero l with
  | none =>
    have z := rpositionNonzero_none h
    cases h' : rpositionNonzero l' with
    | none =>
      rw [z, rpositionNonzero_none h']
      exact ⟨fun _ _ => Iff.rfl, fun _ => rfl⟩
    | some s =>
      refine ⟨fun e => by simp at e, fun e => ?_⟩
      have := (e 0).1 (by rw [z]; decide)
      rw [low h'] at this
      omega
  | some s =>
    cases h' : rpositionNonzero l' with
    | none =>
      refine ⟨fun e => by simp at e, fun e => ?_⟩
      have := (e 0).2 (by rw [rpositionNonzero_none h']; decide)
      rw [low h] at this
      omega
    | some s' =>
      unfold SameHighZeros
      simp only [low h, low h', Option.some.injEq]
      constructor
      · rintro rfl k
        exact Iff.rfl
      · intro e
        have e1 := (e (s + 1)).1 (by omega)
        have e2 := (e (s' + 1)).2 (by omega)
        omega

/-! ## The rows -/

theorem mulRow_twin (m m' : Digit) : ∀ (l l' : List Digit) (i : Nat) (s s' : List Digit × Digit),
    l.length = l'.length → s.1.length = s'.1.length →
    Twin (Trace.mulRow m i l s) (Trace.mulRow m' i l' s') fun p p' => p.1.length = p'.1.length := by
  intro l
  induction l with
  | nil =>
    intro l' i s s' h hs
    rw [List.eq_nil_of_length_eq_zero h.symm]
    exact Twin.ok hs
  | cons d l ih =>
    rintro l' i ⟨s, c⟩ ⟨s', c'⟩ h hs
    rcases l' with _ | ⟨d', l'⟩
    · simp at h
    · unfold Trace.mulRow
      dsimp only at hs
      rw [hs]
      refine Twin.bind Twin.note fun _ _ _ => ?_
      exact ih l' _ _ _ (by simpa using h) (by simp [hs])

/-- Rows of the same length. -/
def RowLike (s s' : List Digit × Digit × Digit) : Prop := s.1.length = s'.1.length

theorem mulAddStep_twin (m m' : Digit) {r r' : List Digit} (hr : r.length = r'.length) (b i : Nat)
    (s s' : List Digit × Digit × Digit) (h : RowLike s s') :
    Twin (Trace.mulAddStep m r b i s) (Trace.mulAddStep m' r' b i s') RowLike := by
  obtain ⟨s, c, d⟩ := s
  obtain ⟨s', c', d'⟩ := s'
  unfold Trace.mulAddStep
  refine Twin.bind (Twin.rd hr i) fun _ _ _ => ?_
  refine Twin.bind (Twin.rd h _) fun _ _ _ => ?_
  refine Twin.bind (Twin.wr h _ _ _) fun _ _ q => ?_
  exact Twin.ok q

/-- Lists of the same length. -/
def LenLike (s s' : List Digit) : Prop := s.length = s'.length

section
variable {l l' r r' : List Digit} (hl : l.length = l'.length) (hr : r.length = r'.length)
include hl hr

theorem mulFullRow_twin (n i : Nat) (s s' : List Digit) (h : LenLike s s') :
    Twin (Trace.mulFullRow l r n i s) (Trace.mulFullRow l' r' n i s') LenLike := by
  unfold Trace.mulFullRow
  refine Twin.bind (Twin.rd hl i) fun m m' _ => ?_
  refine Twin.bind (Twin.rd hr 0) fun _ _ _ => ?_
  refine Twin.bind (Twin.rd h _) fun _ _ _ => ?_
  refine Twin.bind (Twin.wr h _ _ _) fun s s' q => ?_
  refine Twin.bind (R := RowLike) (Twin.forRange _ _ q (mulAddStep_twin m m' hr i)) ?_
  rintro ⟨s, c, d⟩ ⟨s', c', d'⟩ q
  refine Twin.bind (Twin.rd hr n) fun _ _ _ => ?_
  refine Twin.bind (Twin.rd q _) fun _ _ _ => ?_
  refine Twin.bind (Twin.wr q _ _ _) fun s s' q => ?_
  rw [show s.length = s'.length from q]
  refine Twin.bind Twin.note fun _ _ _ => Twin.ok ?_
  show (s ++ _).length = (s' ++ _).length
  simp [show s.length = s'.length from q]

omit hr in
theorem copyBack_twin {s s' : List Digit} (hs : LenLike s s') (n : Nat) :
    Twin (Trace.copyBack l s n) (Trace.copyBack l' s' n) LenLike := by
  refine Twin.shown rfl ?_
  unfold copyRange
  rw [hl, show s.length = s'.length from hs]
  refine Both.ite (fun _ => Both.ok ?_) fun _ => Both.error
  show List.length _ = List.length _
  simp [hl, show s.length = s'.length from hs]

theorem mulNonOverflow_twin (n m : Nat) :
    Twin (Trace.mulNonOverflow l r n m) (Trace.mulNonOverflow l' r' n m) LenLike := by
  unfold Trace.mulNonOverflow
  refine Twin.bind (Twin.rd hl 0) fun x x' _ => ?_
  refine Twin.bind (Twin.rd hr 0) fun y y' _ => ?_
  refine Twin.bind Twin.note fun _ _ _ => ?_
  refine Twin.bind (mulRow_twin x x' _ _ 1 _ _ (by simp [hr]) rfl) ?_
  rintro ⟨s, c⟩ ⟨s', c'⟩ q
  dsimp only at q ⊢
  refine Twin.bind (Twin.rd hr m) fun _ _ _ => ?_
  rw [q]
  refine Twin.bind Twin.note fun _ _ _ => ?_
  refine Twin.bind (R := LenLike) (Twin.forRange _ _ ?_ (mulFullRow_twin hl hr m)) fun s s' q => ?_
  · show List.length _ = List.length _
    simp [q]
  refine Twin.bind (mulFullRow_twin hl hr m n s s' q) fun s s' q => ?_
  unfold Trace.mulStore
  rw [hl, show s.length = s'.length from q]
  exact Twin.ite (fun _ => copyBack_twin hl q _) fun _ => copyBack_twin hl q _

theorem mulWrapRow_twin (n i : Nat) (s s' : List Digit) (h : LenLike s s') :
    Twin (Trace.mulWrapRow l r n i s) (Trace.mulWrapRow l' r' n i s') LenLike := by
  unfold Trace.mulWrapRow
  refine Twin.bind (Twin.rd hl i) fun m m' _ => ?_
  refine Twin.bind (Twin.rd hr 0) fun _ _ _ => ?_
  refine Twin.bind (Twin.rd h _) fun _ _ _ => ?_
  refine Twin.bind (Twin.wr h _ _ _) fun s s' q => ?_
  refine Twin.bind (csub_twin _ _) fun k _ e => ?_
  subst e
  refine Twin.bind (R := RowLike) (Twin.forRange _ _ q (mulAddStep_twin m m' hr i)) ?_
  rintro ⟨s, c, d⟩ ⟨s', c', d'⟩ q
  refine Twin.bind (Twin.rd hr k) fun _ _ _ => ?_
  refine Twin.bind (Twin.rd q _) fun _ _ _ => ?_
  exact Twin.wr q _ _ _

theorem mulWrapping_twin : Twin (Trace.mulWrapping l r) (Trace.mulWrapping l' r') LenLike := by
  unfold Trace.mulWrapping
  rw [hl]
  refine Twin.bind (csub_twin _ _) fun k _ e => ?_
  subst e
  refine Twin.bind (Twin.rd hl 0) fun x x' _ => ?_
  refine Twin.bind (Twin.rd hr 0) fun y y' _ => ?_
  refine Twin.bind Twin.note fun _ _ _ => ?_
  refine Twin.bind (mulRow_twin x x' _ _ 1 _ _ (by simp [hr]) rfl) ?_
  rintro ⟨s, c⟩ ⟨s', c'⟩ q
  dsimp only at q ⊢
  refine Twin.bind (Twin.rd hr k) fun _ _ _ => ?_
  rw [q]
  refine Twin.bind Twin.note fun _ _ _ => ?_
  refine Twin.bind (R := LenLike) (Twin.forRange _ _ ?_ (mulWrapRow_twin hl hr k)) fun s s' q => ?_
  · show List.length _ = List.length _
    simp [q]
  refine Twin.bind (copyBack_twin hl q k) fun m m' p => ?_
  refine Twin.bind (Twin.rd p k) fun _ _ _ => ?_
  refine Twin.bind Twin.note fun _ _ _ => ?_
  refine Twin.bind (Twin.rd q k) fun _ _ _ => ?_
  exact Twin.wr p _ _ _

theorem mulSmallLhs_twin (n : Nat) :
    Twin (Trace.mulSmallLhs l r n) (Trace.mulSmallLhs l' r' n) LenLike := by
  unfold Trace.mulSmallLhs
  refine Twin.bind (Twin.rd hl 0) fun x x' _ => ?_
  refine Twin.bind (Twin.rd hr 0) fun y y' _ => ?_
  refine Twin.bind (Twin.wr hl _ _ _) fun m m' q => ?_
  refine Twin.bind (R := fun s s' : List Digit × Digit => s.1.length = s'.1.length)
    (Twin.forRange _ _ q ?_) ?_
  · rintro i ⟨m, c⟩ ⟨m', c'⟩ q
    dsimp only at q ⊢
    refine Twin.bind (Twin.rd hr i) fun _ _ _ => ?_
    exact Twin.bind (Twin.wr q _ _ _) fun _ _ q => Twin.ok q
  · rintro ⟨m, c⟩ ⟨m', c'⟩ q
    dsimp only at q ⊢
    rw [q]
    refine Twin.bind (csub_twin _ _) fun k _ e => ?_
    subst e
    refine Twin.ite (fun _ => ?_) fun _ => ?_
    · refine Twin.bind (Twin.rd hr n) fun _ _ _ => ?_
      exact Twin.wr q _ _ _
    · refine Twin.bind (Twin.rd hr n) fun _ _ _ => ?_
      refine Twin.bind (Twin.wr q _ _ _) fun _ _ q => ?_
      exact Twin.wr q _ _ _

theorem mulSmallRhs_twin (n : Nat) :
    Twin (Trace.mulSmallRhs l r n) (Trace.mulSmallRhs l' r' n) LenLike := by
  unfold Trace.mulSmallRhs Trace.mulSmallRhsLoop
  refine Twin.bind (Twin.rd hr 0) fun x x' _ => ?_
  refine Twin.bind (Twin.rd hl 0) fun y y' _ => ?_
  refine Twin.bind (Twin.wr hl _ _ _) fun m m' q => ?_
  refine Twin.bind (R := fun s s' : List Digit × Digit => s.1.length = s'.1.length)
    (Twin.forRange _ _ q ?_) ?_
  · rintro i ⟨m, c⟩ ⟨m', c'⟩ q
    dsimp only at q ⊢
    refine Twin.bind Twin.note fun _ _ _ => ?_
    refine Twin.bind (Twin.rd q i) fun _ _ _ => ?_
    exact Twin.bind (Twin.wr q _ _ _) fun _ _ q => Twin.ok q
  · rintro ⟨m, c⟩ ⟨m', c'⟩ q
    dsimp only at q ⊢
    rw [q]
    refine Twin.bind (csub_twin _ _) fun k _ e => ?_
    subst e
    refine Twin.bind Twin.note fun _ _ _ => ?_
    refine Twin.ite (fun _ => ?_) fun _ => ?_
    · refine Twin.bind (Twin.rd q n) fun _ _ _ => ?_
      exact Twin.wr q _ _ _
    · refine Twin.bind (Twin.rd q n) fun _ _ _ => ?_
      refine Twin.bind (Twin.wr q _ _ _) fun _ _ q => ?_
      exact Twin.wr q _ _ _

theorem mulSmallBoth_twin : Twin (Trace.mulSmallBoth l r) (Trace.mulSmallBoth l' r') LenLike := by
  unfold Trace.mulSmallBoth
  refine Twin.bind (Twin.rd hl 0) fun x x' _ => ?_
  refine Twin.bind (Twin.rd hr 0) fun y y' _ => ?_
  refine Twin.bind (Twin.wr hl _ _ _) fun m m' q => ?_
  exact Twin.wr q _ _ _

end

/-! ## Digits -/

/-- Whether the significant bits of a product are at most the bits of `n` digits. -/
def Room (n u v : Nat) : Prop := Nat.size u + Nat.size v ≤ 64 * n

theorem sigBits_form {o : Side} {l : List Digit} {s : Nat} (h : rpositionNonzero l = some s) :
    Trace.sigBits o l s = Except.ok (Nat.size (val l), [.read o s]) := by
  obtain ⟨h1, h2, h3⟩ := rpositionNonzero_some h
  unfold Trace.sigBits
  rw [(mul_sigBits h1 h2 h3).1]
  rfl

theorem mulCases_long {l r : List Digit} {s t : Nat} (hl : rpositionNonzero l = some (s + 1))
    (hr : rpositionNonzero r = some (t + 1)) :
    Trace.mulCases l r (s + 1) (t + 1) = (do
      let () ← note [.read .self (s + 1), .read .rhs (t + 1),
        .test (decide (Nat.size (val l) + Nat.size (val r) ≤ l.length * 64))]
      Trace.mulLong l r (s + 1) (t + 1)
        (decide (Nat.size (val l) + Nat.size (val r) ≤ l.length * 64)) : Watched (List Digit)) := by
  unfold Trace.mulCases
  rw [show (s + 1 == 0) = false from rfl, show (t + 1 == 0) = false from rfl]
  dsimp only
  rw [sigBits_form hl, sigBits_form hr]
  generalize Trace.mulLong l r (s + 1) (t + 1) = c
  show Watched.bind (Except.ok (_, _)) (fun x => Watched.bind (Except.ok (_, _)) fun y =>
    Watched.bind (note _) fun _ => c (decide (x + y ≤ l.length * 64))) =
      Watched.bind (note _) fun _ => c _
  simp only [Watched.bind, note]
  generalize c _ = c
  rcases c with e | ⟨x, p⟩ <;> rfl

theorem big_of {l : List Digit} {s : Nat} (h : rpositionNonzero l = some s) :
    2 ^ 64 ≤ val l ↔ s ≠ 0 := by
  obtain ⟨-, h1, h2⟩ := rpositionNonzero_some h
  rw [B_pow] at h1 h2
  constructor
  · rintro h0 rfl
    exact absurd h0 (by simpa using h2)
  · intro h0
    refine Nat.le_trans (Nat.pow_le_pow_right (by decide) ?_) h1
    omega

section
variable {l l' r r' : List Digit} (hl : l.length = l'.length) (hr : r.length = r'.length)
include hl hr

/-- Digits of the same number, and the same way out. -/
def OutLike (p p' : List Digit × Bool) : Prop := p.1.length = p'.1.length ∧ p.2 = p'.2

omit hr in
theorem mulZero_twin : Twin (Trace.mulZero l) (Trace.mulZero l') OutLike := by
  unfold Trace.mulZero
  rw [hl]
  exact Twin.shown rfl (Both.ok ⟨by simp [hl], rfl⟩)

theorem mulDigits_twin (h1 : rpositionNonzero r = rpositionNonzero r')
    (h2 : val r ≠ 0 → rpositionNonzero l = rpositionNonzero l')
    (h3 : 2 ^ 64 ≤ val l → 2 ^ 64 ≤ val r →
      (Room l.length (val l) (val r) ↔ Room l.length (val l') (val r'))) :
    Twin (Trace.mulDigits l r) (Trace.mulDigits l' r') OutLike := by
  unfold Trace.mulDigits
  refine Twin.bind (R := fun p p' => p = rpositionNonzero r ∧ p' = rpositionNonzero r) ?_ ?_
  · rw [rposition_form, rposition_form, scan_same r r' 0 hr h1]
    exact ⟨rfl, rfl, h1.symm⟩
  rintro _ _ ⟨rfl, rfl⟩
  cases e : rpositionNonzero r with
  | none => exact mulZero_twin hl
  | some t =>
    have hv : val r ≠ 0 := by
      have := (rpositionNonzero_some e).2.1
      have := B_pow_pos t
      omega
    have h2 := h2 hv
    unfold Trace.mulFrom
    refine Twin.bind (R := fun p p' => p = rpositionNonzero l ∧ p' = rpositionNonzero l) ?_ ?_
    · rw [rposition_form, rposition_form, scan_same l l' 0 hl h2]
      exact ⟨rfl, rfl, h2.symm⟩
    rintro _ _ ⟨rfl, rfl⟩
    cases e' : rpositionNonzero l with
    | none => exact mulZero_twin hl
    | some s =>
      unfold Trace.mulBoth
      refine Twin.bind (R := LenLike) ?_ fun _ _ q => Twin.ok ⟨q, rfl⟩
      rcases s with _ | s <;> rcases t with _ | t
      · exact mulSmallBoth_twin hl hr
      · exact mulSmallLhs_twin hl hr _
      · exact mulSmallRhs_twin hl hr _
      · rw [mulCases_long e' e, mulCases_long (h2 ▸ e') (h1 ▸ e)]
        have h3 := h3 ((big_of e').2 (by omega)) ((big_of e).2 (by omega))
        unfold Room at h3
        have : decide (Nat.size (val l) + Nat.size (val r) ≤ l.length * 64) =
            decide (Nat.size (val l') + Nat.size (val r') ≤ l'.length * 64) := by
          rw [decide_eq_decide, ← hl, Nat.mul_comm]
          exact h3
        rw [this]
        refine Twin.bind Twin.note fun _ _ _ => ?_
        unfold Trace.mulLong
        exact Twin.ite (fun _ => mulNonOverflow_twin hl hr _ _) fun _ => mulWrapping_twin hl hr

omit hl hr in
theorem seen_split {α β : Type} {c : Watched α} {x : α} {p s : List Sight} {f : α → Watched β}
    (h : c = Except.ok (x, p)) (e : seen (c >>= f) = some s) :
    ∃ q, seen (f x) = some q ∧ s = p ++ q := by
  rw [seen_bind_ok h] at e
  obtain ⟨q, h1, h2⟩ := Option.map_eq_some_iff.1 e
  exact ⟨q, h1, h2.symm⟩

theorem mulDigits_tells {s s' t t' : List Sight} (hs : seen (Trace.mulDigits l r) = some s)
    (hs' : seen (Trace.mulDigits l' r') = some s') (h : s ++ t = s' ++ t') :
    rpositionNonzero r = rpositionNonzero r' ∧
    (val r ≠ 0 → rpositionNonzero l = rpositionNonzero l') ∧
    (2 ^ 64 ≤ val l → 2 ^ 64 ≤ val r →
      (Room l.length (val l) (val r) ↔ Room l.length (val l') (val r'))) := by
  obtain ⟨q, hq, rfl⟩ := seen_split (rposition_form .rhs r 0) hs
  obtain ⟨q', hq', rfl⟩ := seen_split (rposition_form .rhs r' 0) hs'
  rw [List.append_assoc, List.append_assoc] at h
  have h1 := scan_tells r r' 0 _ _ hr h
  rw [scan_same r r' 0 hr h1, List.append_cancel_left_eq] at h
  refine ⟨h1, ?_⟩
  rw [← h1] at hq'
  cases e : rpositionNonzero r with
  | none =>
    have z := rpositionNonzero_none e
    exact ⟨fun n => absurd z n, fun _ n => absurd (z ▸ n) (by decide)⟩
  | some m =>
    rw [e] at hq hq'
    obtain ⟨q, hp, rfl⟩ := seen_split (rposition_form .self l 0) hq
    obtain ⟨q', hp', rfl⟩ := seen_split (rposition_form .self l' 0) hq'
    rw [List.append_assoc, List.append_assoc] at h
    have h2 := scan_tells l l' 0 _ _ hl h
    rw [scan_same l l' 0 hl h2, List.append_cancel_left_eq] at h
    refine ⟨fun _ => h2, fun b1 b2 => ?_⟩
    rw [← h2] at hp'
    cases e' : rpositionNonzero l with
    | none => exact absurd (rpositionNonzero_none e' ▸ b1) (by decide)
    | some n =>
      rw [e'] at hp hp'
      have n0 := (big_of e').1 b1
      have m0 := (big_of e).1 b2
      rcases n with _ | n
      · exact absurd rfl n0
      rcases m with _ | m
      · exact absurd rfl m0
      have one {l r : List Digit} (e' : rpositionNonzero l = some (n + 1))
          (e : rpositionNonzero r = some (m + 1)) {q : List Sight}
          (hq : seen (Trace.mulBoth l r (m + 1) (some (n + 1))) = some q) :
          ∃ u, q = [.read .self (n + 1), .read .rhs (m + 1),
            .test (decide (Nat.size (val l) + Nat.size (val r) ≤ l.length * 64))] ++ u := by
        unfold Trace.mulBoth at hq
        dsimp only at hq
        rw [mulCases_long e' e] at hq
        generalize Trace.mulLong l r (n + 1) (m + 1) _ = c at hq
        rcases c with x | ⟨x, p⟩
        · cases hq
        · cases hq
          exact ⟨p ++ [], by simp [List.append_assoc]⟩
      obtain ⟨u, rfl⟩ := one e' e hp
      obtain ⟨u', rfl⟩ := one (h2 ▸ e') (h1 ▸ e) hp'
      simp only [List.cons_append, List.cons.injEq, Sight.test.injEq, true_and] at h
      have h := decide_eq_decide.1 h.1
      unfold Room
      rw [← hl] at h
      rw [Nat.mul_comm]
      exact h

end

/-! ## Integers -/

theorem mulEnd_twin {a a' : ApInt} (e : a.len = a'.len) {p p' : List Digit × Bool}
    (h : OutLike p p') : Twin (Trace.mulEnd a p) (Trace.mulEnd a' p') fun _ _ => True := by
  unfold Trace.mulEnd
  rw [h.2]
  refine Twin.ite (fun _ => Twin.ok trivial) fun _ => ?_
  refine Twin.bind (clearUnusedBits_twin (⟨e, h.1⟩ :
    Alike { a with data := .ext p.1 } { a' with data := .ext p'.1 })) fun _ _ _ => Twin.ok trivial

theorem mul_leak {a b a' b' : ApInt} (ha : a.Shape) (hb : b.Shape) (ha' : a'.Shape) (hb' : b'.Shape)
    (e : a.len = b.len) (e1 : a.len = a'.len) (e' : a'.len = b'.len) (hw : 64 < a.w) :
    seen (Trace.wrappingMulAssign a b) = seen (Trace.wrappingMulAssign a' b') ↔
      SameHighZeros b.uval b'.uval ∧ (b.uval ≠ 0 → SameHighZeros a.uval a'.uval) ∧
      (2 ^ 64 ≤ a.uval → 2 ^ 64 ≤ b.uval →
        (Room ((a.w + 63) / 64) a.uval b.uval ↔ Room ((a.w + 63) / 64) a'.uval b'.uval)) := by
  have ew : a.w = a'.w := by unfold ApInt.w; rw [e1]
  rcases zipAccessData_ok ha hb e with ⟨_, _, _, _, h1, _⟩ | ⟨l, r, xl, xr, h1, h2, h3, z⟩
  · omega
  rcases zipAccessData_ok ha' hb' e' with ⟨_, _, _, _, h1', _⟩ | ⟨l', r', xl', xr', h1', h2', h3', z'⟩
  · omega
  have hl : l.length = l'.length := by rw [h2, h2', ew]
  have hr : r.length = r'.length := by rw [h3, h3', ew]
  have form {a b : ApInt} {l r : List Digit} (z : a.zipAccessData b = .ok (.ok (.ext l r))) :
      Trace.wrappingMulAssign a b = Trace.mulDigits l r >>= Trace.mulEnd a := by
    unfold Trace.wrappingMulAssign
    rw [z]
    show Watched.bind (Except.ok (_, [])) _ = _
    unfold Watched.bind
    dsimp only
    generalize Trace.mulDigits l r >>= Trace.mulEnd a = c
    rcases c with x | ⟨x, p⟩ <;> rfl
  have u {a : ApInt} {l : List Digit} (x : a.data = .ext l) : a.uval = val l := by
    simp [uval, digits, x]
  obtain ⟨x, f, hx, -⟩ := mulDigits_ok (lhs := l) (rhs := r) (by omega) (by omega)
  obtain ⟨x', f', hx', -⟩ := mulDigits_ok (lhs := l') (rhs := r') (by omega) (by omega)
  rw [← result_mulDigits] at hx hx'
  obtain ⟨s, hs⟩ := seen_of_result hx
  obtain ⟨s', hs'⟩ := seen_of_result hx'
  rw [form z, form z', u xl, u xr, u xl', u xr', ← rposition_iff, ← rposition_iff, ← h2]
  constructor
  · intro q
    obtain ⟨c, hc, -⟩ := wrappingMulAssign_ok ha hb e
    rw [← result_mul] at hc
    obtain ⟨y, hy⟩ := seen_of_result hc
    rw [form z] at hy
    have hy : seen (Trace.mulDigits l r >>= Trace.mulEnd a) = some y := by rw [hy]; rfl
    obtain ⟨t, -, e1⟩ := seen_split hs hy
    obtain ⟨t', -, e2⟩ := seen_split hs' (q ▸ hy)
    exact mulDigits_tells hl hr (by rw [hs]; rfl) (by rw [hs']; rfl) (e1.symm.trans e2)
  · rintro ⟨q1, q2, q3⟩
    exact (Twin.bind (mulDigits_twin hl hr q1 q2 q3) fun _ _ => mulEnd_twin e1).seen

theorem mul_inl_twin {a b a' b' : ApInt} (ha : a.Shape) (hb : b.Shape) (ha' : a'.Shape)
    (hb' : b'.Shape) (e : a.len = b.len) (e1 : a.len = a'.len) (e' : a'.len = b'.len)
    (hw : a.w ≤ 64) :
    Twin (Trace.wrappingMulAssign a b) (Trace.wrappingMulAssign a' b') fun _ _ => True := by
  have ew : a.w = a'.w := by unfold ApInt.w; rw [e1]
  unfold Trace.wrappingMulAssign
  rcases zipAccessData_ok ha hb e with ⟨x, y, _, _, _, z⟩ | ⟨_, _, _, _, h1, _⟩
  · rcases zipAccessData_ok ha' hb' e' with ⟨x', y', _, _, _, z'⟩ | ⟨_, _, _, _, h1', _⟩
    · rw [z, z']
      refine Twin.bind (R := fun p p' => p = .ok (.inl x y) ∧ p' = .ok (.inl x' y'))
        (Twin.lift (Both.ok ⟨rfl, rfl⟩)) ?_
      rintro _ _ ⟨rfl, rfl⟩
      dsimp only
      refine Twin.bind Twin.note fun _ _ _ => ?_
      refine Twin.bind (clearUnusedBits_twin (⟨e1, trivial⟩ :
        Alike { a with data := .inl (Digit.wrappingMul x y) }
          { a' with data := .inl (Digit.wrappingMul x' y') })) fun _ _ _ => Twin.ok trivial
    · omega
  · omega

end Verif
