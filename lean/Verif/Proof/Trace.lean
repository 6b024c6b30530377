import Verif.Model.Trace

/-!
# Rules for traces: leaving them out, and comparing those of two runs
-/

namespace Verif

open ApInt Watched

variable {α β σ τ : Type}

/-! ## Leaving out the trace -/

theorem result_ok (a : α) : result (Watched.ok a) = .ok a := rfl

theorem result_pure (a : α) : result (pure a : Watched α) = .ok a := rfl

theorem result_error (e : Fault) : result (Except.error e : Watched α) = .error e := rfl

theorem result_show (s : List Sight) (r : Run α) : result (show' s r) = r := by
  cases r <;> rfl

theorem result_lift (r : Run α) : result (liftM r : Watched α) = r := result_show _ _

theorem result_lift' (r : Run α) : result (monadLift r : Watched α) = r := result_show _ _

theorem result_note (s : List Sight) : result (note s) = .ok () := rfl

theorem result_bind (c : Watched α) (f : α → Watched β) :
    result (c >>= f) = result c >>= fun a => result (f a) := by
  rcases c with e | ⟨a, s⟩
  · rfl
  · show result (Watched.bind _ _) = result (f a)
    unfold Watched.bind
    dsimp only
    rcases f a with e | ⟨b, t⟩ <;> rfl

theorem result_ite {p : Prop} [Decidable p] (c d : Watched α) :
    result (if p then c else d) = if p then result c else result d := by
  split <;> rfl

theorem result_rd (o : Side) (l : List Digit) (i : Nat) : result (Trace.rd o l i) = idx l i :=
  result_show _ _

theorem result_wr (o : Side) (l : List Digit) (i : Nat) (v : Digit) :
    result (Trace.wr o l i v) = upd l i v := result_show _ _

theorem result_loopUp {b : Nat → σ → Watched σ} {b' : Nat → σ → Run σ}
    (h : ∀ i s, result (b i s) = b' i s) (n i : Nat) (s : σ) :
    result (Trace.loopUp b n i s) = loopUp b' n i s := by
  induction n generalizing i s with
  | zero => rfl
  | succ n ih =>
    unfold Trace.loopUp loopUp
    rw [result_bind, h]
    congr 1
    funext s
    exact ih _ _

theorem result_forRange {b : Nat → σ → Watched σ} {b' : Nat → σ → Run σ} (lo hi : Nat) (s : σ)
    (h : ∀ i s, result (b i s) = b' i s) :
    result (Trace.forRange lo hi s b) = forRange lo hi s b' :=
  result_loopUp h _ _ _

/-! ## Two runs -/

/-- Both stop with the same fault, or both return, with related results. -/
def Both (r : Run α) (r' : Run β) (R : α → β → Prop) : Prop :=
  match r, r' with
  | .ok a, .ok a' => R a a'
  | .error e, .error e' => e = e'
  | _, _ => False

/-- Both stop with the same fault, or both return, with related results and the same trace. -/
def Twin (c : Watched α) (c' : Watched β) (R : α → β → Prop) : Prop :=
  Both c c' fun p p' => p.2 = p'.2 ∧ R p.1 p'.1

namespace Both

variable {α' β' : Type}

theorem ok {a : α} {a' : β} {R : α → β → Prop} (h : R a a') :
    Both (Except.ok a) (Except.ok a') R := h

theorem error {e : Fault} {R : α → β → Prop} :
    Both (Except.error e : Run α) (Except.error e : Run β) R := rfl

theorem bind {r : Run α} {r' : Run α'} {f : α → Run β} {f' : α' → Run β'} {R : α → α' → Prop}
    {S : β → β' → Prop} (h : Both r r' R) (k : ∀ a a', R a a' → Both (f a) (f' a') S) :
    Both (r >>= f) (r' >>= f') S := by
  cases r <;> cases r'
  · cases h
    exact rfl
  · exact h.elim
  · exact h.elim
  · exact k _ _ h

theorem mono {r : Run α} {r' : Run β} {R S : α → β → Prop} (h : Both r r' R)
    (k : ∀ a a', R a a' → S a a') : Both r r' S := by
  cases r <;> cases r'
  · exact h
  · exact h
  · exact h
  · exact k _ _ h

theorem ite {p : Prop} [Decidable p] {c d : Run α} {c' d' : Run β} {R : α → β → Prop}
    (h : p → Both c c' R) (k : ¬p → Both d d' R) :
    Both (if p then c else d) (if p then c' else d') R := by
  by_cases hp : p
  · rw [if_pos hp, if_pos hp]
    exact h hp
  · rw [if_neg hp, if_neg hp]
    exact k hp

theorem refl (r : Run α) : Both r r Eq := by
  cases r <;> exact rfl

theorem idx {l l' : List α} (h : l.length = l'.length) (i : Nat) :
    Both (idx l i) (idx l' i) fun _ _ => True := by
  unfold Verif.idx
  by_cases hi : i < l.length
  · rw [List.getElem?_eq_getElem hi, List.getElem?_eq_getElem (h ▸ hi)]
    exact trivial
  · rw [List.getElem?_eq_none (by omega), List.getElem?_eq_none (by omega)]
    exact rfl

theorem upd {l l' : List α} (h : l.length = l'.length) (i : Nat) (v v' : α) :
    Both (upd l i v) (upd l' i v') fun m m' => m.length = m'.length := by
  unfold Verif.upd
  rw [h]
  refine ite (fun _ => ok ?_) fun _ => error
  simpa using h

theorem rawShl {w : Nat} (x x' : BitVec w) (n : Nat) :
    Both (rawShl x n) (rawShl x' n) fun _ _ => True :=
  ite (fun _ => trivial) fun _ => rfl

theorem rawShr {w : Nat} (x x' : BitVec w) (n : Nat) :
    Both (rawShr x n) (rawShr x' n) fun _ _ => True :=
  ite (fun _ => trivial) fun _ => rfl

theorem get (d d' : Digit) (n : Nat) : Both (Digit.get d n) (Digit.get d' n) fun r r' =>
    ∀ f : Bool → Bool → Prop, (∀ b b', f b b') →
      match r, r' with
      | .ok b, .ok b' => f b b'
      | .error e, .error e' => e = e'
      | _, _ => False := by
  unfold Digit.get
  cases verifyBitAccess BitWidth.w64 n with
  | error e => exact fun f h => rfl
  | ok _ => exact bind (rawShr d d' n) fun _ _ _ => fun f h => h _ _

/-- What the changes of one digit have in common: the same answer. -/
theorem retainLastN (d d' : Digit) (n : Nat) :
    Both (Digit.retainLastN d n) (Digit.retainLastN d' n) fun p p' => p.1 = p'.1 := by
  unfold Digit.retainLastN
  cases verifyBitAccess BitWidth.w64 n with
  | error e => exact rfl
  | ok _ => exact bind (refl _) fun _ _ _ => rfl

theorem set (d d' : Digit) (n : Nat) :
    Both (Digit.set d n) (Digit.set d' n) fun p p' => p.1 = p'.1 := by
  unfold Digit.set
  cases verifyBitAccess BitWidth.w64 n with
  | error e => exact rfl
  | ok _ => exact bind (refl _) fun _ _ _ => rfl

theorem unset (d d' : Digit) (n : Nat) :
    Both (Digit.unset d n) (Digit.unset d' n) fun p p' => p.1 = p'.1 := by
  unfold Digit.unset
  cases verifyBitAccess BitWidth.w64 n with
  | error e => exact rfl
  | ok _ => exact bind (refl _) fun _ _ _ => rfl

theorem flip (d d' : Digit) (n : Nat) :
    Both (Digit.flip d n) (Digit.flip d' n) fun p p' => p.1 = p'.1 := by
  unfold Digit.flip
  cases verifyBitAccess BitWidth.w64 n with
  | error e => exact rfl
  | ok _ => exact bind (refl _) fun _ _ _ => rfl

theorem truncateTo (d d' : Digit) (w : BitWidth) :
    Both (Digit.truncateTo d w) (Digit.truncateTo d' w) fun p p' => p.1 = p'.1 := by
  unfold Digit.truncateTo
  cases Digit.verifyValidBitwidth w with
  | error e => exact rfl
  | ok _ => exact bind (refl _) fun _ _ _ => rfl

theorem signExtendFrom (d d' : Digit) (w : BitWidth) :
    Both (Digit.signExtendFrom d w) (Digit.signExtendFrom d' w) fun p p' => p.1 = p'.1 := by
  unfold Digit.signExtendFrom
  cases Digit.verifyValidBitwidth w with
  | error e => exact rfl
  | ok _ => exact bind (refl _) fun _ _ _ => rfl

end Both

namespace Twin

variable {α' β' σ' : Type}

theorem ok {a : α} {a' : β} {R : α → β → Prop} (h : R a a') :
    Twin (Watched.ok a) (Watched.ok a') R := ⟨rfl, h⟩

theorem pure {a : α} {a' : β} {R : α → β → Prop} (h : R a a') :
    Twin (pure a) (pure a') R := ⟨rfl, h⟩

theorem error {e : Fault} {R : α → β → Prop} :
    Twin (Except.error e : Watched α) (Except.error e : Watched β) R := rfl

theorem note {s : List Sight} : Twin (note s) (note s) fun _ _ => True := ⟨rfl, trivial⟩

theorem bind {c : Watched α} {c' : Watched α'} {f : α → Watched β} {f' : α' → Watched β'}
    {R : α → α' → Prop} {S : β → β' → Prop} (h : Twin c c' R)
    (k : ∀ a a', R a a' → Twin (f a) (f' a') S) : Twin (c >>= f) (c' >>= f') S := by
  show Twin (Watched.bind c f) (Watched.bind c' f') S
  unfold Watched.bind
  rcases c with e | ⟨a, s⟩ <;> rcases c' with e' | ⟨a', s'⟩
  · cases h
    exact rfl
  · exact h.elim
  · exact h.elim
  · obtain ⟨h1, h2⟩ := h
    have h3 := k _ _ h2
    dsimp only at h1 h3 ⊢
    subst h1
    rcases hf : f a with e | ⟨b, t⟩ <;> rcases hf' : f' a' with e' | ⟨b', t'⟩ <;>
      rw [hf, hf'] at h3
    · cases h3
      exact rfl
    · exact h3.elim
    · exact h3.elim
    · obtain ⟨h4, h5⟩ := h3
      dsimp only at h4
      subst h4
      exact ⟨rfl, h5⟩

theorem mono {r : Watched α} {r' : Watched β} {R S : α → β → Prop} (h : Twin r r' R)
    (k : ∀ a a', R a a' → S a a') : Twin r r' S :=
  Both.mono h fun _ _ h => ⟨h.1, k _ _ h.2⟩

theorem shown {s s' : List Sight} {r : Run α} {r' : Run β} {R : α → β → Prop} (hs : s = s')
    (h : Both r r' R) : Twin (show' s r) (show' s' r') R := by
  subst hs
  cases r <;> cases r'
  · exact h
  · exact h
  · exact h
  · exact ⟨rfl, h⟩

theorem lift {r : Run α} {r' : Run β} {R : α → β → Prop} (h : Both r r' R) :
    Twin (liftM r) (liftM r') R := shown rfl h

theorem ite {p : Prop} [Decidable p] {c d : Watched α} {c' d' : Watched β} {R : α → β → Prop}
    (h : p → Twin c c' R) (k : ¬p → Twin d d' R) :
    Twin (if p then c else d) (if p then c' else d') R :=
  Both.ite h k

theorem rd {o : Side} {l l' : List Digit} (h : l.length = l'.length) (i : Nat) :
    Twin (Trace.rd o l i) (Trace.rd o l' i) fun _ _ => True := shown rfl (Both.idx h i)

theorem wr {o : Side} {l l' : List Digit} (h : l.length = l'.length) (i : Nat) (v v' : Digit) :
    Twin (Trace.wr o l i v) (Trace.wr o l' i v') fun m m' => m.length = m'.length :=
  shown rfl (Both.upd h i v v')

theorem loopUp {b : Nat → σ → Watched σ} {b' : Nat → σ' → Watched σ'} {R : σ → σ' → Prop}
    (k : ∀ i s s', R s s' → Twin (b i s) (b' i s') R) (n i : Nat) (s : σ) (s' : σ') (h : R s s') :
    Twin (Trace.loopUp b n i s) (Trace.loopUp b' n i s') R := by
  induction n generalizing i s s' with
  | zero => exact ok h
  | succ n ih =>
    unfold Trace.loopUp
    exact bind (k _ _ _ h) fun _ _ h => ih _ _ _ h

theorem forRange {b : Nat → σ → Watched σ} {b' : Nat → σ' → Watched σ'} {R : σ → σ' → Prop}
    (lo hi : Nat) {s : σ} {s' : σ'} (h : R s s')
    (k : ∀ i s s', R s s' → Twin (b i s) (b' i s') R) :
    Twin (Trace.forRange lo hi s b) (Trace.forRange lo hi s' b') R :=
  loopUp k _ _ _ _ h

/-- The traces are the same. -/
theorem seen {c : Watched α} {c' : Watched β} {R : α → β → Prop} (h : Twin c c' R) :
    Watched.seen c = Watched.seen c' := by
  rcases c with e | ⟨a, s⟩ <;> rcases c' with e' | ⟨a', s'⟩
  · rfl
  · exact h.elim
  · exact h.elim
  · exact congrArg some h.1

end Twin

end Verif
