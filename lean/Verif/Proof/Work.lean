import Verif.Model.Work

/-!
# Counting rules
-/

namespace Verif

open ApInt Counted

/-- `c` does what `r` does, and a result of it together with the number of digits touched satisfies
`P`. -/
def Costs {α : Type} (c : Counted α) (r : Run α) (P : α → Nat → Prop) : Prop :=
  (∀ e, r = .error e → c = Except.error e) ∧
  ∀ a, r = .ok a → ∃ k, c = Except.ok (a, k) ∧ P a k

namespace Costs

variable {α β σ : Type}

theorem charge {n : Nat} {r : Run α} : Costs (Counted.charge n r) r fun a k => r = .ok a ∧ k = n := by
  refine ⟨fun e h => ?_, fun a h => ⟨n, ?_, h, rfl⟩⟩ <;> rw [h] <;> rfl

theorem lift {r : Run α} : Costs (liftM r : Counted α) r fun a k => r = .ok a ∧ k = 0 := charge

theorem ok {a : α} {P : α → Nat → Prop} (h : P a 0) : Costs (Counted.ok a) (Except.ok a) P := by
  refine ⟨fun e h => (by cases h), fun b hb => ?_⟩
  cases hb
  exact ⟨0, rfl, h⟩

theorem ok_bind {a : α} {f : α → Counted β} {g : α → Run β} {Q : β → Nat → Prop}
    (h : Costs (f a) (g a) Q) : Costs (Counted.ok a >>= f) ((Except.ok a : Run α) >>= g) Q := by
  refine ⟨fun e he => ?_, fun b hb => ?_⟩
  · show Counted.bind _ _ = _
    simp only [Counted.bind, Counted.ok, h.1 e he]
    rfl
  · obtain ⟨k, e, hq⟩ := h.2 b hb
    refine ⟨k, ?_, hq⟩
    show Counted.bind _ _ = _
    simp only [Counted.bind, Counted.ok, e, Nat.zero_add]
    rfl

theorem error {e : Fault} {P : α → Nat → Prop} :
    Costs (Counted.error e : Counted α) (Except.error e) P := by
  refine ⟨fun e h => ?_, fun b hb => (by cases hb)⟩
  cases h
  rfl

theorem bind {c : Counted α} {r : Run α} {P : α → Nat → Prop} {f : α → Counted β}
    {g : α → Run β} {Q : β → Nat → Prop} (h : Costs c r P)
    (k : ∀ a n, P a n → Costs (f a) (g a) fun b m => Q b (n + m)) :
    Costs (c >>= f) (r >>= g) Q := by
  cases r with
  | error e =>
    refine ⟨fun e' h' => ?_, fun a ha => (by cases ha)⟩
    cases h'
    rw [h.1 e rfl]
    rfl
  | ok a =>
    obtain ⟨k1, e1, hp⟩ := h.2 a rfl
    have h2 := k a k1 hp
    refine ⟨fun e he => ?_, fun b hb => ?_⟩
    · rw [e1]
      show Counted.bind _ _ = _
      have := h2.1 e he
      simp only [Counted.bind, this]
      rfl
    · obtain ⟨k2, e2, hq⟩ := h2.2 b hb
      refine ⟨k1 + k2, ?_, hq⟩
      rw [e1]
      show Counted.bind _ _ = _
      simp only [Counted.bind, e2]
      rfl

theorem mono {c : Counted α} {r : Run α} {P Q : α → Nat → Prop} (h : Costs c r P)
    (hp : ∀ a n, P a n → Q a n) : Costs c r Q := by
  refine ⟨h.1, fun a ha => ?_⟩
  obtain ⟨k, a2, a3⟩ := h.2 a ha
  exact ⟨k, a2, hp a k a3⟩

theorem ite {p : Prop} [Decidable p] {c d : Counted α} {r s : Run α} {P : α → Nat → Prop}
    (h : p → Costs c r P) (k : ¬p → Costs d s P) :
    Costs (if p then c else d) (if p then r else s) P := by
  by_cases hp : p
  · rw [if_pos hp, if_pos hp]
    exact h hp
  · rw [if_neg hp, if_neg hp]
    exact k hp

theorem idx {l : List α} {i : Nat} :
    Costs (Count.idx l i) (Verif.idx l i) fun _ n => i < l.length ∧ n = 1 := by
  refine charge.mono fun a n h => ⟨?_, h.2⟩
  replace h := h.1
  unfold Verif.idx at h
  split at h
  · rename_i h'
    exact (List.getElem?_eq_some_iff.mp h').1
  · cases h

theorem upd {l : List α} {i : Nat} {v : α} :
    Costs (Count.upd l i v) (Verif.upd l i v) fun l' n => l'.length = l.length ∧ n = 1 := by
  refine charge.mono fun a n h => ⟨?_, h.2⟩
  replace h := h.1
  unfold Verif.upd at h
  split at h
  · cases h
    simp
  · cases h

theorem csub {a b : Nat} : Costs (liftM (Verif.csub a b) : Counted Nat) (Verif.csub a b)
    fun d n => (b ≤ a ∧ d = a - b) ∧ n = 0 := by
  refine lift.mono fun a n h => ⟨?_, h.2⟩
  replace h := h.1
  unfold Verif.csub at h
  split at h
  · cases h
    exact ⟨by assumption, rfl⟩
  · cases h

theorem copyRange {dst src : List α} {lo hi lo' hi' : Nat} :
    Costs (Count.copyRange dst lo hi src lo' hi') (Verif.copyRange dst lo hi src lo' hi')
      fun l n => l.length = dst.length ∧ n = 2 * (hi - lo) := by
  refine charge.mono fun a n h => ⟨?_, h.2⟩
  replace h := h.1
  unfold Verif.copyRange at h
  split at h
  · rename_i hh
    cases h
    simp only [List.length_append, List.length_take, List.length_drop]
    omega
  · cases h

theorem charge_ok {a : α} {n : Nat} {P : α → Nat → Prop} (h : P a n) :
    Costs (Counted.charge n (.ok a)) (.ok a) P := by
  refine charge.mono fun b m hb => ?_
  obtain ⟨h1, rfl⟩ := hb
  cases h1
  exact h

theorem charge_ok_bind {a : α} {n : Nat} {f : α → Counted β} {r : Run β} {Q : β → Nat → Prop}
    (h : Costs (f a) r fun b m => Q b (n + m)) : Costs (Counted.charge n (.ok a) >>= f) r Q := by
  refine bind (r := .ok a) (g := fun _ => r) charge ?_
  rintro b m ⟨h1, rfl⟩
  cases h1
  exact h

/-- A counting loop: every round keeps `I` and touches at most `k` digits. -/
theorem loopUp {I : σ → Prop} {k : Nat} {b : Nat → σ → Counted σ} {b' : Nat → σ → Run σ} :
    ∀ (n i : Nat) (s : σ), I s →
      (∀ j s, i ≤ j → j < i + n → I s → Costs (b j s) (b' j s) fun s m => I s ∧ m ≤ k) →
      Costs (Count.loopUp b n i s) (Verif.loopUp b' n i s) fun s m => I s ∧ m ≤ n * k := by
  intro n
  induction n with
  | zero => intro i s hI _; exact ok ⟨hI, Nat.zero_le _⟩
  | succ n ih =>
    intro i s hI h
    refine bind (h i s (Nat.le_refl _) (by omega) hI) fun s' m hs' => ?_
    refine (ih (i + 1) s' hs'.1 fun j s h1 h2 h3 => h j s (by omega) (by omega) h3).mono ?_
    rintro s'' m' ⟨h1, h2⟩
    refine ⟨h1, ?_⟩
    have := hs'.2
    rw [Nat.succ_mul]
    omega

theorem forRange (I : σ → Prop) (k : Nat) {lo hi : Nat} {s : σ} {b : Nat → σ → Counted σ}
    {b' : Nat → σ → Run σ} (hI : I s)
    (h : ∀ j s, lo ≤ j → j < hi → I s → Costs (b j s) (b' j s) fun s m => I s ∧ m ≤ k) :
    Costs (Count.forRange lo hi s b) (Verif.forRange lo hi s b')
      fun s m => I s ∧ m ≤ (hi - lo) * k :=
  loopUp _ _ _ hI fun j s h1 h2 h3 => h j s h1 (by omega) h3

theorem loopDown {I : σ → Prop} {k lo : Nat} {b : Nat → σ → Counted σ} {b' : Nat → σ → Run σ} :
    ∀ (n : Nat) (s : σ), I s →
      (∀ j s, lo ≤ j → j < lo + n → I s → Costs (b j s) (b' j s) fun s m => I s ∧ m ≤ k) →
      Costs (Count.loopDown b lo n s) (Verif.loopDown b' lo n s) fun s m => I s ∧ m ≤ n * k := by
  intro n
  induction n with
  | zero => intro s hI _; exact ok ⟨hI, Nat.zero_le _⟩
  | succ n ih =>
    intro s hI h
    refine bind (h (lo + n) s (by omega) (by omega) hI) fun s' m hs' => ?_
    refine (ih s' hs'.1 fun j s h1 h2 h3 => h j s (by omega) (by omega) h3).mono ?_
    rintro s'' m' ⟨h1, h2⟩
    refine ⟨h1, ?_⟩
    have := hs'.2
    rw [Nat.succ_mul]
    omega

theorem forRev (I : σ → Prop) (k : Nat) {lo hi : Nat} {s : σ} {b : Nat → σ → Counted σ}
    {b' : Nat → σ → Run σ} (hI : I s)
    (h : ∀ j s, lo ≤ j → j < hi → I s → Costs (b j s) (b' j s) fun s m => I s ∧ m ≤ k) :
    Costs (Count.forRev lo hi s b) (Verif.forRev lo hi s b')
      fun s m => I s ∧ m ≤ (hi - lo) * k :=
  loopDown _ _ hI fun j s h1 h2 h3 => h j s h1 (by omega) h3

/-- What a round of a loop with `break` leaves behind: `I` and at most `k` digits touched, or, after
a `break`, `Q` and at most `k + e` digits touched. -/
def Left (I Q : σ → Prop) (k e : Nat) (t : Step σ) (n : Nat) : Prop :=
  match t with
  | .cont s => I s ∧ n ≤ k
  | .brk s => Q s ∧ n ≤ k + e

/-- A loop with `break`: every round touches at most `k` digits, and the last one `e` more. -/
theorem loopUpB {I Q : σ → Prop} {k e : Nat} {b : Nat → σ → Counted (Step σ)}
    {b' : Nat → σ → Run (Step σ)} (hQ : ∀ s, I s → Q s) :
    ∀ (n i : Nat) (s : σ), I s →
      (∀ j s, i ≤ j → j < i + n → I s → Costs (b j s) (b' j s) (Left I Q k e)) →
      Costs (Count.loopUpB b n i s) (Verif.loopUpB b' n i s) fun s m => Q s ∧ m ≤ n * k + e := by
  intro n
  induction n with
  | zero => intro i s hI _; exact ok ⟨hQ _ hI, Nat.zero_le _⟩
  | succ n ih =>
    intro i s hI h
    refine bind (h i s (Nat.le_refl _) (by omega) hI) fun t m ht => ?_
    cases t with
    | cont s' =>
      refine (ih (i + 1) s' ht.1 fun j s h1 h2 h3 => h j s (by omega) (by omega) h3).mono ?_
      rintro s'' m' ⟨h1, h2⟩
      refine ⟨h1, ?_⟩
      have := ht.2
      rw [Nat.succ_mul]
      omega
    | brk s' =>
      refine ok ⟨ht.1, ?_⟩
      have := ht.2
      rw [Nat.succ_mul]
      omega

theorem forRangeB (I Q : σ → Prop) (k e : Nat) {lo hi : Nat} {s : σ}
    {b : Nat → σ → Counted (Step σ)} {b' : Nat → σ → Run (Step σ)} (hI : I s)
    (hQ : ∀ s, I s → Q s)
    (h : ∀ j s, lo ≤ j → j < hi → I s → Costs (b j s) (b' j s) (Left I Q k e)) :
    Costs (Count.forRangeB lo hi s b) (Verif.forRangeB lo hi s b')
      fun s m => Q s ∧ m ≤ (hi - lo) * k + e :=
  loopUpB hQ _ _ _ hI fun j s h1 h2 h3 => h j s h1 (by omega) h3

theorem loopDownB {I Q : σ → Prop} {k e lo : Nat} {b : Nat → σ → Counted (Step σ)}
    {b' : Nat → σ → Run (Step σ)} (hQ : ∀ s, I s → Q s) :
    ∀ (n : Nat) (s : σ), I s →
      (∀ j s, lo ≤ j → j < lo + n → I s → Costs (b j s) (b' j s) (Left I Q k e)) →
      Costs (Count.loopDownB b lo n s) (Verif.loopDownB b' lo n s)
        fun s m => Q s ∧ m ≤ n * k + e := by
  intro n
  induction n with
  | zero => intro s hI _; exact ok ⟨hQ _ hI, Nat.zero_le _⟩
  | succ n ih =>
    intro s hI h
    refine bind (h (lo + n) s (by omega) (by omega) hI) fun t m ht => ?_
    cases t with
    | cont s' =>
      refine (ih s' ht.1 fun j s h1 h2 h3 => h j s (by omega) (by omega) h3).mono ?_
      rintro s'' m' ⟨h1, h2⟩
      refine ⟨h1, ?_⟩
      have := ht.2
      rw [Nat.succ_mul]
      omega
    | brk s' =>
      refine ok ⟨ht.1, ?_⟩
      have := ht.2
      rw [Nat.succ_mul]
      omega

theorem forRevB (I Q : σ → Prop) (k e : Nat) {lo hi : Nat} {s : σ}
    {b : Nat → σ → Counted (Step σ)} {b' : Nat → σ → Run (Step σ)} (hI : I s)
    (hQ : ∀ s, I s → Q s)
    (h : ∀ j s, lo ≤ j → j < hi → I s → Costs (b j s) (b' j s) (Left I Q k e)) :
    Costs (Count.forRevB lo hi s b) (Verif.forRevB lo hi s b')
      fun s m => Q s ∧ m ≤ (hi - lo) * k + e :=
  loopDownB hQ _ _ hI fun j s h1 h2 h3 => h j s h1 (by omega) h3

end Costs

set_option hygiene false in
/-- One step of symbolic execution: a bind whose first part has a known count, a branch, or the
end. -/
macro "cost1" : tactic => `(tactic| first
  | (refine Costs.bind Costs.idx ?_; rintro _ _ ⟨_, rfl⟩; try dsimp only)
  | (refine Costs.bind Costs.upd ?_; rintro _ _ ⟨_, rfl⟩; try dsimp only)
  | (refine Costs.bind Costs.csub ?_; rintro _ _ ⟨⟨_, rfl⟩, rfl⟩; try dsimp only)
  | (refine Costs.bind Costs.copyRange ?_; rintro _ _ ⟨_, rfl⟩; try dsimp only)
  | (refine Costs.bind Costs.lift ?_; rintro _ _ ⟨_, rfl⟩; try dsimp only)
  | (refine Costs.ok_bind ?_; try dsimp only)
  | (refine Costs.charge_ok_bind ?_; try dsimp only)
  | (refine Costs.charge_ok ?_; try dsimp only)
  | (refine Costs.mono Costs.idx ?_; rintro _ _ ⟨_, rfl⟩; try dsimp only)
  | (refine Costs.mono Costs.upd ?_; rintro _ _ ⟨_, rfl⟩; try dsimp only)
  | (refine Costs.mono Costs.copyRange ?_; rintro _ _ ⟨_, rfl⟩; try dsimp only)
  | (refine Costs.ite ?_ ?_ <;> intro _)
  | exact Costs.error
  | refine Costs.ok ?_)

end Verif
