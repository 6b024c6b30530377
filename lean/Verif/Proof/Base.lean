import Verif.Model.Base
import Verif.Model.Types

/-! # Rules for the loops and list accesses of the model -/

namespace Verif

theorem idx_ok {α : Type} {l : List α} {i : Nat} (h : i < l.length) : idx l i = .ok l[i] := by
  simp [idx, h]

theorem idx_some {α : Type} {l : List α} {i : Nat} {x : α} (h : l[i]? = some x) :
    idx l i = .ok x := by
  simp [idx, h]

theorem upd_ok {α : Type} {l : List α} {i : Nat} (h : i < l.length) (v : α) :
    upd l i v = .ok (l.set i v) := by
  simp [upd, h]

theorem csub_ok {a b : Nat} (h : b ≤ a) : csub a b = .ok (a - b) := by
  simp [csub, h]

theorem loopUp_spec {σ : Type} (body : Nat → σ → Run σ) (I : Nat → σ → Prop) :
    ∀ (n i : Nat) (s : σ), I i s →
      (∀ j s, i ≤ j → j < i + n → I j s → ∃ s', body j s = .ok s' ∧ I (j + 1) s') →
      ∃ s', loopUp body n i s = .ok s' ∧ I (i + n) s' := by
  intro n
  induction n with
  | zero => intro i s h _; exact ⟨s, rfl, h⟩
  | succ n ih =>
    intro i s h hstep
    obtain ⟨s1, e1, h1⟩ := hstep i s (Nat.le_refl _) (by omega) h
    obtain ⟨s2, e2, h2⟩ := ih (i + 1) s1 h1
      (fun j s hj hj' hI => hstep j s (by omega) (by omega) hI)
    refine ⟨s2, ?_, ?_⟩
    · simp [loopUp, e1, e2]
    · have : i + 1 + n = i + (n + 1) := by omega
      rw [← this]; exact h2

theorem forRange_spec {σ : Type} {body : Nat → σ → Run σ} (I : Nat → σ → Prop) {lo hi : Nat}
    {s : σ} (hle : lo ≤ hi) (h0 : I lo s)
    (hstep : ∀ j s, lo ≤ j → j < hi → I j s → ∃ s', body j s = .ok s' ∧ I (j + 1) s') :
    ∃ s', forRange lo hi s body = .ok s' ∧ I hi s' := by
  obtain ⟨s', e, h⟩ := loopUp_spec body I (hi - lo) lo s h0
    (fun j s hj hj' hI => hstep j s hj (by omega) hI)
  refine ⟨s', e, ?_⟩
  have : lo + (hi - lo) = hi := by omega
  rw [← this]; exact h

theorem forRange_empty {σ : Type} {body : Nat → σ → Run σ} {lo hi : Nat} {s : σ} (h : hi ≤ lo) :
    forRange lo hi s body = .ok s := by
  have : hi - lo = 0 := by omega
  simp [forRange, this, loopUp]

theorem loopUpB_spec {σ : Type} (body : Nat → σ → Run (Step σ)) (I : Nat → σ → Prop)
    (Q : σ → Prop) :
    ∀ (n i : Nat) (s : σ), I i s →
      (∀ j s, i ≤ j → j < i + n → I j s →
        (∃ s', body j s = .ok (.cont s') ∧ I (j + 1) s') ∨
        (∃ s', body j s = .ok (.brk s') ∧ Q s')) →
      (∀ s, I (i + n) s → Q s) →
      ∃ s', loopUpB body n i s = .ok s' ∧ Q s' := by
  intro n
  induction n with
  | zero => intro i s h _ hQ; exact ⟨s, rfl, hQ s h⟩
  | succ n ih =>
    intro i s h hstep hQ
    rcases hstep i s (Nat.le_refl _) (by omega) h with ⟨s1, e1, h1⟩ | ⟨s1, e1, h1⟩
    · obtain ⟨s2, e2, h2⟩ := ih (i + 1) s1 h1
        (fun j s hj hj' hI => hstep j s (by omega) (by omega) hI)
        (fun s hs => hQ s (by have : i + 1 + n = i + (n + 1) := by omega
                              rw [← this]; exact hs))
      exact ⟨s2, by simp [loopUpB, e1, e2], h2⟩
    · exact ⟨s1, by simp [loopUpB, e1], h1⟩

theorem forRangeB_spec {σ : Type} {body : Nat → σ → Run (Step σ)} (I : Nat → σ → Prop)
    (Q : σ → Prop) {lo hi : Nat} {s : σ} (hle : lo ≤ hi) (h0 : I lo s)
    (hstep : ∀ j s, lo ≤ j → j < hi → I j s →
        (∃ s', body j s = .ok (.cont s') ∧ I (j + 1) s') ∨
        (∃ s', body j s = .ok (.brk s') ∧ Q s'))
    (hQ : ∀ s, I hi s → Q s) :
    ∃ s', forRangeB lo hi s body = .ok s' ∧ Q s' := by
  have e : lo + (hi - lo) = hi := by omega
  exact loopUpB_spec body I Q (hi - lo) lo s h0
    (fun j s hj hj' hI => hstep j s hj (by omega) hI)
    (fun s hs => hQ s (by rw [← e]; exact hs))

/-- Loop counting down: `I j` holds before the counter takes the value `j - 1`. -/
theorem forRev_spec {σ : Type} {body : Nat → σ → Run σ} (I : Nat → σ → Prop) {lo hi : Nat}
    {s : σ} (hle : lo ≤ hi) (h0 : I hi s)
    (hstep : ∀ j s, lo ≤ j → j < hi → I (j + 1) s → ∃ s', body j s = .ok s' ∧ I j s') :
    ∃ s', forRev lo hi s body = .ok s' ∧ I lo s' := by
  have key : ∀ (n : Nat) (s : σ), lo + n ≤ hi → I (lo + n) s →
      ∃ s', loopDown body lo n s = .ok s' ∧ I lo s' := by
    intro n
    induction n with
    | zero => intro s _ h; exact ⟨s, rfl, h⟩
    | succ n ih =>
      intro s hn h
      obtain ⟨s1, e1, h1⟩ := hstep (lo + n) s (by omega) (by omega) h
      obtain ⟨s2, e2, h2⟩ := ih s1 (by omega) h1
      exact ⟨s2, by simp [loopDown, e1, e2], h2⟩
  have e : lo + (hi - lo) = hi := by omega
  exact key (hi - lo) s (by omega) (by rw [e]; exact h0)

theorem forRevB_spec {σ : Type} {body : Nat → σ → Run (Step σ)} (I : Nat → σ → Prop)
    (Q : σ → Prop) {lo hi : Nat} {s : σ} (hle : lo ≤ hi) (h0 : I hi s)
    (hstep : ∀ j s, lo ≤ j → j < hi → I (j + 1) s →
      (∃ s', body j s = .ok (.cont s') ∧ I j s') ∨ (∃ s', body j s = .ok (.brk s') ∧ Q s'))
    (hQ : ∀ s, I lo s → Q s) :
    ∃ s', forRevB lo hi s body = .ok s' ∧ Q s' := by
  have key : ∀ (n : Nat) (s : σ), lo + n ≤ hi → I (lo + n) s →
      ∃ s', loopDownB body lo n s = .ok s' ∧ Q s' := by
    intro n
    induction n with
    | zero => intro s _ h; exact ⟨s, rfl, hQ s h⟩
    | succ n ih =>
      intro s hn h
      rcases hstep (lo + n) s (by omega) (by omega) h with ⟨s1, e1, h1⟩ | ⟨s1, e1, h1⟩
      · obtain ⟨s2, e2, h2⟩ := ih s1 (by omega) h1
        exact ⟨s2, by simp [loopDownB, e1, e2], h2⟩
      · exact ⟨s1, by simp [loopDownB, e1], h1⟩
  have e : lo + (hi - lo) = hi := by omega
  exact key (hi - lo) s (by omega) (by rw [e]; exact h0)

theorem copyRange_ok {α : Type} {dst : List α} {lo hi : Nat} {src : List α} {lo' hi' : Nat}
    (h1 : lo ≤ hi) (h2 : hi ≤ dst.length) (h3 : lo' ≤ hi') (h4 : hi' ≤ src.length)
    (h5 : hi - lo = hi' - lo') :
    copyRange dst lo hi src lo' hi' =
      .ok (dst.take lo ++ (src.take hi').drop lo' ++ dst.drop hi) := by
  unfold copyRange
  rw [if_pos ⟨h1, h2, h3, h4, h5⟩]

end Verif
