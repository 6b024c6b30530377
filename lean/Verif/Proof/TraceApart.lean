import Verif.Proof.TraceLeak

/-!
# What calls in sequence show
-/

namespace Verif

open ApInt Watched

section
variable {α β : Type}

/-! ## One call after another -/

/-- Neither of two traces is a proper beginning of the other. -/
def Apart (x x' : Option (List Sight)) : Prop :=
  ∀ s ∈ x, ∀ s' ∈ x', ∀ t t' : List Sight, s ++ t = s' ++ t' → s = s'

theorem bind_leak {x x' : Watched α} {r r' : α} {f f' : α → Watched β} {y y' : β}
    (h : result x = .ok r) (h' : result x' = .ok r') (g : result (f r) = .ok y)
    (g' : result (f' r') = .ok y') (ap : Apart (seen x) (seen x')) :
    seen (x >>= f) = seen (x' >>= f') ↔ seen x = seen x' ∧ seen (f r) = seen (f' r') := by
  obtain ⟨s, rfl⟩ := seen_of_result h
  obtain ⟨s', rfl⟩ := seen_of_result h'
  obtain ⟨t, ht⟩ := seen_of_result g
  obtain ⟨t', ht'⟩ := seen_of_result g'
  rw [seen_bind_ok rfl, seen_bind_ok rfl, ht, ht']
  show some (s ++ t) = some (s' ++ t') ↔ some s = some s' ∧ some t = some t'
  rw [Option.some_inj, Option.some_inj, Option.some_inj]
  constructor
  · intro e
    have e1 := ap s rfl s' rfl t t' e
    subst e1
    exact ⟨rfl, List.append_cancel_left e⟩
  · rintro ⟨rfl, rfl⟩
    rfl

theorem note_leak {s s' : Bool} {f f' : Unit → Watched β} {y y' : β}
    (g : result (f ()) = .ok y) (g' : result (f' ()) = .ok y') :
    seen (note [.test s] >>= f) = seen (note [.test s'] >>= f') ↔
      s = s' ∧ seen (f ()) = seen (f' ()) := by
  rw [bind_leak (x := note _) (x' := note _) rfl rfl g g' ?_]
  · simp [note, seen]
  · intro p hp q hq t t' e
    cases hp
    cases hq
    simp only [List.cons_append, List.nil_append, List.cons.injEq] at e
    rw [e.1]

theorem Apart.of_eq {x x' : Option (List Sight)} (h : x = x') : Apart x x' := by
  subst h
  intro s hs s' hs' t t' _
  exact Option.some_inj.1 (hs.symm.trans hs')

theorem whileSeen_apart {δ : Type} {hit : δ → Bool} {pre : Nat → List Sight} :
    ∀ (l l' : List δ) (i : Nat) (t t' : List Sight), l.length = l'.length →
      whileSeen hit pre i l ++ t = whileSeen hit pre i l' ++ t' →
      whileSeen hit pre i l = whileSeen hit pre i l' := by
  intro l
  induction l with
  | nil =>
    intro l' i t t' h e
    rw [List.eq_nil_of_length_eq_zero h.symm]
  | cons d l ih =>
    intro l' i t t' h e
    rcases l' with _ | ⟨d', l'⟩
    · simp at h
    · unfold whileSeen at e ⊢
      rw [List.append_assoc, List.append_assoc, List.append_cancel_left_eq, List.cons_append,
        List.cons_append, List.cons.injEq, Sight.test.injEq] at e
      rw [List.append_cancel_left_eq, List.cons.injEq, Sight.test.injEq]
      refine ⟨e.1, ?_⟩
      by_cases hd : hit d = true
      · have hd' : hit d' = true := e.1 ▸ hd
        rw [if_pos hd, if_pos hd'] at e ⊢
        exact ih l' (i + 1) t t' (by simpa using h) e.2
      · have hd' : ¬ hit d' = true := e.1 ▸ hd
        rw [if_neg hd, if_neg hd']

theorem isZero_apart {a a' : ApInt} (h : a.Shape) (h' : a'.Shape) (e : a.len = a'.len) :
    Apart (seen (Trace.isZero a)) (seen (Trace.isZero a')) := by
  have ew : a.w = a'.w := by unfold ApInt.w; rw [e]
  rcases Nat.lt_or_ge 64 a.w with hw | hw
  · obtain ⟨l, e1, u, hl⟩ := Shape.ext h hw
    obtain ⟨l', e1', u', hl'⟩ := Shape.ext h' (by omega)
    have ll : l.length = l'.length := by omega
    unfold Trace.isZero
    simp only [accessData_ok h, accessData_ok h', e1, e1', lift_bind]
    obtain ⟨c, hc⟩ := zeroLoop_seen l 0
    obtain ⟨c', hc'⟩ := zeroLoop_seen l' 0
    rw [hc, hc']
    intro s hs s' hs' t t' q
    cases hs
    cases hs'
    exact whileSeen_apart l l' 0 t t' ll q
  · exact .of_eq (isZero_small h h' e hw)

end

end Verif
