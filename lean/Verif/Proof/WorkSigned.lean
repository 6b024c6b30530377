import Verif.Proof.WorkApi

/-!
# The work of the signed divisions for any two widths
-/

namespace Verif

open ApInt Counted

section
variable {a b : ApInt} {r : Nat}

theorem divWork_mono {n m : Nat} (h : n ≤ m) : divWork r n ≤ divWork r m := by
  unfold divWork
  have := Nat.mul_le_mul_left r (show 7 * n + 12 ≤ 7 * m + 12 by omega)
  omega

/-- The end of the signed calls that return both parts. -/
theorem finish2_any {c : Counted (Res Unit × ApInt × ApInt)} {d : Run (Res Unit × ApInt × ApInt)}
    {k n : Nat} {s t : Bool}
    (h : Costs c d fun o m => (o.2.1.w + 63) / 64 ≤ n ∧ (o.2.2.w + 63) / 64 ≤ n ∧ m ≤ k) :
    Costs (do
        let (r, lhs, rhs) ← c
        let () ← charge 0 (expect r)
        let lhs ← Count.negIf s lhs
        let rhs ← Count.negIf t rhs
        .ok ((.ok () : Res Unit), lhs, rhs))
      (do
        let (r, lhs, rhs) ← d
        let () ← expect r
        let lhs ← negIf s lhs
        let rhs ← negIf t rhs
        .ok (.ok (), lhs, rhs))
      fun _ m => m ≤ k + 8 * n + 8 := by
  refine Costs.bind h ?_
  rintro ⟨r, x, y⟩ m ⟨h1, h2, h3⟩
  dsimp only at h1 h2 ⊢
  refine Costs.bind Costs.charge ?_
  rintro _ _ ⟨-, rfl⟩
  refine Costs.bind negIf_costs fun _ m1 hm1 => ?_
  refine Costs.bind negIf_costs fun _ m2 hm2 => ?_
  refine Costs.ok ?_
  omega

/-- The end of the signed calls that return one part. -/
theorem finish1_any {c : Counted (Res Unit × ApInt × ApInt)} {d : Run (Res Unit × ApInt × ApInt)}
    {k n : Nat} {s : Bool}
    (h : Costs c d fun o m => (o.2.1.w + 63) / 64 ≤ n ∧ (o.2.2.w + 63) / 64 ≤ n ∧ m ≤ k) :
    Costs (do
        let (r, lhs, _) ← c
        let () ← charge 0 (expect r)
        let lhs ← Count.negIf s lhs
        .ok ((.ok () : Res Unit), lhs))
      (do
        let (r, lhs, _) ← d
        let () ← expect r
        let lhs ← negIf s lhs
        .ok (.ok (), lhs))
      fun _ m => m ≤ k + 4 * n + 4 := by
  refine Costs.bind h ?_
  rintro ⟨r, x, y⟩ m ⟨h1, h2, h3⟩
  dsimp only at h1 h2 ⊢
  refine Costs.bind Costs.charge ?_
  rintro _ _ ⟨-, rfl⟩
  refine Costs.bind negIf_costs fun _ m1 hm1 => ?_
  refine Costs.ok ?_
  omega

/-- The division of the absolute values. -/
theorem abs_udivrem_any {a' b' : ApInt} {D : Nat} (hA : (a.w + 63) / 64 ≤ D) (hB : (b.w + 63) / 64 ≤ D) (ha : Abs a a') (hb : Abs b b')
    (hq : a.sval.natAbs / b.sval.natAbs < 2 ^ (61 * r)) :
    Costs (Count.wrappingUdivremAssign a' b') (wrappingUdivremAssign a' b') fun o m =>
      (o.2.1.w + 63) / 64 ≤ D ∧ (o.2.2.w + 63) / 64 ≤ D ∧ m ≤ divWork r D + 6 * D := by
  refine (wrappingUdivremAssign_costs (r := r) ha.1 hb.1 (by rw [ha.2.2, hb.2.2]; exact hq)).mono ?_
  rintro o m ⟨h1, h2, h3⟩
  rw [w_of_len h1, w_of_len h2, w_of_len hb.2.1]
  rw [w_of_len ha.2.1] at h3 ⊢
  exact ⟨hA, hB, by have := divWork_mono (r := r) hA; omega⟩

/-- The division of the absolute values. -/
theorem abs_uremdiv_any {a' b' : ApInt} {D : Nat} (hA : (a.w + 63) / 64 ≤ D) (hB : (b.w + 63) / 64 ≤ D) (ha : Abs a a') (hb : Abs b b')
    (hq : a.sval.natAbs / b.sval.natAbs < 2 ^ (61 * r)) :
    Costs (Count.wrappingUremdivAssign a' b') (wrappingUremdivAssign a' b') fun o m =>
      (o.2.1.w + 63) / 64 ≤ D ∧ (o.2.2.w + 63) / 64 ≤ D ∧ m ≤ divWork r D + 6 * D := by
  refine (wrappingUremdivAssign_costs (r := r) ha.1 hb.1 (by rw [ha.2.2, hb.2.2]; exact hq)).mono ?_
  rintro o m ⟨h1, h2, h3⟩
  rw [w_of_len h1, w_of_len h2, w_of_len hb.2.1]
  rw [w_of_len ha.2.1] at h3 ⊢
  exact ⟨hA, hB, by have := divWork_mono (r := r) hA; omega⟩

theorem wrappingSdivremAssign_any (ha : a.WF) (hb : b.WF) {D : Nat} (hA : (a.w + 63) / 64 ≤ D)
    (hB : (b.w + 63) / 64 ≤ D) (hq : a.sval.natAbs / b.sval.natAbs < 2 ^ (61 * r)) :
    Costs (Count.wrappingSdivremAssign a b) (wrappingSdivremAssign a b) fun _ n =>
      n ≤ divWork r D + 23 * D + 18 := by
  unfold Count.wrappingSdivremAssign wrappingSdivremAssign Count.clone Count.isZero
  rw [digits_eq, digits_eq]
  refine Costs.bind Costs.charge ?_
  rintro z _ ⟨-, rfl⟩
  refine Costs.ite (fun _ => ?_) fun _ => ?_
  · refine Costs.bind Costs.charge ?_
    rintro _ _ ⟨-, rfl⟩
    exact Costs.ok (by omega)
  refine Costs.bind Costs.charge ?_
  rintro lm _ ⟨hl, rfl⟩
  refine Costs.bind Costs.charge ?_
  rintro rm _ ⟨hr, rfl⟩
  cases lm <;> cases rm <;> dsimp only
  · refine Costs.ok_bind ?_
    exact (finish2_any (abs_udivrem_any hA hB (abs_self ha hl) (abs_self hb hr) hq)).mono
      fun _ m hm => by omega
  · refine Costs.bind (abs_neg hb hr) ?_
    rintro y _ ⟨hy, rfl⟩
    refine Costs.ok_bind ?_
    exact (finish2_any (abs_udivrem_any hA hB (abs_self ha hl) hy hq)).mono fun _ m hm => by omega
  · refine Costs.bind (abs_neg ha hl) ?_
    rintro x _ ⟨hx, rfl⟩
    refine Costs.ok_bind ?_
    exact (finish2_any (abs_udivrem_any hA hB hx (abs_self hb hr) hq)).mono fun _ m hm => by omega
  · refine Costs.bind (abs_neg ha hl) ?_
    rintro x _ ⟨hx, rfl⟩
    refine Costs.bind (abs_neg hb hr) ?_
    rintro y _ ⟨hy, rfl⟩
    refine Costs.ok_bind ?_
    exact (finish2_any (abs_udivrem_any hA hB hx hy hq)).mono fun _ m hm => by omega

theorem wrappingSremdivAssign_any (ha : a.WF) (hb : b.WF) {D : Nat} (hA : (a.w + 63) / 64 ≤ D)
    (hB : (b.w + 63) / 64 ≤ D) (hq : a.sval.natAbs / b.sval.natAbs < 2 ^ (61 * r)) :
    Costs (Count.wrappingSremdivAssign a b) (wrappingSremdivAssign a b) fun _ n =>
      n ≤ divWork r D + 23 * D + 18 := by
  unfold Count.wrappingSremdivAssign wrappingSremdivAssign Count.clone Count.isZero
  rw [digits_eq, digits_eq]
  refine Costs.bind Costs.charge ?_
  rintro z _ ⟨-, rfl⟩
  refine Costs.ite (fun _ => ?_) fun _ => ?_
  · refine Costs.bind Costs.charge ?_
    rintro _ _ ⟨-, rfl⟩
    exact Costs.ok (by omega)
  refine Costs.bind Costs.charge ?_
  rintro lm _ ⟨hl, rfl⟩
  refine Costs.bind Costs.charge ?_
  rintro rm _ ⟨hr, rfl⟩
  cases lm <;> cases rm <;> dsimp only
  · refine Costs.ok_bind ?_
    exact (finish2_any (abs_uremdiv_any hA hB (abs_self ha hl) (abs_self hb hr) hq)).mono
      fun _ m hm => by omega
  · refine Costs.bind (abs_neg hb hr) ?_
    rintro y _ ⟨hy, rfl⟩
    refine Costs.ok_bind ?_
    exact (finish2_any (abs_uremdiv_any hA hB (abs_self ha hl) hy hq)).mono fun _ m hm => by omega
  · refine Costs.bind (abs_neg ha hl) ?_
    rintro x _ ⟨hx, rfl⟩
    refine Costs.ok_bind ?_
    exact (finish2_any (abs_uremdiv_any hA hB hx (abs_self hb hr) hq)).mono fun _ m hm => by omega
  · refine Costs.bind (abs_neg ha hl) ?_
    rintro x _ ⟨hx, rfl⟩
    refine Costs.bind (abs_neg hb hr) ?_
    rintro y _ ⟨hy, rfl⟩
    refine Costs.ok_bind ?_
    exact (finish2_any (abs_uremdiv_any hA hB hx hy hq)).mono fun _ m hm => by omega

theorem wrappingSdivAssign_any (ha : a.WF) (hb : b.WF) {D : Nat} (hA : (a.w + 63) / 64 ≤ D)
    (hB : (b.w + 63) / 64 ≤ D) (hq : a.sval.natAbs / b.sval.natAbs < 2 ^ (61 * r)) :
    Costs (Count.wrappingSdivAssign a b) (wrappingSdivAssign a b) fun _ n =>
      n ≤ divWork r D + 23 * D + 18 := by
  unfold Count.wrappingSdivAssign wrappingSdivAssign Count.clone Count.isZero
  rw [digits_eq, digits_eq]
  refine Costs.bind Costs.charge ?_
  rintro z _ ⟨-, rfl⟩
  refine Costs.ite (fun _ => ?_) fun _ => ?_
  · refine Costs.bind Costs.charge ?_
    rintro _ _ ⟨-, rfl⟩
    exact Costs.ok (by omega)
  refine Costs.bind Costs.charge ?_
  rintro b' _ ⟨hc, rfl⟩
  rw [clone_ok hb.1] at hc
  cases hc
  refine Costs.bind Costs.charge ?_
  rintro lm _ ⟨hl, rfl⟩
  refine Costs.bind Costs.charge ?_
  rintro rm _ ⟨hr, rfl⟩
  cases lm <;> cases rm <;> dsimp only
  · refine Costs.ok_bind ?_
    exact (finish1_any (abs_udivrem_any hA hB (abs_self ha hl) (abs_self hb hr) hq)).mono
      fun _ m hm => by omega
  · refine Costs.bind (abs_neg hb hr) ?_
    rintro y _ ⟨hy, rfl⟩
    refine Costs.ok_bind ?_
    exact (finish1_any (abs_udivrem_any hA hB (abs_self ha hl) hy hq)).mono fun _ m hm => by omega
  · refine Costs.bind (abs_neg ha hl) ?_
    rintro x _ ⟨hx, rfl⟩
    refine Costs.ok_bind ?_
    exact (finish1_any (abs_udivrem_any hA hB hx (abs_self hb hr) hq)).mono fun _ m hm => by omega
  · refine Costs.bind (abs_neg ha hl) ?_
    rintro x _ ⟨hx, rfl⟩
    refine Costs.bind (abs_neg hb hr) ?_
    rintro y _ ⟨hy, rfl⟩
    refine Costs.ok_bind ?_
    exact (finish1_any (abs_udivrem_any hA hB hx hy hq)).mono fun _ m hm => by omega

theorem wrappingSremAssign_any (ha : a.WF) (hb : b.WF) {D : Nat} (hA : (a.w + 63) / 64 ≤ D)
    (hB : (b.w + 63) / 64 ≤ D) (hq : a.sval.natAbs / b.sval.natAbs < 2 ^ (61 * r)) :
    Costs (Count.wrappingSremAssign a b) (wrappingSremAssign a b) fun _ n =>
      n ≤ divWork r D + 23 * D + 18 := by
  unfold Count.wrappingSremAssign wrappingSremAssign Count.clone Count.isZero
  rw [digits_eq, digits_eq]
  refine Costs.bind Costs.charge ?_
  rintro z _ ⟨-, rfl⟩
  refine Costs.ite (fun _ => ?_) fun _ => ?_
  · refine Costs.bind Costs.charge ?_
    rintro _ _ ⟨-, rfl⟩
    exact Costs.ok (by omega)
  refine Costs.bind Costs.charge ?_
  rintro b' _ ⟨hc, rfl⟩
  rw [clone_ok hb.1] at hc
  cases hc
  refine Costs.bind Costs.charge ?_
  rintro lm _ ⟨hl, rfl⟩
  refine Costs.bind Costs.charge ?_
  rintro rm _ ⟨hr, rfl⟩
  cases lm <;> cases rm <;> dsimp only
  · refine Costs.ok_bind ?_
    exact (finish1_any (abs_uremdiv_any hA hB (abs_self ha hl) (abs_self hb hr) hq)).mono
      fun _ m hm => by omega
  · refine Costs.bind (abs_neg hb hr) ?_
    rintro y _ ⟨hy, rfl⟩
    refine Costs.ok_bind ?_
    exact (finish1_any (abs_uremdiv_any hA hB (abs_self ha hl) hy hq)).mono fun _ m hm => by omega
  · refine Costs.bind (abs_neg ha hl) ?_
    rintro x _ ⟨hx, rfl⟩
    refine Costs.ok_bind ?_
    exact (finish1_any (abs_uremdiv_any hA hB hx (abs_self hb hr) hq)).mono fun _ m hm => by omega
  · refine Costs.bind (abs_neg ha hl) ?_
    rintro x _ ⟨hx, rfl⟩
    refine Costs.bind (abs_neg hb hr) ?_
    rintro y _ ⟨hy, rfl⟩
    refine Costs.ok_bind ?_
    exact (finish1_any (abs_uremdiv_any hA hB hx hy hq)).mono fun _ m hm => by omega

end

end Verif
