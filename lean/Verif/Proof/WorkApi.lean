import Verif.Proof.WorkMul
import Verif.Proof.WorkDiv
import Verif.Proof.Div
import Verif.Proof.Mul

/-!
# The work of the public calls
-/

namespace Verif

open ApInt Counted

/-! ## More rounds change nothing -/

/-- What `c` returns, `d` returns. -/
def Within {α : Type} (c d : Counted α) : Prop := ∀ v, c = Except.ok v → d = Except.ok v

namespace Within

variable {α β : Type}

theorem refl {c : Counted α} : Within c c := fun _ h => h

theorem bind {c d : Counted α} {f g : α → Counted β} (h : Within c d) (k : ∀ a, Within (f a) (g a)) :
    Within (c >>= f) (d >>= g) := by
  intro v hv
  replace hv : Counted.bind c f = Except.ok v := hv
  show Counted.bind d g = Except.ok v
  unfold Counted.bind at hv ⊢
  cases hc : c with
  | error e => rw [hc] at hv; cases hv
  | ok p =>
    rw [hc] at hv
    rw [h p hc]
    obtain ⟨a, n⟩ := p
    dsimp only at hv ⊢
    cases hf : f a with
    | error e => rw [hf] at hv; cases hv
    | ok q =>
      rw [hf] at hv
      rw [k a q hf]
      exact hv

theorem then_ {c : Counted α} {f g : α → Counted β} (k : ∀ a, Within (f a) (g a)) :
    Within (c >>= f) (c >>= g) := bind refl k

theorem ite {p : Prop} [Decidable p] {c d c' d' : Counted α} (h : Within c d) (k : Within c' d') :
    Within (if p then c else c') (if p then d else d') := by
  split
  · exact h
  · exact k

end Within

theorem divLoop_within {len : Nat} {div : List Digit} {divSd divSb lesser : Nat} {d : DDigit} :
    ∀ (k l : Nat) (s : DivState), k ≤ l →
      Within (Count.divLoop len div divSd divSb lesser d k s)
        (Count.divLoop len div divSd divSb lesser d l s) := by
  intro k
  induction k with
  | zero => intro l s _ v hv; cases hv
  | succ k ih =>
    intro l s hl
    obtain ⟨l, rfl⟩ : ∃ m, l = m + 1 := ⟨l - 1, by omega⟩
    rw [Count.divLoop, Count.divLoop]
    refine Within.then_ fun t => ?_
    cases t with
    | done a b => exact Within.refl
    | next s' => exact ih l s' (by omega)

theorem longDivision_within {k l len : Nat} (h : k ≤ l) {duo div : List Digit}
    {a b divSd divLz divSb : Nat} :
    Within (Count.longDivision k len duo a b div divSd divLz divSb)
      (Count.longDivision l len duo a b div divSd divLz divSb) := by
  unfold Count.longDivision
  refine Within.then_ fun _ => Within.then_ fun _ => ?_
  refine Within.ite ?_ ?_
  · exact Within.then_ fun _ => Within.then_ fun _ => divLoop_within k l _ h
  · exact Within.then_ fun _ => Within.then_ fun _ => Within.then_ fun _ => Within.then_ fun _ =>
      divLoop_within k l _ h

theorem largeDivByLarge_within {k l len : Nat} (h : k ≤ l) {duo div : List Digit} {a divSd : Nat} :
    Within (Count.largeDivByLarge k len duo a div divSd)
      (Count.largeDivByLarge l len duo a div divSd) := by
  unfold Count.largeDivByLarge
  refine Within.then_ fun _ => Within.then_ fun _ => Within.then_ fun _ => Within.then_ fun _ => ?_
  refine Within.ite Within.refl (Within.ite Within.refl ?_)
  exact Within.then_ fun _ => Within.ite Within.refl (longDivision_within h)

theorem divremWithin_within {k l : Nat} (h : k ≤ l) {duo div : List Digit} :
    Within (Count.divremWithin k duo div) (Count.divremWithin l duo div) := by
  unfold Count.divremWithin
  refine Within.then_ fun o => ?_
  cases o with
  | none => exact Within.refl
  | some divSd =>
    refine Within.then_ fun o => ?_
    cases o with
    | none => exact Within.refl
    | some sd =>
      refine Within.ite Within.refl ?_
      cases sd == 0 <;> cases divSd == 0
      · exact Within.ite Within.refl (Within.bind (largeDivByLarge_within h) fun _ => Within.refl)
      · exact Within.refl
      · exact Within.refl
      · exact Within.refl

/-! ## Division of digits -/

/-- The digits touched by a division that takes `r` rounds on operands of `n` digits. -/
def divWork (r n : Nat) : Nat := r * (7 * n + 12) + 23 * n + 67

theorem divremWithin_some {r : Nat} {duo div : List Digit} (hl : div.length = duo.length)
    (hq : val duo / val div < 2 ^ (61 * r)) : ∃ o, divremWithin r duo div = .ok o := by
  by_cases hz : val div = 0
  · refine ⟨none, ?_⟩
    unfold divremWithin
    cases ht : rpositionNonzero div with
    | none => rfl
    | some t =>
      obtain ⟨-, t2, -⟩ := rpositionNonzero_some ht
      have := B_pow_pos t
      omega
  · have hV : 0 < val div := Nat.pos_of_ne_zero hz
    rw [Nat.div_lt_iff_lt_mul hV, Nat.mul_comm] at hq
    obtain ⟨q, r, e, -⟩ := divremWithin_ok hl hV hq
    exact ⟨_, e⟩

theorem divremDigits_costs {r : Nat} {duo div : List Digit} (hl : div.length = duo.length)
    (hq : val duo / val div < 2 ^ (61 * r)) :
    Costs (Count.divremDigits duo div) (divremDigits duo div) fun _ n => n ≤ divWork r duo.length := by
  have hc := divremWithin_costs (budget := 2 * duo.length) hl
  by_cases hr : r ≤ 2 * duo.length
  · refine ⟨hc.1, fun a ha => ?_⟩
    obtain ⟨o, e⟩ := divremWithin_some hl hq
    obtain ⟨k, e1, hk⟩ := (divremWithin_costs (budget := r) hl).2 o e
    obtain ⟨k', e2, -⟩ := hc.2 a ha
    have e3 := divremWithin_within hr _ e1
    rw [e2] at e3
    cases e3
    exact ⟨k, e2, hk⟩
  · refine hc.mono fun _ n hn => ?_
    have : 2 * duo.length * (7 * duo.length + 12) ≤ r * (7 * duo.length + 12) :=
      Nat.mul_le_mul_right _ (by omega)
    unfold divWork
    omega

theorem divremDigits_lengths {duo div : List Digit} (hl : div.length = duo.length)
    {q r : List Digit} (h : divremDigits duo div = .ok (some (q, r))) :
    q.length = duo.length ∧ r.length = duo.length := by
  by_cases hz : val div = 0
  · rw [divremDigits_zero hz] at h
    cases h
  · obtain ⟨q', r', e, l1, l2, -⟩ := divremDigits_ok hl (Nat.pos_of_ne_zero hz)
    rw [e] at h
    cases h
    exact ⟨l1, l2⟩

theorem remdivDigits_costs {r : Nat} {duo div : List Digit} (hl : div.length = duo.length)
    (hq : val duo / val div < 2 ^ (61 * r)) :
    Costs (Count.remdivDigits duo div) (remdivDigits duo div)
      fun _ n => n ≤ divWork r duo.length + 4 * duo.length := by
  unfold Count.remdivDigits remdivDigits
  refine Costs.bind (P := fun o n => divremDigits duo div = .ok o ∧ n ≤ divWork r duo.length) ?_ ?_
  · have h := divremDigits_costs hl hq
    refine ⟨h.1, fun a ha => ?_⟩
    obtain ⟨k, e, hk⟩ := h.2 a ha
    exact ⟨k, e, ha, hk⟩
  rintro (_ | ⟨u, v⟩) n ⟨e, hn⟩
  · refine Costs.ok ?_
    omega
  · obtain ⟨l1, l2⟩ := divremDigits_lengths hl e
    dsimp only
    refine Costs.bind (Costs.forRange (fun _ => True) 4 trivial ?_) ?_
    · rintro j ⟨s, t⟩ - - -
      dsimp only
      repeat' cost1
      exact ⟨trivial, by omega⟩
    · rintro ⟨s, t⟩ m ⟨-, hm⟩
      refine Costs.ok ?_
      omega

/-! ## Public calls -/

theorem zip_lengths {a b : ApInt} (ha : a.Shape) (hb : b.Shape) {xs ys : List Digit}
    (h : a.zipAccessData b = .ok (.ok (.ext xs ys))) :
    xs.length = (a.w + 63) / 64 ∧ ys.length = xs.length ∧ val xs = a.uval ∧ val ys = b.uval := by
  by_cases hw : a.len = b.len
  · rcases zipAccessData_ok ha hb hw with ⟨x, y, -, -, -, e⟩ | ⟨us, vs, ex, ey, -, h2, h3, e⟩
    · rw [e] at h
      cases h
    · rw [e] at h
      cases h
      exact ⟨h2, by rw [h2, h3], by simp [uval, ApInt.digits, ex], by simp [uval, ApInt.digits, ey]⟩
  · rw [zipAccessData_err hw] at h
    cases h

theorem digits_eq {a : ApInt} : Count.digits a = (a.w + 63) / 64 := by
  unfold Count.digits lenDigits
  rw [BitWidth.requiredDigits_eq]

theorem pos_digits (a : ApInt) : 1 ≤ (a.w + 63) / 64 := by
  have := a.pos_w
  omega

theorem wrappingMulAssign_costs {a b : ApInt} (ha : a.Shape) (hb : b.Shape) :
    Costs (Count.wrappingMulAssign a b) (wrappingMulAssign a b) fun _ n =>
      n ≤ 3 * ((a.w + 63) / 64) ^ 2 + 14 * ((a.w + 63) / 64) + 11 := by
  unfold Count.wrappingMulAssign wrappingMulAssign
  refine Costs.bind Costs.lift ?_
  rintro t _ ⟨h, rfl⟩
  match t, h with
  | .error e, h => exact Costs.ok (by omega)
  | .ok (.inl x y), h =>
    refine Costs.bind Costs.charge ?_
    rintro _ _ ⟨-, rfl⟩
    exact Costs.ok (by omega)
  | .ok (.ext xs ys), h =>
    obtain ⟨h1, h2, -⟩ := zip_lengths ha hb h
    rw [← h1]
    refine Costs.bind (mulDigits_costs h2) ?_
    rintro ⟨l, early⟩ n hn
    have e : xs.length * (3 * xs.length + 8) = 3 * xs.length ^ 2 + 8 * xs.length := by ring
    dsimp only
    refine Costs.ite (fun _ => ?_) fun _ => ?_
    · exact Costs.ok (by omega)
    · refine Costs.bind Costs.charge ?_
      rintro _ _ ⟨-, rfl⟩
      exact Costs.ok (by omega)

variable {a b : ApInt} {r : Nat}

theorem wrappingUdivremAssign_costs (ha : a.Shape) (hb : b.Shape)
    (hq : a.uval / b.uval < 2 ^ (61 * r)) :
    Costs (Count.wrappingUdivremAssign a b) (wrappingUdivremAssign a b) fun o n =>
      o.2.1.len = a.len ∧ o.2.2.len = b.len ∧
      n ≤ divWork r ((a.w + 63) / 64) + 2 * ((a.w + 63) / 64) := by
  unfold Count.wrappingUdivremAssign wrappingUdivremAssign Count.clone
  rw [digits_eq]
  refine Costs.bind Costs.lift ?_
  rintro t _ ⟨h, rfl⟩
  match t, h with
  | .error e, h => exact Costs.ok ⟨rfl, rfl, by omega⟩
  | .ok (.inl x y), h =>
    dsimp only
    refine Costs.ite (fun _ => ?_) fun _ => ?_
    · refine Costs.bind Costs.charge ?_
      rintro _ _ ⟨-, rfl⟩
      exact Costs.ok ⟨rfl, rfl, by unfold divWork; omega⟩
    · refine Costs.bind Costs.charge ?_
      rintro _ _ ⟨-, rfl⟩
      exact Costs.ok ⟨rfl, rfl, by omega⟩
  | .ok (.ext xs ys), h =>
    obtain ⟨h1, h2, h3, h4⟩ := zip_lengths ha hb h
    rw [← h1]
    dsimp only
    refine Costs.bind (divremDigits_costs h2 (by rw [h3, h4]; exact hq)) ?_
    rintro (_ | ⟨u, v⟩) n hn
    · refine Costs.bind Costs.charge ?_
      rintro _ _ ⟨-, rfl⟩
      exact Costs.ok ⟨rfl, rfl, by omega⟩
    · exact Costs.ok ⟨rfl, rfl, by omega⟩

theorem wrappingUremdivAssign_costs (ha : a.Shape) (hb : b.Shape)
    (hq : a.uval / b.uval < 2 ^ (61 * r)) :
    Costs (Count.wrappingUremdivAssign a b) (wrappingUremdivAssign a b) fun o n =>
      o.2.1.len = a.len ∧ o.2.2.len = b.len ∧
      n ≤ divWork r ((a.w + 63) / 64) + 6 * ((a.w + 63) / 64) := by
  unfold Count.wrappingUremdivAssign wrappingUremdivAssign Count.clone
  rw [digits_eq]
  refine Costs.bind Costs.lift ?_
  rintro t _ ⟨h, rfl⟩
  match t, h with
  | .error e, h => exact Costs.ok ⟨rfl, rfl, by omega⟩
  | .ok (.inl x y), h =>
    dsimp only
    refine Costs.ite (fun _ => ?_) fun _ => ?_
    · refine Costs.bind Costs.charge ?_
      rintro _ _ ⟨-, rfl⟩
      exact Costs.ok ⟨rfl, rfl, by unfold divWork; omega⟩
    · refine Costs.bind Costs.charge ?_
      rintro _ _ ⟨-, rfl⟩
      exact Costs.ok ⟨rfl, rfl, by omega⟩
  | .ok (.ext xs ys), h =>
    obtain ⟨h1, h2, h3, h4⟩ := zip_lengths ha hb h
    rw [← h1]
    dsimp only
    refine Costs.bind (remdivDigits_costs h2 (by rw [h3, h4]; exact hq)) ?_
    rintro (_ | ⟨u, v⟩) n hn
    · refine Costs.bind Costs.charge ?_
      rintro _ _ ⟨-, rfl⟩
      exact Costs.ok ⟨rfl, rfl, by omega⟩
    · exact Costs.ok ⟨rfl, rfl, by omega⟩

theorem wrappingUdivAssign_costs (ha : a.Shape) (hb : b.Shape)
    (hq : a.uval / b.uval < 2 ^ (61 * r)) :
    Costs (Count.wrappingUdivAssign a b) (wrappingUdivAssign a b) fun _ n =>
      n ≤ divWork r ((a.w + 63) / 64) + 4 * ((a.w + 63) / 64) := by
  unfold Count.wrappingUdivAssign wrappingUdivAssign Count.clone
  rw [digits_eq]
  refine Costs.bind Costs.lift ?_
  rintro t _ ⟨h, rfl⟩
  match t, h with
  | .error e, h => exact Costs.ok (by omega)
  | .ok (.inl x y), h =>
    dsimp only
    refine Costs.ite (fun _ => ?_) fun _ => ?_
    · refine Costs.bind Costs.charge ?_
      rintro _ _ ⟨-, rfl⟩
      exact Costs.ok (by unfold divWork; omega)
    · refine Costs.bind Costs.charge ?_
      rintro _ _ ⟨-, rfl⟩
      exact Costs.ok (by omega)
  | .ok (.ext xs ys), h =>
    obtain ⟨h1, h2, h3, h4⟩ := zip_lengths ha hb h
    rw [← h1]
    dsimp only
    refine Costs.charge_ok_bind ?_
    refine Costs.bind (divremDigits_costs h2 (by rw [h3, h4]; exact hq)) ?_
    rintro (_ | ⟨u, v⟩) n hn
    · refine Costs.bind Costs.charge ?_
      rintro _ _ ⟨-, rfl⟩
      exact Costs.ok (by omega)
    · exact Costs.ok (by omega)

theorem wrappingUremAssign_costs (ha : a.Shape) (hb : b.Shape)
    (hq : a.uval / b.uval < 2 ^ (61 * r)) :
    Costs (Count.wrappingUremAssign a b) (wrappingUremAssign a b) fun _ n =>
      n ≤ divWork r ((a.w + 63) / 64) + 8 * ((a.w + 63) / 64) := by
  unfold Count.wrappingUremAssign wrappingUremAssign Count.clone
  rw [digits_eq]
  refine Costs.bind Costs.lift ?_
  rintro t _ ⟨h, rfl⟩
  match t, h with
  | .error e, h => exact Costs.ok (by omega)
  | .ok (.inl x y), h =>
    dsimp only
    refine Costs.ite (fun _ => ?_) fun _ => ?_
    · refine Costs.bind Costs.charge ?_
      rintro _ _ ⟨-, rfl⟩
      exact Costs.ok (by unfold divWork; omega)
    · refine Costs.bind Costs.charge ?_
      rintro _ _ ⟨-, rfl⟩
      exact Costs.ok (by omega)
  | .ok (.ext xs ys), h =>
    obtain ⟨h1, h2, h3, h4⟩ := zip_lengths ha hb h
    rw [← h1]
    dsimp only
    refine Costs.charge_ok_bind ?_
    refine Costs.bind (remdivDigits_costs h2 (by rw [h3, h4]; exact hq)) ?_
    rintro (_ | ⟨u, v⟩) n hn
    · refine Costs.bind Costs.charge ?_
      rintro _ _ ⟨-, rfl⟩
      exact Costs.ok (by omega)
    · exact Costs.ok (by omega)

/-! ## Signed division -/

/-- What is known about an operand that has been made positive. -/
def Abs (a : ApInt) (c : ApInt) : Prop :=
  c.Shape ∧ c.len = a.len ∧ c.uval = a.sval.natAbs

theorem abs_self (ha : a.WF) (h : a.msb = .ok false) : Abs a a := by
  refine ⟨ha.1, rfl, ?_⟩
  rcases msb_sval ha with ⟨-, e⟩ | ⟨e, -⟩
  · rw [e]
    simp
  · rw [h] at e
    cases e

theorem abs_neg (ha : a.WF) (h : a.msb = .ok true) :
    Costs (Count.wrappingNeg a) a.wrappingNeg fun c n =>
      Abs a c ∧ n = 4 * ((a.w + 63) / 64) + 4 := by
  unfold Count.wrappingNeg
  rw [digits_eq]
  refine Costs.charge.mono ?_
  rintro c _ ⟨h1, rfl⟩
  refine ⟨?_, rfl⟩
  rcases msb_sval ha with ⟨e, -⟩ | ⟨-, e1, e2⟩
  · rw [h] at e
    cases e
  · obtain ⟨c', e, w, l, u⟩ := neg_abs ha e1 e2
    rw [e] at h1
    cases h1
    exact ⟨w.1, l, by omega⟩

theorem negIf_costs {s : Bool} :
    Costs (Count.negIf s a) (negIf s a) fun _ n => n ≤ 4 * ((a.w + 63) / 64) + 4 := by
  unfold Count.negIf negIf
  refine Costs.ite (fun _ => ?_) fun _ => Costs.ok (by omega)
  unfold Count.wrappingNeg
  rw [digits_eq]
  exact Costs.charge.mono fun _ n hn => by omega

theorem w_of_len {a b : ApInt} (h : a.len = b.len) : a.w = b.w := by unfold w; rw [h]

/-- The end of the signed calls that return both parts. -/
theorem finish2_costs {c : Counted (Res Unit × ApInt × ApInt)} {d : Run (Res Unit × ApInt × ApInt)}
    {k n : Nat} {s t : Bool}
    (h : Costs c d fun o m => (o.2.1.w + 63) / 64 = n ∧ (o.2.2.w + 63) / 64 = n ∧ m ≤ k) :
    Costs (do
        let (r, lhs, rhs) ← c
        let () ← charge 0 (expect r)
        let lhs ← Count.negIf s lhs
        let rhs ← Count.negIf t rhs
        .ok ((.ok () : Res Unit), lhs, rhs))
      (do
        let (r, lhs, rhs) ← d
        let () ← expect r
        let lhs ← negIf s lhs
        let rhs ← negIf t rhs
        .ok (.ok (), lhs, rhs))
      fun _ m => m ≤ k + 8 * n + 8 := by
  refine Costs.bind h ?_
  rintro ⟨r, x, y⟩ m ⟨h1, h2, h3⟩
  dsimp only at h1 h2 ⊢
  refine Costs.bind Costs.charge ?_
  rintro _ _ ⟨-, rfl⟩
  refine Costs.bind negIf_costs fun _ m1 hm1 => ?_
  refine Costs.bind negIf_costs fun _ m2 hm2 => ?_
  refine Costs.ok ?_
  omega

/-- The end of the signed calls that return one part. -/
theorem finish1_costs {c : Counted (Res Unit × ApInt × ApInt)} {d : Run (Res Unit × ApInt × ApInt)}
    {k n : Nat} {s : Bool}
    (h : Costs c d fun o m => (o.2.1.w + 63) / 64 = n ∧ (o.2.2.w + 63) / 64 = n ∧ m ≤ k) :
    Costs (do
        let (r, lhs, _) ← c
        let () ← charge 0 (expect r)
        let lhs ← Count.negIf s lhs
        .ok ((.ok () : Res Unit), lhs))
      (do
        let (r, lhs, _) ← d
        let () ← expect r
        let lhs ← negIf s lhs
        .ok (.ok (), lhs))
      fun _ m => m ≤ k + 4 * n + 4 := by
  refine Costs.bind h ?_
  rintro ⟨r, x, y⟩ m ⟨h1, h2, h3⟩
  dsimp only at h1 h2 ⊢
  refine Costs.bind Costs.charge ?_
  rintro _ _ ⟨-, rfl⟩
  refine Costs.bind negIf_costs fun _ m1 hm1 => ?_
  refine Costs.ok ?_
  omega

/-- The division of the absolute values. -/
theorem abs_udivrem_costs {a' b' : ApInt} (hw : a.w = b.w) (ha : Abs a a') (hb : Abs b b')
    (hq : a.sval.natAbs / b.sval.natAbs < 2 ^ (61 * r)) :
    Costs (Count.wrappingUdivremAssign a' b') (wrappingUdivremAssign a' b') fun o m =>
      (o.2.1.w + 63) / 64 = (a.w + 63) / 64 ∧ (o.2.2.w + 63) / 64 = (a.w + 63) / 64 ∧
      m ≤ divWork r ((a.w + 63) / 64) + 6 * ((a.w + 63) / 64) := by
  refine (wrappingUdivremAssign_costs (r := r) ha.1 hb.1 (by rw [ha.2.2, hb.2.2]; exact hq)).mono ?_
  rintro o m ⟨h1, h2, h3⟩
  rw [w_of_len h1, w_of_len h2, w_of_len hb.2.1, ← hw]
  rw [w_of_len ha.2.1] at h3 ⊢
  exact ⟨rfl, rfl, by omega⟩

/-- The division of the absolute values. -/
theorem abs_uremdiv_costs {a' b' : ApInt} (hw : a.w = b.w) (ha : Abs a a') (hb : Abs b b')
    (hq : a.sval.natAbs / b.sval.natAbs < 2 ^ (61 * r)) :
    Costs (Count.wrappingUremdivAssign a' b') (wrappingUremdivAssign a' b') fun o m =>
      (o.2.1.w + 63) / 64 = (a.w + 63) / 64 ∧ (o.2.2.w + 63) / 64 = (a.w + 63) / 64 ∧
      m ≤ divWork r ((a.w + 63) / 64) + 6 * ((a.w + 63) / 64) := by
  refine (wrappingUremdivAssign_costs (r := r) ha.1 hb.1 (by rw [ha.2.2, hb.2.2]; exact hq)).mono ?_
  rintro o m ⟨h1, h2, h3⟩
  rw [w_of_len h1, w_of_len h2, w_of_len hb.2.1, ← hw]
  rw [w_of_len ha.2.1] at h3 ⊢
  exact ⟨rfl, rfl, by omega⟩

theorem wrappingSdivremAssign_costs (ha : a.WF) (hb : b.WF) (hw : a.w = b.w)
    (hq : a.sval.natAbs / b.sval.natAbs < 2 ^ (61 * r)) :
    Costs (Count.wrappingSdivremAssign a b) (wrappingSdivremAssign a b) fun _ n =>
      n ≤ divWork r ((a.w + 63) / 64) + 23 * ((a.w + 63) / 64) + 18 := by
  unfold Count.wrappingSdivremAssign wrappingSdivremAssign Count.clone Count.isZero
  rw [digits_eq, digits_eq, ← hw]
  refine Costs.bind Costs.charge ?_
  rintro z _ ⟨-, rfl⟩
  refine Costs.ite (fun _ => ?_) fun _ => ?_
  · refine Costs.bind Costs.charge ?_
    rintro _ _ ⟨-, rfl⟩
    exact Costs.ok (by omega)
  refine Costs.bind Costs.charge ?_
  rintro lm _ ⟨hl, rfl⟩
  refine Costs.bind Costs.charge ?_
  rintro rm _ ⟨hr, rfl⟩
  cases lm <;> cases rm <;> dsimp only
  · refine Costs.ok_bind ?_
    exact (finish2_costs (abs_udivrem_costs hw (abs_self ha hl) (abs_self hb hr) hq)).mono
      fun _ m hm => by omega
  · refine Costs.bind (abs_neg hb hr) ?_
    rintro y _ ⟨hy, rfl⟩
    refine Costs.ok_bind ?_
    exact (finish2_costs (abs_udivrem_costs hw (abs_self ha hl) hy hq)).mono fun _ m hm => by omega
  · refine Costs.bind (abs_neg ha hl) ?_
    rintro x _ ⟨hx, rfl⟩
    refine Costs.ok_bind ?_
    exact (finish2_costs (abs_udivrem_costs hw hx (abs_self hb hr) hq)).mono fun _ m hm => by omega
  · refine Costs.bind (abs_neg ha hl) ?_
    rintro x _ ⟨hx, rfl⟩
    refine Costs.bind (abs_neg hb hr) ?_
    rintro y _ ⟨hy, rfl⟩
    refine Costs.ok_bind ?_
    exact (finish2_costs (abs_udivrem_costs hw hx hy hq)).mono fun _ m hm => by omega

theorem wrappingSremdivAssign_costs (ha : a.WF) (hb : b.WF) (hw : a.w = b.w)
    (hq : a.sval.natAbs / b.sval.natAbs < 2 ^ (61 * r)) :
    Costs (Count.wrappingSremdivAssign a b) (wrappingSremdivAssign a b) fun _ n =>
      n ≤ divWork r ((a.w + 63) / 64) + 23 * ((a.w + 63) / 64) + 18 := by
  unfold Count.wrappingSremdivAssign wrappingSremdivAssign Count.clone Count.isZero
  rw [digits_eq, digits_eq, ← hw]
  refine Costs.bind Costs.charge ?_
  rintro z _ ⟨-, rfl⟩
  refine Costs.ite (fun _ => ?_) fun _ => ?_
  · refine Costs.bind Costs.charge ?_
    rintro _ _ ⟨-, rfl⟩
    exact Costs.ok (by omega)
  refine Costs.bind Costs.charge ?_
  rintro lm _ ⟨hl, rfl⟩
  refine Costs.bind Costs.charge ?_
  rintro rm _ ⟨hr, rfl⟩
  cases lm <;> cases rm <;> dsimp only
  · refine Costs.ok_bind ?_
    exact (finish2_costs (abs_uremdiv_costs hw (abs_self ha hl) (abs_self hb hr) hq)).mono
      fun _ m hm => by omega
  · refine Costs.bind (abs_neg hb hr) ?_
    rintro y _ ⟨hy, rfl⟩
    refine Costs.ok_bind ?_
    exact (finish2_costs (abs_uremdiv_costs hw (abs_self ha hl) hy hq)).mono fun _ m hm => by omega
  · refine Costs.bind (abs_neg ha hl) ?_
    rintro x _ ⟨hx, rfl⟩
    refine Costs.ok_bind ?_
    exact (finish2_costs (abs_uremdiv_costs hw hx (abs_self hb hr) hq)).mono fun _ m hm => by omega
  · refine Costs.bind (abs_neg ha hl) ?_
    rintro x _ ⟨hx, rfl⟩
    refine Costs.bind (abs_neg hb hr) ?_
    rintro y _ ⟨hy, rfl⟩
    refine Costs.ok_bind ?_
    exact (finish2_costs (abs_uremdiv_costs hw hx hy hq)).mono fun _ m hm => by omega

theorem wrappingSdivAssign_costs (ha : a.WF) (hb : b.WF) (hw : a.w = b.w)
    (hq : a.sval.natAbs / b.sval.natAbs < 2 ^ (61 * r)) :
    Costs (Count.wrappingSdivAssign a b) (wrappingSdivAssign a b) fun _ n =>
      n ≤ divWork r ((a.w + 63) / 64) + 23 * ((a.w + 63) / 64) + 18 := by
  unfold Count.wrappingSdivAssign wrappingSdivAssign Count.clone Count.isZero
  rw [digits_eq, digits_eq, ← hw]
  refine Costs.bind Costs.charge ?_
  rintro z _ ⟨-, rfl⟩
  refine Costs.ite (fun _ => ?_) fun _ => ?_
  · refine Costs.bind Costs.charge ?_
    rintro _ _ ⟨-, rfl⟩
    exact Costs.ok (by omega)
  refine Costs.bind Costs.charge ?_
  rintro b' _ ⟨hc, rfl⟩
  rw [clone_ok hb.1] at hc
  cases hc
  refine Costs.bind Costs.charge ?_
  rintro lm _ ⟨hl, rfl⟩
  refine Costs.bind Costs.charge ?_
  rintro rm _ ⟨hr, rfl⟩
  cases lm <;> cases rm <;> dsimp only
  · refine Costs.ok_bind ?_
    exact (finish1_costs (abs_udivrem_costs hw (abs_self ha hl) (abs_self hb hr) hq)).mono
      fun _ m hm => by omega
  · refine Costs.bind (abs_neg hb hr) ?_
    rintro y _ ⟨hy, rfl⟩
    refine Costs.ok_bind ?_
    exact (finish1_costs (abs_udivrem_costs hw (abs_self ha hl) hy hq)).mono fun _ m hm => by omega
  · refine Costs.bind (abs_neg ha hl) ?_
    rintro x _ ⟨hx, rfl⟩
    refine Costs.ok_bind ?_
    exact (finish1_costs (abs_udivrem_costs hw hx (abs_self hb hr) hq)).mono fun _ m hm => by omega
  · refine Costs.bind (abs_neg ha hl) ?_
    rintro x _ ⟨hx, rfl⟩
    refine Costs.bind (abs_neg hb hr) ?_
    rintro y _ ⟨hy, rfl⟩
    refine Costs.ok_bind ?_
    exact (finish1_costs (abs_udivrem_costs hw hx hy hq)).mono fun _ m hm => by omega

theorem wrappingSremAssign_costs (ha : a.WF) (hb : b.WF) (hw : a.w = b.w)
    (hq : a.sval.natAbs / b.sval.natAbs < 2 ^ (61 * r)) :
    Costs (Count.wrappingSremAssign a b) (wrappingSremAssign a b) fun _ n =>
      n ≤ divWork r ((a.w + 63) / 64) + 23 * ((a.w + 63) / 64) + 18 := by
  unfold Count.wrappingSremAssign wrappingSremAssign Count.clone Count.isZero
  rw [digits_eq, digits_eq, ← hw]
  refine Costs.bind Costs.charge ?_
  rintro z _ ⟨-, rfl⟩
  refine Costs.ite (fun _ => ?_) fun _ => ?_
  · refine Costs.bind Costs.charge ?_
    rintro _ _ ⟨-, rfl⟩
    exact Costs.ok (by omega)
  refine Costs.bind Costs.charge ?_
  rintro b' _ ⟨hc, rfl⟩
  rw [clone_ok hb.1] at hc
  cases hc
  refine Costs.bind Costs.charge ?_
  rintro lm _ ⟨hl, rfl⟩
  refine Costs.bind Costs.charge ?_
  rintro rm _ ⟨hr, rfl⟩
  cases lm <;> cases rm <;> dsimp only
  · refine Costs.ok_bind ?_
    exact (finish1_costs (abs_uremdiv_costs hw (abs_self ha hl) (abs_self hb hr) hq)).mono
      fun _ m hm => by omega
  · refine Costs.bind (abs_neg hb hr) ?_
    rintro y _ ⟨hy, rfl⟩
    refine Costs.ok_bind ?_
    exact (finish1_costs (abs_uremdiv_costs hw (abs_self ha hl) hy hq)).mono fun _ m hm => by omega
  · refine Costs.bind (abs_neg ha hl) ?_
    rintro x _ ⟨hx, rfl⟩
    refine Costs.ok_bind ?_
    exact (finish1_costs (abs_uremdiv_costs hw hx (abs_self hb hr) hq)).mono fun _ m hm => by omega
  · refine Costs.bind (abs_neg ha hl) ?_
    rintro x _ ⟨hx, rfl⟩
    refine Costs.bind (abs_neg hb hr) ?_
    rintro y _ ⟨hy, rfl⟩
    refine Costs.ok_bind ?_
    exact (finish1_costs (abs_uremdiv_costs hw hx hy hq)).mono fun _ m hm => by omega

end Verif
