import Verif.Proof.Work

/-!
# How many digits a multiplication touches
-/

namespace Verif

open ApInt Counted

theorem mulAddStep_costs {mult : Digit} {rhs : List Digit} {base i : Nat}
    {s : List Digit × Digit × Digit} :
    Costs (Count.mulAddStep mult rhs base i s) (mulAddStep mult rhs base i s)
      fun _ n => n ≤ 3 := by
  unfold Count.mulAddStep mulAddStep
  try dsimp only
  repeat' cost1
  omega

theorem mulFullRow_costs {lhs rhs sum : List Digit} {rhsSig i : Nat} :
    Costs (Count.mulFullRow lhs rhs rhsSig i sum) (mulFullRow lhs rhs rhsSig i sum)
      fun _ n => n ≤ 3 * rhsSig + 8 := by
  unfold Count.mulFullRow mulFullRow
  try dsimp only
  repeat' cost1
  refine Costs.bind (Costs.forRange (fun _ => True) 3 trivial fun j s _ _ _ =>
    mulAddStep_costs.mono fun _ _ h => ⟨trivial, h⟩) ?_
  rintro s n ⟨-, hn⟩
  try dsimp only
  repeat' cost1
  have : (rhsSig - 1) * 3 ≤ 3 * rhsSig := by omega
  omega

theorem mulRow_length (mult : Digit) : ∀ (l : List Digit) (s : List Digit × Digit),
    (mulRow mult l s).1.length = s.1.length + l.length
  | [], _ => rfl
  | x :: rest, (sum, carry) => by
    rw [mulRow, mulRow_length mult rest]
    simp
    omega

theorem middle_length (l : List Digit) (n : Nat) : ((l.take n).drop 1).length ≤ n - 1 := by
  simp
  omega

theorem mulNonOverflow_costs {lhs rhs : List Digit} {lhsSig rhsSig : Nat} :
    Costs (Count.mulNonOverflow lhs rhs lhsSig rhsSig) (mulNonOverflow lhs rhs lhsSig rhsSig)
      fun _ n => n ≤ (lhsSig + 1) * (3 * rhsSig + 8) + 2 * rhsSig + 2 * lhs.length + 5 := by
  unfold Count.mulNonOverflow mulNonOverflow
  have hm := middle_length rhs rhsSig
  try dsimp only
  repeat' cost1
  refine Costs.bind (Costs.forRange (fun _ => True) (3 * rhsSig + 8) trivial fun j s _ _ _ =>
    mulFullRow_costs.mono fun _ _ h => ⟨trivial, h⟩) ?_
  rintro s n ⟨-, hn⟩
  try dsimp only
  refine Costs.bind mulFullRow_costs ?_
  intro s' n' hn'
  have hn : n ≤ lhsSig * (3 * rhsSig + 8) :=
    Nat.le_trans hn (Nat.mul_le_mul_right _ (Nat.sub_le _ _))
  have e : (lhsSig + 1) * (3 * rhsSig + 8) = lhsSig * (3 * rhsSig + 8) + (3 * rhsSig + 8) :=
    Nat.succ_mul _ _
  repeat' cost1
  all_goals omega

theorem mulWrapRow_costs {lhs rhs sum : List Digit} {sig i : Nat} :
    Costs (Count.mulWrapRow lhs rhs sig i sum) (mulWrapRow lhs rhs sig i sum)
      fun _ n => n ≤ 3 * sig + 8 := by
  unfold Count.mulWrapRow mulWrapRow
  try dsimp only
  repeat' cost1
  refine Costs.bind (Costs.forRange (fun _ => True) 3 trivial fun j s _ _ _ =>
    mulAddStep_costs.mono fun _ _ h => ⟨trivial, h⟩) ?_
  rintro s n ⟨-, hn⟩
  try dsimp only
  repeat' cost1
  omega

theorem mulWrapping_costs {lhs rhs : List Digit} :
    Costs (Count.mulWrapping lhs rhs) (mulWrapping lhs rhs)
      fun _ n => n ≤ lhs.length * (3 * lhs.length + 8) + 4 * lhs.length + 7 := by
  unfold Count.mulWrapping mulWrapping
  try dsimp only
  cost1
  have hm := middle_length rhs (lhs.length - 1)
  repeat' cost1
  refine Costs.bind (Costs.forRange (fun _ => True) (3 * (lhs.length - 1) + 8) trivial
    fun j s _ _ _ => mulWrapRow_costs.mono fun _ _ h => ⟨trivial, h⟩) ?_
  rintro s n ⟨-, hn⟩
  try dsimp only
  have hn : n ≤ lhs.length * (3 * lhs.length + 8) :=
    Nat.le_trans hn (Nat.mul_le_mul (by omega) (by omega))
  repeat' cost1
  omega

theorem mulSmallLhs_costs {lhs rhs : List Digit} {rhsSig : Nat} :
    Costs (Count.mulSmallLhs lhs rhs rhsSig) (mulSmallLhs lhs rhs rhsSig)
      fun _ n => n ≤ 2 * rhsSig + 7 := by
  unfold Count.mulSmallLhs mulSmallLhs
  try dsimp only
  repeat' cost1
  refine Costs.bind (Costs.forRange (fun _ => True) 2 trivial fun j s _ _ _ => ?_) ?_
  · repeat' cost1
    exact ⟨trivial, by omega⟩
  rintro s n ⟨-, hn⟩
  try dsimp only
  repeat' cost1
  all_goals omega

theorem mulSmallRhs_costs {lhs rhs : List Digit} {lhsSig : Nat} :
    Costs (Count.mulSmallRhs lhs rhs lhsSig) (mulSmallRhs lhs rhs lhsSig)
      fun _ n => n ≤ 2 * lhsSig + 7 := by
  unfold Count.mulSmallRhs mulSmallRhs Count.mulSmallRhsLoop mulSmallRhsLoop
  try dsimp only
  repeat' cost1
  refine Costs.bind (Costs.forRange (fun _ => True) 2 trivial fun j s _ _ _ => ?_) ?_
  · repeat' cost1
    exact ⟨trivial, by omega⟩
  rintro s n ⟨-, hn⟩
  try dsimp only
  repeat' cost1
  all_goals omega

theorem sigBits_costs {l : List Digit} {sig : Nat} :
    Costs (Count.sigBits l sig) (sigBits l sig) fun _ n => sig < l.length ∧ n = 1 := by
  unfold Count.sigBits sigBits
  cost1
  rename_i h
  cost1
  cost1
  exact ⟨h, rfl⟩

theorem mulCases_costs {lhs rhs : List Digit} {lhsSig rhsSig : Nat} (hl : lhsSig < lhs.length)
    (hr : rhsSig < lhs.length) :
    Costs (Count.mulCases lhs rhs lhsSig rhsSig) (mulCases lhs rhs lhsSig rhsSig)
      fun _ n => n ≤ lhs.length * (3 * lhs.length + 8) + 4 * lhs.length + 9 := by
  unfold Count.mulCases mulCases
  cases lhsSig == 0 <;> cases rhsSig == 0
  · refine Costs.bind sigBits_costs ?_
    rintro _ _ ⟨-, rfl⟩
    refine Costs.bind sigBits_costs ?_
    rintro _ _ ⟨-, rfl⟩
    try dsimp only
    refine Costs.ite (fun _ => ?_) fun _ => ?_
    · refine mulNonOverflow_costs.mono fun _ n hn => ?_
      have : (lhsSig + 1) * (3 * rhsSig + 8) ≤ lhs.length * (3 * lhs.length + 8) :=
        Nat.mul_le_mul (by omega) (by omega)
      omega
    · refine mulWrapping_costs.mono fun _ n hn => ?_
      omega
  · refine mulSmallRhs_costs.mono fun _ n hn => ?_
    omega
  · refine mulSmallLhs_costs.mono fun _ n hn => ?_
    omega
  · repeat' cost1
    omega

theorem rpositionNonzero_lt' : ∀ {l : List Digit} {i : Nat}, rpositionNonzero l = some i →
    i < l.length := by
  intro l
  induction l with
  | nil => intro i h; cases h
  | cons d rest ih =>
    intro i h
    rw [rpositionNonzero] at h
    split at h
    · rename_i j hj
      cases h
      have := ih hj
      simp only [List.length_cons]
      omega
    · split at h
      · cases h
      · cases h
        simp

theorem mulDigits_costs {lhs rhs : List Digit} (h : rhs.length = lhs.length) :
    Costs (Count.mulDigits lhs rhs) (mulDigits lhs rhs)
      fun _ n => n ≤ lhs.length * (3 * lhs.length + 8) + 6 * lhs.length + 9 := by
  unfold Count.mulDigits mulDigits
  refine Costs.charge_ok_bind ?_
  cases hr : rpositionNonzero rhs with
  | none =>
    try dsimp only
    repeat' cost1
    omega
  | some rhsSig =>
    try dsimp only
    refine Costs.charge_ok_bind ?_
    cases hl : rpositionNonzero lhs with
    | none =>
      try dsimp only
      repeat' cost1
      omega
    | some lhsSig =>
      try dsimp only
      refine Costs.bind (mulCases_costs (rpositionNonzero_lt' hl) (by
        have := rpositionNonzero_lt' hr
        omega)) ?_
      intro l n hn
      repeat' cost1
      omega

end Verif
