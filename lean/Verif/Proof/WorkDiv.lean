import Verif.Proof.WorkMul

/-!
# How many digits a division touches
-/

namespace Verif

open ApInt Counted

theorem largeDivBySmall_costs {duo div : List Digit} {sd : Nat} :
    Costs (Count.largeDivBySmall duo sd div) (largeDivBySmall duo sd div)
      fun _ n => n ≤ 2 * sd + 4 := by
  unfold Count.largeDivBySmall largeDivBySmall
  repeat' cost1
  refine Costs.bind (Costs.forRev (fun _ => True) 2 trivial fun j s _ _ _ => ?_) ?_
  · repeat' cost1
    exact ⟨trivial, by omega⟩
  rintro s n ⟨-, hn⟩
  repeat' cost1
  omega

theorem largeDivByU32_costs {duo div : List Digit} {sd : Nat} :
    Costs (Count.largeDivByU32 duo sd div) (largeDivByU32 duo sd div)
      fun _ n => n ≤ 2 * sd + 4 := by
  unfold Count.largeDivByU32 largeDivByU32
  repeat' cost1
  refine Costs.bind (Costs.forRev (fun _ => True) 2 trivial fun j s _ _ _ => ?_) ?_
  · repeat' cost1
    exact ⟨trivial, by omega⟩
  rintro s n ⟨-, hn⟩
  repeat' cost1
  omega

theorem twosComplement_costs {len : Nat} {array : List Digit} :
    Costs (Count.twosComplement len array) (twosComplement len array) fun _ n => n ≤ 4 * len := by
  unfold Count.twosComplement twosComplement
  refine (Costs.forRangeB (fun _ => True) (fun _ => True) 2 (2 * len) trivial (fun _ _ => trivial)
    fun j s _ _ _ => ?_).mono fun _ n h => by omega
  cost1
  rcases Digit.overflowingAdd _ _ with ⟨v, _ | _⟩
  · cost1
    refine Costs.bind (Costs.forRange (fun _ => True) 2 trivial fun j s _ _ _ => ?_) ?_
    · repeat' cost1
      exact ⟨trivial, by omega⟩
    rintro s n ⟨-, hn⟩
    repeat' cost1
    exact ⟨trivial, by omega⟩
  · repeat' cost1
    exact ⟨trivial, by omega⟩

theorem anyNonzeroAbove_costs {a b : Nat} {rhs : List Digit} :
    Costs (Count.anyNonzeroAbove a b rhs) (anyNonzeroAbove a b rhs) fun _ n => n ≤ b - a := by
  unfold Count.anyNonzeroAbove anyNonzeroAbove
  refine (Costs.forRevB (fun _ => True) (fun _ => True) 1 0 trivial (fun _ _ => trivial)
    fun j s _ _ _ => ?_).mono fun _ n h => by omega
  repeat' cost1
  all_goals exact ⟨trivial, by omega⟩

theorem uge_costs {a b : Nat} {lhs rhs : List Digit} :
    Costs (Count.uge a lhs b rhs) (uge a lhs b rhs) fun _ n => n ≤ (b - a) + 2 * a := by
  unfold Count.uge uge
  refine Costs.bind anyNonzeroAbove_costs fun r n hn => ?_
  refine Costs.ite (fun _ => Costs.ok (by omega)) fun _ => ?_
  refine Costs.bind (Costs.forRevB (fun _ => True) (fun _ => True) 2 0 trivial (fun _ _ => trivial)
    fun j s _ _ _ => ?_) ?_
  · repeat' cost1
    all_goals exact ⟨trivial, by omega⟩
  · rintro s n ⟨-, hn⟩
    repeat' cost1
    all_goals omega

theorem ugt_costs {a b : Nat} {lhs rhs : List Digit} :
    Costs (Count.ugt a lhs b rhs) (ugt a lhs b rhs) fun _ n => n ≤ (b - a) + 2 * a := by
  unfold Count.ugt ugt
  refine Costs.bind anyNonzeroAbove_costs fun r n hn => ?_
  refine Costs.ite (fun _ => Costs.ok (by omega)) fun _ => ?_
  refine Costs.bind (Costs.forRevB (fun _ => True) (fun _ => True) 2 0 trivial (fun _ _ => trivial)
    fun j s _ _ _ => ?_) ?_
  · repeat' cost1
    all_goals exact ⟨trivial, by omega⟩
  · rintro s n ⟨-, hn⟩
    repeat' cost1
    all_goals omega

theorem special0_costs {len : Nat} {sum sub target : List Digit} {v : Digit} :
    Costs (Count.special0 len sum sub target v) (special0 len sum sub target v)
      fun _ n => n ≤ 4 * len + 8 := by
  unfold Count.special0 special0
  repeat' cost1
  refine Costs.bind (Costs.forRange (fun _ => True) 4 trivial fun j s _ _ _ => ?_) ?_
  · repeat' cost1
    exact ⟨trivial, by omega⟩
  rintro s n ⟨-, hn⟩
  repeat' cost1
  omega

theorem special0Self_costs {len : Nat} {sum target : List Digit} {v : Digit} :
    Costs (Count.special0Self len sum target v) (special0Self len sum target v)
      fun _ n => n ≤ 4 * len + 8 := by
  unfold Count.special0Self special0Self
  repeat' cost1
  refine Costs.bind (Costs.forRange (fun _ => True) 4 trivial fun j s _ _ _ => ?_) ?_
  · repeat' cost1
    exact ⟨trivial, by omega⟩
  rintro s n ⟨-, hn⟩
  repeat' cost1
  omega

theorem special1_costs {len : Nat} {sum sub targ add : List Digit} {v : Digit} :
    Costs (Count.special1 len sum sub targ v add) (special1 len sum sub targ v add)
      fun _ n => n ≤ 7 * len + 8 := by
  unfold Count.special1 special1
  repeat' cost1
  refine Costs.bind (Costs.forRange (fun _ => True) 3 trivial fun j s _ _ _ => ?_) ?_
  · repeat' cost1
    exact ⟨trivial, by omega⟩
  rintro s n ⟨-, hn⟩
  repeat' cost1
  refine Costs.bind (Costs.forRange (fun _ => True) 4 trivial fun j s _ _ _ => ?_) ?_
  · refine Costs.ite (fun _ => ?_) fun _ => ?_
    · refine Costs.bind (Costs.forRangeB (fun _ => True) (fun _ => True) 0 2 trivial
        (fun _ _ => trivial) fun j s _ _ _ => ?_) ?_
      · repeat' cost1
        exact ⟨trivial, by omega⟩
      · rintro s n ⟨-, hn⟩
        repeat' cost1
        exact ⟨trivial, by omega⟩
    · repeat' cost1
      exact ⟨trivial, by omega⟩
  rintro s n ⟨-, hn⟩
  repeat' cost1
  omega

theorem addMacro_costs {len : Nat} {sum add : List Digit} :
    Costs (Count.addMacro len sum add) (addMacro len sum add) fun _ n => n ≤ 3 * len + 6 := by
  unfold Count.addMacro addMacro
  repeat' cost1
  refine Costs.bind (Costs.forRange (fun _ => True) 3 trivial fun j s _ _ _ => ?_) ?_
  · repeat' cost1
    exact ⟨trivial, by omega⟩
  rintro s n ⟨-, hn⟩
  repeat' cost1
  omega

theorem sigDD_costs {arr : List Digit} {sd lz : Nat} :
    Costs (Count.sigDD arr sd lz) (sigDD arr sd lz) fun _ n => n ≤ 3 := by
  unfold Count.sigDD sigDD
  repeat' cost1
  all_goals omega

theorem moveDuoToDiv_costs {duo div : List Digit} {a b : Nat} :
    Costs (Count.moveDuoToDiv duo a div b) (moveDuoToDiv duo a div b)
      fun _ n => n ≤ 3 * (a + 1) + 2 * (b + 1) := by
  unfold Count.moveDuoToDiv moveDuoToDiv
  refine Costs.bind (Costs.forRange (fun _ => True) 3 trivial fun j s _ _ _ => ?_) ?_
  · repeat' cost1
    exact ⟨trivial, by omega⟩
  rintro s n ⟨-, hn⟩
  refine Costs.bind (Costs.forRange (fun _ => True) 2 trivial fun j s _ _ _ => ?_) ?_
  · repeat' cost1
    exact ⟨trivial, by omega⟩
  rintro s n ⟨-, hn⟩
  repeat' cost1
  omega

theorem finishMulSub1_costs {len : Nat} {duo div sub : List Digit} {mul : Digit} :
    Costs (Count.finishMulSub1 len duo div sub mul) (finishMulSub1 len duo div sub mul)
      fun _ n => n ≤ 11 * len + 14 := by
  unfold Count.finishMulSub1 finishMulSub1
  refine Costs.bind twosComplement_costs fun _ n hn => ?_
  refine Costs.bind addMacro_costs fun _ n hn => ?_
  refine special0_costs.mono fun _ n hn => ?_
  omega

theorem finishMul_costs {len : Nat} {duo div sub : List Digit} {mul : Digit} :
    Costs (Count.finishMul len duo div sub mul) (finishMul len duo div sub mul)
      fun _ n => n ≤ 11 * len + 14 := by
  unfold Count.finishMul finishMul
  refine Costs.bind twosComplement_costs fun _ n hn => ?_
  refine special0_costs.mono fun _ n hn => ?_
  omega

theorem mulOrMulSub1_costs {len : Nat} {duo div : List Digit} {sd lz divSd : Nat}
    (h : divSd < len) :
    Costs (Count.mulOrMulSub1 len duo sd lz div divSd) (mulOrMulSub1 len duo sd lz div divSd)
      fun _ n => n ≤ 16 * len + 24 := by
  unfold Count.mulOrMulSub1 mulOrMulSub1
  have hm := middle_length div divSd
  refine Costs.bind sigDD_costs fun _ n hn => ?_
  refine Costs.bind sigDD_costs fun _ n' hn' => ?_
  repeat' cost1
  · exact finishMulSub1_costs.mono fun _ k hk => by omega
  · refine Costs.bind ugt_costs fun _ k hk => ?_
    refine Costs.ite (fun _ => ?_) fun _ => ?_
    · exact finishMulSub1_costs.mono fun _ k hk => by omega
    · exact finishMul_costs.mono fun _ k hk => by omega
  · refine Costs.bind ugt_costs fun _ k hk => ?_
    refine Costs.ite (fun _ => ?_) fun _ => ?_
    · exact finishMulSub1_costs.mono fun _ k hk => by omega
    · exact finishMul_costs.mono fun _ k hk => by omega

theorem addToQuo_costs {quo : List Digit} {mul : DDigit} {a b : Nat} :
    Costs (Count.addToQuo quo mul a b) (addToQuo quo mul a b)
      fun q n => q.length = quo.length ∧ n ≤ 2 * quo.length + 4 := by
  unfold Count.addToQuo addToQuo
  repeat' cost1
  rename_i q1 _ h1 _ _ q2 _ h2
  refine Costs.bind (Costs.forRangeB (fun s => s.1.length = quo.length)
    (fun s => s.1.length = quo.length) 2 0 (by dsimp only; omega) (fun _ h => h) fun j s _ _ hs => ?_) ?_
  · repeat' cost1
    · exact ⟨hs, by omega⟩
    · exact ⟨by dsimp only; omega, by omega⟩
  rintro s n ⟨hs, hn⟩
  repeat' cost1
  exact ⟨hs, by omega⟩

theorem subCoreLow_costs {duo div : List Digit} {mul : Digit} {sd a b : Nat} :
    Costs (Count.subCoreLow duo div mul sd a b) (subCoreLow duo div mul sd a b)
      fun _ n => n ≤ 4 * sd + 3 := by
  unfold Count.subCoreLow subCoreLow
  repeat' cost1
  refine Costs.bind (Costs.forRange (fun _ => True) 3 trivial fun j s _ _ _ => ?_) ?_
  · repeat' cost1
    exact ⟨trivial, by omega⟩
  rintro s n ⟨-, hn⟩
  repeat' cost1
  omega

theorem subCoreHigh_costs {duo div : List Digit} {mul : Digit} {sd a b : Nat} :
    Costs (Count.subCoreHigh duo div mul sd a b) (subCoreHigh duo div mul sd a b)
      fun _ n => n ≤ 4 * sd + 3 := by
  unfold Count.subCoreHigh subCoreHigh
  repeat' cost1
  refine Costs.bind (Costs.forRange (fun _ => True) 4 trivial fun j s _ _ _ => ?_) ?_
  · repeat' cost1
    exact ⟨trivial, by omega⟩
  rintro s n ⟨-, hn⟩
  repeat' cost1
  omega

theorem mulOrMulSub1Quo_costs {len : Nat} {s : DivState} {div : List Digit} {divSd : Nat}
    {d : DDigit} (h : divSd < len) :
    Costs (Count.mulOrMulSub1Quo len s div divSd d) (mulOrMulSub1Quo len s div divSd d)
      fun _ n => n ≤ 20 * len + 60 := by
  unfold Count.mulOrMulSub1Quo mulOrMulSub1Quo
  have hm := middle_length div divSd
  refine Costs.bind sigDD_costs fun _ n hn => ?_
  repeat' cost1
  generalize hl : List.length (_ ++ List.replicate _ _) = L
  have hL : L ≤ len + 2 := by
    rw [← hl]
    simp only [List.length_append, List.length_replicate, List.length_cons, List.length_nil,
      mulRow_length]
    omega
  clear hl
  refine Costs.bind ugt_costs fun _ k hk => ?_
  refine Costs.ite (fun _ => ?_) fun _ => ?_
  · refine Costs.bind twosComplement_costs fun _ k' hk' => ?_
    refine Costs.bind addMacro_costs fun _ k' hk' => ?_
    exact special1_costs.mono fun _ k hk => by omega
  · refine Costs.bind twosComplement_costs fun _ k' hk' => ?_
    exact special1_costs.mono fun _ k hk => by omega

theorem findDuoSd_costs {duo : List Digit} {sd : Nat} :
    Costs (Count.findDuoSd duo sd) (findDuoSd duo sd)
      fun r n => (∀ i, r = some i → i ≤ sd) ∧ n ≤ sd + 1 := by
  unfold Count.findDuoSd findDuoSd
  refine (Costs.forRevB (fun r => ∀ i, r = some i → i ≤ sd) (fun r => ∀ i, r = some i → i ≤ sd) 1 0
    (fun i h => by cases h) (fun _ h => h) fun j s _ hj hs => ?_).mono
    fun _ n h => ⟨h.1, by omega⟩
  repeat' cost1
  · refine ⟨fun i h => ?_, by omega⟩
    cases h
    omega
  · exact ⟨hs, by omega⟩

theorem quoPlusOne_costs {len : Nat} {duo quo : List Digit} :
    Costs (Count.quoPlusOne len duo quo) (quoPlusOne len duo quo) fun _ n => n ≤ 4 * len := by
  unfold Count.quoPlusOne quoPlusOne
  refine (Costs.forRangeB (fun _ => True) (fun _ => True) 2 (2 * len) trivial (fun _ _ => trivial)
    fun j s _ _ _ => ?_).mono fun _ n h => by omega
  cost1
  rcases Digit.overflowingAdd _ _ with ⟨v, _ | _⟩
  · repeat' cost1
    exact ⟨trivial, by omega⟩
  · repeat' cost1
    exact ⟨trivial, by omega⟩

theorem finishTwoDigits_costs {len : Nat} {duo quo div : List Digit} :
    Costs (Count.finishTwoDigits len duo quo div) (finishTwoDigits len duo quo div)
      fun _ n => n ≤ 4 * len + 10 := by
  unfold Count.finishTwoDigits finishTwoDigits
  repeat' cost1
  refine Costs.bind (Costs.forRangeB (fun _ => True) (fun _ => True) 2 (2 * len) trivial
    (fun _ _ => trivial) fun j s _ _ _ => ?_) ?_
  · repeat' cost1
    all_goals exact ⟨trivial, by omega⟩
  rintro s n ⟨-, hn⟩
  repeat' cost1
  omega

/-- What a round of the main loop leaves behind: with another round to come, few digits were
touched. -/
def RoundLeft (len : Nat) (sd a b : Nat) (t : DivStep) (n : Nat) : Prop :=
  match t with
  | .next s => (s.quo.length = len ∧ s.duoSd ≤ sd) ∧ n ≤ a
  | .done _ _ => n ≤ b

theorem divLoopTail_costs {len : Nat} {duo quo div : List Digit} {sd divSb : Nat}
    (hq : quo.length = len) :
    Costs (Count.divLoopTail len duo quo div sd divSb) (divLoopTail len duo quo div sd divSb)
      (RoundLeft len sd (sd + 2) (sd + 13 * len + 20)) := by
  unfold Count.divLoopTail divLoopTail
  refine Costs.bind findDuoSd_costs ?_
  rintro r n ⟨hr, hn⟩
  cases r with
  | none =>
    refine Costs.bind (Costs.forRange (fun _ => True) 3 trivial fun j s _ _ _ => ?_) ?_
    · repeat' cost1
      exact ⟨trivial, by omega⟩
    rintro s m ⟨-, hm⟩
    refine Costs.ok ?_
    show _ ≤ _
    omega
  | some sd' =>
    have := hr sd' rfl
    dsimp only
    cost1
    unfold sigBitsOf
    cost1
    refine Costs.ite (fun _ => ?_) fun _ => Costs.ite (fun _ => ?_) fun _ =>
      Costs.ite (fun _ => ?_) fun _ => ?_
    · refine Costs.bind uge_costs fun _ k hk => ?_
      refine Costs.ite (fun _ => ?_) fun _ => ?_
      · refine Costs.bind twosComplement_costs fun _ k1 hk1 => ?_
        refine Costs.bind addMacro_costs fun _ k2 hk2 => ?_
        refine Costs.bind quoPlusOne_costs fun _ k3 hk3 => ?_
        refine Costs.ok ?_
        show _ ≤ _
        omega
      · cost1
        cost1
        refine Costs.ok ?_
        show _ ≤ _
        omega
    · cost1
      cost1
      refine Costs.ok ?_
      show _ ≤ _
      omega
    · refine Costs.bind finishTwoDigits_costs fun _ k3 hk3 => ?_
      refine Costs.ok ?_
      show _ ≤ _
      omega
    · refine Costs.ok ⟨⟨hq, this⟩, ?_⟩
      omega

theorem divLoopBody_costs {len : Nat} {div : List Digit} {divSd divSb lesser : Nat} {d : DDigit}
    {s : DivState} (hq : s.quo.length = len) (hs : s.duoSd < len) (hd : divSd < len) :
    Costs (Count.divLoopBody len div divSd divSb lesser d s)
      (divLoopBody len div divSd divSb lesser d s)
      (RoundLeft len s.duoSd (7 * len + 12) (20 * len + 63)) := by
  unfold Count.divLoopBody divLoopBody
  cost1
  cost1
  refine Costs.bind sigDD_costs fun dd n hn => ?_
  refine Costs.ite (fun _ => ?_) fun _ => ?_
  · cost1
    refine Costs.bind addToQuo_costs fun q n1 hn1 => ?_
    refine Costs.ite (fun _ => ?_) fun _ => ?_
    · refine Costs.bind subCoreLow_costs fun duo n2 hn2 => ?_
      refine (divLoopTail_costs (by omega)).mono fun t n3 hn3 => ?_
      cases t with
      | next s' =>
        obtain ⟨h1, h2⟩ := hn3
        exact ⟨h1, by omega⟩
      | done a b =>
        have hn3 : n3 ≤ _ := hn3
        show _ ≤ _
        omega
    · refine Costs.bind subCoreHigh_costs fun duo n2 hn2 => ?_
      refine (divLoopTail_costs (by omega)).mono fun t n3 hn3 => ?_
      cases t with
      | next s' =>
        obtain ⟨h1, h2⟩ := hn3
        exact ⟨h1, by omega⟩
      | done a b =>
        have hn3 : n3 ≤ _ := hn3
        show _ ≤ _
        omega
  · refine Costs.bind (mulOrMulSub1Quo_costs hd) fun _ n1 hn1 => ?_
    refine Costs.ok ?_
    show _ ≤ _
    omega

theorem divLoop_costs {len : Nat} {div : List Digit} {divSd divSb lesser : Nat} {d : DDigit}
    (hd : divSd < len) : ∀ (fuel : Nat) (s : DivState), s.quo.length = len → s.duoSd < len →
    Costs (Count.divLoop len div divSd divSb lesser d fuel s)
      (divLoop len div divSd divSb lesser d fuel s)
      fun _ n => n ≤ fuel * (7 * len + 12) + 20 * len + 63 := by
  intro fuel
  induction fuel with
  | zero => intro s _ _; exact Costs.error
  | succ fuel ih =>
    intro s hq hs
    rw [Count.divLoop, divLoop]
    refine Costs.bind (divLoopBody_costs hq hs hd) fun t n hn => ?_
    have e : (fuel + 1) * (7 * len + 12) = fuel * (7 * len + 12) + (7 * len + 12) :=
      Nat.succ_mul _ _
    cases t with
    | done a b =>
      have hn : n ≤ _ := hn
      refine Costs.ok ?_
      try dsimp only
      omega
    | next s' =>
      obtain ⟨⟨h1, h2⟩, h3⟩ := hn
      refine (ih s' h1 (by omega)).mono fun _ m hm => ?_
      omega

theorem longDivision_costs {budget len : Nat} {duo div : List Digit} {a b divSd divLz divSb : Nat}
    (hd : divSd < len) (ha : a < len) :
    Costs (Count.longDivision budget len duo a b div divSd divLz divSb)
      (longDivision budget len duo a b div divSd divLz divSb)
      fun _ n => n ≤ budget * (7 * len + 12) + 21 * len + 65 := by
  unfold Count.longDivision longDivision
  cost1
  cost1
  refine Costs.ite (fun _ => ?_) fun _ => ?_
  · cost1
    cost1
    refine (divLoop_costs hd budget _ (by simp) ha).mono fun _ m hm => ?_
    omega
  · cost1
    cost1
    cost1
    cost1
    refine (divLoop_costs hd budget _ (by simp) ha).mono fun _ m hm => ?_
    omega

theorem largeDivByLarge_costs {budget len : Nat} {duo div : List Digit} {a divSd : Nat}
    (hd : divSd < len) (ha : a < len) :
    Costs (Count.largeDivByLarge budget len duo a div divSd)
      (largeDivByLarge budget len duo a div divSd)
      fun _ n => n ≤ budget * (7 * len + 12) + 21 * len + 67 := by
  unfold Count.largeDivByLarge largeDivByLarge
  cost1
  cost1
  unfold sigBitsOf
  refine Costs.bind (P := fun _ n => n = 0) ?_ ?_
  · exact Costs.lift.mono fun _ _ h => h.2
  rintro sb _ rfl
  refine Costs.bind (P := fun _ n => n = 0) ?_ ?_
  · exact Costs.lift.mono fun _ _ h => h.2
  rintro sb' _ rfl
  refine Costs.ite (fun _ => ?_) fun _ => Costs.ite (fun _ => ?_) fun _ => ?_
  · exact moveDuoToDiv_costs.mono fun _ n hn => by omega
  · refine Costs.bind uge_costs fun _ k hk => ?_
    refine Costs.ite (fun _ => ?_) fun _ => ?_
    · refine Costs.bind twosComplement_costs fun _ k1 hk1 => ?_
      exact special0Self_costs.mono fun _ n hn => by omega
    · exact moveDuoToDiv_costs.mono fun _ n hn => by omega
  · cost1
    refine Costs.ite (fun _ => ?_) fun _ => ?_
    · exact (mulOrMulSub1_costs hd).mono fun _ n hn => by omega
    · exact (longDivision_costs hd ha).mono fun _ n hn => by omega

theorem divremWithin_costs {budget : Nat} {duo div : List Digit} (h : div.length = duo.length) :
    Costs (Count.divremWithin budget duo div) (divremWithin budget duo div)
      fun _ n => n ≤ budget * (7 * duo.length + 12) + 23 * duo.length + 67 := by
  unfold Count.divremWithin divremWithin
  refine Costs.charge_ok_bind ?_
  cases hr : rpositionNonzero div with
  | none =>
    repeat' cost1
    omega
  | some divSd =>
    dsimp only
    refine Costs.charge_ok_bind ?_
    cases hl : rpositionNonzero duo with
    | none =>
      repeat' cost1
      omega
    | some sd =>
      have h1 := rpositionNonzero_lt' hr
      have h2 := rpositionNonzero_lt' hl
      dsimp only
      refine Costs.ite (fun _ => ?_) fun _ => ?_
      · refine Costs.charge_ok ?_
        omega
      · cases sd == 0 <;> cases divSd == 0
        · refine Costs.ite (fun _ => ?_) fun _ => ?_
          · repeat' cost1
            omega
          · refine Costs.bind (largeDivByLarge_costs (by omega) h2) fun _ n hn => ?_
            refine Costs.ok ?_
            try dsimp only
            omega
        · dsimp only
          cost1
          refine Costs.ite (fun _ => ?_) fun _ => ?_
          · refine Costs.bind largeDivByU32_costs fun _ n hn => Costs.ok ?_
            try dsimp only
            omega
          · refine Costs.bind largeDivBySmall_costs fun _ n hn => Costs.ok ?_
            try dsimp only
            omega
        · exact Costs.error
        · repeat' cost1
          omega

end Verif
