import Verif.Proof.Trace

/-!
# Without the trace, the calls are those of the model
-/

namespace Verif

open ApInt Watched

theorem result_mapLoop (f : Digit → Digit) (l : List Digit) (i : Nat) :
    result (Trace.mapLoop f i l) = .ok (l.map f) := by
  induction l generalizing i with
  | nil => rfl
  | cons d l ih =>
    simp only [Trace.mapLoop, result_bind, result_note, ih, result_ok, List.map_cons]
    rfl

theorem result_zipLoop (f : Digit → Digit → Digit) (l r : List Digit) (i : Nat) :
    result (Trace.zipLoop f i l r) = .ok (List.zipWith f l r) := by
  induction l generalizing r i with
  | nil => simp [Trace.zipLoop, result_ok]
  | cons d l ih =>
    cases r with
    | nil => simp [Trace.zipLoop, result_ok]
    | cons e r =>
      simp only [Trace.zipLoop, result_bind, result_note, ih, result_ok, List.zipWith_cons_cons]
      rfl

theorem result_modifyDigits (a : ApInt) (f : Digit → Digit) :
    result (Trace.modifyDigits a f) = a.modifyDigits f := by
  unfold Trace.modifyDigits ApInt.modifyDigits
  rw [result_bind, result_lift]
  congr 1
  funext d
  cases d
  · rfl
  · simp only [result_bind, result_mapLoop]
    rfl

theorem result_modifyZippedDigits (a b : ApInt) (f : Digit → Digit → Digit) :
    result (Trace.modifyZippedDigits a b f) = a.modifyZippedDigits b f := by
  unfold Trace.modifyZippedDigits ApInt.modifyZippedDigits
  rw [result_bind, result_lift]
  congr 1
  funext z
  rcases z with e | (_ | _)
  · rfl
  · rfl
  · simp only [result_bind, result_zipLoop]
    rfl

theorem result_clearUnusedBits (a : ApInt) :
    result (Trace.clearUnusedBits a) = a.clearUnusedBits := by
  unfold Trace.clearUnusedBits ApInt.clearUnusedBits
  cases a.width.excessBits with
  | none => rfl
  | some n =>
    simp only [result_bind, result_show, result_lift, result_pure]
    rfl

theorem result_bitnot (a : ApInt) : result (Trace.bitnot a) = a.bitnot := by
  unfold Trace.bitnot ApInt.bitnot
  simp only [result_bind, result_modifyDigits, result_clearUnusedBits]

theorem result_setAll (a : ApInt) : result (Trace.setAll a) = a.setAll := by
  unfold Trace.setAll ApInt.setAll
  simp only [result_bind, result_modifyDigits, result_clearUnusedBits]

theorem result_unsetAll (a : ApInt) : result (Trace.unsetAll a) = a.unsetAll :=
  result_modifyDigits _ _

theorem result_flipAll (a : ApInt) : result (Trace.flipAll a) = a.flipAll := by
  unfold Trace.flipAll ApInt.flipAll
  simp only [result_bind, result_modifyDigits, result_clearUnusedBits]

theorem result_getBitAt (a : ApInt) (p : Nat) : result (Trace.getBitAt a p) = a.getBitAt p := by
  unfold Trace.getBitAt ApInt.getBitAt
  cases verifyBitAccess a.width p with
  | error e => rfl
  | ok _ =>
    dsimp only
    rw [result_bind, result_lift]
    congr 1
    funext d
    cases d
    · simp only [result_bind, result_note, result_lift]
      rfl
    · simp only [result_bind, result_rd, result_lift]

theorem result_modifyBitAt (a : ApInt) (p : Nat) (op : Digit → Nat → Run (Res Unit × Digit)) :
    result (Trace.modifyBitAt a p op) = a.modifyBitAt p op := by
  unfold Trace.modifyBitAt ApInt.modifyBitAt
  cases verifyBitAccess a.width p with
  | error e => rfl
  | ok _ =>
    dsimp only
    rw [result_bind, result_lift]
    congr 1
    funext d
    cases d
    · simp only [result_bind, result_show, result_ok]
    · simp only [result_bind, result_rd, result_lift, result_wr, result_ok]

theorem result_setMsb (a : ApInt) : result (Trace.modifyMsb a Digit.set) = a.setMsb := by
  unfold Trace.modifyMsb ApInt.setMsb ApInt.setBitAt
  simp only [result_bind, result_modifyBitAt, result_lift, result_pure]
  rfl

theorem result_unsetMsb (a : ApInt) : result (Trace.modifyMsb a Digit.unset) = a.unsetMsb := by
  unfold Trace.modifyMsb ApInt.unsetMsb ApInt.unsetBitAt
  simp only [result_bind, result_modifyBitAt, result_lift, result_pure]
  rfl

theorem result_flipMsb (a : ApInt) : result (Trace.modifyMsb a Digit.flip) = a.flipMsb := by
  unfold Trace.modifyMsb ApInt.flipMsb ApInt.flipBitAt
  simp only [result_bind, result_modifyBitAt, result_lift, result_pure]
  rfl

theorem result_msb (a : ApInt) : result (Trace.msb a) = a.msb := result_show _ _

theorem result_lsb (a : ApInt) : result (Trace.lsb a) = a.lsb := result_show _ _

theorem result_isEven (a : ApInt) : result (Trace.isEven a) = a.isEven := by
  unfold Trace.isEven ApInt.isEven
  simp only [result_bind, result_lsb, result_pure]
  rfl

theorem result_countOnes (a : ApInt) : result (Trace.countOnes a) = a.countOnes := result_show _ _

theorem result_countZeros (a : ApInt) : result (Trace.countZeros a) = a.countZeros :=
  result_show _ _

theorem result_addDigits (l r : List Digit) (n : Nat) :
    result (Trace.addDigits l r n) = addDigits l r n := by
  unfold Trace.addDigits addDigits
  simp only [result_bind, result_rd, result_wr]
  congr 1
  funext x
  congr 1
  funext y
  congr 1
  funext m
  refine result_forRange _ _ _ ?_
  rintro i ⟨l, c⟩
  simp only [result_bind, result_rd, result_wr, result_ok]

theorem result_wrappingAddAssign (a b : ApInt) :
    result (Trace.wrappingAddAssign a b) = a.wrappingAddAssign b := by
  unfold Trace.wrappingAddAssign ApInt.wrappingAddAssign
  rw [result_bind, result_lift]
  congr 1
  funext z
  rcases z with e | (_ | _)
  · rfl
  · simp only [result_bind, result_note, result_ok, result_clearUnusedBits]
    rfl
  · simp only [result_bind, result_addDigits, result_ok, result_clearUnusedBits]

theorem result_subDigits (l r : List Digit) :
    result (Trace.subDigits l r) = subDigits l r := by
  unfold Trace.subDigits subDigits
  simp only [result_bind, result_rd, result_wr, result_ok]
  congr 1
  funext x
  congr 1
  funext y
  congr 1
  funext m
  congr 1
  refine result_forRange _ _ _ ?_
  rintro i ⟨l, c⟩
  simp only [result_bind, result_rd, result_wr, result_ok]

theorem result_wrappingSubAssign (a b : ApInt) :
    result (Trace.wrappingSubAssign a b) = a.wrappingSubAssign b := by
  unfold Trace.wrappingSubAssign ApInt.wrappingSubAssign
  rw [result_bind, result_lift]
  congr 1
  funext z
  rcases z with e | (_ | _)
  · rfl
  · simp only [result_bind, result_note, result_ok, result_clearUnusedBits]
    rfl
  · simp only [result_bind, result_subDigits, result_ok, result_clearUnusedBits]

theorem result_shlLoop (s : Nat) (l : List Digit) (i : Nat) (c : Digit) :
    result (Trace.shlLoop s i l c) = shlLoop s l c := by
  induction l generalizing i c with
  | nil => rfl
  | cons d l ih =>
    simp only [Trace.shlLoop, shlLoop, result_bind, result_note, result_lift, ih, result_ok]
    rfl

theorem result_shlDigits (l : List Digit) (s : Nat) :
    result (Trace.shlDigits l s) = shlDigits l s := by
  unfold Trace.shlDigits shlDigits
  simp only [result_bind, result_ite, result_note, result_lift, result_shlLoop, result_ok]
  rfl

theorem result_wrappingShlAssign (a : ApInt) (s : Nat) :
    result (Trace.wrappingShlAssign a s) = a.wrappingShlAssign s := by
  unfold Trace.wrappingShlAssign ApInt.wrappingShlAssign
  cases verifyShiftAmount a.width s with
  | error e => rfl
  | ok _ =>
    dsimp only
    rw [result_bind, result_lift]
    congr 1
    funext d
    cases d
    · simp only [result_bind, result_show, result_ok, result_clearUnusedBits]
    · simp only [result_bind, result_shlDigits, result_ok, result_clearUnusedBits]

theorem result_lshrLoop (s : Nat) (l : List Digit) (c : Digit) :
    result (Trace.lshrLoop s l c) = lshrLoop s l c := by
  induction l generalizing c with
  | nil => rfl
  | cons d l ih =>
    simp only [Trace.lshrLoop, lshrLoop, result_bind, result_note, result_lift, ih, result_ok]
    rfl

theorem result_lshrDigits (l : List Digit) (s : Nat) :
    result (Trace.lshrDigits l s) = lshrDigits l s := by
  unfold Trace.lshrDigits lshrDigits
  simp only [result_bind, result_ite, result_note, result_lift, result_lshrLoop, result_ok]
  rfl

theorem result_wrappingLshrAssign (a : ApInt) (s : Nat) :
    result (Trace.wrappingLshrAssign a s) = a.wrappingLshrAssign s := by
  unfold Trace.wrappingLshrAssign ApInt.wrappingLshrAssign
  cases verifyShiftAmount a.width s with
  | error e => rfl
  | ok _ =>
    dsimp only
    rw [result_bind, result_lift]
    congr 1
    funext d
    cases d
    · simp only [result_bind, result_show, result_ok]
    · simp only [result_bind, result_lshrDigits, result_ok]

theorem result_ashrDigits (l : List Digit) (w ds bs : Nat) :
    result (Trace.ashrDigits l w ds bs) = ashrDigits l w ds bs := by
  have e1 : ∀ lo hi (x : List Digit) (uns : Nat),
      result (Trace.forRange lo hi x fun i x => do
        let a ← Trace.rd .self x i
        let b ← Trace.rd .self x (i + 1)
        Trace.wr .self x i (Digit.bitor (Digit.shr a bs) (Digit.shl b uns))) =
      (forRange lo hi x fun i x => do
        let a ← idx x i
        let b ← idx x (i + 1)
        upd x i (Digit.bitor (Digit.shr a bs) (Digit.shl b uns))) := by
    intro lo hi x uns
    refine result_forRange _ _ _ fun i x => ?_
    simp only [result_bind, result_rd, result_wr]
  have e2 : ∀ lo hi (x : List Digit) (diff : Nat),
      result (Trace.forRange lo hi x fun i x => do
        let a ← Trace.rd .self x (i + diff)
        Trace.wr .self x (i + diff) (Digit.setAll a)) =
      (forRange lo hi x fun i x => do
        let a ← idx x (i + diff)
        upd x (i + diff) (Digit.setAll a)) := by
    intro lo hi x diff
    refine result_forRange _ _ _ fun i x => ?_
    simp only [result_bind, result_rd, result_wr]
  have e3 : ∀ lo hi (x : List Digit),
      result (Trace.forRange lo hi x fun i x => do
        let a ← Trace.rd .self x i
        let j ← csub i ds
        Trace.wr .self x j a) =
      (forRange lo hi x fun i x => do
        let a ← idx x i
        let j ← csub i ds
        upd x j a) := by
    intro lo hi x
    refine result_forRange _ _ _ fun i x => ?_
    simp only [result_bind, result_rd, result_wr, result_lift]
  have e4 : ∀ lo hi (x : List Digit) (uns : Nat),
      result (Trace.forRange lo hi x fun i x => do
        let a ← Trace.rd .self x i
        let b ← Trace.rd .self x (i + 1)
        let j ← csub i ds
        Trace.wr .self x j (Digit.bitor (Digit.shr a bs) (Digit.shl b uns))) =
      (forRange lo hi x fun i x => do
        let a ← idx x i
        let b ← idx x (i + 1)
        let j ← csub i ds
        upd x j (Digit.bitor (Digit.shr a bs) (Digit.shl b uns))) := by
    intro lo hi x uns
    refine result_forRange _ _ _ fun i x => ?_
    simp only [result_bind, result_rd, result_wr, result_lift]
  unfold Trace.ashrDigits ashrDigits
  simp only [result_bind, result_ite, result_lift, result_rd, result_wr, e1, e2, e3, e4, result_ok]

theorem result_wrappingAshrAssign (a : ApInt) (s : Nat) :
    result (Trace.wrappingAshrAssign a s) = a.wrappingAshrAssign s := by
  unfold Trace.wrappingAshrAssign ApInt.wrappingAshrAssign
  simp only [result_bind, result_msb, result_note, run_bind_ok]
  congr 1
  funext m
  rw [result_ite, result_wrappingLshrAssign]
  congr 1
  cases verifyShiftAmount a.width s with
  | error e => rfl
  | ok _ =>
    dsimp only
    rw [result_ite]
    congr 1
    rw [result_bind, result_lift]
    congr 1
    funext d
    cases d
    · simp only [result_bind, result_note, result_ok, result_lift, result_clearUnusedBits]
      rfl
    · simp only [result_bind, result_ashrDigits, result_ok, result_clearUnusedBits]
      rfl

theorem result_clone (a : ApInt) : result (Trace.clone a) = a.clone := by
  unfold Trace.clone
  cases a.storage <;> exact result_show _ _

theorem result_assign (a b : ApInt) : result (Trace.assign a b) = a.assign b := by
  unfold Trace.assign
  rw [result_ite, result_show]
  cases b.storage <;> simp only [result_show, ite_self]

theorem result_strictAssign (a b : ApInt) :
    result (Trace.strictAssign a b) = a.strictAssign b := by
  unfold Trace.strictAssign
  rw [result_ite, result_show, result_ok]
  by_cases h : a.width ≠ b.width
  · rw [if_pos h]
    unfold ApInt.strictAssign
    rw [if_pos h]
  · rw [if_neg h]

theorem result_truncateAux (n : Nat) (a : ApInt) (t : BitWidth) :
    result (Trace.truncateAux n a t) = truncateAux n a t := by
  induction n generalizing a with
  | zero => rfl
  | succ n ih =>
    unfold Trace.truncateAux ApInt.truncateAux Trace.truncateSameDigits Trace.collect
    simp only [result_ite, result_bind, result_lift, result_show, result_ok, ih]
    congr 1
    congr 1
    congr 1
    congr 1
    funext ds
    congr 1
    funext r
    congr 1
    funext c
    congr 1
    congr 1
    funext x
    rcases x with ⟨_ | _, c⟩ <;> rfl

theorem result_truncate (a : ApInt) (t : BitWidth) : result (Trace.truncate a t) = a.truncate t :=
  result_truncateAux 2 a t

theorem result_intoTruncate (a : ApInt) (t : BitWidth) :
    result (Trace.intoTruncate a t) = a.intoTruncate t := by
  unfold Trace.intoTruncate ApInt.intoTruncate tryForwardBinMutImpl
  rw [result_bind, result_truncate]
  congr 1
  funext p
  rcases p with ⟨_ | _, c⟩ <;> rfl

theorem result_zeroExtend (a : ApInt) (t : BitWidth) :
    result (Trace.zeroExtend a t) = a.zeroExtend t := by
  unfold Trace.zeroExtend ApInt.zeroExtend Trace.collect
  simp only [result_ite, result_bind, result_lift, result_show, result_ok]
  congr 1
  congr 1
  congr 1
  congr 1
  congr 1
  funext n
  congr 1
  funext ds
  congr 1
  funext r
  cases r with
  | error e => rfl
  | ok c =>
    dsimp only
    rw [result_bind, result_intoTruncate]
    congr 1
    funext r
    cases r <;> rfl

theorem result_zeroResize (a : ApInt) (t : BitWidth) :
    result (Trace.zeroResize a t) = a.zeroResize t := by
  unfold Trace.zeroResize ApInt.zeroResize
  simp only [result_ite, result_bind, result_truncate, result_zeroExtend, result_lift, result_pure]
  rfl

theorem result_signExtendMsd (a : ApInt) (w : BitWidth) :
    result (Trace.signExtendMsd a w) = a.signExtendMsd w := by
  unfold Trace.signExtendMsd ApInt.signExtendMsd
  cases w.excessWidth with
  | none => rfl
  | some x => simp only [result_bind, result_show, result_lift, result_ok]

theorem result_signExtend (a : ApInt) (t : BitWidth) :
    result (Trace.signExtend a t) = a.signExtend t := by
  unfold Trace.signExtend ApInt.signExtend Trace.collect
  simp only [result_ite, result_bind, result_lift, result_show, result_ok, result_msb, result_note,
    run_bind_ok, result_zeroExtend, result_signExtendMsd]
  congr 1
  congr 1
  congr 1
  funext m
  congr 1
  congr 1
  · congr 1
    funext p
    rcases p with ⟨_ | _, c⟩
    · rfl
    · simp only [result_bind, result_clearUnusedBits]
      rfl
  · congr 1
    congr 1
    funext n
    congr 1
    funext p
    rcases p with ⟨_ | _, c⟩
    · rfl
    · simp only [result_bind, result_lift, result_show]
      congr 1
      funext ds
      congr 1
      funext r
      cases r with
      | error e => rfl
      | ok c =>
        simp only [result_bind, result_intoTruncate]
        congr 1
        funext r
        cases r with
        | error e => rfl
        | ok c =>
          simp only [result_bind, result_clearUnusedBits]
          rfl

theorem result_incLoop (l : List Digit) (i : Nat) :
    result (Trace.incLoop i l) = .ok (incLoop l) := by
  induction l generalizing i with
  | nil => rfl
  | cons d l ih =>
    simp only [Trace.incLoop, incLoop, result_bind, result_note, run_bind_ok]
    rcases Digit.overflowingAdd d Digit.ONE with ⟨v, _ | _⟩
    · rfl
    · simp only [result_bind, ih, result_ok, run_bind_ok]

theorem result_wrappingInc (a : ApInt) : result (Trace.wrappingInc a) = a.wrappingInc := by
  unfold Trace.wrappingInc ApInt.wrappingInc
  rw [result_bind, result_lift]
  congr 1
  funext d
  cases d
  · simp only [result_bind, result_note, result_ok, result_clearUnusedBits]
    rfl
  · simp only [result_bind, result_incLoop, result_ok, result_clearUnusedBits]
    rfl

theorem result_decLoop (l : List Digit) (i : Nat) :
    result (Trace.decLoop i l) = .ok (decLoop l) := by
  induction l generalizing i with
  | nil => rfl
  | cons d l ih =>
    simp only [Trace.decLoop, decLoop, result_bind, result_note, run_bind_ok]
    rcases Digit.overflowingSub d Digit.ONE with ⟨v, _ | _⟩
    · rfl
    · simp only [result_bind, ih, result_ok, run_bind_ok]

theorem result_wrappingDec (a : ApInt) : result (Trace.wrappingDec a) = a.wrappingDec := by
  unfold Trace.wrappingDec ApInt.wrappingDec
  rw [result_bind, result_lift]
  congr 1
  funext d
  cases d
  · simp only [result_bind, result_note, result_ok, result_clearUnusedBits]
    rfl
  · simp only [result_bind, result_decLoop, result_ok, result_clearUnusedBits]
    rfl

theorem result_wrappingNeg (a : ApInt) : result (Trace.wrappingNeg a) = a.wrappingNeg := by
  unfold Trace.wrappingNeg ApInt.wrappingNeg
  simp only [result_bind, result_bitnot, result_wrappingInc]

theorem result_ultLoop (l : List (Digit × Digit)) : result (Trace.ultLoop l) = .ok (ultLoop l) := by
  induction l with
  | nil => rfl
  | cons p l ih =>
    obtain ⟨x, y⟩ := p
    simp only [Trace.ultLoop, ultLoop, result_bind, result_note, run_bind_ok, result_ite,
      result_ok, ih]
    split
    · rfl
    · split <;> rfl

theorem result_checkedUlt (a b : ApInt) :
    result (Trace.checkedUlt a b) = a.checkedUlt b := by
  unfold Trace.checkedUlt ApInt.checkedUlt
  rw [result_bind, result_lift]
  congr 1
  funext z
  rcases z with e | (_ | _)
  · rfl
  · rfl
  · simp only [result_bind, result_ultLoop, result_ok, run_bind_ok]

theorem result_zeroLoop (l : List Digit) (i : Nat) :
    result (Trace.zeroLoop i l) = .ok (l.all fun d => Digit.isZero d) := by
  induction l generalizing i with
  | nil => rfl
  | cons d l ih =>
    simp only [Trace.zeroLoop, result_bind, result_note, run_bind_ok, result_ite, result_ok, ih,
      List.all_cons]
    cases Digit.isZero d <;> rfl

theorem result_isZero (a : ApInt) : result (Trace.isZero a) = a.isZero := by
  unfold Trace.isZero ApInt.isZero
  rw [result_bind, result_lift]
  congr 1
  funext d
  cases d
  · rfl
  · exact result_zeroLoop _ _

end Verif
