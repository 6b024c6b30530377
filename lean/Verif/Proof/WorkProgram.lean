import Verif.Proof.WorkSigned
import Verif.Proof.WorkText
import Verif.Proof.TraceLenRun
import Verif.Model.WorkProgram
import Verif.SpecWorkProgram
import Verif.Props.WorkText

/-!
# The work of every call of a program
-/

namespace Verif

open ApInt Counted Watched

/-- `c` does what `r` does and counts at most `N`. -/
def Bnd {α : Type} (c : Counted α) (r : Run α) (N : Nat) : Prop := Costs c r fun _ k => k ≤ N

namespace Bnd

variable {α β : Type} {c : Counted α} {r : Run α} {N M : Nat}

theorem mono (h : Bnd c r N) (hNM : N ≤ M) : Bnd c r M :=
  Costs.mono h fun _ _ hn => Nat.le_trans hn hNM

theorem charge (h : N ≤ M) : Bnd (Counted.charge N r) r M :=
  Costs.charge.mono fun _ _ hn => by omega

theorem lift : Bnd (liftM r : Counted α) r N := Costs.lift.mono fun _ _ hn => by omega

theorem ok {a : α} : Bnd (Counted.ok a) (Except.ok a) N := Costs.ok (Nat.zero_le _)

theorem error {e : Fault} : Bnd (Counted.error e : Counted α) (Except.error e) N := Costs.error

theorem bind {f : α → Counted β} {g : α → Run β} (h : Bnd c r N)
    (k : ∀ a, r = .ok a → Bnd (f a) (g a) M) : Bnd (c >>= f) (r >>= g) (N + M) := by
  have h' : Costs c r fun a n => r = .ok a ∧ n ≤ N := by
    refine ⟨h.1, fun a ha => ?_⟩
    obtain ⟨n, h1, h2⟩ := h.2 a ha
    exact ⟨n, h1, ha, h2⟩
  exact Costs.bind h' fun a n hn => Costs.mono (k a hn.1) fun _ m hm => by omega

theorem ite {p : Prop} [Decidable p] {d : Counted α} {s : Run α} (h : p → Bnd c r N)
    (k : ¬p → Bnd d s N) : Bnd (if p then c else d) (if p then r else s) N := Costs.ite h k

theorem ofTrace {w : Watched α} (h : Spans w N) (e : result w = r) : Bnd (Count.ofTrace w) r N := by
  subst e
  cases w with
  | error f => exact ⟨fun e he => by cases he; rfl, fun a ha => by cases ha⟩
  | ok p =>
    obtain ⟨a, s⟩ := p
    refine ⟨fun e he => (by cases he), fun b hb => ?_⟩
    cases hb
    exact ⟨_, rfl, h a s rfl⟩

theorem tail {f : α → Counted β} {g : α → Run β} (h : Bnd c r N)
    (k : ∀ a, r = .ok a → Bnd (f a) (g a) 0) : Bnd (c >>= f) (r >>= g) N := bind h k

end Bnd

/-! ## Shapes of calls -/

section
variable {α : Type} {N M : Nat}

theorem done_bnd {c : Counted ApInt} {r : Run ApInt} (h : Bnd c r N) :
    Bnd (Count.done c) (done r) N := h.tail fun _ _ => Bnd.ok

theorem fine_bnd {c : Counted α} {r : Run α} (h : Bnd c r N) : Bnd (Count.fine c) (fine r) N :=
  h.tail fun _ _ => Bnd.ok

theorem tell_bnd {f : α → Out} {c : Counted α} {r : Run α} (h : Bnd c r N) :
    Bnd (Count.tell f c) (tell f r) N := h.tail fun _ _ => Bnd.ok

theorem tellRes_bnd {f : α → Out} {c : Counted (Res α)} {r : Run (Res α)} (h : Bnd c r N) :
    Bnd (Count.tellRes f c) (tellRes f r) N := by
  refine h.tail fun v _ => ?_
  cases v <;> exact Bnd.ok

theorem into_bnd {c : Counted (Res Unit × ApInt)} {r : Run (Res Unit × ApInt)} (h : Bnd c r N) :
    Bnd (Count.into c)
      (do let (r, this) ← r
          match r with
          | .error e => .ok (.error e)
          | .ok () => .ok (.ok this)) N := by
  refine h.tail fun v _ => ?_
  rcases v with ⟨_ | _, _⟩ <;> exact Bnd.ok

theorem unwrap_bnd {c : Counted (Res ApInt)} {r : Run (Res ApInt)} (h : Bnd c r N) :
    Bnd (Count.unwrap c) (unwrapRes r) N := h.tail fun _ _ => Bnd.lift

theorem unwrapMut_bnd {c : Counted (Res Unit × ApInt)} {r : Run (Res Unit × ApInt)} (h : Bnd c r N) :
    Bnd (Count.unwrapMut c) (unwrapMut r) N :=
  h.tail fun _ _ => Bnd.bind (N := 0) (M := 0) Bnd.lift fun _ _ => Bnd.ok

theorem pushRes_bnd {b : Bank} {c : Counted (Res ApInt)} {r : Run (Res ApInt)} (h : Bnd c r N) :
    Bnd (Count.pushRes b c) (pushRes b r) N := by
  refine h.tail fun v _ => ?_
  cases v <;> exact Bnd.ok

theorem storeRes_bnd {b : Bank} {x : Nat} {c : Counted (Res Unit × ApInt)}
    {r : Run (Res Unit × ApInt)} (h : Bnd c r N) : Bnd (Count.storeRes b x c) (storeRes b x r) N :=
  h.tail fun _ _ => Bnd.ok

end

section
variable {a b : ApInt} {W D : Nat}

theorem len_le (h : (a.w + 63) / 64 ≤ D) : a.lenDigits ≤ D := by
  rw [lenDigits_eq]
  exact h

theorem cloned_bnd {α : Type} {f : ApInt → Counted α} {g : ApInt → Run α} {N : Nat} (h : a.WF)
    (ha : (a.w + 63) / 64 ≤ D) (k : Bnd (f a) (g a) N) :
    Bnd (Count.ofTrace (Trace.clone a) >>= f) (a.clone >>= g) (2 * D + 1 + N) := by
  have := len_le ha
  refine Bnd.bind (Bnd.ofTrace (clone_sees.mono (by omega)) (result_clone a)) fun c hc => ?_
  rw [clone_ok h.1] at hc
  cases hc
  exact k

/-! ## Constructors -/

theorem fromIter_bnd (ds : List Digit) : Bnd (Count.fromIter ds) (ApInt.fromIter ds) (3 * ds.length) :=
  Bnd.charge (Nat.le_refl _)

theorem intoTruncate_bnd (t : BitWidth) :
    Bnd (Count.ofTrace (Trace.intoTruncate a t)) (a.intoTruncate t) (4 * t.requiredDigits + 4) :=
  Bnd.ofTrace (intoTruncate_sees t) (result_intoTruncate a t)

theorem repeatDigit_bnd (t : BitWidth) (d : Digit) :
    Bnd (Count.repeatDigit t d) (repeatDigit t d) (7 * t.requiredDigits + 4) := by
  unfold Count.repeatDigit repeatDigit
  refine (Bnd.bind (M := 4 * t.requiredDigits + 4) (fromIter_bnd _) fun r _ => ?_).mono
    (by rw [List.length_replicate]; omega)
  refine (Bnd.bind (N := 0) (M := 4 * t.requiredDigits + 4) Bnd.lift fun c _ => ?_).mono (by omega)
  exact (intoTruncate_bnd t).tail fun r _ => Bnd.lift

theorem forwardBin_eq {α β : Type} {x : α} {y : β} {f : α → β → Run α} :
    forwardBinMutImpl x y f = f x y := by
  unfold forwardBinMutImpl
  cases f x y <;> rfl

theorem forward_eq {α : Type} {x : α} {f : α → Run α} : forwardMutImpl x f = f x := by
  unfold forwardMutImpl
  cases f x <;> rfl

theorem one_bnd (t : BitWidth) : Bnd (Count.one t) (ApInt.one t) (6 * t.requiredDigits + 6) := by
  unfold Count.one ApInt.one
  refine (Bnd.bind (N := 1) (M := 6 * t.requiredDigits + 5) (Bnd.charge (Nat.le_refl _))
    fun c _ => ?_).mono (by omega)
  unfold intoZeroResize
  rw [forwardBin_eq]
  exact Bnd.ofTrace (zeroResize_sees t) (result_zeroResize c t)

theorem signedMinValue_bnd (t : BitWidth) :
    Bnd (Count.signedMinValue t) (signedMinValue t) (7 * t.requiredDigits + 4 + 2) := by
  unfold Count.signedMinValue signedMinValue zero
  exact Bnd.bind (repeatDigit_bnd t _) fun c _ =>
    Bnd.ofTrace (N := 2) (modifyMsb_sees _) (result_setMsb c)

theorem signedMaxValue_bnd (t : BitWidth) :
    Bnd (Count.signedMaxValue t) (signedMaxValue t) (7 * t.requiredDigits + 4 + 2) := by
  unfold Count.signedMaxValue signedMaxValue allSet
  exact Bnd.bind (repeatDigit_bnd t _) fun c _ =>
    Bnd.ofTrace (N := 2) (modifyMsb_sees _) (result_unsetMsb c)

theorem fromArray_bnd (v : List (BitVec 64)) :
    Bnd (Count.fromArray v) (fromArray v) (4 * v.length) := by
  unfold Count.fromArray fromArray
  refine Costs.charge_ok_bind ?_
  refine Costs.mono (Bnd.tail (fromIter_bnd v.reverse) fun r _ => Bnd.lift) fun _ n hn => ?_
  rw [List.length_reverse] at hn
  omega

theorem random_bnd (t : BitWidth) (rng : Rng) :
    Bnd (Count.randomWithWidthUsing t rng) (randomWithWidthUsing t rng)
      (8 * t.requiredDigits + 4) := by
  unfold Count.randomWithWidthUsing randomWithWidthUsing
  refine Bnd.ite (fun _ => Bnd.error) fun _ => ?_
  refine Costs.charge_ok_bind ?_
  refine Costs.mono (Bnd.bind (M := 4 * t.requiredDigits + 4) (fromIter_bnd _) fun r _ => ?_)
    fun _ n hn => (?_ : _ ≤ _)
  · refine (Bnd.bind (N := 0) (M := 4 * t.requiredDigits + 4) Bnd.lift fun c _ => ?_).mono (by omega)
    refine (intoTruncate_bnd t).tail fun r _ => ?_
    exact Bnd.tail Bnd.lift fun _ _ => Bnd.ok
  · have : (rng.take t.requiredDigits).length = t.requiredDigits := by simp [Rng.take]
    omega

theorem randomize_bnd (ha : a.Shape) (hD : (a.w + 63) / 64 ≤ D) (rng : Rng) :
    Bnd (Count.randomizeUsing a rng) (a.randomizeUsing rng) (2 * D + 2) := by
  unfold Count.randomizeUsing randomizeUsing
  refine (Bnd.bind (N := 0) (M := 2 * D + 2) Bnd.lift fun ds hds => ?_).mono (by omega)
  rw [asDigitSlice_ok ha] at hds
  cases hds
  refine Bnd.bind (Bnd.charge (by rw [ha.length_digits]; omega)) fun c _ => ?_
  exact (Bnd.ofTrace clearUnusedBits_sees (result_clearUnusedBits c)).tail fun _ _ => Bnd.ok

/-! ## Width changes -/

theorem signResize_bnd (t : BitWidth) :
    Bnd (Count.signResize a t) (a.signResize t) (6 * t.requiredDigits + 11) := by
  unfold Count.signResize signResize
  refine Bnd.ite (fun _ => ?_) fun _ => ?_
  · refine ((Bnd.ofTrace (truncate_sees t) (result_truncate a t)).tail fun p _ => ?_).mono (by omega)
    exact Bnd.tail Bnd.lift fun _ _ => Bnd.ok
  · refine (Bnd.ofTrace (signExtend_sees t) (result_signExtend a t)).tail fun p _ => ?_
    exact Bnd.tail Bnd.lift fun _ _ => Bnd.ok

/-! ## Comparisons -/

theorem eq_bnd (ha : a.Shape) (hb : b.Shape) (hA : (a.w + 63) / 64 ≤ D) (hB : (b.w + 63) / 64 ≤ D) :
    Bnd (Count.eq a b) (a.eq b) (2 * D) := by
  unfold Count.eq ApInt.eq
  refine Bnd.ite (fun _ => Bnd.ok) fun _ => ?_
  refine (Bnd.bind (N := 0) (M := 2 * D) Bnd.lift fun l hl => ?_).mono (by omega)
  refine (Bnd.bind (N := 0) (M := 2 * D) Bnd.lift fun r hr => ?_).mono (by omega)
  rw [asDigitSlice_ok ha] at hl
  rw [asDigitSlice_ok hb] at hr
  cases hl
  cases hr
  exact Bnd.charge (by rw [ha.length_digits, hb.length_digits]; omega)

theorem ult_bnd (hA : (a.w + 63) / 64 ≤ D) : Bnd (Count.checkedUlt a b) (a.checkedUlt b) (4 * D) :=
  Bnd.ofTrace (checkedUlt_sees.mono (by have := len_le hA; omega)) (result_checkedUlt a b)

theorem slt_bnd (hA : (a.w + 63) / 64 ≤ D) :
    Bnd (Count.checkedSlt a b) (a.checkedSlt b) (4 * D + 2) := by
  unfold Count.checkedSlt checkedSlt
  refine (Bnd.bind (N := 0) (M := 4 * D + 2) Bnd.lift fun z hz => ?_).mono (by omega)
  rcases z with e | ⟨l, r⟩ | ⟨l, r⟩
  · exact Bnd.ok
  · refine (Bnd.bind (N := 0) (M := 2) Bnd.lift fun n _ => ?_).mono (by omega)
    refine Bnd.bind (N := 1) (M := 1) (Bnd.charge (Nat.le_refl _)) fun _ _ => ?_
    exact Bnd.tail (Bnd.charge (Nat.le_refl _)) fun _ _ => Bnd.ok
  · refine (Bnd.bind (N := 1) (M := 4 * D + 1) (Bnd.charge (Nat.le_refl _)) fun lm _ => ?_).mono
      (by omega)
    refine (Bnd.bind (N := 1) (M := 4 * D) (Bnd.charge (Nat.le_refl _)) fun rm _ => ?_).mono
      (by omega)
    cases lm <;> cases rm
    · exact ult_bnd hA
    · exact Bnd.ok
    · exact Bnd.ok
    · exact ult_bnd hA

theorem not_bnd {c : Counted (Res Bool)} {r : Run (Res Bool)} {N : Nat} (h : Bnd c r N) :
    Bnd (do let r ← c; pure (mapNot r)) (do let r ← r; pure (mapNot r)) N :=
  h.tail fun _ _ => Bnd.ok

/-! ## Positions of bits -/

theorem zerosLoop_bnd (f : Digit → Nat) (l : List Digit) (z : Nat) :
    Bnd (Count.zerosLoop f l z) (.ok (ApInt.zerosLoop f l z)) l.length := by
  induction l generalizing z with
  | nil => exact Bnd.ok
  | cons d l ih =>
    unfold Count.zerosLoop ApInt.zerosLoop
    refine Costs.charge_ok_bind ?_
    dsimp only
    split
    · exact Costs.ok (by rw [List.length_cons]; omega)
    · exact Costs.mono (ih _) fun _ n hn => by rw [List.length_cons]; omega

/-- A counted step of a pure computation. -/
theorem bind_bnd {α β : Type} {c : Counted α} {x : α} {f : α → Counted β} {r : Run β} {N M : Nat}
    (h : Bnd c (.ok x) N) (k : Bnd (f x) r M) : Bnd (c >>= f) r (N + M) :=
  Costs.bind_ok h fun _ hn => Costs.mono k fun _ _ hm => by omega

theorem leadingZeros_bnd (ha : a.Shape) (hA : (a.w + 63) / 64 ≤ D) :
    Bnd (Count.leadingZeros a) a.leadingZeros D := by
  unfold Count.leadingZeros ApInt.leadingZeros
  refine (Bnd.bind (N := 0) (M := D) Bnd.lift fun ds hds => ?_).mono (by omega)
  rw [asDigitSlice_ok ha] at hds
  cases hds
  refine (bind_bnd (M := 0) (zerosLoop_bnd _ _ _) ?_).mono
    (by rw [List.length_reverse, ha.length_digits]; omega)
  exact Bnd.tail Bnd.lift fun _ _ => Bnd.lift

theorem trailingZeros_bnd (ha : a.Shape) (hA : (a.w + 63) / 64 ≤ D) :
    Bnd (Count.trailingZeros a) a.trailingZeros D := by
  unfold Count.trailingZeros ApInt.trailingZeros
  refine (Bnd.bind (N := 0) (M := D) Bnd.lift fun ds hds => ?_).mono (by omega)
  rw [asDigitSlice_ok ha] at hds
  cases hds
  refine (bind_bnd (M := 0) (zerosLoop_bnd _ _ _) ?_).mono
    (by rw [ha.length_digits]; omega)
  refine Bnd.ite (fun _ => ?_) fun _ => Bnd.ok
  exact Bnd.tail Bnd.lift fun _ _ => Bnd.lift

/-! ## Conversions to primitive types -/

theorem resizeTo_bnd (ty : PrimitiveTy) : Bnd (Count.resizeTo a ty) (resizeTo a ty) 2 :=
  Bnd.charge (by split <;> omega)

theorem anyNonzero_bnd (l : List Digit) :
    Bnd (Count.anyNonzero l) (.ok (l.any fun d => d != 0#64)) l.length := by
  induction l with
  | nil => exact Bnd.ok
  | cons d l ih =>
    unfold Count.anyNonzero
    refine Costs.charge_ok_bind ?_
    rw [List.any_cons]
    cases hd : d != 0#64
    · exact Costs.mono ih fun _ n hn => by rw [List.length_cons]; omega
    · exact Costs.ok (by rw [List.length_cons]; omega)

theorem split_length (ha : a.Shape) {d : Digit} {l : List Digit}
    (h : a.splitLeastSignificantDigit = .ok (d, l)) : l.length + 1 = (a.w + 63) / 64 := by
  rw [← ha.length_digits]
  obtain ⟨e, es, h1, h2⟩ := splitLeastSignificantDigit_ok ha
  rw [h2] at h
  cases h
  rw [h1, List.length_cons]

theorem splitFirstOr_length (l : List Digit) : (splitFirstOr l).2.length ≤ l.length := by
  cases l <;> simp [splitFirstOr]

theorem clone_bnd (hA : (a.w + 63) / 64 ≤ D) : Bnd (Count.clone a) a.clone (2 * D) :=
  Bnd.charge (by have := len_le hA; unfold Count.digits; omega)

theorem tryCast_bnd (ha : a.Shape) (hA : (a.w + 63) / 64 ≤ D) (ty : PrimitiveTy) :
    Bnd (Count.tryCastToPrimitiveTy a ty) (a.tryCastToPrimitiveTy ty) (3 * D) := by
  unfold Count.tryCastToPrimitiveTy tryCastToPrimitiveTy
  refine Bnd.ite (fun _ => Bnd.error) fun _ => ?_
  have hpos := pos_digits a
  refine (Bnd.bind (N := 1) (M := D - 1 + 2 * D) (Bnd.charge (Nat.le_refl _)) fun p hp => ?_).mono
    (by omega)
  obtain ⟨d, l⟩ := p
  have hl := split_length ha hp
  dsimp only
  have hbad : Bnd (Count.unfit (ty.isValidRepr d.toNat) l)
      (.ok (!ty.isValidRepr d.toNat || l.any fun d => d != 0#64)) (D - 1) := by
    cases ty.isValidRepr d.toNat
    · exact Bnd.ok
    · exact (anyNonzero_bnd l).mono (by omega)
  refine bind_bnd hbad ?_
  refine Bnd.ite (fun _ => ?_) fun _ => ?_
  · exact (clone_bnd hA).tail fun _ _ => Bnd.ok
  refine Bnd.ite (fun _ => ?_) fun _ => Bnd.ok
  refine Bnd.ite (fun _ => ?_) fun _ => Bnd.ok
  refine Bnd.tail Bnd.lift fun p _ => ?_
  obtain ⟨x, y⟩ := p
  refine Bnd.tail Bnd.lift fun _ _ => ?_
  refine Bnd.ite (fun _ => ?_) fun _ => Bnd.ok
  refine Bnd.tail Bnd.lift fun p _ => ?_
  obtain ⟨x, y⟩ := p
  exact Bnd.tail Bnd.lift fun _ _ => Bnd.ok

theorem tryToBool_bnd (ha : a.Shape) (hA : (a.w + 63) / 64 ≤ D) :
    Bnd (Count.tryToBool a) a.tryToBool (3 * D) := by
  unfold Count.tryToBool tryToBool
  refine (tryCast_bnd ha hA _).tail fun v _ => ?_
  cases v with
  | error e => exact Bnd.ok
  | ok d => exact Bnd.ite (fun _ => Bnd.ok) fun _ => Bnd.ite (fun _ => Bnd.ok) fun _ => Bnd.error

theorem tryToBits_bnd (ha : a.Shape) (hA : (a.w + 63) / 64 ≤ D) (ty : PrimitiveTy) (n : Nat) :
    Bnd (Count.tryToBits a ty n) (do let r ← a.tryCastToPrimitiveTy ty; pure (mapAs n r)) (3 * D) :=
  (tryCast_bnd ha hA ty).tail fun _ _ => Bnd.ok

theorem tryToI128_bnd (ha : a.Shape) (hA : (a.w + 63) / 64 ≤ D) :
    Bnd (Count.tryToI128 a) a.tryToI128 (3 * D + 1) := by
  unfold Count.tryToI128 tryToI128
  have hpos := pos_digits a
  refine (Bnd.bind (N := 1) (M := D + 2 * D) (Bnd.charge (Nat.le_refl _)) fun p hp => ?_).mono
    (by omega)
  obtain ⟨d, l⟩ := p
  have hl := split_length ha hp
  have hl' := splitFirstOr_length l
  dsimp only
  refine Costs.charge_ok_bind ?_
  generalize splitFirstOr l = q at hl' ⊢
  obtain ⟨e, m⟩ := q
  dsimp only at hl'
  refine Costs.mono (bind_bnd (N := D - 1) (M := 2 * D) ((anyNonzero_bnd m).mono (by omega)) ?_)
    fun _ n hn => by omega
  refine Bnd.ite (fun _ => ?_) fun _ => ?_
  · exact (clone_bnd hA).tail fun _ _ => Bnd.ok
  refine Bnd.tail Bnd.lift fun _ _ => ?_
  refine Bnd.tail Bnd.lift fun _ _ => ?_
  refine Bnd.ite (fun _ => ?_) fun _ => Bnd.ok
  refine Bnd.tail Bnd.lift fun _ _ => ?_
  exact Bnd.tail Bnd.lift fun _ _ => Bnd.ok

theorem tryToU128_bnd (ha : a.Shape) (hA : (a.w + 63) / 64 ≤ D) :
    Bnd (Count.tryToU128 a) a.tryToU128 (3 * D + 1) := by
  unfold Count.tryToU128 tryToU128
  have hpos := pos_digits a
  refine (Bnd.bind (N := 1) (M := D + 2 * D) (Bnd.charge (Nat.le_refl _)) fun p hp => ?_).mono
    (by omega)
  obtain ⟨d, l⟩ := p
  have hl := split_length ha hp
  have hl' := splitFirstOr_length l
  dsimp only
  refine Costs.charge_ok_bind ?_
  generalize splitFirstOr l = q at hl' ⊢
  obtain ⟨e, m⟩ := q
  dsimp only at hl'
  refine Costs.mono (bind_bnd (N := D - 1) (M := 2 * D) ((anyNonzero_bnd m).mono (by omega)) ?_)
    fun _ n hn => by omega
  refine Bnd.ite (fun _ => ?_) fun _ => ?_
  · exact (clone_bnd hA).tail fun _ _ => Bnd.ok
  refine Bnd.tail Bnd.lift fun _ _ => ?_
  exact Bnd.tail Bnd.lift fun _ _ => Bnd.ok

/-! ## Multiplications and divisions -/

/-- What a multiplication or division may touch. -/
def heavyWork (D : Nat) : Nat := 14 * D ^ 2 + 70 * D + 85

theorem divWork_heavy (hA : (a.w + 63) / 64 ≤ D) :
    divWork (2 * D) ((a.w + 63) / 64) + 23 * D + 18 ≤ heavyWork D := by
  have h := divWork_mono (r := 2 * D) hA
  unfold heavyWork
  have e : divWork (2 * D) D = 14 * D ^ 2 + 47 * D + 67 := by unfold divWork; ring
  omega

theorem quotient_small {x y : Nat} (hx : x < 2 ^ a.w) (hA : (a.w + 63) / 64 ≤ D) :
    x / y < 2 ^ (61 * (2 * D)) := by
  refine Nat.lt_of_le_of_lt (Nat.div_le_self _ _) (Nat.lt_of_lt_of_le hx ?_)
  refine Nat.pow_le_pow_right (by decide) ?_
  have := a.pos_w
  omega

theorem natAbs_lt (ha : a.WF) : a.sval.natAbs < 2 ^ a.w := by
  have h1 := ha.2
  have h2 : 2 ^ a.w = 2 * 2 ^ (a.w - 1) := by
    rw [← Nat.pow_succ']
    have := a.pos_w
    congr 1
    omega
  have h3 : ((2 : Int) ^ a.w) = ((2 ^ a.w : Nat) : Int) := by push_cast; rfl
  have h4 := Nat.two_pow_pos (a.w - 1)
  unfold sval
  rw [h3]
  generalize 2 ^ a.w = p at *
  generalize 2 ^ (a.w - 1) = q at *
  split <;> omega

theorem bin_bnd (o : Bin) (ha : a.WF) (hb : b.WF) (hA : (a.w + 63) / 64 ≤ D)
    (hB : (b.w + 63) / 64 ≤ D) :
    Bnd (Count.bin o a b) (o.exec a b) (if o.heavy then heavyWork D else 3 * D + 2) := by
  have hl := len_le hA
  have hp := pos_digits a
  have hh := divWork_heavy hA
  have q1 : a.uval / b.uval < 2 ^ (61 * (2 * D)) := quotient_small ha.2 hA
  have q2 : a.sval.natAbs / b.sval.natAbs < 2 ^ (61 * (2 * D)) := quotient_small (natAbs_lt ha) hA
  have e : divWork (2 * D) D + 23 * D + 18 = heavyWork D := by unfold divWork heavyWork; ring
  cases o with
  | add => exact Bnd.ofTrace (wrappingAddAssign_sees.mono (by show _ ≤ 3 * D + 2; omega)) (result_wrappingAddAssign a b)
  | sub => exact Bnd.ofTrace (wrappingSubAssign_sees.mono (by show _ ≤ 3 * D + 2; omega)) (result_wrappingSubAssign a b)
  | and =>
    exact Bnd.ofTrace ((modifyZippedDigits_sees _).mono (by show _ ≤ 3 * D + 2; omega))
      (result_modifyZippedDigits a b _)
  | or =>
    exact Bnd.ofTrace ((modifyZippedDigits_sees _).mono (by show _ ≤ 3 * D + 2; omega))
      (result_modifyZippedDigits a b _)
  | xor =>
    exact Bnd.ofTrace ((modifyZippedDigits_sees _).mono (by show _ ≤ 3 * D + 2; omega))
      (result_modifyZippedDigits a b _)
  | mul =>
    refine (wrappingMulAssign_costs ha.1 hb.1).mono fun _ n hn => (?_ : n ≤ heavyWork D)
    have := Nat.pow_le_pow_left hA 2
    unfold heavyWork
    omega
  | udiv =>
    exact (wrappingUdivAssign_costs ha.1 hb.1 q1).mono fun _ n hn =>
      (by omega : n ≤ heavyWork D)
  | urem =>
    exact (wrappingUremAssign_costs ha.1 hb.1 q1).mono fun _ n hn =>
      (by omega : n ≤ heavyWork D)
  | sdiv =>
    exact (wrappingSdivAssign_any ha hb hA hB q2).mono fun _ n hn => (by omega : n ≤ heavyWork D)
  | srem =>
    exact (wrappingSremAssign_any ha hb hA hB q2).mono fun _ n hn => (by omega : n ≤ heavyWork D)

theorem pair_bnd (o : Pair) (ha : a.WF) (hb : b.WF) (hA : (a.w + 63) / 64 ≤ D)
    (hB : (b.w + 63) / 64 ≤ D) : Bnd (Count.pair o a b) (o.exec a b) (heavyWork D) := by
  have hp := pos_digits a
  have hh := divWork_heavy hA
  have q1 : a.uval / b.uval < 2 ^ (61 * (2 * D)) := quotient_small ha.2 hA
  have q2 : a.sval.natAbs / b.sval.natAbs < 2 ^ (61 * (2 * D)) := quotient_small (natAbs_lt ha) hA
  have e : divWork (2 * D) D + 23 * D + 18 = heavyWork D := by unfold divWork heavyWork; ring
  cases o with
  | udivrem =>
    exact (wrappingUdivremAssign_costs ha.1 hb.1 q1).mono fun _ n hn =>
      (by omega : n ≤ heavyWork D)
  | uremdiv =>
    exact (wrappingUremdivAssign_costs ha.1 hb.1 q1).mono fun _ n hn =>
      (by omega : n ≤ heavyWork D)
  | sdivrem =>
    exact (wrappingSdivremAssign_any ha hb hA hB q2).mono fun _ n hn => (by omega : n ≤ heavyWork D)
  | sremdiv =>
    exact (wrappingSremdivAssign_any ha hb hA hB q2).mono fun _ n hn => (by omega : n ≤ heavyWork D)

/-! ## All calls -/

theorem make_bnd (m : Make) (hm : m.Within W) :
    Bnd (Count.make m) m.exec (8 * ((W + 63) / 64) + 6 + 7 * (Instr.make m).textBytes) := by
  have hw : ∀ {t : BitWidth} {z : AInt}, m.spec = .ok z → z.width = t.toUsize →
      t.requiredDigits ≤ (W + 63) / 64 := by
    intro t z h1 h2
    exact digits_le (by rw [← h2]; exact hm z h1)
  have rep : ∀ {t : BitWidth} {d : Digit}, t.requiredDigits ≤ (W + 63) / 64 →
      Bnd (Count.fine (Count.repeatDigit t d)) (fine (repeatDigit t d))
        (8 * ((W + 63) / 64) + 6 + 7 * (Instr.make m).textBytes) := by
    intro t d h
    exact (fine_bnd (repeatDigit_bnd t d)).mono (by omega)
  have prim : ∀ {r : Run ApInt}, Bnd (Count.fine (charge 1 r)) (fine r)
      (8 * ((W + 63) / 64) + 6 + 7 * (Instr.make m).textBytes) := by
    intro r
    exact fine_bnd (Bnd.charge (by omega))
  cases m with
  | zero t => exact rep (hw rfl rfl)
  | one t => exact (fine_bnd (one_bnd t)).mono (by have := hw (t := t) rfl rfl; omega)
  | allUnset t => exact rep (hw rfl rfl)
  | allSet t => exact rep (hw rfl rfl)
  | unsignedMin t => exact rep (hw rfl rfl)
  | unsignedMax t => exact rep (hw rfl rfl)
  | signedMin t => exact (fine_bnd (signedMinValue_bnd t)).mono (by have := hw (t := t) rfl rfl; omega)
  | signedMax t => exact (fine_bnd (signedMaxValue_bnd t)).mono (by have := hw (t := t) rfl rfl; omega)
  | bool v => exact prim
  | u8 v => exact prim
  | i8 v => exact prim
  | u16 v => exact prim
  | i16 v => exact prim
  | u32 v => exact prim
  | i32 v => exact prim
  | u64 v => exact prim
  | i64 v => exact prim
  | u128 v =>
    have h : 128 ≤ W := hm _ rfl
    exact (fine_bnd (fromArray_bnd _)).mono (by rw [List.length_cons, List.length_singleton]; omega)
  | i128 v =>
    have h : 128 ≤ W := hm _ rfl
    exact (fine_bnd (fromArray_bnd _)).mono (by rw [List.length_cons, List.length_singleton]; omega)
  | array v vs =>
    have h : 64 * (vs.length + 1) ≤ W := hm _ rfl
    exact (fine_bnd (fromArray_bnd (v :: vs))).mono (by rw [List.length_cons]; omega)
  | digits ds =>
    refine (fromIter_bnd ds).mono ?_
    cases ds with
    | nil => exact Nat.zero_le _
    | cons d ds =>
      have h : 64 * (d :: ds).length ≤ W := hm ⟨_, _⟩ (by simp only [Make.spec]; rfl)
      omega
  | parse k s =>
    refine fromStrRadix_costs.mono fun _ n hn => ?_
    have h := hn.1 ((by decide : ∀ k : Fin 5, 2 ^ (k.val + 1) ∈ [2, 4, 8, 16, 32]) k)
    rw [utf8Bytes_length] at h
    unfold bytesOf at h
    show n ≤ _ + 7 * (String.ofList s).utf8ByteSize
    omega
  | random t rng =>
    have h := hw (t := t) rfl rfl
    refine Bnd.mono (N := 8 * t.requiredDigits + 4) (fine_bnd ?_) (by omega)
    exact (random_bnd t rng).tail fun _ _ => Bnd.ok

theorem un_bnd (o : Un) (ho : o.Within W) (ha : a.WF) (hW : a.w ≤ W) :
    Bnd (Count.un o a) (o.exec a) (6 * ((W + 63) / 64) + 11) := by
  have hl : a.lenDigits ≤ (W + 63) / 64 := digits_le hW
  cases o with
  | bitnot => exact done_bnd (Bnd.ofTrace ((mapClear_sees _).mono (by omega)) (result_bitnot a))
  | neg => exact done_bnd (Bnd.ofTrace ((wrappingNeg_sees ha).mono (by omega)) (result_wrappingNeg a))
  | inc => exact done_bnd (Bnd.ofTrace (wrappingInc_sees.mono (by omega)) (result_wrappingInc a))
  | dec => exact done_bnd (Bnd.ofTrace (wrappingDec_sees.mono (by omega)) (result_wrappingDec a))
  | shl s => exact Bnd.ofTrace ((wrappingShlAssign_sees s).mono (by omega)) (result_wrappingShlAssign a s)
  | lshr s =>
    exact Bnd.ofTrace ((wrappingLshrAssign_sees s).mono (by omega)) (result_wrappingLshrAssign a s)
  | ashr s =>
    exact Bnd.ofTrace ((wrappingAshrAssign_sees s).mono (by omega)) (result_wrappingAshrAssign a s)
  | truncate t =>
    have := digits_le (t := t) ho
    exact Bnd.ofTrace ((truncate_sees t).mono (by omega)) (result_truncate a t)
  | zeroExtend t =>
    have := digits_le (t := t) ho
    exact Bnd.ofTrace ((zeroExtend_sees t).mono (by omega)) (result_zeroExtend a t)
  | signExtend t =>
    have := digits_le (t := t) ho
    exact Bnd.ofTrace ((signExtend_sees t).mono (by omega)) (result_signExtend a t)
  | zeroResize t =>
    have := digits_le (t := t) ho
    exact done_bnd (Bnd.ofTrace ((zeroResize_sees t).mono (by omega)) (result_zeroResize a t))
  | signResize t =>
    have := digits_le (t := t) ho
    exact done_bnd ((signResize_bnd t).mono (by omega))

theorem intoUn_bnd (o : Un) (ho : o.Within W) (ha : a.WF) (hW : a.w ≤ W) :
    Bnd (Count.into (Count.un o a)) (o.execInto a) (6 * ((W + 63) / 64) + 11) := by
  have h := into_bnd (un_bnd o ho ha hW)
  cases o with
  | bitnot => exact cast (congrArg (Bnd _ · _) ((into_done _).trans (by rw [← forward_eq (f := bitnot)]; rfl))) h
  | neg => exact cast (congrArg (Bnd _ · _) ((into_done _).trans (by rw [← forward_eq (f := wrappingNeg)]; rfl))) h
  | inc => exact cast (congrArg (Bnd _ · _) ((into_done _).trans (by rw [← forward_eq (f := wrappingInc)]; rfl))) h
  | dec => exact cast (congrArg (Bnd _ · _) ((into_done _).trans (by rw [← forward_eq (f := wrappingDec)]; rfl))) h
  | shl s => exact h
  | lshr s => exact h
  | ashr s => exact h
  | truncate t => exact h
  | zeroExtend t => exact h
  | signExtend t => exact h
  | zeroResize t =>
    exact cast (congrArg (Bnd _ · _) ((into_done _).trans (by rw [← forwardBin_eq (f := zeroResize)]; rfl))) h
  | signResize t =>
    exact cast (congrArg (Bnd _ · _) ((into_done _).trans (by rw [← forwardBin_eq (f := signResize)]; rfl))) h

theorem alter_bnd (o : Alter) (ha : a.WF) (hW : a.w ≤ W) :
    Bnd (Count.alter o a) (o.exec a) (2 * ((W + 63) / 64) + 2) := by
  have hl : a.lenDigits ≤ (W + 63) / 64 := digits_le hW
  cases o with
  | setAll => exact done_bnd (Bnd.ofTrace ((mapClear_sees _).mono (by omega)) (result_setAll a))
  | unsetAll => exact done_bnd (Bnd.ofTrace ((modifyDigits_sees _).mono (by omega)) (result_unsetAll a))
  | flipAll => exact done_bnd (Bnd.ofTrace ((mapClear_sees _).mono (by omega)) (result_flipAll a))
  | setMsb => exact done_bnd (Bnd.ofTrace ((modifyMsb_sees _).mono (by omega)) (result_setMsb a))
  | unsetMsb => exact done_bnd (Bnd.ofTrace ((modifyMsb_sees _).mono (by omega)) (result_unsetMsb a))
  | flipMsb => exact done_bnd (Bnd.ofTrace ((modifyMsb_sees _).mono (by omega)) (result_flipMsb a))
  | setBit p => exact Bnd.ofTrace ((modifyBitAt_sees p _).mono (by omega)) (result_modifyBitAt a p _)
  | unsetBit p => exact Bnd.ofTrace ((modifyBitAt_sees p _).mono (by omega)) (result_modifyBitAt a p _)
  | flipBit p => exact Bnd.ofTrace ((modifyBitAt_sees p _).mono (by omega)) (result_modifyBitAt a p _)
  | randomize rng =>
    exact done_bnd ((randomize_bnd ha.1 (D := (W + 63) / 64) (by omega) rng).tail
      (f := fun p => pure p.1) (g := fun p => pure p.1) fun _ _ => Bnd.ok)

theorem tryTo_bnd (ha : a.Shape) (hA : (a.w + 63) / 64 ≤ D) (ty : PrimitiveTy) :
    Bnd (Count.tryTo a ty) (tryTo a ty) (3 * D + 1) := by
  have bits : ∀ (ty : PrimitiveTy) (n : Nat), _ := fun ty n =>
    (tryToBits_bnd ha hA ty n).mono (Nat.le_succ _)
  cases ty with
  | bool => exact tellRes_bnd ((tryToBool_bnd ha hA).mono (Nat.le_succ _))
  | i8 => exact tellRes_bnd (bits .i8 8)
  | u8 => exact tellRes_bnd (bits .u8 8)
  | i16 => exact tellRes_bnd (bits .i16 16)
  | u16 => exact tellRes_bnd (bits .u16 16)
  | i32 => exact tellRes_bnd (bits .i32 32)
  | u32 => exact tellRes_bnd (bits .u32 32)
  | i64 => exact tellRes_bnd (bits .i64 64)
  | u64 => exact tellRes_bnd (bits .u64 64)
  | i128 => exact tellRes_bnd (tryToI128_bnd ha hA)
  | u128 => exact tellRes_bnd (tryToU128_bnd ha hA)

theorem ask_bnd (q : Ask) (ha : a.WF) (hW : a.w ≤ W) :
    Bnd (Count.ask q a) (q.exec a) (66 * ((W + 63) / 64)) := by
  have hl : a.lenDigits ≤ (W + 63) / 64 := digits_le hW
  have hA : (a.w + 63) / 64 ≤ (W + 63) / 64 := by omega
  have hp := pos_digits a
  cases q with
  | width => exact Bnd.ok
  | isZero => exact tell_bnd (Bnd.ofTrace (isZero_sees.mono (by omega)) (result_isZero a))
  | isAllUnset => exact tell_bnd (Bnd.ofTrace (isZero_sees.mono (by omega)) (result_isZero a))
  | isEven => exact tell_bnd (Bnd.ofTrace (r := a.isEven) (Spans.mono (N := 1) (Spans.bind (M := 0) (Spans.shown (Nat.le_refl _)) fun _ _ => Spans.pure) (by omega)) (result_isEven a))
  | isOdd => exact tell_bnd (Bnd.ofTrace (Spans.mono (N := 1) (Spans.shown (Nat.le_refl _)) (by omega)) (result_lsb a))
  | msb => exact tell_bnd (Bnd.ofTrace (Spans.mono (N := 1) (Spans.shown (Nat.le_refl _)) (by omega)) (result_msb a))
  | lsb => exact tell_bnd (Bnd.ofTrace (Spans.mono (N := 1) (Spans.shown (Nat.le_refl _)) (by omega)) (result_lsb a))
  | bit p => exact tellRes_bnd (Bnd.ofTrace ((getBitAt_sees p).mono (by omega)) (result_getBitAt a p))
  | countOnes => exact tell_bnd (Bnd.ofTrace (countOnes_sees.mono (by omega)) (result_countOnes a))
  | countZeros => exact tell_bnd (Bnd.ofTrace (countZeros_sees.mono (by omega)) (result_countZeros a))
  | leadingZeros => exact tell_bnd ((leadingZeros_bnd ha.1 hA).mono (by omega))
  | trailingZeros => exact tell_bnd ((trailingZeros_bnd ha.1 hA).mono (by omega))
  | resize ty => exact (resizeTo_bnd ty).mono (by omega)
  | tryTo ty => exact (tryTo_bnd ha.1 hA ty).mono (by omega)
  | binary =>
    exact tell_bnd ((fmt_costs (b := 2) (w := 64) (ch := lowerChar) ha.1 (by decide) (by decide) rfl
      (by decide)).mono fun _ n hn => (by omega : n ≤ 66 * ((W + 63) / 64)))
  | lowerHex =>
    exact tell_bnd ((fmt_costs (b := 16) (w := 16) (ch := lowerChar) ha.1 (by decide) (by decide) rfl
      (by decide)).mono fun _ n hn => (by omega : n ≤ 66 * ((W + 63) / 64)))
  | upperHex =>
    exact tell_bnd ((fmt_costs (b := 16) (w := 16) (ch := upperChar) ha.1 (by decide) (by decide) rfl
      (by decide)).mono fun _ n hn => (by omega : n ≤ 66 * ((W + 63) / 64)))
  | octal =>
    refine tell_bnd ?_
    unfold Count.fmtOctal fmtOctal
    refine (Bnd.bind (N := (W + 63) / 64) (M := 1) (Bnd.charge (by unfold Count.digits; omega))
      fun z _ => ?_).mono (by omega)
    exact Bnd.ite (fun _ => Bnd.charge (Nat.le_refl _)) fun _ => Bnd.error

theorem ask2_bnd (q : Ask2) (ha : a.WF) (hb : b.WF) (hA : (a.w + 63) / 64 ≤ D)
    (hB : (b.w + 63) / 64 ≤ D) : Bnd (Count.ask2 q a b) (q.exec a b) (4 * D + 2) := by
  cases q with
  | eq => exact tell_bnd ((eq_bnd ha.1 hb.1 hA hB).mono (by omega))
  | ult => exact tellRes_bnd ((ult_bnd hA).mono (by omega))
  | ule => exact tellRes_bnd ((not_bnd (ult_bnd hB)).mono (by omega))
  | ugt => exact tellRes_bnd ((ult_bnd hB).mono (by omega))
  | uge => exact tellRes_bnd ((not_bnd (ult_bnd hA)).mono (by omega))
  | slt => exact tellRes_bnd (slt_bnd hA)
  | sle => exact tellRes_bnd (not_bnd (slt_bnd hB))
  | sgt => exact tellRes_bnd (slt_bnd hB)
  | sge => exact tellRes_bnd (not_bnd (slt_bnd hA))

theorem exec_bnd (i : Instr) (hi : i.Within W) {b : Bank} (hb : ∀ a ∈ b, a.WF ∧ a.w ≤ W) :
    Bnd (Count.exec i b) (i.exec b) (i.mayTouch ((W + 63) / 64)) := by
  have one : ∀ (x : Nat) {N : Nat} {f : ApInt → Counted (Res Out × Bank)}
      {g : ApInt → Run (Res Out × Bank)}, (∀ a, a.WF → a.w ≤ W → Bnd (f a) (g a) N) →
      Bnd (match b[x]? with | some a => f a | none => pure (.ok .unit, b))
        (match b[x]? with | some a => g a | none => pure (.ok .unit, b)) N := by
    intro x N f g k
    cases hx : b[x]? with
    | none => exact Bnd.ok
    | some a =>
      have := hb a (List.mem_of_getElem? hx)
      exact k a this.1 this.2
  have two : ∀ (x y : Nat) {N : Nat} {f : ApInt → ApInt → Counted (Res Out × Bank)}
      {g : ApInt → ApInt → Run (Res Out × Bank)},
      (∀ a c, a.WF → c.WF → a.w ≤ W → c.w ≤ W → Bnd (f a c) (g a c) N) →
      Bnd (match b[x]?, b[y]? with | some a, some c => f a c | _, _ => pure (.ok .unit, b))
        (match b[x]?, b[y]? with | some a, some c => g a c | _, _ => pure (.ok .unit, b)) N := by
    intro x y N f g k
    cases hx : b[x]? with
    | none => exact Bnd.ok
    | some a =>
      cases hy : b[y]? with
      | none => exact Bnd.ok
      | some c =>
        have h1 := hb a (List.mem_of_getElem? hx)
        have h2 := hb c (List.mem_of_getElem? hy)
        exact k a c h1.1 h2.1 h1.2 h2.2
  have up : ∀ {w : Nat}, w ≤ W → (w + 63) / 64 ≤ (W + 63) / 64 := by intro w h; omega
  have heavy : ∀ {h : Bool} {D k : Nat},
      k ≤ 2 * D + 1 →
      k + (if h then heavyWork D else 3 * D + 2) ≤
        (if h then 14 * D ^ 2 + 72 * D + 86 else 66 * D + 12) + 7 * 0 := by
    intro h D k hk
    unfold heavyWork
    cases h
    · show k + (3 * D + 2) ≤ 66 * D + 12 + 0
      omega
    · show k + (14 * D ^ 2 + 70 * D + 85) ≤ 14 * D ^ 2 + 72 * D + 86 + 0
      omega
  have light : ∀ {D k : Nat}, k ≤ 66 * D + 12 →
      k ≤ (if false = true then 14 * D ^ 2 + 72 * D + 86 else 66 * D + 12) + 7 * 0 := by
    intro D k hk
    exact hk
  cases i with
  | make m =>
    refine pushRes_bnd ((make_bnd m hi).mono ?_)
    show _ ≤ 66 * ((W + 63) / 64) + 12 + 7 * (Instr.make m).textBytes
    omega
  | clone x =>
    refine one x fun a ha hw => pushRes_bnd (fine_bnd (Bnd.ofTrace (clone_sees.mono (light ?_))
      (result_clone a)))
    have := len_le (up hw)
    omega
  | drop x => exact Bnd.ok
  | assign x y =>
    refine two x y fun a c ha hc hw hv => storeRes_bnd (done_bnd (Bnd.ofTrace
      ((assign_sees (len_le (up hw)) (len_le (up hv))).mono (light (by omega))) (result_assign a c)))
  | strictAssign x y =>
    refine two x y fun a c ha hc hw hv => storeRes_bnd (Bnd.ofTrace
      (strictAssign_sees.mono (light ?_)) (result_strictAssign a c))
    have := len_le (up hw)
    omega
  | un o x =>
    exact one x fun a ha hw => storeRes_bnd ((un_bnd o hi ha hw).mono (light (by omega)))
  | intoUn o x =>
    exact one x fun a ha hw => pushRes_bnd ((cloned_bnd ha (up hw) (intoUn_bnd o hi ha hw)).mono
      (light (by omega)))
  | alter o x =>
    exact one x fun a ha hw => storeRes_bnd ((alter_bnd o ha hw).mono (light (by omega)))
  | bin o x y =>
    exact two x y fun a c ha hc hw hv => storeRes_bnd ((bin_bnd o ha hc (up hw) (up hv)).mono
      (Nat.le_trans (Nat.le_of_eq (Nat.zero_add _).symm) (heavy (Nat.zero_le _))))
  | intoBin o x y =>
    refine two x y fun a c ha hc hw hv => pushRes_bnd ((cloned_bnd ha (up hw) ?_).mono
      (heavy (Nat.le_refl _)))
    have h := into_bnd (bin_bnd o ha hc (up hw) (up hv))
    cases o <;> exact h
  | opAssign o x y =>
    refine two x y fun a c ha hc hw hv => storeRes_bnd (done_bnd (Bnd.mono (N := if o.bin.heavy then
      heavyWork ((W + 63) / 64) else 3 * ((W + 63) / 64) + 2) ?_
      (Nat.le_trans (Nat.le_of_eq (Nat.zero_add _).symm) (heavy (Nat.zero_le _)))))
    have h := unwrapMut_bnd (bin_bnd o.bin ha hc (up hw) (up hv))
    cases o <;> exact h
  | op o x y =>
    refine two x y fun a c ha hc hw hv => pushRes_bnd ((cloned_bnd (N := if o.bin.heavy then
      heavyWork ((W + 63) / 64) else 3 * ((W + 63) / 64) + 2) ha (up hw) ?_).mono
      (heavy (Nat.le_refl _)))
    have h := fine_bnd (unwrap_bnd (into_bnd (bin_bnd o.bin ha hc (up hw) (up hv))))
    cases o <;> exact h
  | opShlAssign n x =>
    exact one x fun a ha hw => storeRes_bnd (done_bnd (unwrapMut_bnd
      ((un_bnd (.shl n) trivial ha hw).mono (light (by omega)))))
  | opShl n x =>
    exact one x fun a ha hw => pushRes_bnd ((cloned_bnd ha (up hw)
      (fine_bnd (unwrap_bnd (into_bnd (un_bnd (.shl n) trivial ha hw))))).mono (light (by omega)))
  | pair o x y =>
    refine two x y fun a c ha hc hw hv => Bnd.mono (N := heavyWork ((W + 63) / 64))
      ((pair_bnd o ha hc (up hw) (up hv)).tail fun _ _ => Bnd.ok) ?_
    exact Nat.le_trans (Nat.le_of_eq (Nat.zero_add _).symm)
      (heavy (h := true) (k := 0) (Nat.zero_le _))
  | ask q x =>
    exact one x fun a ha hw => Bnd.tail ((ask_bnd q ha hw).mono (light (by omega))) fun _ _ => Bnd.ok
  | ask2 q x y =>
    exact two x y fun a c ha hc hw hv => Bnd.tail ((ask2_bnd q ha hc (up hw) (up hv)).mono
      (light (by omega))) fun _ _ => Bnd.ok

end

end Verif
