import Verif.Model.TracePrim
import Verif.Proof.TraceApart
import Verif.Proof.TraceRun
import Verif.Proof.ToPrim

/-!
# What the conversions to primitive types show
-/

namespace Verif

open ApInt Watched

section
variable {α β : Type} {a a' : ApInt}

/-! ## Without the trace -/

theorem all_zero (l : List Digit) : (l.all fun d => Digit.isZero d) = decide (val l = 0) := by
  rw [Bool.eq_iff_iff, List.all_eq_true, decide_eq_true_eq, val_eq_zero_iff]
  simp [Digit.isZero, Digit.ZERO]

theorem result_restZero (i : Nat) (l : List Digit) (g b : Watched α) :
    result (Trace.restZero i l g b) =
      if l.any fun d => d != 0#64 then result b else result g := by
  unfold Trace.restZero
  rw [result_bind, result_zeroLoop, run_bind_ok, all_zero, any_ne_zero, result_ite]
  by_cases h : val l = 0 <;> simp [h]

theorem result_refuse (a : ApInt) (ty : PrimitiveTy) : result (Trace.refuse (α := α) a ty) =
    (do
      let c ← a.clone
      .ok (.error (.valueUnrepresentable c ty)) : Run (Res α)) := by
  unfold Trace.refuse
  rw [result_bind, result_clone]
  rfl

theorem result_tryCast (a : ApInt) (ty : PrimitiveTy) :
    result (Trace.tryCastToPrimitiveTy a ty) = a.tryCastToPrimitiveTy ty := by
  unfold Trace.tryCastToPrimitiveTy tryCastToPrimitiveTy
  rw [result_ite]
  congr 1
  rw [result_bind, result_lift]
  congr 1
  funext p
  obtain ⟨d, ds⟩ := p
  dsimp only
  rw [result_bind, result_note, run_bind_ok]
  unfold Trace.castRest
  cases ty.isValidRepr d.toNat
  · rw [if_neg (by simp), result_refuse]
    rfl
  · rw [if_pos rfl, result_restZero, result_refuse]
    simp only [Bool.not_true, Bool.false_or]
    congr 1
    rw [result_lift]
    rfl

theorem result_tryToBool (a : ApInt) : result (Trace.tryToBool a) = a.tryToBool := by
  unfold Trace.tryToBool ApInt.tryToBool
  rw [result_bind, result_tryCast]
  congr 1
  funext r
  rcases r with e | d
  · rfl
  · unfold Trace.boolTail
    dsimp only
    rw [result_bind, result_note, run_bind_ok, result_ite, result_ite]
    rfl

theorem result_tryToBits (a : ApInt) (ty : PrimitiveTy) (n : Nat) :
    result (Trace.tryToBits a ty n) = (do
      let r ← a.tryCastToPrimitiveTy ty
      pure (mapAs n r) : Run (Res (BitVec n))) := by
  unfold Trace.tryToBits
  rw [result_bind, result_tryCast]
  rfl

theorem result_tryToI128 (a : ApInt) : result (Trace.tryToI128 a) = a.tryToI128 := by
  unfold Trace.tryToI128 ApInt.tryToI128
  rw [result_bind, result_lift]
  congr 1
  funext p
  obtain ⟨d, ds⟩ := p
  dsimp only
  rw [result_bind, result_note, run_bind_ok, result_restZero, result_refuse, result_lift]
  rfl

theorem result_tryToU128 (a : ApInt) : result (Trace.tryToU128 a) = a.tryToU128 := by
  unfold Trace.tryToU128 ApInt.tryToU128
  rw [result_bind, result_lift]
  congr 1
  funext p
  obtain ⟨d, ds⟩ := p
  dsimp only
  rw [result_bind, result_note, run_bind_ok, result_restZero, result_refuse, result_lift]
  rfl

/-! ## What is seen -/

/-- What is seen of a clone of an integer of well-formed shape. -/
def cloneSeen (a : ApInt) : List Sight :=
  match a.storage with
  | .inl => [.read .self 0]
  | .ext => .alloc a.lenDigits :: Trace.copies .self 0 .fresh 0 a.lenDigits

theorem clone_form (h : a.Shape) : Trace.clone a = Except.ok (a, cloneSeen a) := by
  unfold Trace.clone cloneSeen
  rw [clone_ok h]
  cases a.storage <;> rfl

theorem cloneSeen_eq (h : a.Shape) (h' : a'.Shape) (e : a.len = a'.len) : cloneSeen a = cloneSeen a' := by
  have t := (Alike.of_shape h h' e)
  unfold cloneSeen
  rw [t.storage, t.lenDigits]

theorem refuse_seen (h : a.Shape) (ty : PrimitiveTy) :
    seen (Trace.refuse (α := α) a ty) = some (cloneSeen a) := by
  unfold Trace.refuse
  rw [seen_bind_ok (clone_form h)]
  show Option.map _ (some []) = _
  simp

/-- What is seen of the loop and what follows. -/
def restSeen (a : ApInt) (i : Nat) (l : List Digit) : List Sight :=
  whileSeen Digit.isZero rAt i l ++ if val l = 0 then [] else cloneSeen a

theorem restZero_seen {i : Nat} {l : List Digit} {g b : Watched α}
    (hg : val l = 0 → seen g = some []) (hb : seen b = some (cloneSeen a)) :
    seen (Trace.restZero i l g b) = some (restSeen a i l) := by
  unfold Trace.restZero restSeen
  obtain ⟨z, hz⟩ := zeroLoop_seen l i
  have hr : (Except.ok z : Run Bool) = .ok (decide (val l = 0)) := by
    rw [← all_zero, ← result_zeroLoop l i, hz]
    rfl
  cases hr
  rw [seen_bind_ok hz]
  by_cases h : val l = 0
  · simp [h, hg h]
  · simp [h, hb]

theorem restSeen_iff (h : a.Shape) (h' : a'.Shape) (e : a.len = a'.len) {l l' : List Digit} (i : Nat)
    (hl : l.length = l'.length) : restSeen a i l = restSeen a' i l' ↔
      ∀ k, 2 ^ (64 * k) ∣ val l ↔ 2 ^ (64 * k) ∣ val l' := by
  rw [← zeroSeen_iff l l' i hl]
  constructor
  · intro t
    exact whileSeen_apart l l' i _ _ hl t
  · intro t
    unfold restSeen
    rw [t, cloneSeen_eq h h' e]
    have z : val l = 0 ↔ val l' = 0 := by
      rw [zeroSeen_iff l l' i hl] at t
      have hv := val_lt l
      have hv' := val_lt l'
      have := t l.length
      constructor
      · intro hz
        rw [hz] at this
        have := this.1 (dvd_zero _)
        apply Nat.eq_zero_of_dvd_of_lt this
        rw [hl, pow_mul]
        exact hv'
      · intro hz
        rw [hz] at this
        have := this.2 (dvd_zero _)
        apply Nat.eq_zero_of_dvd_of_lt this
        rw [pow_mul]
        exact hv
    by_cases hz : val l = 0
    · rw [if_pos hz, if_pos (z.1 hz)]
    · rw [if_neg hz, if_neg (fun c => hz (z.2 c))]

theorem seen_lift {r : Run α} {x : α} (h : r = .ok x) : seen (liftM r : Watched α) = some [] := by
  subst h
  rfl

/-- What is seen of a cast. -/
def castSeen (a : ApInt) (ty : PrimitiveTy) (d : Digit) (ds : List Digit) : List Sight :=
  .read .self 0 :: (Trace.validSeen ty d.toNat ++
    if ty.isValidRepr d.toNat then restSeen a 1 ds else cloneSeen a)

theorem tryCast_seen (h : a.WF) {ty : PrimitiveTy} (hty : ty ≠ .u128 ∧ ty ≠ .i128) {d : Digit}
    {ds : List Digit} (e : a.digits = d :: ds) :
    seen (Trace.tryCastToPrimitiveTy a ty) = some (castSeen a ty d ds) := by
  obtain ⟨d', ds', e', s⟩ := splitLeastSignificantDigit_ok h.1
  rw [e] at e'
  cases e'
  have hu : a.uval = d.toNat + B * val ds := by unfold uval; rw [e, val_cons]
  have tail : ty.isValidRepr d.toNat = true → val ds = 0 → ∃ r, Trace.castTail a ty d = .ok r := by
    intro v z
    have hv := v
    rw [isValidRepr_eq hty, decide_eq_true_eq] at hv
    obtain ⟨x, hx, -⟩ := tryCast_ok h hty (by rw [hu, z]; simpa using hv)
    refine ⟨.ok x, ?_⟩
    rw [← hx]
    unfold tryCastToPrimitiveTy
    rw [if_neg (by simpa using hty)]
    simp only [s, run_bind_ok, v, any_ne_zero, z]
    rfl
  unfold castSeen
  unfold Trace.tryCastToPrimitiveTy
  have n : ¬ (ty = .u128 ∨ ty = .i128) := by simpa using hty
  rw [if_neg n, s, lift_bind]
  dsimp only
  rw [seen_bind_ok (rfl : note _ = Except.ok ((), _))]
  unfold Trace.castRest
  by_cases v : ty.isValidRepr d.toNat = true
  · rw [if_pos v, if_pos v, restZero_seen (a := a) _ (refuse_seen h.1 ty)]
    · simp
    · intro z
      obtain ⟨r, hr⟩ := tail v z
      exact seen_lift hr
  · rw [if_neg v, if_neg v, refuse_seen h.1]
    simp

/-- The first tests tell whether the first digit fits and, for `bool`, whether it is zero. -/
theorem validSeen_iff (ty : PrimitiveTy) (v v' : Nat) (t t' : List Sight) :
    Trace.validSeen ty v ++ t = Trace.validSeen ty v' ++ t' ↔
      ((ty = .bool → (v = 0 ↔ v' = 0)) ∧ (ty.isValidRepr v = ty.isValidRepr v')) ∧ t = t' := by
  cases ty
  case bool =>
    unfold Trace.validSeen
    by_cases z : v = 0 <;> by_cases z' : v' = 0
    · simp [z, z', PrimitiveTy.isValidRepr]
    · have e : (v' == 0) = false := by simpa using z'
      simp [z, e, z']
    · have e : (v == 0) = false := by simpa using z
      simp [z', e, z]
    · have e : (v == 0) = false := by simpa using z
      have e' : (v' == 0) = false := by simpa using z'
      simp [z, z', e, e', PrimitiveTy.isValidRepr]
  all_goals
    unfold Trace.validSeen
    simp

theorem castSeen_iff (h : a.Shape) (h' : a'.Shape) (e : a.len = a'.len) (ty : PrimitiveTy) {d d' : Digit}
    {ds ds' : List Digit} (hl : ds.length = ds'.length) :
    castSeen a ty d ds = castSeen a' ty d' ds' ↔
      (ty = .bool → (d.toNat = 0 ↔ d'.toNat = 0)) ∧
      (ty.isValidRepr d.toNat = ty.isValidRepr d'.toNat) ∧
      (ty.isValidRepr d.toNat = true →
        ∀ k, 2 ^ (64 * k) ∣ val ds ↔ 2 ^ (64 * k) ∣ val ds') := by
  unfold castSeen
  rw [List.cons.injEq, validSeen_iff, ← restSeen_iff h h' e 1 hl]
  simp only [true_and, and_assoc]
  refine and_congr_right fun _ => and_congr_right fun v => ?_
  rw [← v]
  cases ty.isValidRepr d.toNat
  · simp [cloneSeen_eq h h' e]
  · simp

theorem digits_split (h : a.Shape) : ∃ d ds, a.digits = d :: ds ∧
    d.toNat = a.uval % 2 ^ 64 ∧ val ds = a.uval / 2 ^ 64 := by
  obtain ⟨d, ds, e, -⟩ := splitLeastSignificantDigit_ok h
  refine ⟨d, ds, e, ?_⟩
  have hu : a.uval = d.toNat + B * val ds := by unfold uval; rw [e, val_cons]
  have := dlt d
  rw [hu]
  rw [B_num] at *
  omega

theorem digits_same (h : a.Shape) (h' : a'.Shape) (e : a.len = a'.len) :
    a.digits.length = a'.digits.length := by
  rw [h.length_digits, h'.length_digits]
  unfold w
  rw [e]

theorem tryCast_iff (h : a.WF) (h' : a'.WF) (e : a.len = a'.len) {ty : PrimitiveTy}
    (hty : ty ≠ .u128 ∧ ty ≠ .i128) :
    seen (Trace.tryCastToPrimitiveTy a ty) = seen (Trace.tryCastToPrimitiveTy a' ty) ↔
      (ty = .bool → (a.uval % 2 ^ 64 = 0 ↔ a'.uval % 2 ^ 64 = 0)) ∧
      (a.uval % 2 ^ 64 < 2 ^ ty.associatedWidth.toUsize ↔
        a'.uval % 2 ^ 64 < 2 ^ ty.associatedWidth.toUsize) ∧
      (a.uval % 2 ^ 64 < 2 ^ ty.associatedWidth.toUsize →
        ∀ k, 2 ^ (64 * k) ∣ a.uval / 2 ^ 64 ↔ 2 ^ (64 * k) ∣ a'.uval / 2 ^ 64) := by
  obtain ⟨d, ds, e1, e2, e3⟩ := digits_split h.1
  obtain ⟨d', ds', e1', e2', e3'⟩ := digits_split h'.1
  have hl := digits_same h.1 h'.1 e
  rw [e1, e1'] at hl
  rw [tryCast_seen h hty e1, tryCast_seen h' hty e1', Option.some.injEq,
    castSeen_iff h.1 h'.1 e ty (by simpa using hl), isValidRepr_eq hty, isValidRepr_eq hty, e2, e2',
    e3, e3', decide_eq_decide, decide_eq_true_eq]

theorem tryCast_apart (h : a.WF) (h' : a'.WF) (e : a.len = a'.len) {ty : PrimitiveTy}
    (hty : ty ≠ .u128 ∧ ty ≠ .i128) :
    Apart (seen (Trace.tryCastToPrimitiveTy a ty)) (seen (Trace.tryCastToPrimitiveTy a' ty)) := by
  obtain ⟨d, ds, e1, e2, e3⟩ := digits_split h.1
  obtain ⟨d', ds', e1', e2', e3'⟩ := digits_split h'.1
  have hl := digits_same h.1 h'.1 e
  rw [e1, e1'] at hl
  have hl : ds.length = ds'.length := by simpa using hl
  rw [tryCast_seen h hty e1, tryCast_seen h' hty e1']
  rintro s hs s' hs' t t' r
  cases hs
  cases hs'
  rw [castSeen_iff h.1 h'.1 e ty hl]
  unfold castSeen at r
  rw [List.cons_append, List.cons_append, List.cons.injEq, List.append_assoc, List.append_assoc,
    validSeen_iff] at r
  obtain ⟨-, ⟨r1, r2⟩, r3⟩ := r
  refine ⟨r1, r2, fun v => ?_⟩
  rw [if_pos v, if_pos (r2 ▸ v)] at r3
  unfold restSeen at r3
  rw [List.append_assoc, List.append_assoc] at r3
  exact (zeroSeen_iff ds ds' 1 hl).1 (whileSeen_apart ds ds' 1 _ _ hl r3)

theorem tryToBits_iff (h : a.WF) (h' : a'.WF) {ty : PrimitiveTy} (n : Nat)
    (hty : ty ≠ .u128 ∧ ty ≠ .i128) :
    seen (Trace.tryToBits a ty n) = seen (Trace.tryToBits a' ty n) ↔
      seen (Trace.tryCastToPrimitiveTy a ty) = seen (Trace.tryCastToPrimitiveTy a' ty) := by
  have f : ∀ {x : ApInt}, x.WF →
      seen (Trace.tryToBits x ty n) = seen (Trace.tryCastToPrimitiveTy x ty) := by
    intro x hx
    unfold Trace.tryToBits
    rcases Trace.tryCastToPrimitiveTy x ty with e | ⟨y, s⟩
    · rfl
    · rw [seen_bind_ok rfl]
      show some (s ++ []) = some s
      rw [List.append_nil]
  rw [f h, f h']

theorem bool_ok (h : a.WF) : ∃ r, result (Trace.tryToBool a) = .ok r ∧
    (a.uval < 2 → ∃ d : Digit, result (Trace.tryCastToPrimitiveTy a .bool) = .ok (.ok d) ∧
      d.toNat = a.uval ∧ ∃ y, result (Trace.boolTail (.ok d)) = .ok y) ∧
    (¬ a.uval < 2 →
      result (Trace.tryCastToPrimitiveTy a .bool) = .ok (.error (.valueUnrepresentable a .bool))) := by
  have hty : PrimitiveTy.bool ≠ .u128 ∧ PrimitiveTy.bool ≠ .i128 := by decide
  have hw : 2 ^ PrimitiveTy.bool.associatedWidth.toUsize = 2 := by decide
  by_cases v : a.uval < 2
  · obtain ⟨d, h1, -, h2⟩ := tryCast_ok h hty (by rw [hw]; exact v)
    have h3 := h2 (by decide)
    have ht : ∃ y, result (Trace.boolTail (.ok d)) = .ok y := by
      unfold Trace.boolTail
      rw [result_bind, result_note, run_bind_ok]
      by_cases z : d = 0#64
      · exact ⟨_, by rw [if_pos z]; rfl⟩
      · have : d = 1#64 := by
          have : d.toNat ≠ 0 := fun c => z (BitVec.eq_of_toNat_eq c)
          apply BitVec.eq_of_toNat_eq
          show d.toNat = 1
          omega
        exact ⟨_, by rw [if_neg z, if_pos this]; rfl⟩
    obtain ⟨y, hy⟩ := ht
    refine ⟨y, ?_, fun _ => ⟨d, by rw [result_tryCast, h1], h3, y, hy⟩, fun c => absurd v c⟩
    unfold Trace.tryToBool
    rw [result_bind, result_tryCast, h1, run_bind_ok, hy]
  · have h1 := tryCast_err h hty (by rw [hw]; exact v)
    refine ⟨.error (.valueUnrepresentable a .bool), ?_, fun c => absurd c v, fun _ => by
      rw [result_tryCast, h1]⟩
    unfold Trace.tryToBool
    rw [result_bind, result_tryCast, h1, run_bind_ok]
    rfl

theorem fit_iff (x : Nat) : x < 2 ↔ x % 2 ^ 64 < 2 ∧ x / 2 ^ 64 = 0 := by
  constructor
  · intro h
    omega
  · intro h
    omega

theorem tryToBool_iff (h : a.WF) (h' : a'.WF) (e : a.len = a'.len) :
    seen (Trace.tryToBool a) = seen (Trace.tryToBool a') ↔
      seen (Trace.tryCastToPrimitiveTy a .bool) = seen (Trace.tryCastToPrimitiveTy a' .bool) := by
  have hty : PrimitiveTy.bool ≠ .u128 ∧ PrimitiveTy.bool ≠ .i128 := by decide
  have hw : 2 ^ PrimitiveTy.bool.associatedWidth.toUsize = 2 := by decide
  obtain ⟨r, -, o, n⟩ := bool_ok h
  obtain ⟨r', -, o', n'⟩ := bool_ok h'
  have ap := tryCast_apart h h' e hty
  have err : ∀ e : Err, ∃ y, result (Trace.boolTail (.error e)) = .ok y := fun e => ⟨_, rfl⟩
  unfold Trace.tryToBool
  -- The casts tell whether both succeed.
  have same : seen (Trace.tryCastToPrimitiveTy a .bool) = seen (Trace.tryCastToPrimitiveTy a' .bool) →
      (a.uval < 2 ↔ a'.uval < 2) ∧ (a.uval < 2 → a.uval = a'.uval) := by
    intro s
    rw [tryCast_iff h h' e hty, hw] at s
    obtain ⟨s1, s2, s3⟩ := s
    have s1 := s1 rfl
    have z : a.uval % 2 ^ 64 < 2 → (a.uval / 2 ^ 64 = 0 ↔ a'.uval / 2 ^ 64 = 0) := by
      intro v
      have t := s3 v
      constructor
      · intro hz
        have := (t (a'.uval / 2 ^ 64)).1 (by rw [hz]; exact dvd_zero _)
        refine Nat.eq_zero_of_dvd_of_lt this ?_
        calc a'.uval / 2 ^ 64 < 2 ^ (a'.uval / 2 ^ 64) := Nat.lt_two_pow_self
          _ ≤ 2 ^ (64 * (a'.uval / 2 ^ 64)) := Nat.pow_le_pow_right (by decide) (by omega)
      · intro hz
        have := (t (a.uval / 2 ^ 64)).2 (by rw [hz]; exact dvd_zero _)
        refine Nat.eq_zero_of_dvd_of_lt this ?_
        calc a.uval / 2 ^ 64 < 2 ^ (a.uval / 2 ^ 64) := Nat.lt_two_pow_self
          _ ≤ 2 ^ (64 * (a.uval / 2 ^ 64)) := Nat.pow_le_pow_right (by decide) (by omega)
    have g : a.uval < 2 ↔ a'.uval < 2 := by
      rw [fit_iff a.uval, fit_iff a'.uval, ← s2]
      exact and_congr_right z
    refine ⟨g, fun v => ?_⟩
    have v' := g.1 v
    omega
  by_cases v : a.uval < 2 <;> by_cases v' : a'.uval < 2
  · obtain ⟨d, r1, r2, y, r3⟩ := o v
    obtain ⟨d', r1', r2', y', r3'⟩ := o' v'
    rw [bind_leak r1 r1' r3 r3' ap]
    refine ⟨And.left, fun s => ⟨s, ?_⟩⟩
    have : d = d' := BitVec.eq_of_toNat_eq (by rw [r2, r2', (same s).2 v])
    rw [this]
  · obtain ⟨d, r1, r2, y, r3⟩ := o v
    rw [bind_leak r1 (n' v') r3 rfl ap]
    exact ⟨And.left, fun s => absurd ((same s).1.1 v) v'⟩
  · obtain ⟨d', r1', r2', y', r3'⟩ := o' v'
    rw [bind_leak (n v) r1' rfl r3' ap]
    exact ⟨And.left, fun s => absurd ((same s).1.2 v') v⟩
  · rw [bind_leak (n v) (n' v') rfl rfl ap]
    exact ⟨And.left, fun s => ⟨s, rfl⟩⟩

/-! ## 128 bits -/

/-- What is seen of `try_to_u128` and `try_to_i128`. -/
def wideSeen (a : ApInt) (ds : List Digit) : List Sight :=
  Trace.lowReads ds ++ restSeen a 2 (splitFirstOr ds).2

theorem tryToU128_seen (h : a.WF) {d : Digit} {ds : List Digit} (e : a.digits = d :: ds) :
    seen (Trace.tryToU128 a) = some (wideSeen a ds) := by
  obtain ⟨d', ds', e', s⟩ := splitLeastSignificantDigit_ok h.1
  rw [e] at e'
  cases e'
  unfold Trace.tryToU128 wideSeen
  rw [s, lift_bind]
  dsimp only
  rw [seen_bind_ok (rfl : note _ = Except.ok ((), _)),
    restZero_seen (a := a) _ (refuse_seen h.1 _)]
  · rfl
  · intro z
    have t := tryToU128_ok h
    have hv : a.uval < 2 ^ 128 := by
      have := (low128 e).2
      rw [z] at this
      omega
    rw [if_pos hv] at t
    simp only [tryToU128, s, run_bind_ok, any_ne_zero, z] at t
    exact seen_lift t

theorem tryToI128_seen (h : a.WF) {d : Digit} {ds : List Digit} (e : a.digits = d :: ds) :
    seen (Trace.tryToI128 a) = some (wideSeen a ds) := by
  obtain ⟨d', ds', e', s⟩ := splitLeastSignificantDigit_ok h.1
  rw [e] at e'
  cases e'
  unfold Trace.tryToI128 wideSeen
  rw [s, lift_bind]
  dsimp only
  rw [seen_bind_ok (rfl : note _ = Except.ok ((), _)),
    restZero_seen (a := a) _ (refuse_seen h.1 _)]
  · rfl
  · intro z
    have t := tryToI128_ok h
    have hv : a.uval < 2 ^ 128 := by
      have := (low128 e).2
      rw [z] at this
      omega
    rw [if_pos hv] at t
    simp only [tryToI128, s, run_bind_ok, any_ne_zero, z] at t
    exact seen_lift t

theorem wideSeen_iff (h : a.Shape) (h' : a'.Shape) (e : a.len = a'.len) {d d' : Digit}
    {ds ds' : List Digit} (e1 : a.digits = d :: ds) (e1' : a'.digits = d' :: ds') :
    wideSeen a ds = wideSeen a' ds' ↔
      ∀ k, 2 ^ (64 * k) ∣ a.uval / 2 ^ 128 ↔ 2 ^ (64 * k) ∣ a'.uval / 2 ^ 128 := by
  have hl := digits_same h h' e
  rw [e1, e1'] at hl
  have hl : ds.length = ds'.length := by simpa using hl
  have hr : Trace.lowReads ds = Trace.lowReads ds' := by
    cases ds <;> cases ds' <;> first | rfl | simp at hl
  have hs : (splitFirstOr ds).2.length = (splitFirstOr ds').2.length := by
    cases ds <;> cases ds' <;> first | rfl | (simp at hl; try simpa [splitFirstOr] using hl)
  unfold wideSeen
  rw [hr, List.append_cancel_left_eq, restSeen_iff h h' e 2 hs, (low128 e1).2, (low128 e1').2]

theorem tryToU128_iff (h : a.WF) (h' : a'.WF) (e : a.len = a'.len) :
    seen (Trace.tryToU128 a) = seen (Trace.tryToU128 a') ↔
      ∀ k, 2 ^ (64 * k) ∣ a.uval / 2 ^ 128 ↔ 2 ^ (64 * k) ∣ a'.uval / 2 ^ 128 := by
  obtain ⟨d, ds, e1, -⟩ := digits_split h.1
  obtain ⟨d', ds', e1', -⟩ := digits_split h'.1
  rw [tryToU128_seen h e1, tryToU128_seen h' e1', Option.some.injEq, wideSeen_iff h.1 h'.1 e e1 e1']

theorem tryToI128_iff (h : a.WF) (h' : a'.WF) (e : a.len = a'.len) :
    seen (Trace.tryToI128 a) = seen (Trace.tryToI128 a') ↔
      ∀ k, 2 ^ (64 * k) ∣ a.uval / 2 ^ 128 ↔ 2 ^ (64 * k) ∣ a'.uval / 2 ^ 128 := by
  obtain ⟨d, ds, e1, -⟩ := digits_split h.1
  obtain ⟨d', ds', e1', -⟩ := digits_split h'.1
  rw [tryToI128_seen h e1, tryToI128_seen h' e1', Option.some.injEq, wideSeen_iff h.1 h'.1 e e1 e1']

/-! ## Questions -/

theorem result_resizeWide (a : ApInt) {r : Run α}
    (hr : ∀ e, a.splitLeastSignificantDigit = .error e → r = .error e) :
    result (Trace.resizeWide a r) = r := by
  unfold Trace.resizeWide
  rw [result_bind, result_lift]
  rcases h : a.splitLeastSignificantDigit with e | ⟨d, ds⟩
  · rw [hr e h]
    rfl
  · rw [run_bind_ok]
    dsimp only
    rw [result_bind, result_note, run_bind_ok]
    exact result_lift _

theorem result_resizeTo (a : ApInt) (ty : PrimitiveTy) : result (Trace.resizeTo a ty) = resizeTo a ty := by
  have low : ∀ {α : Type} (f : α → Out) (r : Run α),
      result (Trace.tell f (Trace.resizeLow r)) = tell f r := fun f r =>
    (result_tell _ _).trans (by unfold Trace.resizeLow; rw [result_show])
  cases ty
  case bool => exact (result_tell _ _).trans (by rw [result_lsb]; rfl)
  case i128 =>
    refine (result_tell _ _).trans ?_
    rw [result_resizeWide a fun e h => by unfold resizeToI128; rw [h]; rfl]
    rfl
  case u128 =>
    refine (result_tell _ _).trans ?_
    rw [result_resizeWide a fun e h => by unfold resizeToU128; rw [h]; rfl]
    rfl
  all_goals exact low _ _

theorem result_tryTo (a : ApInt) (ty : PrimitiveTy) : result (Trace.tryTo a ty) = tryTo a ty := by
  cases ty
  case bool => exact (result_tellRes _ _).trans (by rw [result_tryToBool]; rfl)
  case i128 => exact (result_tellRes _ _).trans (by rw [result_tryToI128]; rfl)
  case u128 => exact (result_tellRes _ _).trans (by rw [result_tryToU128]; rfl)
  all_goals exact (result_tellRes _ _).trans (by rw [result_tryToBits]; rfl)

end

end Verif
