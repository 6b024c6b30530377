import Verif.Proof.TraceErase
import Verif.Proof.TraceTwin
import Verif.Proof.Arith
import Verif.Proof.Relational
import Verif.Proof.Shift
import Verif.Proof.Casting

/-!
# What the calls that branch on digits show
-/

namespace Verif

open ApInt Watched

section
variable {a a' b b' : ApInt}

theorem Alike.of_shape (h : a.Shape) (h' : a'.Shape) (e : a.len = a'.len) : Alike a a' := by
  refine ⟨e, ?_⟩
  have ew : a.w = a'.w := by unfold ApInt.w; rw [e]
  rcases h.cases with ⟨d, e1, h1, _⟩ | ⟨ds, e1, h1, h2, _⟩ <;>
    rcases h'.cases with ⟨d', e1', h1', _⟩ | ⟨ds', e1', h1', h2', _⟩
  · rw [e1, e1']
    exact trivial
  · omega
  · omega
  · rw [e1, e1']
    show ds.length = ds'.length
    rw [h2, h2', ew]

/-! ## Sequences -/

variable {α β α' β' : Type}

theorem seen_bind_ok {c : Watched α} {x : α} {s : List Sight} (h : c = Except.ok (x, s))
    (f : α → Watched β) : seen (c >>= f) = (seen (f x)).map (s ++ ·) := by
  subst h
  show seen (Watched.bind _ _) = _
  unfold Watched.bind
  dsimp only
  rcases f x with e | ⟨y, t⟩ <;> rfl

theorem seen_of_result {c : Watched α} {x : α} (h : result c = Except.ok x) :
    ∃ s, c = Except.ok (x, s) := by
  rcases c with e | ⟨y, s⟩
  · cases h
  · cases h
    exact ⟨s, rfl⟩

theorem leak_bind {c : Watched α} {c' : Watched α'} {x : α} {x' : α'} {s s' : List Sight}
    {f : α → Watched β} {f' : α' → Watched β'} {R : β → β' → Prop} (h : c = Except.ok (x, s))
    (h' : c' = Except.ok (x', s')) (k : Twin (f x) (f' x') R) {y : β}
    (hy : result (f x) = Except.ok y) : seen (c >>= f) = seen (c' >>= f') ↔ s = s' := by
  obtain ⟨t, ht⟩ := seen_of_result hy
  rw [seen_bind_ok h, seen_bind_ok h']
  rw [ht] at k ⊢
  rcases hf : f' x' with e | ⟨y', t'⟩
  · rw [hf] at k
    exact k.elim
  · rw [hf] at k
    have k1 : t = t' := k.1
    subst k1
    simp [seen]

/-! ## Loops that go on while a digit is hit -/

/-- What is shown of a loop that stops at the first digit that is not hit. -/
def whileSeen {δ : Type} (hit : δ → Bool) (pre : Nat → List Sight) : Nat → List δ → List Sight
  | _, [] => []
  | i, d :: l => pre i ++ .test (hit d) :: if hit d then whileSeen hit pre (i + 1) l else []

theorem whileSeen_iff {δ : Type} {hit : δ → Bool} {pre : Nat → List Sight} {P : List δ → Nat → Prop}
    (zero : ∀ l, P l 0) (step : ∀ d l k, P (d :: l) (k + 1) ↔ hit d = true ∧ P l k) :
    ∀ (l l' : List δ) (i : Nat), l.length = l'.length →
      (whileSeen hit pre i l = whileSeen hit pre i l' ↔ ∀ k, P l k ↔ P l' k) := by
  intro l
  induction l with
  | nil =>
    intro l' i h
    rw [List.eq_nil_of_length_eq_zero h.symm]
    simp
  | cons d l ih =>
    intro l' i h
    rcases l' with _ | ⟨d', l'⟩
    · simp at h
    · have hl : l.length = l'.length := by simpa using h
      have shift : (∀ k, P (d :: l) k ↔ P (d' :: l') k) ↔
          ∀ k, (hit d = true ∧ P l k) ↔ (hit d' = true ∧ P l' k) := by
        constructor
        · intro q k
          rw [← step, ← step]
          exact q _
        · intro q k
          cases k with
          | zero => exact ⟨fun _ => zero _, fun _ => zero _⟩
          | succ k =>
            rw [step, step]
            exact q k
      rw [shift]
      unfold whileSeen
      rw [List.append_cancel_left_eq, List.cons.injEq]
      cases hd : hit d <;> cases hd' : hit d'
      · simp
      · simp only [Sight.test.injEq, Bool.false_eq_true, false_and, true_and, false_iff, reduceCtorEq,
          not_forall]
        exact ⟨0, fun q => q (zero _)⟩
      · simp only [Sight.test.injEq, Bool.false_eq_true, false_and, true_and, reduceCtorEq,
          false_iff, not_forall]
        exact ⟨0, fun q => (q.1 (zero _)).elim⟩
      · simpa using ih l' (i + 1) hl

theorem pow_digit (k : Nat) : (2 : Nat) ^ (64 * (k + 1)) = 2 ^ 64 * 2 ^ (64 * k) := by
  rw [← Nat.pow_add]
  congr 1
  omega

theorem dvd_step {d : Nat} {v k : Nat} (hd : d < 2 ^ 64) :
    2 ^ (64 * (k + 1)) ∣ d + 2 ^ 64 * v ↔ d = 0 ∧ 2 ^ (64 * k) ∣ v := by
  rw [pow_digit]
  constructor
  · intro h
    have h1 : 2 ^ 64 ∣ d := (Nat.dvd_add_left (Nat.dvd_mul_right _ _)).1
      (Nat.dvd_trans (Nat.dvd_mul_right _ _) h)
    have h2 : d = 0 := Nat.eq_zero_of_dvd_of_lt h1 hd
    subst h2
    rw [Nat.zero_add] at h
    exact ⟨rfl, Nat.dvd_of_mul_dvd_mul_left (Nat.pow_pos (by decide)) h⟩
  · rintro ⟨rfl, h⟩
    rw [Nat.zero_add]
    exact Nat.mul_dvd_mul_left _ h

theorem dvd_step_one {d : Nat} {v k : Nat} (hd : d < 2 ^ 64) :
    2 ^ (64 * (k + 1)) ∣ d + 2 ^ 64 * v + 1 ↔ d = 2 ^ 64 - 1 ∧ 2 ^ (64 * k) ∣ v + 1 := by
  by_cases h : d = 2 ^ 64 - 1
  · subst h
    rw [show 2 ^ 64 - 1 + 2 ^ 64 * v + 1 = 0 + 2 ^ 64 * (v + 1) by omega,
      dvd_step (Nat.pow_pos (by decide))]
    exact ⟨fun q => ⟨rfl, q.2⟩, fun q => ⟨rfl, q.2⟩⟩
  · rw [show d + 2 ^ 64 * v + 1 = (d + 1) + 2 ^ 64 * v by omega, dvd_step (by omega)]
    exact ⟨fun q => (Nat.succ_ne_zero _ q.1).elim, fun q => (h q.1).elim⟩

/-- The accesses of the loops that add or subtract one. -/
abbrev rwAt (i : Nat) : List Sight := [.read .self i, .write .self i]

/-- The accesses of the loop of `is_zero`. -/
abbrev rAt (i : Nat) : List Sight := [.read .self i]

theorem incLoop_seen (l : List Digit) (i : Nat) :
    Trace.incLoop i l = Except.ok (incLoop l,
      whileSeen (fun d => (Digit.overflowingAdd d Digit.ONE).2) rwAt i l) := by
  induction l generalizing i with
  | nil => rfl
  | cons d l ih =>
    unfold Trace.incLoop incLoop whileSeen
    rcases Digit.overflowingAdd d Digit.ONE with ⟨v, _ | _⟩
    · rfl
    · dsimp only
      rw [ih]
      show Except.ok _ = Except.ok _
      simp

theorem decLoop_seen (l : List Digit) (i : Nat) :
    Trace.decLoop i l = Except.ok (decLoop l,
      whileSeen (fun d => (Digit.overflowingSub d Digit.ONE).2) rwAt i l) := by
  induction l generalizing i with
  | nil => rfl
  | cons d l ih =>
    unfold Trace.decLoop decLoop whileSeen
    rcases Digit.overflowingSub d Digit.ONE with ⟨v, _ | _⟩
    · rfl
    · dsimp only
      rw [ih]
      show Except.ok _ = Except.ok _
      simp

theorem zeroLoop_seen (l : List Digit) (i : Nat) :
    ∃ b, Trace.zeroLoop i l = Except.ok (b, whileSeen Digit.isZero rAt i l) := by
  induction l generalizing i with
  | nil => exact ⟨_, rfl⟩
  | cons d l ih =>
    unfold Trace.zeroLoop whileSeen
    cases Digit.isZero d
    · exact ⟨_, rfl⟩
    · obtain ⟨b, h⟩ := ih (i + 1)
      refine ⟨b, ?_⟩
      rw [if_pos rfl, h]
      rfl

theorem incSeen_iff (l l' : List Digit) (i : Nat) (h : l.length = l'.length) :
    whileSeen (fun d => (Digit.overflowingAdd d Digit.ONE).2) rwAt i l =
        whileSeen (fun d => (Digit.overflowingAdd d Digit.ONE).2) rwAt i l' ↔
      ∀ k, 2 ^ (64 * k) ∣ val l + 1 ↔ 2 ^ (64 * k) ∣ val l' + 1 := by
  refine whileSeen_iff (P := fun l k => 2 ^ (64 * k) ∣ val l + 1) (fun l => by simp) ?_ l l' i h
  intro d l k
  have hd := d.isLt
  rw [Digit.overflowingAdd_snd, Digit.ONE_toNat, B_eq, val, dvd_step_one hd]
  simp only [decide_eq_true_eq]
  constructor <;> rintro ⟨h1, h2⟩ <;> exact ⟨by omega, h2⟩

theorem decSeen_iff (l l' : List Digit) (i : Nat) (h : l.length = l'.length) :
    whileSeen (fun d => (Digit.overflowingSub d Digit.ONE).2) rwAt i l =
        whileSeen (fun d => (Digit.overflowingSub d Digit.ONE).2) rwAt i l' ↔
      ∀ k, 2 ^ (64 * k) ∣ val l ↔ 2 ^ (64 * k) ∣ val l' := by
  refine whileSeen_iff (P := fun l k => 2 ^ (64 * k) ∣ val l) (fun l => by simp) ?_ l l' i h
  intro d l k
  have hd := d.isLt
  rw [Digit.overflowingSub_snd, Digit.ONE_toNat, val, dvd_step hd]
  simp only [decide_eq_true_eq]
  constructor <;> rintro ⟨h1, h2⟩ <;> exact ⟨by omega, h2⟩

theorem zeroSeen_iff (l l' : List Digit) (i : Nat) (h : l.length = l'.length) :
    whileSeen Digit.isZero rAt i l = whileSeen Digit.isZero rAt i l' ↔
      ∀ k, 2 ^ (64 * k) ∣ val l ↔ 2 ^ (64 * k) ∣ val l' := by
  refine whileSeen_iff (P := fun l k => 2 ^ (64 * k) ∣ val l) (fun l => by simp) ?_ l l' i h
  intro d l k
  have hd := d.isLt
  rw [val, dvd_step hd]
  refine and_congr_left fun _ => ?_
  rw [Digit.isZero_iff]

theorem Shape.ext (h : a.Shape) (hw : 64 < a.w) :
    ∃ l, a.data = .ext l ∧ a.uval = val l ∧ l.length = (a.w + 63) / 64 := by
  rcases h.cases with ⟨d, e, h1, _⟩ | ⟨l, e, h1, h2, h3⟩
  · omega
  · exact ⟨l, e, by unfold uval; rw [h3], h2⟩

theorem Shape.inl (h : a.Shape) (hw : a.w ≤ 64) : ∃ d, a.data = .inl d := by
  rcases h.cases with ⟨d, e, h1, _⟩ | ⟨l, e, h1, h2, h3⟩
  · exact ⟨d, e⟩
  · omega

/-- A value of which `s` is seen. -/
abbrev told {α : Type} (x : α) (s : List Sight) : Watched α := Except.ok (x, s)

theorem ok_bind (x : α) (f : α → Watched β) : Watched.ok x >>= f = f x := by
  show Watched.bind _ _ = _
  unfold Watched.bind Watched.ok
  dsimp only
  rcases f x with e | ⟨y, t⟩ <;> rfl

theorem lift_bind (x : α) (f : α → Watched β) :
    (liftM (Except.ok x : Run α) : Watched α) >>= f = f x := ok_bind x f

theorem inc_form {l : List Digit} (h : a.Shape) (e : a.data = .ext l) :
    Trace.wrappingInc a = told (⟨a.len, .ext (incLoop l)⟩ : ApInt)
        (whileSeen (fun d => (Digit.overflowingAdd d Digit.ONE).2) rwAt 0 l) >>=
      Trace.clearUnusedBits := by
  unfold Trace.wrappingInc
  simp only [accessData_ok h, e, lift_bind, incLoop_seen, ok_bind]
  rfl

theorem dec_form {l : List Digit} (h : a.Shape) (e : a.data = .ext l) :
    Trace.wrappingDec a = told (⟨a.len, .ext (decLoop l)⟩ : ApInt)
        (whileSeen (fun d => (Digit.overflowingSub d Digit.ONE).2) rwAt 0 l) >>=
      Trace.clearUnusedBits := by
  unfold Trace.wrappingDec
  simp only [accessData_ok h, e, lift_bind, decLoop_seen, ok_bind]
  rfl

theorem inc_leak (h : a.Shape) (h' : a'.Shape) (e : a.len = a'.len) (hw : 64 < a.w) :
    seen (Trace.wrappingInc a) = seen (Trace.wrappingInc a') ↔
      ∀ k, 2 ^ (64 * k) ∣ a.uval + 1 ↔ 2 ^ (64 * k) ∣ a'.uval + 1 := by
  have ew : a.w = a'.w := by unfold ApInt.w; rw [e]
  obtain ⟨l, e1, u, hl⟩ := Shape.ext h hw
  obtain ⟨l', e1', u', hl'⟩ := Shape.ext h' (by omega)
  have ll : l.length = l'.length := by omega
  rw [inc_form h e1, inc_form h' e1', u, u', ← incSeen_iff l l' 0 ll]
  obtain ⟨y, hy, _⟩ := wrappingInc_ok h
  rw [← result_wrappingInc, inc_form h e1, result_bind] at hy
  have al : Alike ⟨a.len, .ext (incLoop l)⟩ ⟨a'.len, .ext (incLoop l')⟩ := ⟨e, by
    show (incLoop l).length = (incLoop l').length
    rw [incLoop_length, incLoop_length, ll]⟩
  exact leak_bind rfl rfl (clearUnusedBits_twin al) hy

theorem dec_leak (h : a.Shape) (h' : a'.Shape) (e : a.len = a'.len) (hw : 64 < a.w) :
    seen (Trace.wrappingDec a) = seen (Trace.wrappingDec a') ↔
      ∀ k, 2 ^ (64 * k) ∣ a.uval ↔ 2 ^ (64 * k) ∣ a'.uval := by
  have ew : a.w = a'.w := by unfold ApInt.w; rw [e]
  obtain ⟨l, e1, u, hl⟩ := Shape.ext h hw
  obtain ⟨l', e1', u', hl'⟩ := Shape.ext h' (by omega)
  have ll : l.length = l'.length := by omega
  rw [dec_form h e1, dec_form h' e1', u, u', ← decSeen_iff l l' 0 ll]
  obtain ⟨y, hy, _⟩ := wrappingDec_ok h
  rw [← result_wrappingDec, dec_form h e1, result_bind] at hy
  have al : Alike ⟨a.len, .ext (decLoop l)⟩ ⟨a'.len, .ext (decLoop l')⟩ := ⟨e, by
    show (decLoop l).length = (decLoop l').length
    rw [decLoop_length, decLoop_length, ll]⟩
  exact leak_bind rfl rfl (clearUnusedBits_twin al) hy

theorem isZero_leak (h : a.Shape) (h' : a'.Shape) (e : a.len = a'.len) (hw : 64 < a.w) :
    seen (Trace.isZero a) = seen (Trace.isZero a') ↔
      ∀ k, 2 ^ (64 * k) ∣ a.uval ↔ 2 ^ (64 * k) ∣ a'.uval := by
  have ew : a.w = a'.w := by unfold ApInt.w; rw [e]
  obtain ⟨l, e1, u, hl⟩ := Shape.ext h hw
  obtain ⟨l', e1', u', hl'⟩ := Shape.ext h' (by omega)
  have ll : l.length = l'.length := by omega
  rw [u, u', ← zeroSeen_iff l l' 0 ll]
  unfold Trace.isZero
  simp only [accessData_ok h, accessData_ok h', e1, e1', lift_bind]
  obtain ⟨c, hc⟩ := zeroLoop_seen l 0
  obtain ⟨c', hc'⟩ := zeroLoop_seen l' 0
  rw [hc, hc']
  exact Option.some_inj

theorem dvd_not {w u k : Nat} (hu : u < 2 ^ w) :
    2 ^ (64 * k) ∣ 2 ^ w - 1 - u + 1 ↔ 64 * k ≤ w ∧ 2 ^ (64 * k) ∣ u := by
  have hp : 0 < 2 ^ w := Nat.pow_pos (by decide)
  rw [show 2 ^ w - 1 - u + 1 = 2 ^ w - u by omega]
  by_cases hk : 64 * k ≤ w
  · have hd : 2 ^ (64 * k) ∣ 2 ^ w := Nat.pow_dvd_pow 2 hk
    constructor
    · intro h
      refine ⟨hk, ?_⟩
      have := Nat.dvd_sub hd h
      rwa [show 2 ^ w - (2 ^ w - u) = u by omega] at this
    · rintro ⟨_, h⟩
      exact Nat.dvd_sub hd h
  · have hlt : 2 ^ w < 2 ^ (64 * k) := Nat.pow_lt_pow_right (by decide) (by omega)
    constructor
    · intro h
      have := Nat.le_of_dvd (by omega) h
      omega
    · intro h
      exact absurd h.1 hk

theorem neg_leak (h : a.WF) (h' : a'.WF) (e : a.len = a'.len) (hw : 64 < a.w) :
    seen (Trace.wrappingNeg a) = seen (Trace.wrappingNeg a') ↔
      ∀ k, 64 * k ≤ a.w → (2 ^ (64 * k) ∣ a.uval ↔ 2 ^ (64 * k) ∣ a'.uval) := by
  have ew : a.w = a'.w := by unfold ApInt.w; rw [e]
  have al := Alike.of_shape h.1 h'.1 e
  obtain ⟨c, hc, wc, lc, uc⟩ := bitnot_ok h
  obtain ⟨c', hc', wc', lc', uc'⟩ := bitnot_ok h'
  have t := bitnot_twin al
  rw [← result_bitnot] at hc hc'
  obtain ⟨s, hs⟩ := seen_of_result hc
  obtain ⟨s', hs'⟩ := seen_of_result hc'
  rw [hs, hs'] at t
  have t1 : s = s' := t.1
  subst t1
  unfold Trace.wrappingNeg
  rw [seen_bind_ok hs, seen_bind_ok hs']
  have cw : c.w = a.w := by unfold ApInt.w; rw [lc]
  have inj : Function.Injective (Option.map (s ++ ·) : Option (List Sight) → _) :=
    Option.map_injective fun x y q => List.append_cancel_left q
  rw [inj.eq_iff, inc_leak wc.1 wc'.1 (by rw [lc, lc', e]) (by omega), uc, uc', ← ew]
  refine forall_congr' fun k => ?_
  rw [dvd_not h.2, dvd_not (by rw [ew]; exact h'.2)]
  constructor
  · intro q hk
    simpa [hk] using q
  · intro q
    by_cases hk : 64 * k ≤ a.w
    · simpa [hk] using q hk
    · simp [hk]

/-! ## Comparison -/

/-- What is shown of `checked_ult`, from the most significant digit down. -/
def ultSeen : List (Digit × Digit) → List Sight
  | [] => []
  | (l, r) :: rest =>
    [.read .self rest.length, .read .rhs rest.length, .test (l.toNat < r.toNat)] ++
      if l.toNat < r.toNat then [] else
        .test (l.toNat > r.toNat) :: if l.toNat > r.toNat then [] else ultSeen rest

theorem ultLoop_seen (z : List (Digit × Digit)) :
    ∃ b, Trace.ultLoop z = Except.ok (b, ultSeen z) := by
  induction z with
  | nil => exact ⟨_, rfl⟩
  | cons p z ih =>
    obtain ⟨l, r⟩ := p
    unfold Trace.ultLoop ultSeen
    by_cases h1 : l.toNat < r.toNat
    · rw [if_pos h1, if_pos h1]
      exact ⟨_, rfl⟩
    · rw [if_neg h1, if_neg h1]
      by_cases h2 : l.toNat > r.toNat
      · rw [if_pos h2, if_pos h2]
        exact ⟨_, rfl⟩
      · rw [if_neg h2, if_neg h2]
        obtain ⟨b, h⟩ := ih
        rw [h]
        exact ⟨_, rfl⟩

/-- The two numbers whose digits are paired, the most significant pair first. -/
def pairVal : List (Digit × Digit) → Nat × Nat
  | [] => (0, 0)
  | (l, r) :: z => ((pairVal z).1 + 2 ^ (64 * z.length) * l.toNat,
      (pairVal z).2 + 2 ^ (64 * z.length) * r.toNat)

theorem pairVal_lt (z : List (Digit × Digit)) :
    (pairVal z).1 < 2 ^ (64 * z.length) ∧ (pairVal z).2 < 2 ^ (64 * z.length) := by
  induction z with
  | nil => exact ⟨Nat.one_pos, Nat.one_pos⟩
  | cons p z ih =>
    obtain ⟨l, r⟩ := p
    have hl := l.isLt
    have hr := r.isLt
    rw [List.length_cons, pow_digit]
    unfold pairVal
    generalize 2 ^ (64 * z.length) = P at *
    have h1 : P * l.toNat ≤ P * (2 ^ 64 - 1) := Nat.mul_le_mul_left _ (by omega)
    have h2 : P * r.toNat ≤ P * (2 ^ 64 - 1) := Nat.mul_le_mul_left _ (by omega)
    rw [Nat.mul_comm P (2 ^ 64 - 1)] at h1 h2
    constructor <;> dsimp only <;> omega

theorem div_pow_lt {u v j k : Nat} (h : j ≤ k) (e : u / 2 ^ (64 * j) = v / 2 ^ (64 * j)) :
    u / 2 ^ (64 * k) = v / 2 ^ (64 * k) := by
  obtain ⟨m, rfl⟩ := Nat.exists_eq_add_of_le h
  rw [Nat.mul_add, Nat.pow_add, ← Nat.div_div_eq_div_mul, ← Nat.div_div_eq_div_mul, e]

theorem top_div {u n x : Nat} (h : u < 2 ^ (64 * n)) :
    (u + 2 ^ (64 * n) * x) / 2 ^ (64 * n) = x := by
  rw [Nat.add_mul_div_left _ _ (Nat.pow_pos (by decide)), Nat.div_eq_of_lt h, Nat.zero_add]

/-- Below and at a differing top digit the numbers differ, above they are both zero. -/
theorem quot_ne {u v n x y k : Nat} (hu : u < 2 ^ (64 * n)) (hv : v < 2 ^ (64 * n)) (hx : x < 2 ^ 64)
    (hy : y < 2 ^ 64) (hne : x ≠ y) :
    (u + 2 ^ (64 * n) * x) / 2 ^ (64 * k) = (v + 2 ^ (64 * n) * y) / 2 ^ (64 * k) ↔ n < k := by
  constructor
  · intro e
    by_contra hk
    have := div_pow_lt (Nat.le_of_not_lt hk) e
    rw [top_div hu, top_div hv] at this
    exact hne this
  · intro hk
    have big : ∀ {u x : Nat}, u < 2 ^ (64 * n) → x < 2 ^ 64 →
        (u + 2 ^ (64 * n) * x) / 2 ^ (64 * (n + 1)) = 0 := by
      intro u x hu hx
      rw [pow_digit, Nat.mul_comm (2 ^ 64), ← Nat.div_div_eq_div_mul, top_div hu]
      exact Nat.div_eq_of_lt hx
    exact div_pow_lt hk ((big hu hx).trans (big hv hy).symm)

/-- A common top digit changes nothing. -/
theorem quot_eq {u v n x k : Nat} (hu : u < 2 ^ (64 * n)) (hv : v < 2 ^ (64 * n)) :
    (u + 2 ^ (64 * n) * x) / 2 ^ (64 * k) = (v + 2 ^ (64 * n) * x) / 2 ^ (64 * k) ↔
      u / 2 ^ (64 * k) = v / 2 ^ (64 * k) := by
  by_cases hk : k ≤ n
  · obtain ⟨m, rfl⟩ := Nat.exists_eq_add_of_le hk
    rw [Nat.mul_add 64 k m, Nat.pow_add, Nat.mul_assoc,
      Nat.add_mul_div_left _ _ (Nat.pow_pos (by decide)),
      Nat.add_mul_div_left _ _ (Nat.pow_pos (by decide))]
    omega
  · refine ⟨fun _ => ?_, fun _ => ?_⟩
    · refine div_pow_lt (Nat.le_of_not_le hk) ?_
      rw [Nat.div_eq_of_lt hu, Nat.div_eq_of_lt hv]
    · refine div_pow_lt (Nat.le_of_not_le hk) ?_
      rw [top_div hu, top_div hv]

/-- The order, and how far from the top the numbers agree. -/
def SameOrder (p q : Nat × Nat) : Prop :=
  (p.1 < p.2 ↔ q.1 < q.2) ∧ (p.2 < p.1 ↔ q.2 < q.1) ∧
    ∀ k, p.1 / 2 ^ (64 * k) = p.2 / 2 ^ (64 * k) ↔ q.1 / 2 ^ (64 * k) = q.2 / 2 ^ (64 * k)

theorem lt_top {u v P x y : Nat} (hu : u < P) (h : x < y) : u + P * x < v + P * y := by
  have := Nat.mul_le_mul_left P (Nat.succ_le_of_lt h)
  rw [Nat.succ_eq_add_one, Nat.mul_add] at this
  omega

theorem ultSeen_iff : ∀ (z z' : List (Digit × Digit)), z.length = z'.length →
    (ultSeen z = ultSeen z' ↔ SameOrder (pairVal z) (pairVal z')) := by
  intro z
  induction z with
  | nil =>
    intro z' h
    rw [List.eq_nil_of_length_eq_zero h.symm]
    exact ⟨fun _ => ⟨Iff.rfl, Iff.rfl, fun _ => Iff.rfl⟩, fun _ => rfl⟩
  | cons p z ih =>
    intro z' h
    rcases z' with _ | ⟨p', z'⟩
    · simp at h
    · obtain ⟨l, r⟩ := p
      obtain ⟨l', r'⟩ := p'
      have hl : z.length = z'.length := by simpa using h
      have ⟨b1, b2⟩ := pairVal_lt z
      have ⟨b1', b2'⟩ := pairVal_lt z'
      rw [← hl] at b1' b2'
      have x1 := l.isLt
      have x2 := r.isLt
      have x1' := l'.isLt
      have x2' := r'.isLt
      have ih := ih z' hl
      unfold ultSeen pairVal SameOrder
      unfold SameOrder at ih
      rw [← hl]
      dsimp only
      generalize (pairVal z).1 = u at *
      generalize (pairVal z).2 = v at *
      generalize (pairVal z').1 = u' at *
      generalize (pairVal z').2 = v' at *
      rcases Nat.lt_trichotomy l.toNat r.toNat with c | c | c <;>
        rcases Nat.lt_trichotomy l'.toNat r'.toNat with c' | c' | c'
      · have q := lt_top (v := v) b1 c
        have q' := lt_top (v := v') b1' c'
        simp only [c, c', decide_true, if_true, true_iff]
        refine ⟨by omega, by omega, fun k => ?_⟩
        rw [quot_ne b1 b2 x1 x2 (by omega), quot_ne b1' b2' x1' x2' (by omega)]
      · refine iff_of_false (by simp [c, c']) ?_
        rintro ⟨_, _, q⟩
        have := (quot_ne (k := z.length) b1 b2 x1 x2 (by omega)).1 ((q z.length).2 (by
          rw [c', top_div b1', top_div b2']))
        omega
      · have q := lt_top (v := v) b1 c
        have q' := lt_top (v := u') b2' c'
        refine iff_of_false ?_ (by omega)
        simp [c, Nat.lt_asymm c']
      · refine iff_of_false (by simp [c, c']) ?_
        rintro ⟨_, _, q⟩
        have := (quot_ne (k := z.length) b1' b2' x1' x2' (by omega)).1 ((q z.length).1 (by
          rw [c, top_div b1, top_div b2]))
        omega
      · simp only [c, c', Nat.lt_irrefl, gt_iff_lt, decide_false, if_false, List.append_cancel_left_eq,
          List.cons.injEq, true_and, ih, Nat.add_lt_add_iff_right]
        refine and_congr_right fun _ => and_congr_right fun _ => forall_congr' fun k => ?_
        rw [quot_eq b1 b2, quot_eq b1' b2']
      · refine iff_of_false (by simp [c, c', Nat.lt_asymm c']) ?_
        rintro ⟨_, _, q⟩
        have := (quot_ne (k := z.length) b1' b2' x1' x2' (by omega)).1 ((q z.length).1 (by
          rw [c, top_div b1, top_div b2]))
        omega
      · have q := lt_top (v := u) b2 c
        have q' := lt_top (v := v') b1' c'
        refine iff_of_false ?_ (by omega)
        simp [c', Nat.lt_asymm c]
      · refine iff_of_false (by simp [c, c', Nat.lt_asymm c]) ?_
        rintro ⟨_, _, q⟩
        have := (quot_ne (k := z.length) b1 b2 x1 x2 (by omega)).1 ((q z.length).2 (by
          rw [c', top_div b1', top_div b2']))
        omega
      · have q := lt_top (v := u) b2 c
        have q' := lt_top (v := u') b2' c'
        simp only [c, c', gt_iff_lt, Nat.lt_asymm c, Nat.lt_asymm c', decide_true, decide_false, if_true,
          if_false, true_iff]
        refine ⟨by omega, by omega, fun k => ?_⟩
        rw [quot_ne b1 b2 x1 x2 (by omega), quot_ne b1' b2' x1' x2' (by omega)]

theorem pairVal_eq : ∀ (n : Nat) (xs ys : List Digit), xs.length = n → ys.length = n →
    pairVal (xs.reverse.zip ys.reverse) = (val xs, val ys) := by
  intro n
  induction n with
  | zero =>
    intro xs ys hx hy
    rw [List.eq_nil_of_length_eq_zero hx, List.eq_nil_of_length_eq_zero hy]
    rfl
  | succ n ih =>
    intro xs ys hx hy
    obtain ⟨xs, x, rfl⟩ : ∃ l y, xs = l ++ [y] :=
      ⟨xs.dropLast, xs.getLast (by rintro rfl; simp at hx), (List.dropLast_concat_getLast _).symm⟩
    obtain ⟨ys, y, rfl⟩ : ∃ l y, ys = l ++ [y] :=
      ⟨ys.dropLast, ys.getLast (by rintro rfl; simp at hy), (List.dropLast_concat_getLast _).symm⟩
    have hx : xs.length = n := by simpa using hx
    have hy : ys.length = n := by simpa using hy
    rw [List.reverse_append, List.reverse_append]
    show pairVal ((x, y) :: (xs.reverse.zip ys.reverse)) = _
    unfold pairVal
    rw [ih xs ys hx hy, val_append, val_append, val_singleton, val_singleton]
    simp only [List.length_zip, List.length_reverse, hx, hy, Nat.min_self, B_eq, ← Nat.pow_mul]

theorem ult_leak (ha : a.Shape) (hb : b.Shape) (ha' : a'.Shape) (hb' : b'.Shape) (e : a.len = b.len)
    (e1 : a.len = a'.len) (e2 : a.len = b'.len) (hw : 64 < a.w) :
    seen (Trace.checkedUlt a b) = seen (Trace.checkedUlt a' b') ↔
      SameOrder (a.uval, b.uval) (a'.uval, b'.uval) := by
  have ew : a.w = a'.w := by unfold ApInt.w; rw [e1]
  rcases zipAccessData_ok ha hb e with ⟨x, y, _, _, h1, _⟩ | ⟨xs, ys, ex, ey, h1, h2, h3, z⟩
  · omega
  rcases zipAccessData_ok ha' hb' (e1.symm.trans e2) with
    ⟨x, y, _, _, h1, _⟩ | ⟨xs', ys', ex', ey', h1', h2', h3', z'⟩
  · omega
  unfold Trace.checkedUlt
  simp only [z, z', lift_bind]
  obtain ⟨c, hc⟩ := ultLoop_seen (xs.reverse.zip ys.reverse)
  obtain ⟨c', hc'⟩ := ultLoop_seen (xs'.reverse.zip ys'.reverse)
  rw [hc, hc']
  have u : pairVal (xs.reverse.zip ys.reverse) = (a.uval, b.uval) := by
    rw [pairVal_eq _ xs ys h2 h3]
    simp [uval, digits, ex, ey]
  have u' : pairVal (xs'.reverse.zip ys'.reverse) = (a'.uval, b'.uval) := by
    rw [pairVal_eq _ xs' ys' h2' h3']
    simp [uval, digits, ex', ey']
  rw [← u, ← u', ← ultSeen_iff _ _ (by simp [h2, h3, h2', h3', ew])]
  show some (ultSeen _ ++ []) = some (ultSeen _ ++ []) ↔ _
  simp

/-! ## The sign -/

theorem sign_first {m : Bool} {s : Sight} {f : Bool → Watched α} {x : α} {c : Watched α}
    (h : c = (show' [s] (Except.ok m) >>= fun m => note [.test m] >>= fun _ => f m))
    (hx : result c = Except.ok x) : ∃ t, seen c = some (s :: .test m :: t) := by
  obtain ⟨t, ht⟩ := seen_of_result hx
  rw [h, seen_bind_ok (c := show' [s] (Except.ok m)) rfl, seen_bind_ok (c := note [.test m]) rfl]
  rw [h] at hx
  have : result (f m) = Except.ok x := by
    rw [result_bind, result_show, run_bind_ok, result_bind, result_note, run_bind_ok] at hx
    exact hx
  obtain ⟨t, ht⟩ := seen_of_result this
  rw [ht]
  exact ⟨t, rfl⟩

theorem sign_iff (h : a.WF) : a.msb = .ok (decide (2 ^ (a.w - 1) ≤ a.uval)) := by
  rw [msb_ok h.1]
  congr 1
  have hw := a.pos_w
  have hu := h.2
  rw [Nat.testBit_eq_decide_div_mod_eq]
  have hlt : a.uval / 2 ^ (a.w - 1) < 2 := by
    rw [Nat.div_lt_iff_lt_mul (Nat.pow_pos (by decide)), Nat.mul_comm, ← Nat.pow_succ,
      show (a.w - 1).succ = a.w by omega]
    exact hu
  rw [Nat.mod_eq_of_lt hlt]
  rw [decide_eq_decide]
  have := Nat.le_div_iff_mul_le (k := 2 ^ (a.w - 1)) (x := 1) (y := a.uval) (Nat.pow_pos (by decide))
  omega

theorem ashr_leak (h : a.WF) (h' : a'.WF) (e : a.len = a'.len) {s : Nat} :
    seen (Trace.wrappingAshrAssign a s) = seen (Trace.wrappingAshrAssign a' s) ↔
      (2 ^ (a.w - 1) ≤ a.uval ↔ 2 ^ (a.w - 1) ≤ a'.uval) := by
  have ew : a.w = a'.w := by unfold ApInt.w; rw [e]
  have al := Alike.of_shape h.1 h'.1 e
  have m := sign_iff h
  have m' := sign_iff h'
  rw [← ew] at m'
  constructor
  · intro q
    have ok : ∀ {x : ApInt}, x.WF → ∃ y, result (Trace.wrappingAshrAssign x s) = Except.ok y := by
      intro x hx
      rw [result_wrappingAshrAssign]
      rcases Nat.lt_or_ge s x.w with hs | hs
      · obtain ⟨y, hy, _⟩ := wrappingAshrAssign_ok hx hs
        exact ⟨_, hy⟩
      · exact ⟨_, wrappingAshrAssign_err hx hs⟩
    obtain ⟨y, hy⟩ := ok h
    obtain ⟨y', hy'⟩ := ok h'
    obtain ⟨t, ht⟩ := sign_first (by
      unfold Trace.wrappingAshrAssign Trace.msb
      rw [m]) hy
    obtain ⟨t', ht'⟩ := sign_first (by
      unfold Trace.wrappingAshrAssign Trace.msb
      rw [m']) hy'
    rw [ht, ht'] at q
    injection q with q
    injection q with _ q
    injection q with q _
    injection q with q
    exact decide_eq_decide.1 q
  · intro q
    rw [← decide_eq_decide.2 q] at m'
    exact (ashr_twin al s m m').seen

theorem signExtend_leak (h : a.WF) (h' : a'.WF) (e : a.len = a'.len) {t : BitWidth}
    (ht : a.w < t.toUsize) :
    seen (Trace.signExtend a t) = seen (Trace.signExtend a' t) ↔
      (2 ^ (a.w - 1) ≤ a.uval ↔ 2 ^ (a.w - 1) ≤ a'.uval) := by
  have ew : a.w = a'.w := by unfold ApInt.w; rw [e]
  have al := Alike.of_shape h.1 h'.1 e
  have m := sign_iff h
  have m' := sign_iff h'
  rw [← ew] at m'
  constructor
  · intro q
    have ok : ∀ {x : ApInt}, x.WF → x.w = a.w →
        ∃ y, result (Trace.signExtend x t) = Except.ok y := by
      intro x hx hw
      rw [result_signExtend]
      obtain ⟨y, hy, _⟩ := signExtend_ok hx (t := t) (by omega)
      exact ⟨_, hy⟩
    have n1 : ∀ {x : ApInt}, x.w = a.w → t ≠ x.width := by
      rintro x hw rfl
      change x.w = a.w at hw
      change a.w < x.w at ht
      omega
    have n2 : ∀ {x : ApInt}, x.w = a.w → ¬ t.toUsize < x.width.toUsize := by
      intro x hw
      change ¬ t.toUsize < x.w
      omega
    obtain ⟨y, hy⟩ := ok h rfl
    obtain ⟨y', hy'⟩ := ok h' ew.symm
    obtain ⟨t, ht⟩ := sign_first (by
      unfold Trace.signExtend Trace.msb
      dsimp only
      rw [if_neg (n1 rfl), if_neg (n2 rfl), m]) hy
    obtain ⟨t', ht'⟩ := sign_first (by
      unfold Trace.signExtend Trace.msb
      dsimp only
      rw [if_neg (n1 ew.symm), if_neg (n2 ew.symm), m']) hy'
    rw [ht, ht'] at q
    injection q with q
    injection q with _ q
    injection q with q _
    injection q with q
    exact decide_eq_decide.1 q
  · intro q
    rw [← decide_eq_decide.2 q] at m'
    exact (signExtend_twin al t m m').seen

/-! ## One digit -/

theorem inc_small (h : a.Shape) (h' : a'.Shape) (e : a.len = a'.len) (hw : a.w ≤ 64) :
    Twin (Trace.wrappingInc a) (Trace.wrappingInc a') Alike := by
  have ew : a.w = a'.w := by unfold ApInt.w; rw [e]
  have al := Alike.of_shape h h' e
  obtain ⟨d, hd⟩ := Shape.inl h hw
  obtain ⟨d', hd'⟩ := Shape.inl h' (by omega)
  unfold Trace.wrappingInc
  simp only [accessData_ok h, accessData_ok h', hd, hd', lift_bind, ok_bind]
  exact Twin.bind Twin.note fun _ _ _ => clearUnusedBits_twin (al.withInl _ _)

theorem dec_small (h : a.Shape) (h' : a'.Shape) (e : a.len = a'.len) (hw : a.w ≤ 64) :
    Twin (Trace.wrappingDec a) (Trace.wrappingDec a') Alike := by
  have ew : a.w = a'.w := by unfold ApInt.w; rw [e]
  have al := Alike.of_shape h h' e
  obtain ⟨d, hd⟩ := Shape.inl h hw
  obtain ⟨d', hd'⟩ := Shape.inl h' (by omega)
  unfold Trace.wrappingDec
  simp only [accessData_ok h, accessData_ok h', hd, hd', lift_bind, ok_bind]
  exact Twin.bind Twin.note fun _ _ _ => clearUnusedBits_twin (al.withInl _ _)

theorem neg_small (h : a.WF) (h' : a'.WF) (e : a.len = a'.len) (hw : a.w ≤ 64) :
    Twin (Trace.wrappingNeg a) (Trace.wrappingNeg a') Alike := by
  have al := Alike.of_shape h.1 h'.1 e
  obtain ⟨c, hc, wc, lc, uc⟩ := bitnot_ok h
  obtain ⟨c', hc', wc', lc', uc'⟩ := bitnot_ok h'
  have t := bitnot_twin al
  rw [← result_bitnot] at hc hc'
  obtain ⟨s, hs⟩ := seen_of_result hc
  obtain ⟨s', hs'⟩ := seen_of_result hc'
  rw [hs, hs'] at t
  have t1 : s = s' := t.1
  subst t1
  unfold Trace.wrappingNeg
  rw [hs, hs']
  have cw : c.w = a.w := by unfold ApInt.w; rw [lc]
  refine Twin.bind (R := fun x x' => x = c ∧ x' = c') ⟨rfl, rfl, rfl⟩ ?_
  rintro _ _ ⟨rfl, rfl⟩
  exact inc_small wc.1 wc'.1 (by rw [lc, lc', e]) (by omega)

theorem isZero_small (h : a.Shape) (h' : a'.Shape) (e : a.len = a'.len) (hw : a.w ≤ 64) :
    seen (Trace.isZero a) = seen (Trace.isZero a') := by
  have ew : a.w = a'.w := by unfold ApInt.w; rw [e]
  obtain ⟨d, hd⟩ := Shape.inl h hw
  obtain ⟨d', hd'⟩ := Shape.inl h' (by omega)
  unfold Trace.isZero
  simp only [accessData_ok h, accessData_ok h', hd, hd', lift_bind]
  rfl

theorem ult_small (ha : a.Shape) (hb : b.Shape) (ha' : a'.Shape) (hb' : b'.Shape)
    (e : a.len = b.len) (e1 : a.len = a'.len) (e2 : a.len = b'.len) (hw : a.w ≤ 64) :
    seen (Trace.checkedUlt a b) = seen (Trace.checkedUlt a' b') := by
  have ew : a.w = a'.w := by unfold ApInt.w; rw [e1]
  rcases zipAccessData_ok ha hb e with ⟨x, y, _, _, h1, z⟩ | ⟨xs, ys, ex, ey, h1, h2, h3, z⟩
  · rcases zipAccessData_ok ha' hb' (e1.symm.trans e2) with
      ⟨x', y', _, _, h1, z'⟩ | ⟨xs', ys', ex', ey', h1', h2', h3', z'⟩
    · unfold Trace.checkedUlt
      simp only [z, z', lift_bind]
      rfl
    · omega
  · omega

end

end Verif
