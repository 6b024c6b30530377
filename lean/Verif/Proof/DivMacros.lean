import Verif.Model.Div
import Verif.Proof.Mul
import Verif.Proof.Shift

/-! # The macros used by division -/

namespace Verif

namespace ApInt

theorem drop_set_succ {l : List Digit} {i : Nat} (v : Digit) :
    (l.set i v).drop (i + 1) = l.drop (i + 1) := List.drop_set_of_lt (by omega)

theorem val_take_set {l : List Digit} {i : Nat} (h : i < l.length) (v : Digit) :
    val ((l.set i v).take (i + 1)) = val (l.take i) + B ^ i * v.toNat := by
  have h' : i < (l.set i v).length := by simpa using h
  rw [val_take_succ h', List.getElem_set_self, List.take_set_of_le (Nat.le_refl i)]

theorem drop_of_drop {l m : List Digit} {i j : Nat} (h : l.drop i = m.drop i) (hij : i ≤ j) :
    l.drop j = m.drop j := by
  have := congrArg (List.drop (j - i)) h
  rwa [List.drop_drop, List.drop_drop, show i + (j - i) = j by omega] at this

theorem dd3_eq (a b c : Digit) :
    (DDigit.lo (dd3 a b c)).toNat + B * (DDigit.hi (dd3 a b c)).toNat
      = a.toNat + b.toNat + c.toNat := by
  rw [DDigit.lo_add_hi]
  exact add3_toNat a b c

theorem last_eq (a b c : Digit) :
    ∃ k, (Digit.wrappingAdd (Digit.wrappingAdd a b) c).toNat + B * k
      = a.toNat + b.toNat + c.toNat := by
  rw [Digit.wrappingAdd_toNat, Digit.wrappingAdd_toNat, Nat.mod_add_mod]
  exact ⟨_, Nat.mod_add_div _ _⟩

theorem not_toNat (a : Digit) : (Digit.notInplace a).toNat + a.toNat = B - 1 := by
  have := a.isLt
  simp only [Digit.notInplace, BitVec.toNat_not, B_eq]
  omega

theorem not_toNat' (a : Digit) : (Digit.notInplace a).toNat + a.toNat + 1 = B := by
  have := not_toNat a
  have := B_pos
  omega

theorem unsetAll_toNat (a : Digit) : (Digit.unsetAll a).toNat = 0 := by
  simp [Digit.unsetAll, Digit.ZERO]

theorem unsetAll_eq (a : Digit) : Digit.unsetAll a = 0#64 := by
  simp [Digit.unsetAll, Digit.ZERO]

/-- In two's complement the first `n` digits change sign; the others are kept. -/
theorem twosComplement_ok {l : List Digit} {n : Nat} (hn : n ≤ l.length) :
    ∃ l', twosComplement n l = .ok l' ∧ l'.length = l.length ∧ l'.drop n = l.drop n ∧
      ∃ k, val (l'.take n) + val (l.take n) = B ^ n * k := by
  unfold twosComplement
  refine forRangeB_spec (I := fun i (s : List Digit) => s.length = l.length ∧ s.drop i = l.drop i ∧
    val (s.take i) = 0 ∧ val (l.take i) = 0) _ (Nat.zero_le n) ⟨rfl, rfl, rfl, rfl⟩ ?_ ?_
  · rintro i s - hi ⟨h1, h2, h3, h4⟩
    have hil : i < l.length := by omega
    have his : i < s.length := by omega
    have hx : s[i] = l[i] := getElem_of_drop h2 (Nat.le_refl i) his hil
    rw [idx_ok his, hx]
    simp only [run_bind_ok]
    have hf := Digit.overflowingAdd_fst (Digit.notInplace l[i]) Digit.ONE
    have hs := Digit.overflowingAdd_snd (Digit.notInplace l[i]) Digit.ONE
    have hnot := not_toNat' l[i]
    have hlt := dlt l[i]
    rw [Digit.ONE_toNat] at hs
    rcases hov : Digit.overflowingAdd (Digit.notInplace l[i]) Digit.ONE with ⟨v, b⟩
    rw [hov] at hf hs
    simp only at hf hs
    have hv : v.toNat = ((Digit.notInplace l[i]).toNat + 1) % B := by
      rw [hf, BitVec.toNat_add, Digit.ONE_toNat, B_eq]
    cases b with
    | true =>
      left
      have hov' : B ≤ (Digit.notInplace l[i]).toNat + 1 := by simpa using hs.symm
      have hl0 : (l[i]).toNat = 0 := by omega
      have hv0 : v.toNat = 0 := by
        rw [hv, show (Digit.notInplace l[i]).toNat + 1 = B by omega, Nat.mod_self]
      simp only [upd_ok his, run_bind_ok]
      refine ⟨_, rfl, by simp [h1], ?_, ?_, ?_⟩
      · rw [drop_set_succ]; exact drop_of_drop h2 (by omega)
      · rw [val_take_set his, h3, hv0]; rfl
      · rw [val_take_succ hil, h4, hl0]; rfl
    | false =>
      right
      have hov' : ¬ B ≤ (Digit.notInplace l[i]).toNat + 1 := by simpa using hs.symm
      have hv0 : v.toNat + (l[i]).toNat = B := by
        rw [hv, Nat.mod_eq_of_lt (by omega)]; omega
      simp only [upd_ok his, run_bind_ok]
      obtain ⟨t, e, g1, g2, g3⟩ := forRange_spec
        (body := fun i1 array => do
          let a ← idx array i1
          upd array i1 (Digit.notInplace a))
        (I := fun j (t : List Digit) => t.length = l.length ∧ t.drop j = l.drop j ∧
          val (t.take j) + val (l.take j) = B ^ j)
        (s := s.set i v) (lo := i + 1) (hi := n) (by omega)
        ⟨by simp [h1], by rw [drop_set_succ]; exact drop_of_drop h2 (by omega), by
          rw [val_take_set his, val_take_succ hil, h3, h4, Nat.pow_succ]
          linear_combination B ^ i * hv0⟩ (by
          rintro j t hj1 hj2 ⟨g1, g2, g3⟩
          have hjt : j < t.length := by omega
          have hjl : j < l.length := by omega
          have hx : t[j] = l[j] := getElem_of_drop g2 (Nat.le_refl j) hjt hjl
          simp only [idx_ok hjt, run_bind_ok, upd_ok hjt]
          refine ⟨_, rfl, by simp [g1], by rw [drop_set_succ]; exact drop_of_drop g2 (by omega), ?_⟩
          rw [val_take_set hjt, val_take_succ hjl, hx, Nat.pow_succ]
          have := not_toNat' l[j]
          linear_combination g3 + B ^ j * this)
      refine ⟨t, ?_, g1, g2, 1, by rw [g3, Nat.mul_one]⟩
      rw [e]; rfl
  · rintro s ⟨h1, h2, h3, h4⟩
    exact ⟨h1, h2, 0, by rw [h3, h4]; rfl⟩

theorem anyNonzeroAbove_self (n : Nat) (r : List Digit) : anyNonzeroAbove n n r = .ok false := by
  simp [anyNonzeroAbove, forRevB, loopDownB]

theorem val_drop_eq {l : List Digit} {i n : Nat} (h : i < n) (hn : n ≤ l.length) :
    val ((l.take n).drop i) = (l[i]).toNat + B * val ((l.take n).drop (i + 1)) := by
  have hi : i < (l.take n).length := by simp; omega
  rw [List.drop_eq_getElem_cons hi, val_cons, List.getElem_take]

/-- Comparison of the first `n` digits. -/
theorem ugt_ok {l r : List Digit} {n : Nat} (hl : n ≤ l.length) (hr : n ≤ r.length) :
    ugt n l n r = .ok (decide (val (l.take n) > val (r.take n))) := by
  unfold ugt
  rw [anyNonzeroAbove_self]
  simp only [run_bind_ok, Bool.false_eq_true, if_false]
  obtain ⟨b, e, hb⟩ := forRevB_spec
    (body := fun i b1 => do
      let l ← idx l i
      let r ← idx r i
      if l.toNat > r.toNat then .ok (.brk false)
      else if l ≠ r then .ok (.brk b1)
      else .ok (.cont b1))
    (I := fun i (b : Bool) => b = true ∧ val ((l.take n).drop i) = val ((r.take n).drop i))
    (Q := fun b => b = !decide (val (l.take n) > val (r.take n)))
    (lo := 0) (hi := n) (s := true) (Nat.zero_le n)
    ⟨rfl, by rw [List.drop_of_length_le (by simp), List.drop_of_length_le (by simp)]⟩ (by
      rintro i b - hi ⟨rfl, hv⟩
      have hil : i < l.length := by omega
      have hir : i < r.length := by omega
      simp only [idx_ok hil, idx_ok hir, run_bind_ok]
      have d1 := val_drop_eq hi hl
      rw [hv] at d1
      have d2 := val_drop_eq hi hr
      have t1 := val_take_drop (l.take n) i (by simp; omega)
      have t2 := val_take_drop (r.take n) i (by simp; omega)
      have b1 : val ((l.take n).take i) < B ^ i := val_lt_of_le (by simp)
      have b2 : val ((r.take n).take i) < B ^ i := val_lt_of_le (by simp)
      by_cases hgt : (l[i]).toNat > (r[i]).toNat
      · right
        refine ⟨false, by simp [hgt], ?_⟩
        have : val ((l.take n).drop i) ≥ val ((r.take n).drop i) + 1 := by omega
        have := Nat.mul_le_mul_left (B ^ i) this
        rw [Nat.mul_add] at this
        have : val (l.take n) > val (r.take n) := by omega
        simp [this]
      · by_cases hne : l[i] = r[i]
        · left
          exact ⟨true, by simp [hne], rfl, by rw [d1, d2, hne]⟩
        · right
          refine ⟨true, by simp [hgt, hne], ?_⟩
          have hlt : (l[i]).toNat < (r[i]).toNat := by
            have : (l[i]).toNat ≠ (r[i]).toNat := fun h => hne (BitVec.eq_of_toNat_eq h)
            omega
          have : val ((r.take n).drop i) ≥ val ((l.take n).drop i) + 1 := by omega
          have := Nat.mul_le_mul_left (B ^ i) this
          rw [Nat.mul_add] at this
          have : ¬ val (l.take n) > val (r.take n) := by omega
          simp [this])
    (by
      rintro b ⟨rfl, hv⟩
      simp only [List.drop_zero] at hv
      simp [hv])
  rw [e]
  simp only [run_bind_ok, hb]
  by_cases h : val (l.take n) > val (r.take n) <;> simp [h]

theorem uge_ok {l r : List Digit} {n : Nat} (hl : n ≤ l.length) (hr : n ≤ r.length) :
    uge n l n r = .ok (decide (val (l.take n) ≥ val (r.take n))) := by
  unfold uge
  rw [anyNonzeroAbove_self]
  simp only [run_bind_ok, Bool.false_eq_true, if_false]
  obtain ⟨b, e, hb⟩ := forRevB_spec
    (body := fun i b1 => do
      let l ← idx l i
      let r ← idx r i
      if l.toNat < r.toNat then .ok (.brk true)
      else if l ≠ r then .ok (.brk b1)
      else .ok (.cont b1))
    (I := fun i (b : Bool) => b = false ∧ val ((l.take n).drop i) = val ((r.take n).drop i))
    (Q := fun b => b = !decide (val (l.take n) ≥ val (r.take n)))
    (lo := 0) (hi := n) (s := false) (Nat.zero_le n)
    ⟨rfl, by rw [List.drop_of_length_le (by simp), List.drop_of_length_le (by simp)]⟩ (by
      rintro i b - hi ⟨rfl, hv⟩
      have hil : i < l.length := by omega
      have hir : i < r.length := by omega
      simp only [idx_ok hil, idx_ok hir, run_bind_ok]
      have d1 := val_drop_eq hi hl
      rw [hv] at d1
      have d2 := val_drop_eq hi hr
      have t1 := val_take_drop (l.take n) i (by simp; omega)
      have t2 := val_take_drop (r.take n) i (by simp; omega)
      have b1 : val ((l.take n).take i) < B ^ i := val_lt_of_le (by simp)
      have b2 : val ((r.take n).take i) < B ^ i := val_lt_of_le (by simp)
      by_cases hgt : (l[i]).toNat < (r[i]).toNat
      · right
        refine ⟨true, by simp [hgt], ?_⟩
        have : val ((r.take n).drop i) ≥ val ((l.take n).drop i) + 1 := by omega
        have := Nat.mul_le_mul_left (B ^ i) this
        rw [Nat.mul_add] at this
        have : ¬ val (l.take n) ≥ val (r.take n) := by omega
        simp [this]
      · by_cases hne : l[i] = r[i]
        · left
          exact ⟨false, by simp [hne], rfl, by rw [d1, d2, hne]⟩
        · right
          refine ⟨false, by simp [hgt, hne], ?_⟩
          have hlt : (r[i]).toNat < (l[i]).toNat := by
            have : (l[i]).toNat ≠ (r[i]).toNat := fun h => hne (BitVec.eq_of_toNat_eq h)
            omega
          have : val ((l.take n).drop i) ≥ val ((r.take n).drop i) + 1 := by omega
          have := Nat.mul_le_mul_left (B ^ i) this
          rw [Nat.mul_add] at this
          have : val (l.take n) ≥ val (r.take n) := by omega
          simp [this])
    (by
      rintro b ⟨rfl, hv⟩
      simp only [List.drop_zero] at hv
      simp [hv])
  rw [e]
  simp only [run_bind_ok, hb]
  by_cases h : val (l.take n) ≥ val (r.take n) <;> simp [h]

/-- `add!` adds modulo `B ^ len`. -/
theorem addMacro_ok {s a : List Digit} (h2 : 2 ≤ s.length) (hl : a.length = s.length) :
    ∃ s', addMacro s.length s a = .ok s' ∧ s'.length = s.length ∧
      ∃ k, val s' + B ^ s.length * k = val s + val a := by
  have hs0 : 0 < s.length := by omega
  have ha0 : 0 < a.length := by omega
  have hc := Digit.carryingAdd_eq s[0] a[0]
  have hset := val_set hs0 (Digit.carryingAdd s[0] a[0]).1
  have ht := val_take_succ ha0
  simp only [List.take_zero, val_nil, Nat.pow_zero, Nat.one_mul, Nat.zero_add] at ht hset
  obtain ⟨⟨s1, c⟩, e, g1, g2⟩ := addLoop_ok a id (lhs0 := s) (c0 := 0) (lo := 1)
    (hi := s.length - 1) (base := val s)
    (s := (s.set 0 (Digit.carryingAdd s[0] a[0]).1, (Digit.carryingAdd s[0] a[0]).2))
    (by omega) (by simp) hl (by omega) (by
      simp only [List.map_id, ht, pow_one]
      linear_combination hset + hc)
  simp only [List.map_id, id, Nat.add_zero] at g1 g2 e
  have hs1 : s.length - 1 < s1.length := by omega
  have ha1 : s.length - 1 < a.length := by omega
  obtain ⟨k, hk⟩ := last_eq s1[s.length - 1] a[s.length - 1] c
  refine ⟨s1.set (s.length - 1)
      (Digit.wrappingAdd (Digit.wrappingAdd s1[s.length - 1] a[s.length - 1]) c), ?_, ?_, k, ?_⟩
  · simp only [addMacro, idx_ok hs0, idx_ok ha0, run_bind_ok, upd_ok hs0, csub_ok (show 1 ≤ s.length by omega)]
    unfold dd3
    rw [e]
    simp only [run_bind_ok, idx_ok hs1, idx_ok ha1, upd_ok hs1]
  · simp [g1]
  · have h3 := val_set hs1
      (Digit.wrappingAdd (Digit.wrappingAdd s1[s.length - 1] a[s.length - 1]) c)
    have h4 := val_take_succ ha1
    rw [List.take_of_length_le (by omega)] at h4
    have h5 : B ^ s.length = B ^ (s.length - 1) * B := by
      rw [← Nat.pow_succ]; congr 1; omega
    rw [h5, h4]
    linear_combination h3 + g2 + B ^ (s.length - 1) * hk

/-- `special0!`: `target = sum + sub`, `sum = v`, on the first `n` digits. -/
theorem special0_ok {sum sub target : List Digit} {n : Nat} (h2 : 2 ≤ n) (hs : n ≤ sum.length)
    (hb : n ≤ sub.length) (ht : n ≤ target.length) (v : Digit) :
    ∃ s' t', special0 n sum sub target v = .ok (s', t') ∧ s'.length = sum.length ∧
      t'.length = target.length ∧ s'.drop n = sum.drop n ∧ t'.drop n = target.drop n ∧
      val (s'.take n) = v.toNat ∧
      ∃ k, val (t'.take n) + B ^ n * k = val (sum.take n) + val (sub.take n) := by
  have hs0 : 0 < sum.length := by omega
  have hb0 : 0 < sub.length := by omega
  have ht0 : 0 < target.length := by omega
  have hc := Digit.carryingAdd_eq sum[0] sub[0]
  obtain ⟨⟨s1, t1, c⟩, e, g1, g2, g3, g4, g5, g6⟩ := forRange_spec
    (body := fun i (s : List Digit × List Digit × Digit) => do
      let a ← idx s.1 i
      let b ← idx sub i
      let temp := dd3 a b s.2.2
      let target ← upd s.2.1 i (DDigit.lo temp)
      let sum ← upd s.1 i (Digit.unsetAll a)
      .ok (sum, target, DDigit.hi temp))
    (I := fun i (s : List Digit × List Digit × Digit) =>
      s.1.length = sum.length ∧ s.2.1.length = target.length ∧ s.1.drop i = sum.drop i ∧
      s.2.1.drop i = target.drop i ∧ val (s.1.take i) = v.toNat ∧
      val (s.2.1.take i) + B ^ i * s.2.2.toNat = val (sum.take i) + val (sub.take i))
    (lo := 1) (hi := n - 1)
    (s := (sum.set 0 v, target.set 0 (Digit.carryingAdd sum[0] sub[0]).1,
      (Digit.carryingAdd sum[0] sub[0]).2)) (by omega)
    ⟨by simp, by simp, drop_set_succ v, drop_set_succ _, by
      have := val_take_set hs0 v
      simpa [val_nil] using this, by
      have e1 := val_take_set ht0 (Digit.carryingAdd sum[0] sub[0]).1
      have e2 := val_take_succ hs0
      have e3 := val_take_succ hb0
      simp only [List.take_zero, val_nil, Nat.pow_zero, Nat.one_mul, Nat.zero_add] at e1 e2 e3
      rw [e1, e2, e3, pow_one]
      exact hc⟩ (by
      rintro i ⟨s, t, c⟩ hi1 hi2 ⟨g1, g2, g3, g4, g5, g6⟩
      simp only at g1 g2 g3 g4 g5 g6
      have his : i < s.length := by omega
      have hit : i < t.length := by omega
      have hiu : i < sum.length := by omega
      have hib : i < sub.length := by omega
      have hx : s[i] = sum[i] := getElem_of_drop g3 (Nat.le_refl i) his hiu
      simp only [idx_ok his, idx_ok hib, run_bind_ok, upd_ok his, upd_ok hit]
      refine ⟨_, rfl, by simp [g1], by simp [g2], ?_, ?_, ?_, ?_⟩
      · simp only [drop_set_succ]; exact drop_of_drop g3 (by omega)
      · simp only [drop_set_succ]; exact drop_of_drop g4 (by omega)
      · simp only [val_take_set his, unsetAll_toNat, g5, Nat.mul_zero, Nat.add_zero]
      · simp only [val_take_set hit, val_take_succ hiu, val_take_succ hib, hx]
        have := dd3_eq sum[i] sub[i] c
        rw [Nat.pow_succ]
        linear_combination g6 + B ^ i * this)
  simp only at g1 g2 g3 g4 g5 g6
  have hi1 : n - 1 < s1.length := by omega
  have hi2 : n - 1 < t1.length := by omega
  have hi3 : n - 1 < sum.length := by omega
  have hi4 : n - 1 < sub.length := by omega
  have hx : s1[n - 1] = sum[n - 1] := getElem_of_drop g3 (Nat.le_refl _) hi1 hi3
  obtain ⟨k, hk⟩ := last_eq sum[n - 1] sub[n - 1] c
  have hn : n - 1 + 1 = n := by omega
  refine ⟨s1.set (n - 1) (Digit.unsetAll sum[n - 1]), t1.set (n - 1)
    (Digit.wrappingAdd (Digit.wrappingAdd sum[n - 1] sub[n - 1]) c), ?_, ?_, ?_, ?_, ?_, ?_, k, ?_⟩
  · simp only [special0, idx_ok hs0, idx_ok hb0, run_bind_ok, upd_ok hs0, upd_ok ht0,
      csub_ok (show 1 ≤ n by omega)]
    rw [e]
    simp only [run_bind_ok, idx_ok hi1, idx_ok hi4, upd_ok hi1, upd_ok hi2, hx]
  · simp [g1]
  · simp [g2]
  · have := drop_set_succ (l := s1) (i := n - 1) (Digit.unsetAll sum[n - 1])
    rw [hn] at this
    rw [this]; exact drop_of_drop g3 (by omega)
  · have := drop_set_succ (l := t1) (i := n - 1)
      (Digit.wrappingAdd (Digit.wrappingAdd sum[n - 1] sub[n - 1]) c)
    rw [hn] at this
    rw [this]; exact drop_of_drop g4 (by omega)
  · have := val_take_set hi1 (Digit.unsetAll sum[n - 1])
    rw [hn, unsetAll_toNat, g5] at this
    simpa using this
  · have h3 := val_take_set hi2 (Digit.wrappingAdd (Digit.wrappingAdd sum[n - 1] sub[n - 1]) c)
    have h4 := val_take_succ hi3
    have h5 := val_take_succ hi4
    rw [hn] at h3 h4 h5
    have h6 : B ^ n = B ^ (n - 1) * B := by rw [← pow_succ, hn]
    rw [h3, h4, h5, h6]
    linear_combination g6 + B ^ (n - 1) * hk

/-- `special0!` with `sub` and `target` the same array. -/
theorem special0Self_ok {sum target : List Digit} {n : Nat} (h2 : 2 ≤ n) (hs : n ≤ sum.length)
    (ht : n ≤ target.length) (v : Digit) :
    ∃ s' t', special0Self n sum target v = .ok (s', t') ∧ s'.length = sum.length ∧
      t'.length = target.length ∧ s'.drop n = sum.drop n ∧ t'.drop n = target.drop n ∧
      val (s'.take n) = v.toNat ∧
      ∃ k, val (t'.take n) + B ^ n * k = val (sum.take n) + val (target.take n) := by
  have hs0 : 0 < sum.length := by omega
  have hb0 : 0 < target.length := by omega
  have ht0 : 0 < target.length := by omega
  have hc := Digit.carryingAdd_eq sum[0] target[0]
  obtain ⟨⟨s1, t1, c⟩, e, g1, g2, g3, g4, g5, g6⟩ := forRange_spec
    (body := fun i (s : List Digit × List Digit × Digit) => do
      let a ← idx s.1 i
      let b ← idx s.2.1 i
      let temp := dd3 a b s.2.2
      let target ← upd s.2.1 i (DDigit.lo temp)
      let sum ← upd s.1 i (Digit.unsetAll a)
      .ok (sum, target, DDigit.hi temp))
    (I := fun i (s : List Digit × List Digit × Digit) =>
      s.1.length = sum.length ∧ s.2.1.length = target.length ∧ s.1.drop i = sum.drop i ∧
      s.2.1.drop i = target.drop i ∧ val (s.1.take i) = v.toNat ∧
      val (s.2.1.take i) + B ^ i * s.2.2.toNat = val (sum.take i) + val (target.take i))
    (lo := 1) (hi := n - 1)
    (s := (sum.set 0 v, target.set 0 (Digit.carryingAdd sum[0] target[0]).1,
      (Digit.carryingAdd sum[0] target[0]).2)) (by omega)
    ⟨by simp, by simp, drop_set_succ v, drop_set_succ _, by
      have := val_take_set hs0 v
      simpa [val_nil] using this, by
      have e1 := val_take_set ht0 (Digit.carryingAdd sum[0] target[0]).1
      have e2 := val_take_succ hs0
      have e3 := val_take_succ hb0
      simp only [List.take_zero, val_nil, Nat.pow_zero, Nat.one_mul, Nat.zero_add] at e1 e2 e3
      rw [e1, e2, e3, pow_one]
      exact hc⟩ (by
      rintro i ⟨s, t, c⟩ hi1 hi2 ⟨g1, g2, g3, g4, g5, g6⟩
      simp only at g1 g2 g3 g4 g5 g6
      have his : i < s.length := by omega
      have hit : i < t.length := by omega
      have hiu : i < sum.length := by omega
      have hib : i < target.length := by omega
      have hx : s[i] = sum[i] := getElem_of_drop g3 (Nat.le_refl i) his hiu
      have hy : t[i] = target[i] := getElem_of_drop g4 (Nat.le_refl i) hit hib
      simp only [idx_ok his, idx_ok hit, run_bind_ok, upd_ok his, upd_ok hit]
      refine ⟨_, rfl, by simp [g1], by simp [g2], ?_, ?_, ?_, ?_⟩
      · simp only [drop_set_succ]; exact drop_of_drop g3 (by omega)
      · simp only [drop_set_succ]; exact drop_of_drop g4 (by omega)
      · simp only [val_take_set his, unsetAll_toNat, g5, Nat.mul_zero, Nat.add_zero]
      · simp only [val_take_set hit, val_take_succ hiu, val_take_succ hib, hx, hy]
        have := dd3_eq sum[i] target[i] c
        rw [Nat.pow_succ]
        linear_combination g6 + B ^ i * this)
  simp only at g1 g2 g3 g4 g5 g6
  have hi1 : n - 1 < s1.length := by omega
  have hi2 : n - 1 < t1.length := by omega
  have hi3 : n - 1 < sum.length := by omega
  have hi4 : n - 1 < target.length := by omega
  have hx : s1[n - 1] = sum[n - 1] := getElem_of_drop g3 (Nat.le_refl _) hi1 hi3
  have hy : t1[n - 1] = target[n - 1] := getElem_of_drop g4 (Nat.le_refl _) hi2 hi4
  obtain ⟨k, hk⟩ := last_eq sum[n - 1] target[n - 1] c
  have hn : n - 1 + 1 = n := by omega
  refine ⟨s1.set (n - 1) (Digit.unsetAll sum[n - 1]), t1.set (n - 1)
    (Digit.wrappingAdd (Digit.wrappingAdd sum[n - 1] target[n - 1]) c), ?_, ?_, ?_, ?_, ?_, ?_, k, ?_⟩
  · simp only [special0Self, idx_ok hs0, idx_ok hb0, run_bind_ok, upd_ok hs0, upd_ok ht0,
      csub_ok (show 1 ≤ n by omega)]
    rw [e]
    simp only [run_bind_ok, idx_ok hi1, idx_ok hi2, upd_ok hi1, upd_ok hi2, hx, hy]
  · simp [g1]
  · simp [g2]
  · have := drop_set_succ (l := s1) (i := n - 1) (Digit.unsetAll sum[n - 1])
    rw [hn] at this
    rw [this]; exact drop_of_drop g3 (by omega)
  · have := drop_set_succ (l := t1) (i := n - 1)
      (Digit.wrappingAdd (Digit.wrappingAdd sum[n - 1] target[n - 1]) c)
    rw [hn] at this
    rw [this]; exact drop_of_drop g4 (by omega)
  · have := val_take_set hi1 (Digit.unsetAll sum[n - 1])
    rw [hn, unsetAll_toNat, g5] at this
    simpa using this
  · have h3 := val_take_set hi2 (Digit.wrappingAdd (Digit.wrappingAdd sum[n - 1] target[n - 1]) c)
    have h4 := val_take_succ hi3
    have h5 := val_take_succ hi4
    rw [hn] at h3 h4 h5
    have h6 : B ^ n = B ^ (n - 1) * B := by rw [← pow_succ, hn]
    rw [h3, h4, h5, h6]
    linear_combination g6 + B ^ (n - 1) * hk

theorem forRangeB_brk {σ : Type} {body : Nat → σ → Run (Step σ)} {lo hi : Nat} {s s' : σ}
    (h : lo < hi) (hb : body lo s = .ok (.brk s')) : forRangeB lo hi s body = .ok s' := by
  obtain ⟨m, hm⟩ : ∃ m, hi - lo = m + 1 := ⟨hi - lo - 1, by omega⟩
  simp [forRangeB, hm, loopUpB, hb]

/-- `special1!`: `targ = sum + sub`, `sum = add + v`. -/
theorem special1_ok {sum sub targ add : List Digit} (h2 : 2 ≤ sum.length)
    (hb : sub.length = sum.length) (ht : targ.length = sum.length)
    (ha : add.length = sum.length) (v : Digit) :
    ∃ s' t', special1 sum.length sum sub targ v add = .ok (s', t') ∧ s'.length = sum.length ∧
      t'.length = sum.length ∧ (∃ k, val t' + B ^ sum.length * k = val sum + val sub) ∧
      ∃ k, val s' + B ^ sum.length * k = val add + v.toNat := by
  have hs0 : 0 < sum.length := by omega
  have hb0 : 0 < sub.length := by omega
  have ht0 : 0 < targ.length := by omega
  have ha0 : 0 < add.length := by omega
  have hc := Digit.carryingAdd_eq sum[0] sub[0]
  obtain ⟨⟨t1, c⟩, e, g1, g2⟩ := forRange_spec
    (body := fun i (s : List Digit × Digit) => do
      let a ← idx sum i
      let b ← idx sub i
      let temp := dd3 a b s.2
      let targ ← upd s.1 i (DDigit.lo temp)
      .ok (targ, DDigit.hi temp))
    (I := fun i (s : List Digit × Digit) => s.1.length = sum.length ∧
      val (s.1.take i) + B ^ i * s.2.toNat = val (sum.take i) + val (sub.take i))
    (lo := 1) (hi := sum.length - 1)
    (s := (targ.set 0 (Digit.carryingAdd sum[0] sub[0]).1, (Digit.carryingAdd sum[0] sub[0]).2))
    (by omega)
    ⟨by simp [ht], by
      have e1 := val_take_set ht0 (Digit.carryingAdd sum[0] sub[0]).1
      have e2 := val_take_succ hs0
      have e3 := val_take_succ hb0
      simp only [List.take_zero, val_nil, Nat.pow_zero, Nat.one_mul, Nat.zero_add] at e1 e2 e3
      rw [e1, e2, e3, pow_one]
      exact hc⟩ (by
      rintro i ⟨t, c⟩ hi1 hi2 ⟨g1, g2⟩
      simp only at g1 g2
      have hit : i < t.length := by omega
      have his : i < sum.length := by omega
      have hib : i < sub.length := by omega
      simp only [idx_ok his, idx_ok hib, run_bind_ok, upd_ok hit]
      refine ⟨_, rfl, by simp [g1], ?_⟩
      simp only [val_take_set hit, val_take_succ his, val_take_succ hib]
      have := dd3_eq sum[i] sub[i] c
      rw [Nat.pow_succ]
      linear_combination g2 + B ^ i * this)
  simp only at g1 g2
  have hn : sum.length - 1 + 1 = sum.length := by omega
  have i1 : sum.length - 1 < sum.length := by omega
  have i2 : sum.length - 1 < sub.length := by omega
  have i3 : sum.length - 1 < t1.length := by omega
  obtain ⟨k, hk⟩ := last_eq sum[sum.length - 1] sub[sum.length - 1] c
  have hc2 := Digit.carryingAdd_eq add[0] v
  obtain ⟨⟨s2, c2⟩, e2, g3, g4⟩ := forRange_spec
    (body := fun i0 (s : List Digit × Digit) => do
      let sum1 ←
        if Digit.isZero s.2 then
          forRangeB i0 sum.length s.1 fun i1 sum => do
            let a ← idx add i1
            let sum ← upd sum i1 a
            .ok (.brk sum)
        else .ok s.1
      let a ← idx add i0
      let temp := Digit.carryingAdd a s.2
      let sum ← upd sum1 i0 temp.1
      .ok (sum, temp.2))
    (I := fun i (s : List Digit × Digit) => s.1.length = sum.length ∧
      val (s.1.take i) + B ^ i * s.2.toNat = val (add.take i) + v.toNat)
    (lo := 1) (hi := sum.length)
    (s := (sum.set 0 (Digit.carryingAdd add[0] v).1, (Digit.carryingAdd add[0] v).2))
    (by omega)
    ⟨by simp, by
      have e1 := val_take_set hs0 (Digit.carryingAdd add[0] v).1
      have e3 := val_take_succ ha0
      simp only [List.take_zero, val_nil, Nat.pow_zero, Nat.one_mul, Nat.zero_add] at e1 e3
      rw [e1, e3, pow_one]
      exact hc2⟩ (by
      rintro i ⟨t, c⟩ hi1 hi2 ⟨g1, g2⟩
      simp only at g1 g2
      have hit : i < t.length := by omega
      have hia : i < add.length := by omega
      have key : ∀ t' : List Digit, t'.length = t.length → t'.take i = t.take i →
          ∃ s', (do
            let a ← idx add i
            let temp := Digit.carryingAdd a c
            let sum ← upd t' i temp.1
            .ok (sum, temp.2) : Run (List Digit × Digit)) = .ok s' ∧ s'.1.length = sum.length ∧
            val (s'.1.take (i + 1)) + B ^ (i + 1) * s'.2.toNat
              = val (add.take (i + 1)) + v.toNat := by
        intro t' ht1 ht2
        have hit' : i < t'.length := by omega
        simp only [idx_ok hia, run_bind_ok, upd_ok hit']
        refine ⟨_, rfl, by simp [ht1, g1], ?_⟩
        simp only [val_take_set hit', val_take_succ hia, ht2]
        have := Digit.carryingAdd_eq add[i] c
        rw [Nat.pow_succ]
        linear_combination g2 + B ^ i * this
      simp only
      split
      · have hbrk : forRangeB i sum.length t (fun i1 sum => do
            let a ← idx add i1
            let sum ← upd sum i1 a
            .ok (.brk sum)) = .ok (t.set i add[i]) :=
          forRangeB_brk hi2 (by simp only [idx_ok hia, run_bind_ok, upd_ok hit])
        rw [hbrk]
        exact key _ (by simp) (List.take_set_of_le (Nat.le_refl i))
      · exact key t rfl rfl)
  simp only at g3 g4
  refine ⟨s2, t1.set (sum.length - 1) (Digit.wrappingAdd
    (Digit.wrappingAdd sum[sum.length - 1] sub[sum.length - 1]) c), ?_, g3, by simp [g1],
    ⟨k, ?_⟩, c2.toNat, ?_⟩
  · simp only [special1, idx_ok hs0, idx_ok hb0, run_bind_ok, upd_ok hs0, upd_ok ht0,
      csub_ok (show 1 ≤ sum.length by omega)]
    rw [e]
    simp only [run_bind_ok, idx_ok i1, idx_ok i2, upd_ok i3, idx_ok ha0]
    simp only [run_bind_ok] at e2
    rw [e2]
    simp only [run_bind_ok]
  · have h3 := val_take_set i3 (Digit.wrappingAdd
      (Digit.wrappingAdd sum[sum.length - 1] sub[sum.length - 1]) c)
    have h4 := val_take_succ i1
    have h5 := val_take_succ i2
    rw [hn, List.take_of_length_le (by omega)] at h4 h5
    rw [hn, List.take_of_length_le (by simp; omega)] at h3
    have h6 : B ^ sum.length = B ^ (sum.length - 1) * B := by rw [← pow_succ, hn]
    rw [h3, h4, h5, h6]
    linear_combination g2 + B ^ (sum.length - 1) * hk
  · rw [List.take_of_length_le (by omega), List.take_of_length_le (by omega)] at g4
    exact g4

/-- The quotient is zero: the dividend becomes the remainder. -/
theorem moveDuoToDiv_ok {duo div : List Digit} {i j : Nat} (hl : div.length = duo.length)
    (hj : j < duo.length) (hij : i ≤ j) (hu : val duo < B ^ (i + 1))
    (hv : val div < B ^ (j + 1)) :
    ∃ duo' div', moveDuoToDiv duo i div j = .ok (duo', div') ∧ duo'.length = duo.length ∧
      div'.length = duo.length ∧ val duo' = 0 ∧ val div' = val duo := by
  obtain ⟨⟨u1, v1⟩, e, g1, g2, g3, g4, g5, g6⟩ := forRange_spec
    (body := fun i (s : List Digit × List Digit) => do
      let d ← idx s.1 i
      let div ← upd s.2 i d
      let duo ← upd s.1 i (Digit.unsetAll d)
      .ok (duo, div))
    (I := fun i (s : List Digit × List Digit) => s.1.length = duo.length ∧
      s.2.length = duo.length ∧ s.1.drop i = duo.drop i ∧ s.2.drop i = div.drop i ∧
      val (s.1.take i) = 0 ∧ val (s.2.take i) = val (duo.take i))
    (lo := 0) (hi := i + 1) (s := (duo, div)) (by omega)
    ⟨rfl, hl, rfl, rfl, rfl, rfl⟩ (by
      rintro m ⟨u, v⟩ - hm ⟨g1, g2, g3, g4, g5, g6⟩
      simp only at g1 g2 g3 g4 g5 g6
      have k1 : m < u.length := by omega
      have k2 : m < v.length := by omega
      have k3 : m < duo.length := by omega
      have hx : u[m] = duo[m] := getElem_of_drop g3 (Nat.le_refl _) k1 k3
      simp only [idx_ok k1, run_bind_ok, upd_ok k2, upd_ok k1]
      refine ⟨_, rfl, by simp [g1], by simp [g2], ?_, ?_, ?_, ?_⟩
      · simp only [drop_set_succ]; exact drop_of_drop g3 (by omega)
      · simp only [drop_set_succ]; exact drop_of_drop g4 (by omega)
      · simp only [val_take_set k1, unsetAll_toNat, g5, Nat.mul_zero, Nat.add_zero]
      · simp only [val_take_set k2, val_take_succ k3, hx, g6])
  simp only at g1 g2 g3 g4 g5 g6
  obtain ⟨v2, e2, h1, h2, h3⟩ := forRange_spec
    (body := fun i div => do
      let d ← idx div i
      upd div i (Digit.unsetAll d))
    (I := fun m (s : List Digit) => s.length = duo.length ∧ s.drop m = div.drop m ∧
      val (s.take m) = val (duo.take (i + 1)))
    (lo := i + 1) (hi := min (j + 1) v1.length) (s := v1) (by omega)
    ⟨g2, g4, g6⟩ (by
      rintro m v - hm ⟨h1, h2, h3⟩
      have k2 : m < v.length := by omega
      simp only [idx_ok k2, run_bind_ok, upd_ok k2]
      refine ⟨_, rfl, by simp [h1], ?_, ?_⟩
      · simp only [drop_set_succ]; exact drop_of_drop h2 (by omega)
      · simp only [val_take_set k2, unsetAll_toNat, h3, Nat.mul_zero, Nat.add_zero])
  rw [show min (j + 1) v1.length = j + 1 by omega] at e2 h2 h3
  refine ⟨u1, v2, ?_, g1, h1, ?_, ?_⟩
  · simp only [moveDuoToDiv]
    rw [e]
    simp only [run_bind_ok]
    rw [show min (j + 1) v1.length = j + 1 by omega, e2]
    simp only [run_bind_ok]
  · rw [val_take_drop u1 (i + 1) (by omega), g5, g3, val_drop_of_lt hu (Nat.le_refl _),
      Nat.mul_zero]
  · rw [val_take_drop v2 (j + 1) (by omega), h3, h2, val_drop_of_lt hv (Nat.le_refl _),
      val_take_of_lt hu, Nat.mul_zero, Nat.add_zero]

end ApInt

end Verif
