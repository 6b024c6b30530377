import Verif.Model.TraceAsk
import Verif.SpecTrace
import Verif.Proof.TraceLeak
import Verif.Proof.TraceRun
import Verif.Proof.Counts

/-!
# What the questions show
-/

namespace Verif

open ApInt Watched ToldBy

section
variable {α : Type}

/-! ## Without the trace -/

theorem result_swapped (c : Watched α) : result (swapped c) = result c := by
  rcases c with e | ⟨a, s⟩ <;> rfl

theorem swap_swap (s : Sight) : s.swap.swap = s := by
  rcases s with ⟨o, i⟩ | ⟨o, i⟩ | b | n
  · cases o <;> rfl
  · cases o <;> rfl
  · rfl
  · rfl

theorem swapped_swapped (c : Watched α) : swapped (swapped c) = c := by
  rcases c with e | ⟨a, s⟩
  · rfl
  · show Except.ok (a, _) = _
    rw [List.map_map, show Sight.swap ∘ Sight.swap = id from funext swap_swap, List.map_id]

theorem seen_swapped {c c' : Watched α} : seen (swapped c) = seen (swapped c') ↔ seen c = seen c' := by
  have inj : Function.Injective Sight.swap := fun x y h => by
    rw [← swap_swap x, h, swap_swap]
  rcases c with e | ⟨a, s⟩ <;> rcases c' with e' | ⟨a', s'⟩
  · exact Iff.rfl
  · exact ⟨nofun, nofun⟩
  · exact ⟨nofun, nofun⟩
  · show some _ = some _ ↔ some _ = some _
    rw [Option.some_inj, Option.some_inj]
    exact (List.map_injective_iff.2 inj).eq_iff

theorem seen_map {β : Type} (c : Watched α) (f : α → β) :
    seen (c >>= fun r => (pure (f r) : Watched β)) = seen c := by
  rcases c with e | ⟨a, s⟩
  · rfl
  · show some (s ++ []) = some s
    rw [List.append_nil]

theorem result_map {β : Type} (c : Watched α) (f : α → β) :
    result (c >>= fun r => (pure (f r) : Watched β)) = (do let r ← result c; pure (f r)) := by
  rw [result_bind]
  rfl

theorem result_eqLoop (i : Nat) (l r : List Digit) (h : l.length = r.length) :
    result (Trace.eqLoop i (l.zip r)) = .ok (l == r) := by
  induction l generalizing i r with
  | nil =>
    rw [List.eq_nil_of_length_eq_zero h.symm]
    rfl
  | cons x l ih =>
    rcases r with _ | ⟨y, r⟩
    · simp at h
    · rw [List.zip_cons_cons, Trace.eqLoop, result_bind, result_note, run_bind_ok, result_ite,
        ih _ _ (by simpa using h), result_ok, List.cons_beq_cons]
      cases x == y <;> rfl

theorem result_eq (a b : ApInt) : result (Trace.eq a b) = a.eq b := by
  unfold Trace.eq ApInt.eq
  rw [result_ite, result_ok]
  split
  · rfl
  · rw [result_bind, result_lift]
    congr 1
    funext l
    rw [result_bind, result_lift]
    congr 1
    funext r
    rw [result_ite, result_ok]
    split
    next h =>
      have : (l == r) = false := by
        rw [beq_eq_false_iff_ne]
        rintro rfl
        exact h rfl
      rw [this]
      rfl
    next h => exact result_eqLoop 0 l r (by simpa using h)

theorem result_checkedUle (a b : ApInt) : result (Trace.checkedUle a b) = a.checkedUle b := by
  unfold Trace.checkedUle ApInt.checkedUle
  rw [result_map, result_swapped, result_checkedUlt]

theorem result_checkedUgt (a b : ApInt) : result (Trace.checkedUgt a b) = a.checkedUgt b := by
  unfold Trace.checkedUgt ApInt.checkedUgt
  rw [result_swapped, result_checkedUlt]

theorem result_checkedUge (a b : ApInt) : result (Trace.checkedUge a b) = a.checkedUge b := by
  unfold Trace.checkedUge ApInt.checkedUge
  rw [result_map, result_checkedUlt]

theorem result_checkedSlt (a b : ApInt) : result (Trace.checkedSlt a b) = a.checkedSlt b := by
  unfold Trace.checkedSlt ApInt.checkedSlt
  rw [result_bind, result_lift]
  congr 1
  funext z
  rcases z with e | (⟨l, r⟩ | ⟨l, r⟩)
  · rfl
  · simp only [result_bind, result_note, result_lift, run_bind_ok, result_ok]
  · simp only [result_bind, result_note, result_show, run_bind_ok]
    congr 1
    funext lm
    congr 1
    funext rm
    cases lm <;> cases rm
    · exact result_checkedUlt a b
    · rfl
    · rfl
    · exact (result_swapped _).trans (result_checkedUgt b a)

theorem result_checkedSle (a b : ApInt) : result (Trace.checkedSle a b) = a.checkedSle b := by
  unfold Trace.checkedSle ApInt.checkedSle
  rw [result_map, result_swapped, result_checkedSlt]

theorem result_checkedSgt (a b : ApInt) : result (Trace.checkedSgt a b) = a.checkedSgt b := by
  unfold Trace.checkedSgt ApInt.checkedSgt
  rw [result_swapped, result_checkedSlt]

theorem result_checkedSge (a b : ApInt) : result (Trace.checkedSge a b) = a.checkedSge b := by
  unfold Trace.checkedSge ApInt.checkedSge
  rw [result_map, result_checkedSlt]

/-! ## The loops -/

theorem leadingLoop_seen (n i : Nat) (l : List Digit) (z : Nat) (h : i + l.length = n) :
    Trace.leadingLoop l z = told (zerosLoop leadingZeros64 l z)
      (whileSeen (fun d => leadingZeros64 d == 64) (fun i => rAt (n - 1 - i)) i l) := by
  induction l generalizing i z with
  | nil => rfl
  | cons d l ih =>
    rw [List.length_cons] at h
    unfold Trace.leadingLoop zerosLoop whileSeen
    dsimp only
    rw [show n - 1 - i = l.length by omega]
    by_cases hd : leadingZeros64 d = 64
    · rw [if_neg (by simpa using hd), if_neg (by simpa using hd), if_pos (by simpa using hd),
        ih (i + 1) _ (by omega)]
      rfl
    · rw [if_pos hd, if_pos hd, if_neg (by simpa using hd)]
      rfl

theorem trailingLoop_seen (i : Nat) (l : List Digit) (z : Nat) :
    Trace.trailingLoop i l z = told (zerosLoop trailingZeros64 l z)
      (whileSeen (fun d => trailingZeros64 d == 64) rAt i l) := by
  induction l generalizing i z with
  | nil => rfl
  | cons d l ih =>
    unfold Trace.trailingLoop zerosLoop whileSeen
    dsimp only
    by_cases hd : trailingZeros64 d = 64
    · rw [if_neg (by simpa using hd), if_neg (by simpa using hd), if_pos (by simpa using hd), ih]
      rfl
    · rw [if_pos hd, if_pos hd, if_neg (by simpa using hd)]
      rfl

theorem eqLoop_seen (i : Nat) (l : List (Digit × Digit)) :
    ∃ b, Trace.eqLoop i l = told b
      (whileSeen (fun p => p.1 == p.2) (fun i => [.read .self i, .read .rhs i]) i l) := by
  induction l generalizing i with
  | nil => exact ⟨_, rfl⟩
  | cons p l ih =>
    obtain ⟨x, y⟩ := p
    unfold Trace.eqLoop whileSeen
    dsimp only
    cases x == y
    · exact ⟨_, rfl⟩
    · obtain ⟨b, h⟩ := ih (i + 1)
      refine ⟨b, ?_⟩
      rw [if_pos rfl, h]
      rfl

theorem onesLoop_seen (i : Nat) (l : List Digit) :
    Trace.onesLoop i l = told (l.all fun d => d == Digit.ONES)
      (whileSeen (fun d => d == Digit.ONES) rAt i l) := by
  induction l generalizing i with
  | nil => rfl
  | cons d l ih =>
    unfold Trace.onesLoop whileSeen
    rw [List.all_cons, ih]
    cases d == Digit.ONES <;> rfl

theorem result_leadingZeros (a : ApInt) : result (Trace.leadingZeros a) = a.leadingZeros := by
  unfold Trace.leadingZeros ApInt.leadingZeros
  rw [result_bind, result_lift]
  congr 1
  funext l
  rw [result_bind, leadingLoop_seen _ 0 _ _ rfl, show result (told _ _) = Except.ok _ from rfl,
    run_bind_ok, result_bind, result_lift]
  congr 1
  funext u
  exact result_lift _

theorem result_trailingZeros (a : ApInt) : result (Trace.trailingZeros a) = a.trailingZeros := by
  unfold Trace.trailingZeros ApInt.trailingZeros
  rw [result_bind, result_lift]
  congr 1
  funext l
  rw [result_bind, trailingLoop_seen, show result (told _ _) = Except.ok _ from rfl,
    run_bind_ok, result_bind, result_note, run_bind_ok, result_ite]
  dsimp only
  by_cases hz : zerosLoop trailingZeros64 l 0 ≥ a.width.toUsize
  · rw [if_pos hz, if_pos hz, result_bind, result_lift]
    congr 1
    funext u
    exact result_lift _
  · rw [if_neg hz, if_neg hz]
    rfl

theorem result_isOne (a : ApInt) : result (Trace.isOne a) = a.isOne := by
  unfold Trace.isOne ApInt.isOne
  rw [result_bind, result_lift]
  congr 1
  funext d
  rcases d with d | l
  · rfl
  · dsimp only
    rcases l.getLast? with _ | t
    · rfl
    · dsimp only
      rw [result_bind, result_note, run_bind_ok, result_ite, result_zeroLoop, result_ok]
      cases t == Digit.ONE <;> rfl

theorem result_isAllSet (a : ApInt) : result (Trace.isAllSet a) = a.isAllSet := by
  unfold Trace.isAllSet ApInt.isAllSet
  rw [result_bind, result_lift]
  congr 1
  funext ⟨m, rest⟩
  dsimp only
  rcases a.width.excessBits with _ | e
  · dsimp only
    rw [onesLoop_seen]
    rfl
  · dsimp only
    rw [result_bind, result_note, run_bind_ok, result_ite, onesLoop_seen, result_ok]
    rfl

end

section
variable {a a' b b' : ApInt}

/-! ## Equality -/

theorem mod_step {d d' v v' k : Nat} (hd : d < 2 ^ 64) (hd' : d' < 2 ^ 64) :
    (d + 2 ^ 64 * v) % 2 ^ (64 * (k + 1)) = (d' + 2 ^ 64 * v') % 2 ^ (64 * (k + 1)) ↔
      d = d' ∧ v % 2 ^ (64 * k) = v' % 2 ^ (64 * k) := by
  rw [pow_digit, Nat.mod_mul, Nat.mod_mul, Nat.add_mul_mod_self_left, Nat.add_mul_mod_self_left,
    Nat.mod_eq_of_lt hd, Nat.mod_eq_of_lt hd', Nat.add_mul_div_left _ _ (by decide),
    Nat.add_mul_div_left _ _ (by decide), Nat.div_eq_of_lt hd, Nat.div_eq_of_lt hd', Nat.zero_add,
    Nat.zero_add]
  generalize v % 2 ^ (64 * k) = x
  generalize v' % 2 ^ (64 * k) = y
  omega

theorem eqSeen_iff (z z' : List (Digit × Digit)) (h : z.length = z'.length) :
    whileSeen (fun p : Digit × Digit => p.1 == p.2) (fun i => [.read .self i, .read .rhs i]) 0 z =
        whileSeen (fun p => p.1 == p.2) (fun i => [.read .self i, .read .rhs i]) 0 z' ↔
      SameLowMatch (val (z.map (·.1))) (val (z.map (·.2))) (val (z'.map (·.1)))
        (val (z'.map (·.2))) := by
  refine whileSeen_iff (P := fun z k => val (z.map (·.1)) % 2 ^ (64 * k) =
    val (z.map (·.2)) % 2 ^ (64 * k)) (fun l => by simp [Nat.mod_one]) ?_ z z' 0 h
  rintro ⟨x, y⟩ l k
  rw [List.map_cons, List.map_cons, val_cons, val_cons, B_eq, mod_step x.isLt y.isLt]
  refine and_congr_left fun _ => ?_
  dsimp only
  rw [beq_iff_eq]
  exact (BitVec.toNat_inj)

theorem eq_form (ha : a.Shape) (hb : b.Shape) (e : a.len = b.len) :
    ∃ r, Trace.eq a b = told r (whileSeen (fun p : Digit × Digit => p.1 == p.2)
      (fun i => [.read .self i, .read .rhs i]) 0 (a.digits.zip b.digits)) := by
  have ew : a.w = b.w := by unfold ApInt.w; rw [e]
  have hl : a.digits.length = b.digits.length := by
    rw [ha.length_digits, hb.length_digits, ew]
  obtain ⟨r, h⟩ := eqLoop_seen 0 (a.digits.zip b.digits)
  refine ⟨r, ?_⟩
  unfold Trace.eq
  rw [if_neg (by
    show ¬ a.len.toUsize ≠ b.len.toUsize
    rw [e]
    simp), asDigitSlice_ok ha, asDigitSlice_ok hb, lift_bind, lift_bind, if_neg (by simpa using hl), h]

theorem eq_leak (ha : a.Shape) (hb : b.Shape) (ha' : a'.Shape) (hb' : b'.Shape) (e : a.len = b.len)
    (e1 : a.len = a'.len) (e2 : a.len = b'.len) :
    seen (Trace.eq a b) = seen (Trace.eq a' b') ↔
      SameLowMatch a.uval b.uval a'.uval b'.uval := by
  have lens : ∀ {x : ApInt}, x.Shape → a.len = x.len → x.digits.length = a.digits.length := by
    intro x hx h
    rw [hx.length_digits, ha.length_digits]
    unfold ApInt.w
    rw [h]
  obtain ⟨r, h⟩ := eq_form ha hb e
  obtain ⟨r', h'⟩ := eq_form ha' hb' (e1.symm.trans e2)
  have lb := lens hb e
  have la' := lens ha' e1
  have lb' := lens hb' e2
  rw [h, h']
  show some _ = some _ ↔ _
  rw [Option.some_inj, eqSeen_iff _ _ (by simp [lb, la', lb']), List.map_fst_zip (by omega),
    List.map_snd_zip (by omega), List.map_fst_zip (by omega), List.map_snd_zip (by omega)]
  rfl

theorem eq_quiet (e : a.w ≠ b.w) : seen (Trace.eq a b) = some [] := by
  unfold Trace.eq
  rw [if_pos (show a.lenBits ≠ b.lenBits from e)]
  rfl

/-! ## Signed comparison -/

/-- The sign bit of an integer. -/
abbrev sgn (a : ApInt) : Bool := decide (2 ^ (a.w - 1) ≤ a.uval)

theorem slt_form (ha : a.WF) (hb : b.WF) (e : a.len = b.len) (hw : 64 < a.w) :
    seen (Trace.checkedSlt a b) = (seen (Trace.sltSigns a b (sgn a) (sgn b))).map
      ([.read .self (Trace.top a), .read .rhs (Trace.top b), .test (sgn a), .test (sgn b)] ++ ·) := by
  rcases zipAccessData_ok ha.1 hb.1 e with ⟨x, y, _, _, h1, _⟩ | ⟨xs, ys, ex, ey, h1, h2, h3, z⟩
  · omega
  unfold Trace.checkedSlt
  rw [z, lift_bind]
  dsimp only
  rw [sign_iff ha, sign_iff hb, seen_bind_ok (c := show' _ (Except.ok _)) rfl,
    seen_bind_ok (c := show' _ (Except.ok _)) rfl, seen_bind_ok (c := note _) rfl, Option.map_map,
    Option.map_map]
  rfl

theorem neg_iff_sgn (h : a.WF) : a.sval < 0 ↔ sgn a = true := by
  have h1 := h.2
  have h3 : ((2 : Int) ^ a.w) = ((2 ^ a.w : Nat) : Int) := by push_cast; rfl
  unfold sval sgn
  rw [h3]
  generalize 2 ^ a.w = p at *
  generalize 2 ^ (a.w - 1) = q at *
  rw [decide_eq_true_iff]
  split <;> omega

theorem sameSign_iff (h : a.WF) (h' : a'.WF) : SameSign a a' ↔ sgn a = sgn a' := by
  unfold SameSign
  rw [neg_iff_sgn h, neg_iff_sgn h']
  cases sgn a <;> cases sgn a' <;> simp

/-- Integers of different signs differ in their top digit, and so in every whole number of digits
from there on down. -/
theorem order_of_signs (ha : a.WF) (hb : b.WF) (e : b.w = a.w) (hs : sgn a = false)
    (hr : sgn b = true) :
    a.uval < b.uval ∧ ∀ k, a.uval / 2 ^ (64 * k) = b.uval / 2 ^ (64 * k) ↔ a.w ≤ 64 * k := by
  have h1 := ha.2
  have h2 := hb.2
  have hp := a.pos_w
  unfold sgn at hs hr
  rw [decide_eq_false_iff_not] at hs
  rw [decide_eq_true_iff] at hr
  rw [e] at hr h2
  refine ⟨by omega, fun k => ?_⟩
  constructor
  · intro h
    by_contra hk
    have hd : 2 ^ (64 * k) ∣ 2 ^ (a.w - 1) := Nat.pow_dvd_pow 2 (by omega)
    obtain ⟨m, hm⟩ := hd
    have pos : 0 < 2 ^ (64 * k) := Nat.pow_pos (by decide)
    have x1 : a.uval / 2 ^ (64 * k) < m := by
      rw [Nat.div_lt_iff_lt_mul pos, Nat.mul_comm]
      omega
    have x2 : m ≤ b.uval / 2 ^ (64 * k) := by
      rw [Nat.le_div_iff_mul_le pos, Nat.mul_comm]
      omega
    omega
  · intro hk
    have : 2 ^ a.w ≤ 2 ^ (64 * k) := Nat.pow_le_pow_right (by decide) hk
    rw [Nat.div_eq_of_lt (by omega), Nat.div_eq_of_lt (by omega)]

theorem sameUOrder_of_signs (ha : a.WF) (hb : b.WF) (ha' : a'.WF) (hb' : b'.WF) (e : b.w = a.w)
    (e1 : a'.w = a.w) (e2 : b'.w = a.w) (hs : sgn a = sgn a') (hr : sgn b = sgn b')
    (hn : sgn a ≠ sgn b) : SameUOrder a.uval b.uval a'.uval b'.uval := by
  have hn' : sgn a' ≠ sgn b' := hs ▸ hr ▸ hn
  cases h : sgn a
  · have hb1 : sgn b = true := by
      cases h1 : sgn b
      · exact absurd (h.trans h1.symm) hn
      · rfl
    obtain ⟨q1, q2⟩ := order_of_signs ha hb e h hb1
    obtain ⟨r1, r2⟩ := order_of_signs ha' hb' (by omega) (hs.symm.trans h) (hr.symm.trans hb1)
    refine ⟨by omega, by omega, fun k => ?_⟩
    rw [q2, r2, e1]
  · have hb1 : sgn b = false := by
      cases h1 : sgn b
      · rfl
      · exact absurd (h.trans h1.symm) hn
    obtain ⟨q1, q2⟩ := order_of_signs hb ha e.symm hb1 h
    obtain ⟨r1, r2⟩ := order_of_signs hb' ha' (by omega) (hr.symm.trans hb1) (hs.symm.trans h)
    refine ⟨by omega, by omega, fun k => ?_⟩
    rw [eq_comm, q2, eq_comm, r2, e, e2]

theorem sltSigns_same (hs : sgn a = sgn b) :
    Trace.sltSigns a b (sgn a) (sgn b) = Trace.checkedUlt a b := by
  rw [← hs]
  cases sgn a
  · rfl
  · exact swapped_swapped _

theorem sltSigns_other (hn : sgn a ≠ sgn b) : seen (Trace.sltSigns a b (sgn a) (sgn b)) = some [] := by
  cases h : sgn a <;> cases h' : sgn b
  · exact absurd (h.trans h'.symm) hn
  · rfl
  · rfl
  · exact absurd (h.trans h'.symm) hn

theorem slt_leak (ha : a.WF) (hb : b.WF) (ha' : a'.WF) (hb' : b'.WF) (e : a.len = b.len)
    (e1 : a.len = a'.len) (e2 : a.len = b'.len) (hw : 64 < a.w) :
    seen (Trace.checkedSlt a b) = seen (Trace.checkedSlt a' b') ↔
      SameSign a a' ∧ SameSign b b' ∧ SameUOrder a.uval b.uval a'.uval b'.uval := by
  have wid : ∀ {x y : ApInt}, x.len = y.len → x.w = y.w := by
    intro x y h
    unfold ApInt.w
    rw [h]
  have tops : ∀ {x y : ApInt}, x.len = y.len → Trace.top x = Trace.top y := by
    intro x y h
    unfold Trace.top lenDigits
    rw [h]
  have q := wid e
  have q1 := wid e1
  have q2 := wid e2
  rw [slt_form ha hb e hw, slt_form ha' hb' (e1.symm.trans e2) (by omega), sameSign_iff ha ha',
    sameSign_iff hb hb', ← tops e1, tops (e.symm.trans e2)]
  have key : sgn a = sgn a' → sgn b = sgn b' →
      (seen (Trace.sltSigns a b (sgn a) (sgn b)) = seen (Trace.sltSigns a' b' (sgn a') (sgn b')) ↔
        SameUOrder a.uval b.uval a'.uval b'.uval) := by
    intro hs hr
    by_cases hn : sgn a = sgn b
    · rw [sltSigns_same hn, sltSigns_same (hs ▸ hr ▸ hn)]
      exact ult_leak ha.1 hb.1 ha'.1 hb'.1 e e1 e2 hw
    · rw [sltSigns_other hn, sltSigns_other (hs ▸ hr ▸ hn)]
      exact iff_of_true rfl (sameUOrder_of_signs ha hb ha' hb' q.symm q1.symm q2.symm hs hr hn)
  constructor
  · intro h
    have some_of : ∀ {x y : ApInt}, x.WF → y.WF → x.len = y.len → 64 < x.w →
        ∃ s, seen (Trace.sltSigns x y (sgn x) (sgn y)) = some s := by
      intro x y hx hy hl hw
      by_cases hn : sgn x = sgn y
      · rw [sltSigns_same hn]
        rcases zipAccessData_ok hx.1 hy.1 hl with ⟨_, _, _, _, h1, _⟩ | ⟨xs, ys, _, _, _, _, _, z⟩
        · omega
        · unfold Trace.checkedUlt
          rw [z, lift_bind]
          obtain ⟨c, hc⟩ := ultLoop_seen (xs.reverse.zip ys.reverse)
          dsimp only
          rw [hc]
          exact ⟨_, rfl⟩
      · exact ⟨_, sltSigns_other hn⟩
    obtain ⟨s, hs⟩ := some_of ha hb e hw
    obtain ⟨s', hs'⟩ := some_of ha' hb' (e1.symm.trans e2) (by omega)
    have h0 := h
    rw [hs, hs', Option.map_some, Option.map_some, Option.some_inj] at h0
    simp only [List.cons_append, List.nil_append, List.cons.injEq, Sight.test.injEq, true_and] at h0
    obtain ⟨g1, g2, g3⟩ := h0
    refine ⟨g1, g2, (key g1 g2).1 ?_⟩
    rw [hs, hs', g3]
  · rintro ⟨g1, g2, g3⟩
    rw [(key g1 g2).2 g3, g1, g2]

theorem slt_small (ha : a.Shape) (hb : b.Shape) (ha' : a'.Shape) (hb' : b'.Shape)
    (e : a.len = b.len) (e1 : a.len = a'.len) (e2 : a.len = b'.len) (hw : a.w ≤ 64) :
    seen (Trace.checkedSlt a b) = seen (Trace.checkedSlt a' b') := by
  have ew : a.w = a'.w := by unfold ApInt.w; rw [e1]
  rcases zipAccessData_ok ha hb e with ⟨x, y, _, _, h1, z⟩ | ⟨xs, ys, ex, ey, h1, h2, h3, z⟩
  · rcases zipAccessData_ok ha' hb' (e1.symm.trans e2) with
      ⟨x', y', _, _, h1', z'⟩ | ⟨xs', ys', ex', ey', h1', h2', h3', z'⟩
    · have form : ∀ {c : ApInt} (x y : Digit), c.len = a.len →
          seen (note [.read .self 0, .read .rhs 0] >>= fun _ =>
            (liftM (csub 64 c.width.toUsize) : Watched Nat) >>= fun n =>
              (liftM (rawShl x n) : Watched Digit) >>= fun l =>
                (liftM (rawShl y n) : Watched Digit) >>= fun r =>
                  (Watched.ok (.ok (decide (l.toInt < r.toInt))) : Watched (Res Bool))) =
            some [.read .self 0, .read .rhs 0] := by
        intro c x y hc
        have hp := a.pos_w
        have hcw : c.width.toUsize = a.w := by
          show c.len.toUsize = _
          rw [hc]
        rw [seen_bind_ok (c := note _) rfl, hcw, csub_ok hw, lift_bind]
        unfold rawShl
        rw [if_pos (by omega), if_pos (by omega), lift_bind, lift_bind]
        rfl
      unfold Trace.checkedSlt
      rw [z, z', lift_bind, lift_bind]
      exact (form x y rfl).trans (form x' y' e1.symm).symm
    · omega
  · omega

theorem zip_unmatched (e : a.len ≠ b.len) :
    ∃ x, a.zipAccessData b = .ok (.error x) := by
  unfold zipAccessData
  rw [if_pos (show a.width ≠ b.width from e)]
  exact ⟨_, rfl⟩

theorem ult_unmatched (e : a.len ≠ b.len) : seen (Trace.checkedUlt a b) = some [] := by
  obtain ⟨x, h⟩ := zip_unmatched e
  unfold Trace.checkedUlt
  rw [h, lift_bind]
  rfl

theorem slt_unmatched (e : a.len ≠ b.len) : seen (Trace.checkedSlt a b) = some [] := by
  obtain ⟨x, h⟩ := zip_unmatched e
  unfold Trace.checkedSlt
  rw [h, lift_bind]
  rfl

/-! ## Zeros at the ends -/

theorem leading64_iff (d : Digit) : leadingZeros64 d = 64 ↔ d.toNat = 0 :=
  (leadingZeros64_spec d).2.2.2

theorem trailing64_iff (d : Digit) : trailingZeros64 d = 64 ↔ d.toNat = 0 := by
  obtain ⟨h1, h2, h3⟩ := trailingZerosAux_spec d.toNat 64 0
  simp only [Nat.zero_add] at h2 h3
  change trailingZerosAux d.toNat 64 0 = 64 ↔ _
  constructor
  · intro h
    rw [h] at h2
    apply Nat.eq_of_testBit_eq
    intro i
    rw [Nat.zero_testBit]
    by_cases hi : i < 64
    · exact h2 i hi
    · exact Nat.testBit_lt_two_pow (Nat.lt_of_lt_of_le d.isLt
        (Nat.pow_le_pow_right (by decide) (by omega)))
  · intro h
    by_contra hc
    have := h3 (by omega)
    rw [h, Nat.zero_testBit] at this
    cases this

theorem leadingSeen_iff (n : Nat) (l l' : List Digit) (h : l.length = n) (h' : l'.length = n) :
    whileSeen (fun d => leadingZeros64 d == 64) (fun i => rAt (n - 1 - i)) 0 l.reverse =
        whileSeen (fun d => leadingZeros64 d == 64) (fun i => rAt (n - 1 - i)) 0 l'.reverse ↔
      SameHighZeros (val l) (val l') := by
  rw [whileSeen_iff (P := fun z k => val z.reverse < 2 ^ (64 * (z.length - k)))
    (fun z => by
      have := val_lt z.reverse
      rw [List.length_reverse, B_pow] at this
      exact this) ?_ l.reverse l'.reverse 0 (by simp [h, h'])]
  · rw [List.reverse_reverse, List.reverse_reverse, List.length_reverse, List.length_reverse, h, h']
    have b := val_lt l
    have b' := val_lt l'
    rw [B_pow, h] at b
    rw [B_pow, h'] at b'
    constructor
    · intro q k
      by_cases hk : k ≤ n
      · have := q (n - k)
        rwa [show n - (n - k) = k by omega] at this
      · have : 2 ^ (64 * n) ≤ 2 ^ (64 * k) := Nat.pow_le_pow_right (by decide) (by omega)
        exact iff_of_true (by omega) (by omega)
    · intro q k
      exact q (n - k)
  · intro d z k
    have b := val_lt z.reverse
    rw [List.length_reverse, B_pow] at b
    rw [List.reverse_cons, val_append, val_singleton, List.length_cons, List.length_reverse, B_pow,
      show z.length + 1 - (k + 1) = z.length - k by omega, beq_iff_eq, leading64_iff]
    have hp : 2 ^ (64 * (z.length - k)) ≤ 2 ^ (64 * z.length) :=
      Nat.pow_le_pow_right (by decide) (by omega)
    constructor
    · intro q
      have : d.toNat = 0 := by
        by_contra hd
        have := Nat.mul_le_mul_left (2 ^ (64 * z.length)) (Nat.one_le_iff_ne_zero.2 hd)
        omega
      rw [this, Nat.mul_zero] at q
      exact ⟨this, q⟩
    · rintro ⟨q, r⟩
      rw [q, Nat.mul_zero]
      exact r

theorem leading_form (h : a.WF) : ∃ r, Trace.leadingZeros a = told r
    (whileSeen (fun d => leadingZeros64 d == 64) (fun i => rAt ((a.w + 63) / 64 - 1 - i)) 0
      a.digits.reverse) := by
  obtain ⟨n, hn, _⟩ := leadingZeros_ok h
  rw [← result_leadingZeros] at hn
  obtain ⟨s, hs⟩ := seen_of_result hn
  refine ⟨n, ?_⟩
  have hl : 0 + a.digits.reverse.length = (a.w + 63) / 64 := by
    rw [List.length_reverse, h.1.length_digits]
    omega
  have key : seen (Trace.leadingZeros a) = some (whileSeen (fun d => leadingZeros64 d == 64)
      (fun i => rAt ((a.w + 63) / 64 - 1 - i)) 0 a.digits.reverse) := by
    unfold Trace.leadingZeros at hs ⊢
    rw [asDigitSlice_ok h.1, lift_bind, leadingLoop_seen _ 0 _ _ hl, unusedBits_ok] at hs ⊢
    rw [seen_bind_ok (c := told _ _) rfl, lift_bind]
    have hs := congrArg result hs
    rw [result_bind, show result (told _ _) = Except.ok _ from rfl, run_bind_ok, lift_bind,
      result_lift] at hs
    rw [show csub _ _ = Except.ok n from hs]
    show some (_ ++ []) = _
    rw [List.append_nil]
  rw [hs] at key ⊢
  cases key
  rfl

theorem leading_leak (h : a.WF) (h' : a'.WF) (e : a.len = a'.len) :
    seen (Trace.leadingZeros a) = seen (Trace.leadingZeros a') ↔ SameHighZeros a.uval a'.uval := by
  have ew : a.w = a'.w := by unfold ApInt.w; rw [e]
  obtain ⟨r, q⟩ := leading_form h
  obtain ⟨r', q'⟩ := leading_form h'
  rw [q, q', ← ew]
  show some _ = some _ ↔ _
  rw [Option.some_inj]
  exact leadingSeen_iff _ _ _ h.1.length_digits (by rw [h'.1.length_digits, ew])

theorem trailingSeen_iff (l l' : List Digit) (h : l.length = l'.length) :
    whileSeen (fun d => trailingZeros64 d == 64) rAt 0 l =
        whileSeen (fun d => trailingZeros64 d == 64) rAt 0 l' ↔ SameLowZeros (val l) (val l') := by
  refine whileSeen_iff (P := fun l k => 2 ^ (64 * k) ∣ val l) (fun l => by simp) ?_ l l' 0 h
  intro d l k
  rw [val_cons, B_eq, dvd_step d.isLt, beq_iff_eq, trailing64_iff]

theorem trailing_form (h : a.WF) : seen (Trace.trailingZeros a) = some
    (whileSeen (fun d => trailingZeros64 d == 64) rAt 0 a.digits ++
      [.test (decide (a.uval = 0))]) := by
  obtain ⟨z, e, h1, h2, h3⟩ := trailingLoop_ok a.digits 0
  rw [h.1.length_digits] at h1 h3
  rw [Nat.zero_add] at e
  have hp := a.pos_w
  have hz : z ≥ a.w ↔ a.uval = 0 := by
    constructor
    · intro hz
      apply Nat.eq_of_testBit_eq
      intro i
      rw [Nat.zero_testBit]
      by_cases hi : i < z
      · exact h2 i hi
      · exact h.testBit_of_ge (by omega)
    · intro h0
      by_contra hz
      have := h3 (by omega)
      unfold uval at h0
      rw [h0, Nat.zero_testBit] at this
      cases this
  have hwid : a.width.toUsize = a.w := rfl
  unfold Trace.trailingZeros
  rw [asDigitSlice_ok h.1, lift_bind, trailingLoop_seen, seen_bind_ok (c := told _ _) rfl, e, hwid,
    seen_bind_ok (c := note _) rfl, decide_eq_decide.2 hz]
  split
  next hc =>
    have hz2 : z = 64 * ((a.w + 63) / 64) := by
      by_contra hc'
      have h4 := h3 (by omega)
      have h5 := h.testBit_of_ge hc
      unfold uval at h5
      rw [h4] at h5
      cases h5
    rw [unusedBits_ok, lift_bind, csub_ok (by omega)]
    rfl
  next => rfl

theorem trailing_leak (h : a.WF) (h' : a'.WF) (e : a.len = a'.len) :
    seen (Trace.trailingZeros a) = seen (Trace.trailingZeros a') ↔ SameLowZeros a.uval a'.uval := by
  have ew : a.w = a'.w := by unfold ApInt.w; rw [e]
  have hl : a.digits.length = a'.digits.length := by
    rw [h.1.length_digits, h'.1.length_digits, ew]
  rw [trailing_form h, trailing_form h', Option.some_inj]
  have key := trailingSeen_iff a.digits a'.digits hl
  constructor
  · intro q
    exact key.1 (List.append_inj' q rfl).1
  · intro q
    rw [key.2 q]
    have zero : ∀ {x : ApInt}, x.WF → x.w = a.w → (2 ^ (64 * a.w) ∣ x.uval ↔ x.uval = 0) := by
      intro x hx hw
      have := hx.2
      have hp := x.pos_w
      have big : 2 ^ x.w ≤ 2 ^ (64 * a.w) := Nat.pow_le_pow_right (by decide) (by omega)
      constructor
      · intro hd
        exact Nat.eq_zero_of_dvd_of_lt hd (by omega)
      · intro h0
        rw [h0]
        exact Nat.dvd_zero _
    have := q a.w
    rw [zero h rfl, zero h' ew.symm] at this
    rw [decide_eq_decide.2 this]

/-! ## `is_one`, `is_all_set` -/

theorem split_uval (h : a.Shape) : ∃ l d, a.digits = l ++ [d] ∧
    a.splitMostSignificantDigit = .ok (d, l) ∧ l.length = (a.w - 1) / 64 ∧
    a.uval = val l + 2 ^ (64 * ((a.w - 1) / 64)) * d.toNat ∧
    val l < 2 ^ (64 * ((a.w - 1) / 64)) := by
  obtain ⟨l, d, e1, e2⟩ := splitMostSignificantDigit_ok h
  have hp := a.pos_w
  have hl := h.length_digits
  rw [e1, List.length_append, List.length_singleton] at hl
  have hl : l.length = (a.w - 1) / 64 := by omega
  refine ⟨l, d, e1, e2, hl, ?_, ?_⟩
  · unfold uval
    rw [e1, val_append, val_singleton, hl, B_pow]
  · have := val_lt l
    rwa [hl, B_pow] at this

theorem dvd_low {n k v x : Nat} (hk : k ≤ n) :
    2 ^ (64 * k) ∣ v + 2 ^ (64 * n) * x ↔ 2 ^ (64 * k) ∣ v :=
  Nat.dvd_add_left (Nat.dvd_trans (Nat.pow_dvd_pow 2 (Nat.mul_le_mul_left 64 hk))
    (Nat.dvd_mul_right _ _))

/-- For numbers of at most `n` digits it is enough to look at these. -/
theorem low_zeros_iff {n v v' x x' : Nat} (h : v < 2 ^ (64 * n)) (h' : v' < 2 ^ (64 * n)) :
    (∀ k, 2 ^ (64 * k) ∣ v ↔ 2 ^ (64 * k) ∣ v') ↔
      ∀ k, k ≤ n → (2 ^ (64 * k) ∣ v + 2 ^ (64 * n) * x ↔ 2 ^ (64 * k) ∣ v' + 2 ^ (64 * n) * x') := by
  constructor
  · intro q k hk
    rw [dvd_low hk, dvd_low hk]
    exact q k
  · intro q k
    by_cases hk : k ≤ n
    · have := q k hk
      rwa [dvd_low hk, dvd_low hk] at this
    · have zero : ∀ {v : Nat}, v < 2 ^ (64 * n) → ∀ {j}, n ≤ j → (2 ^ (64 * j) ∣ v ↔ v = 0) := by
        intro v hv j hj
        have : 2 ^ (64 * n) ≤ 2 ^ (64 * j) := Nat.pow_le_pow_right (by decide) (by omega)
        constructor
        · intro hd
          exact Nat.eq_zero_of_dvd_of_lt hd (by omega)
        · rintro rfl
          exact Nat.dvd_zero _
      have := q n (Nat.le_refl _)
      rw [dvd_low (Nat.le_refl _), dvd_low (Nat.le_refl _), zero h (Nat.le_refl _),
        zero h' (Nat.le_refl _)] at this
      rw [zero h (by omega), zero h' (by omega), this]

theorem isOne_form (h : a.Shape) (hw : 64 < a.w) {l : List Digit} {d : Digit}
    (e : a.digits = l ++ [d]) :
    seen (Trace.isOne a) = some ([.read .self (Trace.top a), .test (d == Digit.ONE)] ++
      if d == Digit.ONE then whileSeen Digit.isZero rAt 0 l else []) := by
  obtain ⟨z, ez, _, _⟩ := Shape.ext h hw
  have hz : z = l ++ [d] := by
    rw [← e]
    unfold digits
    rw [ez]
  unfold Trace.isOne
  rw [accessData_ok h, ez, lift_bind, hz]
  dsimp only
  rw [List.getLast?_concat, List.dropLast_concat]
  dsimp only
  rw [seen_bind_ok (c := note _) rfl]
  cases d == Digit.ONE
  · rfl
  · obtain ⟨c, hc⟩ := zeroLoop_seen l 0
    rw [if_pos rfl, hc]
    rfl

theorem isOne_leak (h : a.WF) (h' : a'.WF) (e : a.len = a'.len) (hw : 64 < a.w) :
    seen (Trace.isOne a) = seen (Trace.isOne a') ↔
      (a.uval / 2 ^ (64 * ((a.w - 1) / 64)) = 1 ↔ a'.uval / 2 ^ (64 * ((a.w - 1) / 64)) = 1) ∧
      (a.uval / 2 ^ (64 * ((a.w - 1) / 64)) = 1 → ∀ k, k ≤ (a.w - 1) / 64 →
        (2 ^ (64 * k) ∣ a.uval ↔ 2 ^ (64 * k) ∣ a'.uval)) := by
  have ew : a.w = a'.w := by unfold ApInt.w; rw [e]
  have et : Trace.top a = Trace.top a' := by
    unfold Trace.top lenDigits
    rw [e]
  obtain ⟨l, d, e1, _, hl, hu, hv⟩ := split_uval h.1
  obtain ⟨l', d', e1', _, hl', hu', hv'⟩ := split_uval h'.1
  rw [← ew] at hl' hu' hv'
  have one : ∀ {d : Digit}, (d == Digit.ONE) = true ↔ d.toNat = 1 := by
    intro d
    rw [beq_iff_eq, ← BitVec.toNat_inj, Digit.ONE_toNat]
  rw [isOne_form h.1 hw e1, isOne_form h'.1 (by omega) e1', Option.some_inj, hu, hu', top_div hv,
    top_div hv', ← low_zeros_iff hv hv', ← zeroSeen_iff l l' 0 (by omega), ← one, ← one, et]
  simp only [List.cons_append, List.nil_append, List.cons.injEq, Sight.test.injEq, true_and]
  cases d == Digit.ONE <;> cases d' == Digit.ONE <;> simp

theorem onesSeen_iff (l l' : List Digit) (h : l.length = l'.length) :
    whileSeen (fun d => d == Digit.ONES) rAt 0 l = whileSeen (fun d => d == Digit.ONES) rAt 0 l' ↔
      SameLowZeros (val l + 1) (val l' + 1) := by
  refine whileSeen_iff (P := fun l k => 2 ^ (64 * k) ∣ val l + 1) (fun l => by simp) ?_ l l' 0 h
  intro d l k
  rw [val_cons, B_eq, dvd_step_one d.isLt, beq_iff_eq, ← BitVec.toNat_inj]
  rfl

theorem isAllSet_form (h : a.Shape) {l : List Digit} {d : Digit}
    (e : a.splitMostSignificantDigit = .ok (d, l)) :
    seen (Trace.isAllSet a) = some (if a.w % 64 = 0 then whileSeen (fun d => d == Digit.ONES) rAt 0 l
      else [.read .self (Trace.top a), .test (countOnes64 d == a.w % 64)] ++
        if countOnes64 d == a.w % 64 then whileSeen (fun d => d == Digit.ONES) rAt 0 l else []) := by
  unfold Trace.isAllSet
  rw [e, lift_bind]
  dsimp only
  rcases BitWidth.excessBits_cases a.len with ⟨h0, ex⟩ | ⟨h0, ex⟩
  · rw [show a.width.excessBits = none from ex]
    dsimp only
    rw [if_pos (show a.w % 64 = 0 from h0), onesLoop_seen]
    rfl
  · rw [show a.width.excessBits = some (a.w % 64) from ex]
    dsimp only
    rw [if_neg (show ¬ a.w % 64 = 0 from h0), seen_bind_ok (c := note _) rfl, onesLoop_seen]
    by_cases hc : countOnes64 d = a.w % 64
    · rw [if_neg (by simpa using hc), if_pos (by simpa using hc)]
      rfl
    · rw [if_pos hc, if_neg (by simpa using hc)]
      rfl

theorem succ_low {n v v' x x' : Nat} (h : v < 2 ^ (64 * n)) (h' : v' < 2 ^ (64 * n)) :
    SameLowZeros (v + 1) (v' + 1) ↔
      ∀ k, k ≤ n → (2 ^ (64 * k) ∣ v + 2 ^ (64 * n) * x + 1 ↔
        2 ^ (64 * k) ∣ v' + 2 ^ (64 * n) * x' + 1) := by
  have low : ∀ {v x k : Nat}, k ≤ n →
      (2 ^ (64 * k) ∣ v + 2 ^ (64 * n) * x + 1 ↔ 2 ^ (64 * k) ∣ v + 1) := by
    intro v x k hk
    rw [show v + 2 ^ (64 * n) * x + 1 = v + 1 + 2 ^ (64 * n) * x by omega, dvd_low hk]
  constructor
  · intro q k hk
    rw [low hk, low hk]
    exact q k
  · intro q k
    by_cases hk : k ≤ n
    · have := q k hk
      rwa [low hk, low hk] at this
    · have no : ∀ {v : Nat}, v < 2 ^ (64 * n) → ¬ 2 ^ (64 * k) ∣ v + 1 := by
        intro v hv hd
        have := Nat.le_of_dvd (by omega) hd
        have : 2 ^ (64 * n) < 2 ^ (64 * k) := Nat.pow_lt_pow_right (by decide) (by omega)
        omega
      exact iff_of_false (no h) (no h')

theorem isAllSet_leak_aligned (h : a.WF) (h' : a'.WF) (e : a.len = a'.len) (hw : a.w % 64 = 0) :
    seen (Trace.isAllSet a) = seen (Trace.isAllSet a') ↔
      ∀ k, k ≤ (a.w - 1) / 64 → (2 ^ (64 * k) ∣ a.uval + 1 ↔ 2 ^ (64 * k) ∣ a'.uval + 1) := by
  have ew : a.w = a'.w := by unfold ApInt.w; rw [e]
  obtain ⟨l, d, e1, e2, hl, hu, hv⟩ := split_uval h.1
  obtain ⟨l', d', e1', e2', hl', hu', hv'⟩ := split_uval h'.1
  rw [← ew] at hl' hu' hv'
  rw [isAllSet_form h.1 e2, isAllSet_form h'.1 e2', ← ew, if_pos hw, if_pos hw, Option.some_inj,
    onesSeen_iff l l' (by omega), hu, hu', ← succ_low hv hv']

theorem isAllSet_leak (h : a.WF) (h' : a'.WF) (e : a.len = a'.len) (hw : a.w % 64 ≠ 0) :
    seen (Trace.isAllSet a) = seen (Trace.isAllSet a') ↔
      (a.uval / 2 ^ (64 * ((a.w - 1) / 64)) = 2 ^ (a.w % 64) - 1 ↔
        a'.uval / 2 ^ (64 * ((a.w - 1) / 64)) = 2 ^ (a.w % 64) - 1) ∧
      (a.uval / 2 ^ (64 * ((a.w - 1) / 64)) = 2 ^ (a.w % 64) - 1 → ∀ k, k ≤ (a.w - 1) / 64 →
        (2 ^ (64 * k) ∣ a.uval + 1 ↔ 2 ^ (64 * k) ∣ a'.uval + 1)) := by
  have ew : a.w = a'.w := by unfold ApInt.w; rw [e]
  have et : Trace.top a = Trace.top a' := by
    unfold Trace.top lenDigits
    rw [e]
  obtain ⟨l, d, e1, e2, hl, hu, hv⟩ := split_uval h.1
  obtain ⟨l', d', e1', e2', hl', hu', hv'⟩ := split_uval h'.1
  rw [← ew] at hl' hu' hv'
  have cnt : ∀ {u v : Nat} {d : Digit}, u < 2 ^ a.w →
      u = v + 2 ^ (64 * ((a.w - 1) / 64)) * d.toNat →
      ((countOnes64 d == a.w % 64) = true ↔ d.toNat = 2 ^ (a.w % 64) - 1) := by
    intro u v d h1 h2
    rw [beq_iff_eq]
    refine countOnes64_eq (by omega) ?_
    have hs : 2 ^ a.w = 2 ^ (64 * ((a.w - 1) / 64)) * 2 ^ (a.w % 64) := by
      rw [← Nat.pow_add]
      congr 1
      omega
    exact Nat.lt_of_mul_lt_mul_left (a := 2 ^ (64 * ((a.w - 1) / 64))) (by omega)
  have b1 := h.2
  have b2 := h'.2
  rw [← ew] at b2
  have c1 := cnt b1 hu
  have c2 := cnt b2 hu'
  rw [isAllSet_form h.1 e2, isAllSet_form h'.1 e2', ← ew, if_neg hw, if_neg hw, Option.some_inj,
    hu, hu', top_div hv, top_div hv', ← succ_low hv hv', ← onesSeen_iff l l' (by omega), ← c1, ← c2, et]
  simp only [List.cons_append, List.nil_append, List.cons.injEq, Sight.test.injEq, true_and]
  cases countOnes64 d == a.w % 64 <;> cases countOnes64 d' == a.w % 64 <;> simp

theorem isOne_small (h : a.Shape) (h' : a'.Shape) (e : a.len = a'.len) (hw : a.w ≤ 64) :
    seen (Trace.isOne a) = seen (Trace.isOne a') := by
  have ew : a.w = a'.w := by unfold ApInt.w; rw [e]
  obtain ⟨d, hd⟩ := Shape.inl h hw
  obtain ⟨d', hd'⟩ := Shape.inl h' (by omega)
  unfold Trace.isOne
  simp only [accessData_ok h, accessData_ok h', hd, hd', lift_bind]
  rfl

end

end Verif
