import Verif.Model.TraceTyped
import Verif.Proof.TraceApart
import Verif.Proof.TraceAskRun

/-!
# What the branching methods of `UInt` and `Int` show
-/

namespace Verif

open ApInt Watched ToldBy

section
variable {α β : Type} {a a' b b' : ApInt}

/-! ## Without the trace -/

theorem result_wrappingAbs (x : SInt) : result (Trace.wrappingAbs x) = x.wrappingAbs := by
  unfold Trace.wrappingAbs SInt.wrappingAbs
  rw [result_bind, result_msb]
  show x.value.msb >>= _ = x.value.msb >>= _
  congr 1
  funext m
  rw [result_bind, result_note, run_bind_ok]
  unfold Trace.absTail
  cases m
  · rfl
  · rw [if_pos rfl, if_pos rfl, result_bind, result_wrappingNeg]
    rfl

theorem result_signum (x : SInt) : result (Trace.signum x) = x.signum := by
  unfold Trace.signum SInt.signum
  rw [result_bind, result_isZero]
  show x.value.isZero >>= _ = x.value.isZero >>= _
  congr 1
  funext z
  rw [result_bind, result_note, run_bind_ok]
  unfold Trace.signTail
  cases z
  · rw [if_neg (by simp), if_neg (by simp), result_bind, result_msb]
    unfold SInt.isNegative SInt.isPositive
    show _ = ((x.value.msb >>= fun m => pure (!m)) >>= fun m => pure (!m)) >>= _
    rcases x.value.msb with e | m
    · rfl
    · cases m <;> rfl
  · rfl

theorem result_cmpTail (a b : ApInt) (lt : Bool) : result (Trace.cmpTail a b lt) =
    if lt then .ok (some .lt) else (do
      let e ← a.eq b
      if e then .ok (some .eq) else .ok (some .gt) : Run (Option Ordering)) := by
  unfold Trace.cmpTail
  rw [result_ite]
  congr 1
  rw [result_bind, result_eq]
  congr 1
  funext e
  cases e <;> rfl

theorem result_ucmp (x y : UInt) : result (Trace.ucmp x y) = x.partialCmp y := by
  unfold Trace.ucmp UInt.partialCmp
  rw [result_ite]
  congr 1
  rw [result_bind, result_checkedUlt]
  show x.value.checkedUlt y.value >>= _ = x.value.checkedUlt y.value >>= _
  congr 1
  funext r
  rw [result_bind, result_lift]
  congr 1
  funext lt
  rw [result_bind, result_note, run_bind_ok, result_cmpTail]

theorem result_scmp (x y : SInt) : result (Trace.scmp x y) = x.partialCmp y := by
  unfold Trace.scmp SInt.partialCmp
  rw [result_ite]
  congr 1
  rw [result_bind, result_checkedSlt]
  show x.value.checkedSlt y.value >>= _ = x.value.checkedSlt y.value >>= _
  congr 1
  funext r
  rw [result_bind, result_lift]
  congr 1
  funext lt
  rw [result_bind, result_note, run_bind_ok, result_cmpTail]

/-! ## One call after another -/

theorem ultSeen_apart : ∀ (z z' : List (Digit × Digit)) (t t' : List Sight), z.length = z'.length →
    ultSeen z ++ t = ultSeen z' ++ t' → ultSeen z = ultSeen z' := by
  intro z
  induction z with
  | nil =>
    intro z' t t' h e
    rw [List.eq_nil_of_length_eq_zero h.symm]
  | cons p z ih =>
    intro z' t t' h e
    rcases z' with _ | ⟨p', z'⟩
    · simp at h
    · have hl : z.length = z'.length := by simpa using h
      obtain ⟨l, r⟩ := p
      obtain ⟨l', r'⟩ := p'
      unfold ultSeen at e ⊢
      rw [← hl] at e ⊢
      simp only [List.cons_append, List.nil_append, List.cons.injEq, true_and, Sight.test.injEq]
        at e ⊢
      refine ⟨e.1, ?_⟩
      have e1 : l.toNat < r.toNat ↔ l'.toNat < r'.toNat := by simpa using e.1
      by_cases h1 : l.toNat < r.toNat
      · rw [if_pos h1, if_pos (e1.1 h1)]
      · have h1' := fun q => h1 (e1.2 q)
        rw [if_neg h1, if_neg h1'] at e ⊢
        simp only [List.cons_append, List.cons.injEq, Sight.test.injEq] at e ⊢
        refine ⟨e.2.1, ?_⟩
        have e2 : l.toNat > r.toNat ↔ l'.toNat > r'.toNat := by simpa using e.2.1
        by_cases h2 : l.toNat > r.toNat
        · rw [if_pos h2, if_pos (e2.1 h2)]
        · have h2' := fun q => h2 (e2.2 q)
          rw [if_neg h2, if_neg h2'] at e ⊢
          exact ih z' t t' hl e.2.2

theorem ult_apart (ha : a.Shape) (hb : b.Shape) (ha' : a'.Shape) (hb' : b'.Shape) (e : a.len = b.len)
    (e1 : a.len = a'.len) (e2 : a.len = b'.len) :
    Apart (seen (Trace.checkedUlt a b)) (seen (Trace.checkedUlt a' b')) := by
  have ew : a.w = a'.w := by unfold ApInt.w; rw [e1]
  rcases Nat.lt_or_ge 64 a.w with hw | hw
  · rcases zipAccessData_ok ha hb e with ⟨x, y, _, _, h1, _⟩ | ⟨xs, ys, ex, ey, h1, h2, h3, z⟩
    · omega
    rcases zipAccessData_ok ha' hb' (e1.symm.trans e2) with
      ⟨x, y, _, _, h1, _⟩ | ⟨xs', ys', ex', ey', h1', h2', h3', z'⟩
    · omega
    unfold Trace.checkedUlt
    simp only [z, z', lift_bind]
    obtain ⟨c, hc⟩ := ultLoop_seen (xs.reverse.zip ys.reverse)
    obtain ⟨c', hc'⟩ := ultLoop_seen (xs'.reverse.zip ys'.reverse)
    rw [hc, hc']
    intro s hs s' hs' t t' q
    have hs1 : ultSeen (xs.reverse.zip ys.reverse) ++ [] = s := Option.some_inj.1 hs
    have hs2 : ultSeen (xs'.reverse.zip ys'.reverse) ++ [] = s' := Option.some_inj.1 hs'
    rw [List.append_nil] at hs1 hs2
    subst hs1
    subst hs2
    exact ultSeen_apart _ _ t t' (by simp [h2, h3, h2', h3', ew]) q
  · exact .of_eq (ult_small ha hb ha' hb' e e1 e2 hw)

theorem slt_apart (ha : a.WF) (hb : b.WF) (ha' : a'.WF) (hb' : b'.WF) (e : a.len = b.len)
    (e1 : a.len = a'.len) (e2 : a.len = b'.len) :
    Apart (seen (Trace.checkedSlt a b)) (seen (Trace.checkedSlt a' b')) := by
  have ew : a.w = a'.w := by unfold ApInt.w; rw [e1]
  have tops : ∀ {x y : ApInt}, x.len = y.len → Trace.top x = Trace.top y := by
    intro x y h
    unfold Trace.top lenDigits
    rw [h]
  rcases Nat.lt_or_ge 64 a.w with hw | hw
  · rw [slt_form ha hb e hw, slt_form ha' hb' (e1.symm.trans e2) (by omega), ← tops e1,
      tops (e.symm.trans e2)]
    intro s hs s' hs' t t' q
    obtain ⟨p, hp, rfl⟩ := Option.map_eq_some_iff.1 hs
    obtain ⟨p', hp', rfl⟩ := Option.map_eq_some_iff.1 hs'
    simp only [List.cons_append, List.nil_append, List.cons.injEq, Sight.test.injEq, true_and] at q ⊢
    obtain ⟨g1, g2, g3⟩ := q
    refine ⟨g1, g2, ?_⟩
    by_cases hn : sgn a = sgn b
    · rw [sltSigns_same hn] at hp
      rw [sltSigns_same (g1 ▸ g2 ▸ hn)] at hp'
      exact ult_apart ha.1 hb.1 ha'.1 hb'.1 e e1 e2 p hp p' hp' t t' g3
    · rw [sltSigns_other hn] at hp
      rw [sltSigns_other (g1 ▸ g2 ▸ hn)] at hp'
      cases hp
      cases hp'
      rfl
  · exact .of_eq (slt_small ha.1 hb.1 ha'.1 hb'.1 e e1 e2 hw)

theorem eq_apart (ha : a.Shape) (hb : b.Shape) (ha' : a'.Shape) (hb' : b'.Shape) (e : a.len = b.len)
    (e1 : a.len = a'.len) (e2 : a.len = b'.len) :
    Apart (seen (Trace.eq a b)) (seen (Trace.eq a' b')) := by
  have lens : ∀ {x : ApInt}, x.Shape → a.len = x.len → x.digits.length = a.digits.length := by
    intro x hx h
    rw [hx.length_digits, ha.length_digits]
    unfold ApInt.w
    rw [h]
  obtain ⟨r, h⟩ := eq_form ha hb e
  obtain ⟨r', h'⟩ := eq_form ha' hb' (e1.symm.trans e2)
  rw [h, h']
  intro s hs s' hs' t t' q
  cases hs
  cases hs'
  exact whileSeen_apart _ _ 0 t t' (by simp [lens hb e, lens ha' e1, lens hb' e2]) q

theorem msb_seen (h : a.WF) (h' : a'.WF) (e : a.len = a'.len) :
    seen (Trace.msb a) = seen (Trace.msb a') := by
  unfold Trace.msb Trace.top lenDigits
  rw [sign_iff h, sign_iff h', e]
  rfl

/-! ## The methods -/

theorem abs_leak (h : a.WF) (h' : a'.WF) (e : a.len = a'.len) :
    seen (Trace.wrappingAbs ⟨a⟩) = seen (Trace.wrappingAbs ⟨a'⟩) ↔
      SameSign a a' ∧ (a.sval < 0 → 64 < a.w →
        ∀ k, 64 * k ≤ a.w → (2 ^ (64 * k) ∣ a.uval ↔ 2 ^ (64 * k) ∣ a'.uval)) := by
  obtain ⟨y, hy, -⟩ := wrappingNeg_ok h
  obtain ⟨y', hy', -⟩ := wrappingNeg_ok h'
  have tail : ∀ {a y : ApInt} (m : Bool), a.wrappingNeg = .ok y →
      result (Trace.absTail ⟨a⟩ m) = .ok (if m then ⟨y⟩ else ⟨a⟩) := by
    intro a y m hy
    unfold Trace.absTail
    cases m
    · rfl
    · rw [if_pos rfl, result_bind, result_wrappingNeg]
      dsimp only
      rw [hy]
      rfl
  unfold Trace.wrappingAbs
  rw [bind_leak ((result_msb _).trans (sign_iff h)) ((result_msb _).trans (sign_iff h'))
    (f := fun m => note [.test m] >>= fun _ => Trace.absTail ⟨a⟩ m)
    (f' := fun m => note [.test m] >>= fun _ => Trace.absTail ⟨a'⟩ m)
    (by rw [result_bind, result_note, run_bind_ok]; exact tail _ hy)
    (by rw [result_bind, result_note, run_bind_ok]; exact tail _ hy')
    (.of_eq (msb_seen h h' e)),
    note_leak (f := fun _ => Trace.absTail ⟨a⟩ _) (f' := fun _ => Trace.absTail ⟨a'⟩ _)
      (tail _ hy) (tail _ hy')]
  rw [sameSign_iff h h', and_iff_right (msb_seen h h' e), neg_iff_sgn h]
  refine and_congr_right fun q => ?_
  change sgn a = sgn a' at q
  show seen (Trace.absTail ⟨a⟩ (sgn a)) = seen (Trace.absTail ⟨a'⟩ (sgn a')) ↔ _
  rw [← q]
  unfold Trace.absTail
  cases sgn a
  · simp only [Bool.false_eq_true, false_imp_iff, iff_true]
    rfl
  · rw [if_pos rfl, if_pos rfl, seen_map, seen_map, eq_self true, true_imp_iff]
    rcases Nat.lt_or_ge 64 a.w with hw | hw
    · rw [neg_leak h h' e hw]
      exact ⟨fun g _ => g, fun g => g hw⟩
    · have t := neg_small h h' e hw
      refine iff_of_true ?_ fun g => absurd g (by omega)
      obtain ⟨s, hs⟩ := seen_of_result ((result_wrappingNeg a).trans hy)
      obtain ⟨s', hs'⟩ := seen_of_result ((result_wrappingNeg a').trans hy')
      rw [hs, hs'] at t
      dsimp only
      rw [hs, hs']
      exact congrArg some t.1

theorem signum_leak (h : a.WF) (h' : a'.WF) (e : a.len = a'.len) :
    seen (Trace.signum ⟨a⟩) = seen (Trace.signum ⟨a'⟩) ↔
      (a.uval = 0 ↔ a'.uval = 0) ∧ SameSign a a' ∧
      (64 < a.w → SameLowZeros a.uval a'.uval) := by
  have tail : ∀ {a : ApInt} (z : Bool), a.WF → ∃ n, result (Trace.signTail ⟨a⟩ z) = .ok n := by
    intro a z ha
    unfold Trace.signTail
    cases z
    · rw [if_neg (by simp), result_bind, result_msb]
      dsimp only
      rw [sign_iff ha]
      exact ⟨_, rfl⟩
    · exact ⟨_, rfl⟩
  obtain ⟨y, hy⟩ := tail (decide (a.uval = 0)) h
  obtain ⟨y', hy'⟩ := tail (decide (a'.uval = 0)) h'
  unfold Trace.signum
  rw [bind_leak ((result_isZero _).trans (isZero_ok h.1)) ((result_isZero _).trans (isZero_ok h'.1))
    (f := fun z => note [.test z] >>= fun _ => Trace.signTail ⟨a⟩ z)
    (f' := fun z => note [.test z] >>= fun _ => Trace.signTail ⟨a'⟩ z)
    (by rw [result_bind, result_note, run_bind_ok]; exact hy)
    (by rw [result_bind, result_note, run_bind_ok]; exact hy')
    (isZero_apart h.1 h'.1 e),
    note_leak (f := fun _ => Trace.signTail ⟨a⟩ _) (f' := fun _ => Trace.signTail ⟨a'⟩ _) hy hy']
  have low : seen (Trace.isZero a) = seen (Trace.isZero a') ↔
      (64 < a.w → SameLowZeros a.uval a'.uval) := by
    rcases Nat.lt_or_ge 64 a.w with hw | hw
    · rw [isZero_leak h.1 h'.1 e hw]
      exact ⟨fun g _ => g, fun g => g hw⟩
    · exact iff_of_true (isZero_small h.1 h'.1 e hw) fun g => absurd g (by omega)
  rw [low]
  have key : (decide (a.uval = 0) = decide (a'.uval = 0) ∧
      seen (Trace.signTail ⟨a⟩ (decide (a.uval = 0))) =
        seen (Trace.signTail ⟨a'⟩ (decide (a'.uval = 0)))) ↔
      (a.uval = 0 ↔ a'.uval = 0) ∧ SameSign a a' := by
    rw [decide_eq_decide]
    refine and_congr_right fun q => ?_
    rw [sameSign_iff h h']
    by_cases hz : a.uval = 0
    · have hz' := q.1 hz
      have p : 0 < 2 ^ (a.w - 1) := Nat.pow_pos (by decide)
      have p' : 0 < 2 ^ (a'.w - 1) := Nat.pow_pos (by decide)
      refine iff_of_true ?_ ?_
      · rw [decide_eq_true hz, decide_eq_true hz']
        rfl
      · unfold sgn
        rw [hz, hz', decide_eq_false (by omega), decide_eq_false (by omega)]
    · have hz' : ¬ a'.uval = 0 := fun g => hz (q.2 g)
      rw [decide_eq_false hz, decide_eq_false hz']
      unfold Trace.signTail
      rw [if_neg (by simp), if_neg (by simp), bind_leak ((result_msb _).trans (sign_iff h))
        ((result_msb _).trans (sign_iff h'))
        (f := fun n => note [.test n] >>= fun _ => Watched.ok (if n then (-1 : Int) else 1))
        (f' := fun n => note [.test n] >>= fun _ => Watched.ok (if n then (-1 : Int) else 1)) rfl rfl
        (.of_eq (msb_seen h h' e)),
        note_leak (f := fun _ => Watched.ok _) (f' := fun _ => Watched.ok _) rfl rfl]
      exact ⟨fun g => g.2.1, fun g => ⟨msb_seen h h' e, g, rfl⟩⟩
  rw [key]
  tauto

theorem cmpTail_ok (ha : a.Shape) (hb : b.Shape) (lt : Bool) :
    ∃ o, result (Trace.cmpTail a b lt) = .ok o := by
  rw [result_cmpTail, eq_ok ha hb]
  cases lt
  · rw [if_neg (by simp), run_bind_ok]
    split
    · exact ⟨_, rfl⟩
    · exact ⟨_, rfl⟩
  · exact ⟨_, rfl⟩

theorem cmpTail_leak (ha : a.WF) (hb : b.WF) (ha' : a'.WF) (hb' : b'.WF) (e : a.len = b.len)
    (e1 : a.len = a'.len) (e2 : a.len = b'.len) (lt : Bool) :
    seen (Trace.cmpTail a b lt) = seen (Trace.cmpTail a' b' lt) ↔
      (lt = false → SameLowMatch a.uval b.uval a'.uval b'.uval) := by
  unfold Trace.cmpTail
  cases lt
  · rw [if_neg (by simp), if_neg (by simp),
      bind_leak ((result_eq _ _).trans (eq_ok ha.1 hb.1)) ((result_eq _ _).trans (eq_ok ha'.1 hb'.1))
      (f := fun n => note [.test n] >>= fun _ => Watched.ok (some (if n then Ordering.eq else .gt)))
      (f' := fun n => note [.test n] >>= fun _ => Watched.ok (some (if n then Ordering.eq else .gt)))
      rfl rfl (eq_apart ha.1 hb.1 ha'.1 hb'.1 e e1 e2),
      note_leak (f := fun _ => Watched.ok _) (f' := fun _ => Watched.ok _) rfl rfl,
      eq_leak ha.1 hb.1 ha'.1 hb'.1 e e1 e2]
    refine ⟨fun g _ => g.1, fun g => ⟨g rfl, ?_, rfl⟩⟩
    have q := g rfl ((a.w + 63) / 64)
    have big : ∀ {x : ApInt}, x.WF → a.len = x.len → x.uval % 2 ^ (64 * ((a.w + 63) / 64)) = x.uval := by
      intro x hx hl
      have : a.w = x.w := by unfold ApInt.w; rw [hl]
      refine Nat.mod_eq_of_lt (Nat.lt_of_lt_of_le hx.2 (Nat.pow_le_pow_right (by decide) ?_))
      omega
    rw [big ha rfl, big hb e, big ha' e1, big hb' e2] at q
    rw [decide_eq_decide]
    exact and_congr (iff_of_true e (e1.symm.trans e2)) q
  · exact iff_of_true rfl (by simp)

theorem cmp_leak {c c' : Watched (Res Bool)} {lt lt' : Bool} (ha : a.WF) (hb : b.WF) (ha' : a'.WF)
    (hb' : b'.WF) (e : a.len = b.len) (e1 : a.len = a'.len) (e2 : a.len = b'.len)
    (h : result c = .ok (.ok lt)) (h' : result c' = .ok (.ok lt')) (ap : Apart (seen c) (seen c')) :
    seen (c >>= fun r => (liftM (expect r : Run Bool) : Watched Bool) >>= fun lt =>
        note [.test lt] >>= fun _ => Trace.cmpTail a b lt) =
      seen (c' >>= fun r => (liftM (expect r : Run Bool) : Watched Bool) >>= fun lt =>
        note [.test lt] >>= fun _ => Trace.cmpTail a' b' lt) ↔
    seen c = seen c' ∧ lt = lt' ∧ (lt = false → SameLowMatch a.uval b.uval a'.uval b'.uval) := by
  obtain ⟨y, hy⟩ := cmpTail_ok ha.1 hb.1 lt
  obtain ⟨y', hy'⟩ := cmpTail_ok ha'.1 hb'.1 lt'
  have q : ∀ (a b : ApInt) (lt : Bool), ((liftM (expect (.ok lt : Res Bool) : Run Bool) :
      Watched Bool) >>= fun lt => note [.test lt] >>= fun _ => Trace.cmpTail a b lt) =
      (note [.test lt] >>= fun _ => Trace.cmpTail a b lt) := fun a b lt => lift_bind lt _
  rw [bind_leak h h'
    (f := fun r => (liftM (expect r : Run Bool) : Watched Bool) >>= fun lt =>
        note [.test lt] >>= fun _ => Trace.cmpTail a b lt)
    (f' := fun r => (liftM (expect r : Run Bool) : Watched Bool) >>= fun lt =>
        note [.test lt] >>= fun _ => Trace.cmpTail a' b' lt)
    (by rw [q, result_bind, result_note, run_bind_ok]; exact hy)
    (by rw [q, result_bind, result_note, run_bind_ok]; exact hy') ap, q, q,
    note_leak (f := fun _ => Trace.cmpTail a b lt) (f' := fun _ => Trace.cmpTail a' b' lt') hy hy']
  refine and_congr_right fun _ => and_congr_right fun g => ?_
  subst g
  exact cmpTail_leak ha hb ha' hb' e e1 e2 lt

theorem ucmp_leak (ha : a.WF) (hb : b.WF) (ha' : a'.WF) (hb' : b'.WF) (e : a.len = b.len)
    (e1 : a.len = a'.len) (e2 : a.len = b'.len) :
    seen (Trace.ucmp ⟨a⟩ ⟨b⟩) = seen (Trace.ucmp ⟨a'⟩ ⟨b'⟩) ↔
      (64 < a.w → SameUOrder a.uval b.uval a'.uval b'.uval) ∧
      (a.uval < b.uval ↔ a'.uval < b'.uval) ∧
      (b.uval ≤ a.uval → SameLowMatch a.uval b.uval a'.uval b'.uval) := by
  unfold Trace.ucmp
  rw [if_neg (by simpa [ApInt.width] using e), if_neg (by simpa [ApInt.width] using e1.symm.trans e2)]
  rw [cmp_leak ha hb ha' hb' e e1 e2 ((result_checkedUlt a b).trans (checkedUlt_ok ha.1 hb.1 e))
    ((result_checkedUlt a' b').trans (checkedUlt_ok ha'.1 hb'.1 (e1.symm.trans e2)))
    (ult_apart ha.1 hb.1 ha'.1 hb'.1 e e1 e2), decide_eq_decide, decide_eq_false_iff_not, Nat.not_lt]
  refine and_congr_left fun _ => ?_
  rcases Nat.lt_or_ge 64 a.w with hw | hw
  · rw [ult_leak ha.1 hb.1 ha'.1 hb'.1 e e1 e2 hw]
    exact ⟨fun g _ => g, fun g => g hw⟩
  · exact iff_of_true (ult_small ha.1 hb.1 ha'.1 hb'.1 e e1 e2 hw) fun g => absurd g (by omega)

theorem scmp_leak (ha : a.WF) (hb : b.WF) (ha' : a'.WF) (hb' : b'.WF) (e : a.len = b.len)
    (e1 : a.len = a'.len) (e2 : a.len = b'.len) :
    seen (Trace.scmp ⟨a⟩ ⟨b⟩) = seen (Trace.scmp ⟨a'⟩ ⟨b'⟩) ↔
      (64 < a.w → SameSign a a' ∧ SameSign b b' ∧ SameUOrder a.uval b.uval a'.uval b'.uval) ∧
      (a.sval < b.sval ↔ a'.sval < b'.sval) ∧
      (b.sval ≤ a.sval → SameLowMatch a.uval b.uval a'.uval b'.uval) := by
  unfold Trace.scmp
  rw [if_neg (by simpa [ApInt.width] using e), if_neg (by simpa [ApInt.width] using e1.symm.trans e2)]
  rw [cmp_leak ha hb ha' hb' e e1 e2 ((result_checkedSlt a b).trans (checkedSlt_ok ha hb e))
    ((result_checkedSlt a' b').trans (checkedSlt_ok ha' hb' (e1.symm.trans e2)))
    (slt_apart ha hb ha' hb' e e1 e2), decide_eq_decide, decide_eq_false_iff_not, Int.not_lt]
  refine and_congr_left fun _ => ?_
  rcases Nat.lt_or_ge 64 a.w with hw | hw
  · rw [slt_leak ha hb ha' hb' e e1 e2 hw]
    exact ⟨fun g _ => g, fun g => g hw⟩
  · exact iff_of_true (slt_small ha.1 hb.1 ha'.1 hb'.1 e e1 e2 hw) fun g => absurd g (by omega)

end

end Verif
