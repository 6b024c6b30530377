import Verif.Proof.TraceAsk
import Verif.Proof.TracePrim
import Verif.Proof.TraceMul
import Verif.Proof.TraceText
import Verif.Proof.Program

/-!
# Programs of which something is seen
-/

namespace Verif

open ApInt Watched ToldBy

/-! ## Without the trace -/

theorem result_signResize (a : ApInt) (t : BitWidth) :
    result (Trace.signResize a t) = a.signResize t := by
  unfold Trace.signResize ApInt.signResize
  simp only [result_ite, result_bind, result_truncate, result_signExtend, result_lift, result_pure]
  rfl

theorem result_lun (o : Trace.LUn) (a : ApInt) : result (o.exec a) = o.un.exec a := by
  cases o with
  | neg => exact (result_done _).trans (by rw [result_wrappingNeg]; rfl)
  | inc => exact (result_done _).trans (by rw [result_wrappingInc]; rfl)
  | dec => exact (result_done _).trans (by rw [result_wrappingDec]; rfl)
  | ashr s => exact result_wrappingAshrAssign a s
  | signExtend t => exact result_signExtend a t
  | signResize t => exact (result_done _).trans (by rw [result_signResize]; rfl)

theorem result_intoLun (o : Trace.LUn) (a : ApInt) :
    result (Trace.into (o.exec a)) = o.un.execInto a := by
  rw [result_into, result_lun]
  cases o with
  | neg => exact (into_done _).trans (by
      cases h : a.wrappingNeg <;> simp [Trace.LUn.un, Un.execInto, intoWrappingNeg, forwardMutImpl, h, fine])
  | inc => exact (into_done _).trans (by
      cases h : a.wrappingInc <;> simp [Trace.LUn.un, Un.execInto, intoWrappingInc, forwardMutImpl, h, fine])
  | dec => exact (into_done _).trans (by
      cases h : a.wrappingDec <;> simp [Trace.LUn.un, Un.execInto, intoWrappingDec, forwardMutImpl, h, fine])
  | ashr s => rfl
  | signExtend t => rfl
  | signResize t => exact (into_done _).trans (by
      cases h : a.signResize t <;> simp [Trace.LUn.un, Un.execInto, intoSignResize, forwardBinMutImpl, h, fine])

theorem result_lask (q : Trace.LAsk) (a : ApInt) : result (q.exec a) = q.ask.exec a := by
  cases q with
  | isZero => exact (result_tell _ _).trans (by rw [result_isZero]; rfl)
  | isAllUnset => exact (result_tell _ _).trans (by rw [result_isZero]; rfl)
  | leadingZeros => exact (result_tell _ _).trans (by rw [result_leadingZeros]; rfl)
  | trailingZeros => exact (result_tell _ _).trans (by rw [result_trailingZeros]; rfl)
  | resize ty => exact result_resizeTo a ty
  | tryTo ty => exact result_tryTo a ty
  | binary => exact (result_tell _ _).trans (by rw [result_fmtBinary]; rfl)
  | lowerHex => exact (result_tell _ _).trans (by rw [result_fmtLowerHex]; rfl)
  | upperHex => exact (result_tell _ _).trans (by rw [result_fmtUpperHex]; rfl)

theorem result_ask2 (q : Ask2) (a c : ApInt) : result (Trace.ask2 q a c) = q.exec a c := by
  cases q with
  | eq => exact (result_tell _ _).trans (by rw [result_eq]; rfl)
  | ult => exact (result_tellRes _ _).trans (by rw [result_checkedUlt]; rfl)
  | ule => exact (result_tellRes _ _).trans (by rw [result_checkedUle]; rfl)
  | ugt => exact (result_tellRes _ _).trans (by rw [result_checkedUgt]; rfl)
  | uge => exact (result_tellRes _ _).trans (by rw [result_checkedUge]; rfl)
  | slt => exact (result_tellRes _ _).trans (by rw [result_checkedSlt]; rfl)
  | sle => exact (result_tellRes _ _).trans (by rw [result_checkedSle]; rfl)
  | sgt => exact (result_tellRes _ _).trans (by rw [result_checkedSgt]; rfl)
  | sge => exact (result_tellRes _ _).trans (by rw [result_checkedSge]; rfl)

theorem result_loud (i : Trace.Loud) (b : Bank) : result (i.exec b) = i.instr.exec b := by
  have one : ∀ (x : Nat) {f : ApInt → Watched (Res Out × Bank)} {g : ApInt → Run (Res Out × Bank)},
      (∀ a, result (f a) = g a) →
      result (match b[x]? with | some a => f a | none => pure (.ok .unit, b)) =
        (match b[x]? with | some a => g a | none => pure (.ok .unit, b)) := by
    intro x f g h
    cases b[x]? with
    | none => rfl
    | some a => exact h a
  have two : ∀ (x y : Nat) {f : ApInt → ApInt → Watched (Res Out × Bank)}
      {g : ApInt → ApInt → Run (Res Out × Bank)}, (∀ a c, result (f a c) = g a c) →
      result (match b[x]?, b[y]? with | some a, some c => f a c | _, _ => pure (.ok .unit, b)) =
        (match b[x]?, b[y]? with | some a, some c => g a c | _, _ => pure (.ok .unit, b)) := by
    intro x y f g h
    cases b[x]? with
    | none => rfl
    | some a =>
      cases b[y]? with
      | none => rfl
      | some c => exact h a c
  cases i with
  | quiet q => exact result_exec q b
  | un o x =>
    refine one x fun a => ?_
    rw [result_storeRes, result_lun]
  | intoUn o x =>
    refine one x fun a => ?_
    simp only [result_pushRes, result_bind, result_clone, result_intoLun]
  | ask q x =>
    refine one x fun a => ?_
    rw [result_bind, result_lask]
    rfl
  | ask2 q x y =>
    show result (match b[x]?, b[y]? with | some a, some c => _ | _, _ => _) = 
      (match b[x]?, b[y]? with | some a, some c => _ | _, _ => _)
    cases b[x]? with
    | none => rfl
    | some a =>
      cases b[y]? with
      | none => rfl
      | some c =>
        dsimp only
        rw [result_bind, result_ask2]
        rfl
  | mul x y =>
    refine two x y fun a c => ?_
    rw [result_storeRes, result_mul]
    rfl
  | intoMul x y =>
    refine two x y fun a c => ?_
    simp only [result_pushRes, result_bind, result_clone, result_into, result_mul]
    rfl
  | opMulAssign x y =>
    refine two x y fun a c => ?_
    rw [result_storeRes, result_done, result_unwrapMut, result_mul]
    rfl
  | opMul x y =>
    refine two x y fun a c => ?_
    simp only [result_pushRes, result_bind, result_clone, result_fine, result_unwrap, result_into,
      result_mul]
    rfl

theorem result_runLoud (p : List Trace.Loud) (b : Bank) :
    ((Trace.runLoud p b).1, (Trace.runLoud p b).2.1) = run (p.map Trace.Loud.instr) b := by
  induction p generalizing b with
  | nil => rfl
  | cons i p ih =>
    have h := result_loud i b
    unfold Trace.runLoud
    rw [List.map_cons]
    unfold run
    rw [← h]
    rcases i.exec b with e | ⟨⟨r, c⟩, s⟩
    · rfl
    · have h2 := ih c
      dsimp only [result]
      rw [← h2]

/-! ## Two runs -/

section
variable {α : Type} {a a' c c' : ApInt}

theorem twin_of_seen {x x' : Watched α} {R : α → α → Prop} {r r' : α} (h : seen x = seen x')
    (e : result x = .ok r) (e' : result x' = .ok r') (k : R r r') : Twin x x' R := by
  obtain ⟨s, hs⟩ := seen_of_result e
  obtain ⟨s', hs'⟩ := seen_of_result e'
  rw [hs, hs'] at h ⊢
  exact ⟨Option.some.inj h, k⟩

theorem seen_tell (f : α → Out) (x : Watched α) : seen (Trace.tell f x) = seen x := seen_map _ _

theorem seen_tellRes (f : α → Out) (x : Watched (Res α)) : seen (Trace.tellRes f x) = seen x := by
  rcases x with e | ⟨r, s⟩
  · rfl
  · cases r
    · show some (s ++ []) = some s
      rw [List.append_nil]
    · show some (s ++ []) = some s
      rw [List.append_nil]

theorem Alike.w (h : Alike a a') : a.w = a'.w := by
  unfold ApInt.w
  rw [h.1]

theorem signResize_trunc_twin (h : Alike a a') {t : BitWidth} (ht : t.toUsize ≤ a.w) :
    Twin (Trace.signResize a t) (Trace.signResize a' t) Alike := by
  unfold Trace.signResize
  dsimp only
  rw [h.width]
  refine Twin.ite (fun _ => ?_) fun n => ?_
  · refine Twin.bind (truncate_twin h t) ?_
    rintro ⟨r, c⟩ ⟨r', c'⟩ ⟨hr, hc⟩
    exact Twin.bind (expect_twin hr) fun _ _ _ => Twin.pure hc
  · have e : ¬ t.toUsize ≤ a'.w := n
    have := h.w
    omega

theorem signResize_twin (h : Alike a a') (t : BitWidth) {m : Bool} (hm : a.msb = .ok m)
    (hm' : a'.msb = .ok m) : Twin (Trace.signResize a t) (Trace.signResize a' t) Alike := by
  unfold Trace.signResize
  dsimp only
  rw [h.width]
  refine Twin.ite (fun _ => ?_) fun _ => ?_
  · refine Twin.bind (truncate_twin h t) ?_
    rintro ⟨r, c⟩ ⟨r', c'⟩ ⟨hr, hc⟩
    exact Twin.bind (expect_twin hr) fun _ _ _ => Twin.pure hc
  · refine Twin.bind (signExtend_twin h t hm hm') ?_
    rintro ⟨r, c⟩ ⟨r', c'⟩ ⟨hr, hc⟩
    exact Twin.bind (expect_twin hr) fun _ _ _ => Twin.pure hc

theorem signResize_seen (h : a.WF) {t : BitWidth} (ht : a.w < t.toUsize) :
    seen (Trace.signResize a t) = seen (Trace.signExtend a t) := by
  have n : ¬ t.toUsize ≤ a.width.toUsize := by
    show ¬ t.toUsize ≤ a.w
    omega
  obtain ⟨y, hy, _⟩ := signExtend_ok h (t := t) (by omega)
  rw [← result_signExtend] at hy
  unfold Trace.signResize
  dsimp only
  rw [if_neg n]
  generalize Trace.signExtend a t = c at hy ⊢
  rcases c with e | ⟨⟨r, b⟩, s⟩
  · cases hy
  · cases hy
    show some (s ++ _) = some s
    simp

theorem signResize_leak (h : a.WF) (h' : a'.WF) (e : a.len = a'.len) {t : BitWidth}
    (ht : a.w < t.toUsize) :
    seen (Trace.signResize a t) = seen (Trace.signResize a' t) ↔ SameSign a a' := by
  have ew : a.w = a'.w := by unfold ApInt.w; rw [e]
  rw [signResize_seen h ht, signResize_seen h' (by omega), signExtend_leak h h' e ht,
    sameSign_iff h h', sgn, sgn, decide_eq_decide, ew]

theorem lun_twin (o : Trace.LUn) (h : Alike a a') (ha : a.WF) (ha' : a'.WF) (k : ToldBy.un o a a') :
    Twin (o.exec a) (o.exec a') LeftAlike := by
  have m := sign_iff ha
  have m' := sign_iff ha'
  have sign : SameSign a a' → a'.msb = .ok (sgn a) := by
    intro q
    rw [m', show decide _ = sgn a' from rfl, (sameSign_iff ha ha').1 q]
  cases o with
  | neg =>
    refine done_twin ?_
    rcases k with k | k
    · exact neg_small ha ha' h.1 k
    · rcases Nat.lt_or_ge 64 a.w with hw | hw
      · obtain ⟨y, hy, wy, ly, _⟩ := wrappingNeg_ok ha
        obtain ⟨y', hy', wy', ly', _⟩ := wrappingNeg_ok ha'
        refine twin_of_seen ((neg_leak ha ha' h.1 hw).2 fun j _ => k j)
          ((result_wrappingNeg a).trans hy) ((result_wrappingNeg a').trans hy') ?_
        exact Alike.of_shape wy.1 wy'.1 (by rw [ly, ly', h.1])
      · exact neg_small ha ha' h.1 hw
  | inc =>
    refine done_twin ?_
    rcases k with k | k
    · exact inc_small ha.1 ha'.1 h.1 k
    · rcases Nat.lt_or_ge 64 a.w with hw | hw
      · obtain ⟨y, hy, wy, ly, _⟩ := wrappingInc_ok ha.1
        obtain ⟨y', hy', wy', ly', _⟩ := wrappingInc_ok ha'.1
        refine twin_of_seen ((inc_leak ha.1 ha'.1 h.1 hw).2 k)
          ((result_wrappingInc a).trans hy) ((result_wrappingInc a').trans hy') ?_
        exact Alike.of_shape wy.1 wy'.1 (by rw [ly, ly', h.1])
      · exact inc_small ha.1 ha'.1 h.1 hw
  | dec =>
    refine done_twin ?_
    rcases k with k | k
    · exact dec_small ha.1 ha'.1 h.1 k
    · rcases Nat.lt_or_ge 64 a.w with hw | hw
      · obtain ⟨y, hy, wy, ly, _⟩ := wrappingDec_ok ha.1
        obtain ⟨y', hy', wy', ly', _⟩ := wrappingDec_ok ha'.1
        refine twin_of_seen ((dec_leak ha.1 ha'.1 h.1 hw).2 k)
          ((result_wrappingDec a).trans hy) ((result_wrappingDec a').trans hy') ?_
        exact Alike.of_shape wy.1 wy'.1 (by rw [ly, ly', h.1])
      · exact dec_small ha.1 ha'.1 h.1 hw
  | ashr s => exact ashr_twin h s m (sign k)
  | signExtend t =>
    rcases k with k | k
    · show Twin (Trace.signExtend a t) (Trace.signExtend a' t) LeftAlike
      unfold Trace.signExtend
      dsimp only
      rw [h.width]
      refine Twin.ite (fun _ => Twin.ok ⟨rfl, h⟩) fun n1 => ?_
      refine Twin.ite (fun _ => Twin.ok ⟨rfl, h⟩) fun n2 => ?_
      exfalso
      have e1 : t.toUsize ≠ a'.w := fun q => n1 (BitWidth.ext q)
      have e2 : ¬ t.toUsize < a'.w := n2
      have := h.w
      omega
    · exact signExtend_twin h t m (sign k)
  | signResize t =>
    refine done_twin ?_
    rcases k with k | k
    · exact signResize_trunc_twin h k
    · exact signResize_twin h t m (sign k)

theorem resizeTo_seen (ha : a.WF) (ty : PrimitiveTy) : seen (Trace.resizeTo a ty) =
    some (if ty = .i128 ∨ ty = .u128 then Trace.lowReads (a.digits.drop 1) else [.read .self 0]) := by
  have ok : ∃ r, result (Trace.resizeTo a ty) = .ok r := by
    obtain ⟨r, e, -⟩ := ask_told (.resize ty) ha
    exact ⟨r, (result_resizeTo a ty).trans e⟩
  obtain ⟨r, e⟩ := ok
  have low : ∀ {α : Type} (f : α → Out) (r : Run α) (s : List Sight) (x : Res Out),
      result (Trace.tell f (show' s r)) = .ok x → seen (Trace.tell f (show' s r)) = some s := by
    intro α f r s x h
    rw [seen_tell]
    rcases r with e | r
    · cases h
    · rfl
  have wide : ∀ {α : Type} (f : α → Out) (r : Run α) (x : Res Out),
      result (Trace.tell f (Trace.resizeWide a r)) = .ok x →
      seen (Trace.tell f (Trace.resizeWide a r)) = some (Trace.lowReads (a.digits.drop 1)) := by
    intro α f r x h
    obtain ⟨d, ds, hd, s⟩ := splitLeastSignificantDigit_ok ha.1
    rw [seen_tell, hd]
    unfold Trace.resizeWide at h ⊢
    rw [s, lift_bind] at h ⊢
    dsimp only at h ⊢
    rw [seen_bind_ok (rfl : note _ = Except.ok ((), _))]
    rcases r with e | r
    · cases h
    · show some (Trace.lowReads ds ++ []) = _
      rw [List.append_nil]
      rfl
  cases ty
  case i128 => exact wide _ _ r e
  case u128 => exact wide _ _ r e
  all_goals exact low _ _ _ r e

theorem tryTo_seen (ty : PrimitiveTy) (h : a.len = a'.len) (ha : a.WF) (ha' : a'.WF)
    (k : ToldBy.tryTo ty a.uval a'.uval) : seen (Trace.tryTo a ty) = seen (Trace.tryTo a' ty) := by
  have bits : ∀ {n m : Nat} (ty : PrimitiveTy) (g : BitVec n → Out), ty ≠ .bool →
      (ty ≠ .u128 ∧ ty ≠ .i128) → 2 ^ ty.associatedWidth.toUsize = m + 1 →
      SameFit m a.uval a'.uval →
      seen (Trace.tellRes g (Trace.tryToBits a ty n)) = seen (Trace.tellRes g (Trace.tryToBits a' ty n)) := by
    intro n m ty g h1 h2 h3 k
    rw [seen_tellRes, seen_tellRes, tryToBits_iff ha ha' n h2, tryCast_iff ha ha' h h2, h3]
    obtain ⟨k1, k2⟩ := k
    exact ⟨fun c => absurd c h1, by rw [Nat.lt_succ_iff, Nat.lt_succ_iff]; exact k1,
      fun v => k2 (Nat.lt_succ_iff.1 v)⟩
  have full : SameLowZeros (a.uval / 2 ^ 64) (a'.uval / 2 ^ 64) →
      SameFit 18446744073709551615 a.uval a'.uval := by
    intro k
    exact ⟨iff_of_true (by omega) (by omega), fun _ => k⟩
  cases ty
  case bool =>
    refine (seen_tellRes _ _).trans (Eq.trans ?_ (seen_tellRes _ _).symm)
    rw [tryToBool_iff ha ha' h, tryCast_iff ha ha' h (by decide),
      show 2 ^ PrimitiveTy.bool.associatedWidth.toUsize = 2 by decide]
    obtain ⟨k1, k2, k3⟩ := k
    exact ⟨fun _ => k1, by rw [Nat.lt_succ_iff, Nat.lt_succ_iff]; exact k2,
      fun v => k3 (Nat.lt_succ_iff.1 v)⟩
  case i128 =>
    refine (seen_tellRes _ _).trans (Eq.trans ?_ (seen_tellRes _ _).symm)
    exact (tryToI128_iff ha ha' h).2 k
  case u128 =>
    refine (seen_tellRes _ _).trans (Eq.trans ?_ (seen_tellRes _ _).symm)
    exact (tryToU128_iff ha ha' h).2 k
  case i64 => exact bits _ _ (by decide) (by decide) (by decide) (full k)
  case u64 => exact bits _ _ (by decide) (by decide) (by decide) (full k)
  all_goals exact bits _ _ (by decide) (by decide) (by decide) k

theorem lask_twin (q : Trace.LAsk) (h : Alike a a') (ha : a.WF) (ha' : a'.WF)
    (k : ToldBy.ask q a a') : Twin (q.exec a) (q.exec a') fun _ _ => True := by
  have ok : ∀ {x : ApInt}, x.WF → ∃ r, result (q.exec x) = .ok r := by
    intro x hx
    have := ask_told q.ask hx
    rw [result_lask]
    cases q <;> obtain ⟨r, e, _⟩ := this <;> exact ⟨r, e⟩
  have zero : a.w ≤ 64 ∨ SameLowZeros a.uval a'.uval → seen (Trace.isZero a) = seen (Trace.isZero a') := by
    intro k
    rcases Nat.lt_or_ge 64 a.w with hw | hw
    · rcases k with k | k
      · omega
      · exact (isZero_leak ha.1 ha'.1 h.1 hw).2 k
    · exact isZero_small ha.1 ha'.1 h.1 hw
  obtain ⟨r, e⟩ := ok ha
  obtain ⟨r', e'⟩ := ok ha'
  refine twin_of_seen ?_ e e' trivial
  cases q with
  | isZero => exact (seen_tell _ _).trans ((zero k).trans (seen_tell _ _).symm)
  | isAllUnset => exact (seen_tell _ _).trans ((zero k).trans (seen_tell _ _).symm)
  | leadingZeros =>
    exact (seen_tell _ _).trans (((leading_leak ha ha' h.1).2 k).trans (seen_tell _ _).symm)
  | trailingZeros =>
    exact (seen_tell _ _).trans (((trailing_leak ha ha' h.1).2 k).trans (seen_tell _ _).symm)
  | resize ty =>
    refine (resizeTo_seen ha ty).trans (Eq.trans ?_ (resizeTo_seen ha' ty).symm)
    have hl := digits_same ha.1 ha'.1 h.1
    have : Trace.lowReads (a.digits.drop 1) = Trace.lowReads (a'.digits.drop 1) := by
      have : (a.digits.drop 1).length = (a'.digits.drop 1).length := by
        rw [List.length_drop, List.length_drop, hl]
      generalize a.digits.drop 1 = l at *
      generalize a'.digits.drop 1 = l' at *
      cases l <;> cases l' <;> first | rfl | simp at this
    rw [this]
  | tryTo ty => exact tryTo_seen ty h.1 ha ha' k
  | binary | lowerHex | upperHex =>
    exact (seen_tell _ _).trans (((fmtWith_leak _ _ _ ha ha' h.1).2 k).trans (seen_tell _ _).symm)

theorem sameUOrder_swap {u v u' v' : Nat} (h : SameUOrder u v u' v') : SameUOrder v u v' u' := by
  obtain ⟨h1, h2, h3⟩ := h
  refine ⟨h2, h1, fun k => ?_⟩
  rw [eq_comm, h3 k, eq_comm]

theorem ult_seen (h : Alike a a') (hc : Alike c c') (ha : a.WF) (ha' : a'.WF) (wc : c.WF)
    (wc' : c'.WF) (k : a.w ≠ c.w ∨ a.w ≤ 64 ∨ SameUOrder a.uval c.uval a'.uval c'.uval) :
    seen (Trace.checkedUlt a c) = seen (Trace.checkedUlt a' c') := by
  by_cases e : a.len = c.len
  · have ew : a.w = c.w := by unfold ApInt.w; rw [e]
    have e2 : a.len = c'.len := e.trans hc.1
    rcases Nat.lt_or_ge 64 a.w with hw | hw
    · refine (ult_leak ha.1 wc.1 ha'.1 wc'.1 e h.1 e2 hw).2 ?_
      rcases k with k | k | k
      · exact absurd ew k
      · omega
      · exact k
    · exact ult_small ha.1 wc.1 ha'.1 wc'.1 e h.1 e2 hw
  · rw [ult_unmatched e, ult_unmatched (fun q => e (h.1.trans (q.trans hc.1.symm)))]

theorem slt_seen (h : Alike a a') (hc : Alike c c') (ha : a.WF) (ha' : a'.WF) (wc : c.WF)
    (wc' : c'.WF) (k : a.w ≠ c.w ∨ a.w ≤ 64 ∨ (SameSign a a' ∧ SameSign c c' ∧
      SameUOrder a.uval c.uval a'.uval c'.uval)) :
    seen (Trace.checkedSlt a c) = seen (Trace.checkedSlt a' c') := by
  by_cases e : a.len = c.len
  · have ew : a.w = c.w := by unfold ApInt.w; rw [e]
    have e2 : a.len = c'.len := e.trans hc.1
    rcases Nat.lt_or_ge 64 a.w with hw | hw
    · refine (slt_leak ha wc ha' wc' e h.1 e2 hw).2 ?_
      rcases k with k | k | k
      · exact absurd ew k
      · omega
      · exact k
    · exact slt_small ha.1 wc.1 ha'.1 wc'.1 e h.1 e2 hw
  · rw [slt_unmatched e, slt_unmatched (fun q => e (h.1.trans (q.trans hc.1.symm)))]

theorem ask2_twin (q : Ask2) (h : Alike a a') (hc : Alike c c') (ha : a.WF) (ha' : a'.WF) (wc : c.WF)
    (wc' : c'.WF) (k : ToldBy.ask2 q a c a' c') :
    Twin (Trace.ask2 q a c) (Trace.ask2 q a' c') fun _ _ => True := by
  have ok : ∀ {x y : ApInt}, x.WF → y.WF → ∃ r, result (Trace.ask2 q x y) = .ok r := by
    intro x y hx hy
    obtain ⟨r, e, _⟩ := ask2_told q hx hy
    exact ⟨r, (result_ask2 q x y).trans e⟩
  obtain ⟨r, e⟩ := ok ha wc
  obtain ⟨r', e'⟩ := ok ha' wc'
  refine twin_of_seen ?_ e e' trivial
  have wide : c.w ≠ a.w ∨ c.w ≤ 64 ∨ SameUOrder c.uval a.uval c'.uval a'.uval ↔
      a.w ≠ c.w ∨ a.w ≤ 64 ∨ SameUOrder a.uval c.uval a'.uval c'.uval := by
    by_cases q : a.w = c.w
    · rw [q]
      exact or_congr_right (or_congr_right ⟨sameUOrder_swap, sameUOrder_swap⟩)
    · exact iff_of_true (.inl fun e => q e.symm) (.inl q)
  have swide : a.w ≠ c.w ∨ a.w ≤ 64 ∨ (SameSign a a' ∧ SameSign c c' ∧
      SameUOrder a.uval c.uval a'.uval c'.uval) →
      c.w ≠ a.w ∨ c.w ≤ 64 ∨ (SameSign c c' ∧ SameSign a a' ∧
        SameUOrder c.uval a.uval c'.uval a'.uval) := by
    rintro (q | q | ⟨q1, q2, q3⟩)
    · exact .inl fun e => q e.symm
    · by_cases p : a.w = c.w
      · exact .inr (.inl (by omega))
      · exact .inl fun e => p e.symm
    · exact .inr (.inr ⟨q2, q1, sameUOrder_swap q3⟩)
  have sw : ∀ {x y : Watched (Res Bool)}, seen x = seen y → seen (swapped x) = seen (swapped y) :=
    fun q => seen_swapped.2 q
  cases q with
  | eq =>
    refine (seen_tell _ _).trans (Eq.trans ?_ (seen_tell _ _).symm)
    rcases k with k | k
    · rw [eq_quiet k, eq_quiet (by rw [← h.w, ← hc.w]; exact k)]
    · by_cases e : a.len = c.len
      · exact (eq_leak ha.1 wc.1 ha'.1 wc'.1 e h.1 (e.trans hc.1)).2 k
      · have k : a.w ≠ c.w := fun q => e (BitWidth.ext q)
        rw [eq_quiet k, eq_quiet (by rw [← h.w, ← hc.w]; exact k)]
  | ult =>
    refine (seen_tellRes _ _).trans (Eq.trans ?_ (seen_tellRes _ _).symm)
    exact ult_seen h hc ha ha' wc wc' k
  | ule =>
    refine (seen_tellRes _ _).trans (Eq.trans ?_ (seen_tellRes _ _).symm)
    refine (seen_map _ _).trans (Eq.trans ?_ (seen_map _ _).symm)
    exact sw (ult_seen hc h wc wc' ha ha' (wide.2 k))
  | ugt =>
    refine (seen_tellRes _ _).trans (Eq.trans ?_ (seen_tellRes _ _).symm)
    exact sw (ult_seen hc h wc wc' ha ha' (wide.2 k))
  | uge =>
    refine (seen_tellRes _ _).trans (Eq.trans ?_ (seen_tellRes _ _).symm)
    refine (seen_map _ _).trans (Eq.trans ?_ (seen_map _ _).symm)
    exact ult_seen h hc ha ha' wc wc' k
  | slt =>
    refine (seen_tellRes _ _).trans (Eq.trans ?_ (seen_tellRes _ _).symm)
    exact slt_seen h hc ha ha' wc wc' k
  | sle =>
    refine (seen_tellRes _ _).trans (Eq.trans ?_ (seen_tellRes _ _).symm)
    refine (seen_map _ _).trans (Eq.trans ?_ (seen_map _ _).symm)
    exact sw (slt_seen hc h wc wc' ha ha' (swide k))
  | sgt =>
    refine (seen_tellRes _ _).trans (Eq.trans ?_ (seen_tellRes _ _).symm)
    exact sw (slt_seen hc h wc wc' ha ha' (swide k))
  | sge =>
    refine (seen_tellRes _ _).trans (Eq.trans ?_ (seen_tellRes _ _).symm)
    refine (seen_map _ _).trans (Eq.trans ?_ (seen_map _ _).symm)
    exact slt_seen h hc ha ha' wc wc' k

theorem mul_twin (h : Alike a a') (hc : Alike c c') (ha : a.WF) (ha' : a'.WF) (wc : c.WF)
    (wc' : c'.WF) (k : ToldBy.mul a c a' c') :
    Twin (Trace.wrappingMulAssign a c) (Trace.wrappingMulAssign a' c') LeftAlike := by
  by_cases e : a.len = c.len
  · have e' : a'.len = c'.len := h.1.symm.trans (e.trans hc.1)
    obtain ⟨r, hr, s1, l1, -⟩ := wrappingMulAssign_ok ha.1 wc.1 e
    obtain ⟨r', hr', s2, l2, -⟩ := wrappingMulAssign_ok ha'.1 wc'.1 e'
    rw [← result_mul] at hr hr'
    refine twin_of_seen ?_ hr hr' ⟨rfl, Alike.of_shape s1.1 s2.1 (l1.trans (h.1.trans l2.symm))⟩
    · rcases Nat.lt_or_ge 64 a.w with hw | hw
      · refine (mul_leak ha.1 wc.1 ha'.1 wc'.1 e h.1 e' hw).2 ?_
        rcases k with k | k | k
        · exact absurd (by unfold ApInt.w; rw [e]) k
        · omega
        · exact k
      · exact (mul_inl_twin ha.1 wc.1 ha'.1 wc'.1 e h.1 e' hw).seen
  · have e' : a'.len ≠ c'.len := fun q => e (h.1.trans (q.trans hc.1.symm))
    unfold Trace.wrappingMulAssign
    rw [zipAccessData_err e, zipAccessData_err e', h.1, hc.1]
    exact ⟨rfl, rfl, h⟩

end

theorem loud_twin (i : Trace.Loud) {b b' : Bank} (h : AlikeBank b b') (hb : ∀ a ∈ b, a.WF)
    (hb' : ∀ a ∈ b', a.WF) (k : ToldBy.call i b b') : Twin (i.exec b) (i.exec b') Ended := by
  have one : ∀ (x : Nat) {f f' : ApInt → Watched (Res Out × Bank)} {P : ApInt → ApInt → Prop},
      (∀ a ∈ b[x]?, ∀ a' ∈ b'[x]?, P a a') →
      (∀ a a', Alike a a' → a.WF → a'.WF → P a a' → Twin (f a) (f' a') Ended) →
      Twin (match b[x]? with | some a => f a | none => pure (.ok .unit, b))
        (match b'[x]? with | some a => f' a | none => pure (.ok .unit, b')) Ended := by
    intro x f f' P p k
    rcases h.get x with ⟨e, e'⟩ | ⟨a, a', e, e', ha⟩ <;> rw [e, e'] at p ⊢
    · exact Twin.pure h
    · exact k _ _ ha (hb _ (List.mem_of_getElem? e)) (hb' _ (List.mem_of_getElem? e'))
        (p _ rfl _ rfl)
  have two : ∀ (x y : Nat) {f f' : ApInt → ApInt → Watched (Res Out × Bank)}
      {P : ApInt → ApInt → ApInt → ApInt → Prop},
      (∀ a ∈ b[x]?, ∀ c ∈ b[y]?, ∀ a' ∈ b'[x]?, ∀ c' ∈ b'[y]?, P a c a' c') →
      (∀ a a' c c', Alike a a' → Alike c c' → a.WF → a'.WF → c.WF → c'.WF → P a c a' c' →
        Twin (f a c) (f' a' c') Ended) →
      Twin (match b[x]?, b[y]? with | some a, some c => f a c | _, _ => pure (.ok .unit, b))
        (match b'[x]?, b'[y]? with | some a, some c => f' a c | _, _ => pure (.ok .unit, b'))
        Ended := by
    intro x y f f' P p k
    rcases h.get x with ⟨e, e'⟩ | ⟨a, a', e, e', ha⟩
    · rw [e, e']
      exact Twin.pure h
    · rcases h.get y with ⟨d, d'⟩ | ⟨c, c', d, d', hc⟩
      · rw [e, e', d, d']
        exact Twin.pure h
      · have p := p a e c d a' e' c' d'
        rw [e, e', d, d']
        exact k _ _ _ _ ha hc (hb _ (List.mem_of_getElem? e)) (hb' _ (List.mem_of_getElem? e'))
          (hb _ (List.mem_of_getElem? d)) (hb' _ (List.mem_of_getElem? d')) p
  have cloned : ∀ {α : Type} {a a' : ApInt} {f f' : ApInt → Watched α} {R : α → α → Prop},
      Alike a a' → a.WF → a'.WF → Twin (f a) (f' a') R →
      Twin (Trace.clone a >>= f) (Trace.clone a' >>= f') R := by
    intro α a a' f f' R ha wa wa' k
    have hy : result (Trace.clone a) = .ok a := by rw [result_clone, clone_ok wa.1]
    have hy' : result (Trace.clone a') = .ok a' := by rw [result_clone, clone_ok wa'.1]
    refine Twin.bind (R := fun x x' => x = a ∧ x' = a')
      (twin_of_seen (clone_twin ha).seen hy hy' ⟨rfl, rfl⟩) ?_
    rintro _ _ ⟨rfl, rfl⟩
    exact k
  cases i with
  | quiet q => exact exec_twin q h hb hb'
  | mul x y =>
    exact two x y k fun a a' c c' ha hc wa wa' wc wc' k =>
      storeRes_twin h x (mul_twin ha hc wa wa' wc wc' k)
  | intoMul x y =>
    exact two x y k fun a a' c c' ha hc wa wa' wc wc' k =>
      pushRes_twin h (cloned ha wa wa' (into_twin (mul_twin ha hc wa wa' wc wc' k)))
  | opMulAssign x y =>
    exact two x y k fun a a' c c' ha hc wa wa' wc wc' k =>
      storeRes_twin h x (done_twin (unwrapMut_twin (mul_twin ha hc wa wa' wc wc' k)))
  | opMul x y =>
    exact two x y k fun a a' c c' ha hc wa wa' wc wc' k =>
      pushRes_twin h (cloned ha wa wa'
        (fine_twin (unwrap_twin (into_twin (mul_twin ha hc wa wa' wc wc' k)))))
  | un o x => exact one x k fun a a' ha wa wa' k => storeRes_twin h x (lun_twin o ha wa wa' k)
  | intoUn o x =>
    refine one x k fun a a' ha wa wa' k => pushRes_twin h ?_
    obtain ⟨y, hy, e1⟩ : ∃ y, result (Trace.clone a) = .ok y ∧ y = a := by
      rw [result_clone, clone_ok wa.1]
      exact ⟨_, rfl, rfl⟩
    obtain ⟨y', hy', e2⟩ : ∃ y, result (Trace.clone a') = .ok y ∧ y = a' := by
      rw [result_clone, clone_ok wa'.1]
      exact ⟨_, rfl, rfl⟩
    subst e1 e2
    have t := clone_twin ha
    refine Twin.bind (R := fun x x' => x = y ∧ x' = y') (twin_of_seen t.seen hy hy' ⟨rfl, rfl⟩) ?_
    rintro _ _ ⟨rfl, rfl⟩
    exact into_twin (lun_twin o ha wa wa' k)
  | ask q x =>
    exact one x k fun a a' ha wa wa' k =>
      Twin.bind (lask_twin q ha wa wa' k) fun _ _ _ => Twin.pure h
  | ask2 q x y =>
    show Twin (match b[x]?, b[y]? with | some a, some c => _ | _, _ => _)
      (match b'[x]?, b'[y]? with | some a, some c => _ | _, _ => _) Ended
    rcases h.get x with ⟨e, e'⟩ | ⟨a, a', e, e', ha⟩
    · rw [e, e']
      exact Twin.pure h
    · rcases h.get y with ⟨d, d'⟩ | ⟨c, c', d, d', hc⟩
      · rw [e, e', d, d']
        exact Twin.pure h
      · have k := k a e c d a' e' c' d'
        rw [e, e', d, d']
        exact Twin.bind (ask2_twin q ha hc (hb _ (List.mem_of_getElem? e))
          (hb' _ (List.mem_of_getElem? e')) (hb _ (List.mem_of_getElem? d))
          (hb' _ (List.mem_of_getElem? d')) k) fun _ _ _ => Twin.pure h

theorem runLoud_twin (p : List Trace.Loud) {b b' : Bank} (h : AlikeBank b b') (hb : ∀ a ∈ b, a.WF)
    (hb' : ∀ a ∈ b', a.WF) (k : ToldBy.program p b b') :
    (Trace.runLoud p b).2.2 = (Trace.runLoud p b').2.2 ∧
      Both (Trace.runLoud p b).2.1 (Trace.runLoud p b').2.1 AlikeBank := by
  induction p generalizing b b' with
  | nil => exact ⟨rfl, h⟩
  | cons i p ih =>
    obtain ⟨k1, k2⟩ := k
    have ht := loud_twin i h hb hb' k1
    have h1 := result_loud i b
    have h2 := result_loud i b'
    rw [← h1, ← h2] at k2
    unfold Trace.runLoud
    rcases hc : i.exec b with e | ⟨⟨r, c⟩, s⟩ <;> rcases hc' : i.exec b' with e' | ⟨⟨r', c'⟩, s'⟩ <;>
      rw [hc, hc'] at ht k2
    · cases ht
      exact ⟨rfl, rfl⟩
    · exact ht.elim
    · exact ht.elim
    · rw [hc] at h1
      rw [hc'] at h2
      obtain ⟨hs, hd⟩ := ht
      dsimp only at hs
      subst hs
      have := ih hd (exec_spec _ hb h1.symm).1 (exec_spec _ hb' h2.symm).1 k2
      exact ⟨by dsimp only; rw [this.1], this.2⟩

end Verif
