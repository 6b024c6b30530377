import Verif.Model.Scratch
import Verif.SpecScratch
import Verif.Proof.Div

/-! # Scratch memory of multiplication and division -/

namespace Verif

namespace ApInt

theorem size_of {v k : Nat} (hk : 1 ≤ k) (h1 : 2 ^ (k - 1) ≤ v) (h2 : v < 2 ^ k) :
    Nat.size v = k := by
  have a := Nat.size_le.mpr h2
  have b := Nat.lt_size.mpr h1
  omega

theorem vecRequests_exact {c : Nat} (h : 0 < c) : vecRequests c c = [c] := by
  unfold vecRequests
  rw [if_pos (Nat.le_refl c), if_neg (by omega)]

/-- The vector is the one that multiplication copies into the left factor. -/
theorem mulNonOverflow_sum (lhs rhs : List Digit) (lhsSig rhsSig : Nat) :
    mulNonOverflow lhs rhs lhsSig rhsSig = (do
      let sum ← mulNonOverflowSum lhs rhs lhsSig rhsSig
      if lhs.length < sum.length then copyRange lhs 0 lhs.length sum 0 lhs.length
      else copyRange lhs 0 sum.length sum 0 sum.length) := by
  simp only [mulNonOverflow, mulNonOverflowSum, bind_assoc]

/-- The vector is the one that wrapping multiplication copies into the left factor. -/
theorem mulWrapping_sum (lhs rhs : List Digit) :
    mulWrapping lhs rhs = (do
      let sum ← mulWrappingSum lhs rhs
      let sig ← csub lhs.length 1
      let lhs ← copyRange lhs 0 sig sum 0 sig
      let l ← idx lhs sig
      let s ← idx sum sig
      let r0 ← idx rhs 0
      upd lhs sig (Digit.wrappingMulAdd l r0 s)) := by
  simp only [mulWrapping, mulWrappingSum, bind_assoc]
  cases csub lhs.length 1 with
  | error e => rfl
  | ok sig =>
    simp only [run_bind_ok]
    cases idx lhs 0 with
    | error e => rfl
    | ok l0 =>
      simp only [run_bind_ok]
      cases idx rhs 0 with
      | error e => rfl
      | ok r0 => rfl

theorem mulNonOverflowSum_length {lhs rhs : List Digit} {lhsSig rhsSig : Nat} (hl : 1 ≤ lhsSig)
    (hr : 1 ≤ rhsSig) (hll : lhsSig < lhs.length) (hrl : rhsSig < rhs.length) :
    ∃ s, mulNonOverflowSum lhs rhs lhsSig rhsSig = .ok s ∧ s.length = lhsSig + rhsSig + 2 := by
  have hl0 : 0 < lhs.length := by omega
  have hr0 : 0 < rhs.length := by omega
  obtain ⟨f1, -⟩ := firstRow_ok (mult := lhs[0]) hr hrl
  simp only [mulNonOverflowSum, idx_ok hl0, idx_ok hr0, run_bind_ok, idx_ok hrl]
  generalize mulRow lhs[0] ((rhs.take rhsSig).drop 1)
    ([(Digit.carryingMul lhs[0] rhs[0]).1], (Digit.carryingMul lhs[0] rhs[0]).2) = s0 at f1 ⊢
  obtain ⟨sum0, mc⟩ := s0
  simp only at f1 ⊢
  generalize Digit.carryingMulAdd lhs[0] rhs[rhsSig] mc = t
  obtain ⟨sum1, es1, g1⟩ := forRange_spec
    (I := fun i (sum : List Digit) => sum.length = i + rhsSig + 1)
    (lo := 1) (hi := lhsSig) (s := sum0 ++ [t.1] ++ [t.2]) (body := mulFullRow lhs rhs rhsSig)
    hl (by simp [f1]; omega) (by
      rintro i sum hi1 hi2 q1
      obtain ⟨sum', e, p1, -⟩ := mulFullRow_ok (lhs := lhs) (lhsI := i) hr hrl (by omega) q1
      exact ⟨sum', e, p1⟩)
  obtain ⟨sum2, es2, g3, -⟩ := mulFullRow_ok (lhs := lhs) (lhsI := lhsSig) hr hrl hll g1
  simp only [es1, run_bind_ok, es2]
  exact ⟨sum2, rfl, by omega⟩

theorem mulWrappingSum_length {lhs rhs : List Digit} (hl : 2 ≤ lhs.length)
    (hr : rhs.length = lhs.length) :
    ∃ s, mulWrappingSum lhs rhs = .ok s ∧ s.length = lhs.length := by
  obtain ⟨sig, hsig⟩ : ∃ sig, lhs.length = sig + 1 := ⟨lhs.length - 1, by omega⟩
  have hl0 : 0 < lhs.length := by omega
  have hr0 : 0 < rhs.length := by omega
  have hrs : sig < rhs.length := by omega
  obtain ⟨f1, -⟩ := firstRow_ok (mult := lhs[0]) (show 1 ≤ sig by omega) hrs
  simp only [mulWrappingSum, csub_ok (show 1 ≤ lhs.length by omega), idx_ok hl0, idx_ok hr0,
    run_bind_ok, show lhs.length - 1 = sig by omega, idx_ok hrs]
  generalize mulRow lhs[0] ((rhs.take sig).drop 1)
    ([(Digit.carryingMul lhs[0] rhs[0]).1], (Digit.carryingMul lhs[0] rhs[0]).2) = s0 at f1 ⊢
  obtain ⟨sum0, mc⟩ := s0
  simp only at f1 ⊢
  obtain ⟨sum1, es1, g1⟩ := forRange_spec
    (I := fun _ (sum : List Digit) => sum.length = sig + 1)
    (lo := 1) (hi := sig) (s := sum0 ++ [Digit.wrappingMulAdd lhs[0] rhs[sig] mc])
    (body := mulWrapRow lhs rhs sig) (by omega) (by simp [f1]) (by
      rintro i sum hi1 hi2 q1
      obtain ⟨sum', e, p1, -⟩ := mulWrapRow_ok (lhs := lhs) (rhs := rhs) hi1 hi2 hsig (by omega) q1
      exact ⟨sum', e, p1⟩)
  exact ⟨sum1, es1, by omega⟩

/-- The number of significant bits as multiplication computes it. -/
theorem mul_sigBits {l : List Digit} {i : Nat} (hi : i < l.length) (h1 : B ^ i ≤ val l)
    (h2 : val l < B ^ (i + 1)) :
    sigBits l i = .ok (Nat.size (val l)) ∧ digitsFor (Nat.size (val l)) = i + 1 := by
  obtain ⟨a1, -, a3, a4⟩ := sigBits_ok hi h1 h2
  have hs := size_of (by omega) a3 a4
  refine ⟨?_, ?_⟩
  · simp only [sigBits, idx_ok hi, run_bind_ok, csub_ok (Nat.le_of_lt a1)]
    rw [hs]
    congr 1
    omega
  · rw [hs]
    unfold digitsFor
    omega

theorem mulDigitsScratch_ok {lhs rhs : List Digit} {w : Nat} (hw : 64 < w)
    (hl : lhs.length = digitsFor w) (hr : rhs.length = digitsFor w) :
    mulDigitsScratch lhs rhs = .ok (mulBuffers w (val lhs) (val rhs)) := by
  have hn : 2 ≤ digitsFor w := by unfold digitsFor; omega
  have hB : B ^ 1 = 2 ^ 64 := by rw [B_pow]
  have small : ∀ {v i : Nat}, B ^ i ≤ v → v < B ^ (i + 1) → (v < 2 ^ 64 ↔ i = 0) := by
    intro v i h1 h2
    constructor
    · intro h
      by_contra hi
      have := Nat.pow_le_pow_right B_pos (show 1 ≤ i by omega)
      omega
    · rintro rfl
      rw [← hB]
      exact h2
  unfold mulDigitsScratch mulBuffers
  cases hrs : rpositionNonzero rhs with
  | none => rw [if_pos (.inr (.inr (by rw [rpositionNonzero_none hrs]; decide)))]
  | some rs =>
    obtain ⟨r1, r2, r3⟩ := rpositionNonzero_some hrs
    cases hls : rpositionNonzero lhs with
    | none => rw [if_pos (.inr (.inl (by rw [rpositionNonzero_none hls]; decide)))]
    | some ls =>
      obtain ⟨l1, l2, l3⟩ := rpositionNonzero_some hls
      simp only [mulCasesScratch]
      simp only [small l2 l3, small r2 r3]
      by_cases c1 : ls = 0
      · rw [if_pos (.inr (.inl c1)), show (ls == 0) = true by simp [c1]]
        cases rs == 0 <;> rfl
      by_cases c2 : rs = 0
      · rw [if_pos (.inr (.inr c2)), show (ls == 0) = false by simp [c1],
          show (rs == 0) = true by simp [c2]]
      rw [if_neg (by omega), show (ls == 0) = false by simp [c1],
        show (rs == 0) = false by simp [c2]]
      obtain ⟨e1, d1⟩ := mul_sigBits l1 l2 l3
      obtain ⟨e2, d2⟩ := mul_sigBits r1 r2 r3
      simp only [e1, e2, run_bind_ok, hl, d1, d2]
      rw [Nat.mul_comm (digitsFor w) 64]
      split
      · obtain ⟨s, es, hs⟩ := mulNonOverflowSum_length (lhs := lhs) (rhs := rhs)
          (show 1 ≤ ls by omega) (show 1 ≤ rs by omega) l1 r1
        simp only [es, run_bind_ok, hs]
        rw [vecRequests_exact (by omega), show ls + rs + 2 = ls + 1 + (rs + 1) by omega]
      · obtain ⟨s, es, hs⟩ := mulWrappingSum_length (lhs := lhs) (rhs := rhs) (by omega) (by omega)
        simp only [es, run_bind_ok, hs, hl]
        rw [vecRequests_exact (by omega)]

/-- Multiplication. -/
theorem mulScratch_ok {a b : ApInt} (ha : a.WF) (hb : b.WF) (h : a.len = b.len) :
    mulScratch a b = .ok (mulBuffers a.w a.uval b.uval) := by
  unfold mulScratch
  rcases zipAccessData_ok ha.1 hb.1 h with ⟨x, y, ex, ey, h1, e⟩ | ⟨xs, ys, ex, ey, h1, h2, h3, e⟩
  · simp only [e, run_bind_ok]
    unfold mulBuffers
    rw [if_pos (.inl h1)]
  · simp only [e, run_bind_ok]
    rw [show a.uval = val xs by simp [uval, digits, ex], show b.uval = val ys by
      simp [uval, digits, ey]]
    exact mulDigitsScratch_ok h1 h2 h3

/-! ## Division -/

theorem mulOrMulSub1Sub_length {duo div : List Digit} {s lz t tb : Nat} (hs : s < duo.length)
    (hl : div.length = duo.length) (h2 : 2 ≤ s) (hlz : lz < 64) (ht1 : 1 ≤ t) (hts : t ≤ s)
    (hu : val duo < 2 ^ (64 * (s + 1) - lz)) (htb : tb ≤ 64 * (s + 1) - lz)
    (htb2 : 64 * (s + 1) - lz - tb < 64) (hv1 : 2 ^ (tb - 1) ≤ val div) (hv2 : val div < 2 ^ tb) :
    ∃ r, mulOrMulSub1Sub duo.length duo s lz div t = .ok r ∧ r.length = duo.length := by
  obtain ⟨D, d, q, e1, e2, -, e3, -, -, -⟩ := estimate_ok hs hl h2 hlz hu htb htb2 hv1 hv2
  have hd0 : 0 < div.length := by omega
  have hdt : t < div.length := by omega
  obtain ⟨f1, -⟩ := firstRow_ok (mult := DDigit.lo q) ht1 hdt
  simp only [mulOrMulSub1Sub, e1, e2, e3, run_bind_ok, idx_ok hd0, idx_ok hdt,
    csub_ok (show 1 ≤ duo.length by omega)]
  generalize mulRow (DDigit.lo q) ((div.take t).drop 1)
    ([(Digit.carryingMul (DDigit.lo q) div[0]).1], (Digit.carryingMul (DDigit.lo q) div[0]).2)
      = row at *
  obtain ⟨sub, carry⟩ := row
  simp only at *
  split
  · exact ⟨_, rfl, by simp [f1]; omega⟩
  · exact ⟨_, rfl, by simp [f1]; omega⟩

theorem mulOrMulSub1QuoSub_length {duo div quo : List Digit} {s lz t tb : Nat}
    (hs : s < duo.length) (hl : div.length = duo.length) (h2 : 2 ≤ s) (hlz : lz < 64)
    (ht1 : 1 ≤ t) (ht2 : t + 2 ≤ duo.length)
    (hu : val duo < 2 ^ (64 * (s + 1) - lz)) (htb : tb ≤ 64 * (s + 1) - lz)
    (htb2 : 64 * (s + 1) - lz - tb < 64) (hv1 : 2 ^ (tb - 1) ≤ val div)
    (hv2 : val div < 2 ^ tb) :
    ∃ D r, sigDD duo s lz = .ok D ∧
      mulOrMulSub1QuoSub duo.length ⟨duo, quo, s, lz⟩ div t D = .ok r ∧ r.length = duo.length := by
  obtain ⟨D, d, q, e1, e2, -, e3, -, -, -⟩ := estimate_ok hs hl h2 hlz hu htb htb2 hv1 hv2
  have hd0 : 0 < div.length := by omega
  have hdt : t < div.length := by omega
  obtain ⟨f1, -⟩ := firstRow_ok (mult := DDigit.lo q) ht1 hdt
  refine ⟨D, ?_⟩
  simp only [mulOrMulSub1QuoSub, e1, e2, e3, run_bind_ok, idx_ok hd0, idx_ok hdt]
  have hcm : DDigit.loHi (DDigit.wrappingMul (Digit.dd (DDigit.lo q)) (Digit.dd div[0]))
      = Digit.carryingMul (DDigit.lo q) div[0] := rfl
  rw [hcm]
  generalize mulRow (DDigit.lo q) ((div.take t).drop 1)
    ([(Digit.carryingMul (DDigit.lo q) div[0]).1], (Digit.carryingMul (DDigit.lo q) div[0]).2)
      = row at *
  obtain ⟨sub, carry⟩ := row
  simp only at *
  exact ⟨_, trivial, rfl, by simp [f1]; omega⟩

theorem divLoopScratch_ok {div : List Digit} {n divSd divSb V0 : Nat} {d1 : DDigit} (h2 : 2 ≤ n)
    (hl : div.length = n) (ht1 : 1 ≤ divSd) (ht2 : divSd + 2 ≤ n)
    (hV1 : 2 ^ (divSb - 1) ≤ val div) (hV2 : val div < 2 ^ divSb) (hV3 : val div < B ^ (divSd + 1))
    (hds : 64 < divSb) (hd1 : d1.toNat = val div / 2 ^ (divSb - 64) + 1) (hV0 : V0 < B ^ n)
    (fuel : Nat) : ∀ s : DivState, s.duo.length = n → s.quo.length = n → 2 ≤ s.duoSd →
      s.duoSd < n → s.duoLz < 64 → 2 ^ (64 * (s.duoSd + 1) - s.duoLz - 1) ≤ val s.duo →
      val s.duo < 2 ^ (64 * (s.duoSd + 1) - s.duoLz) → divSb < 64 * (s.duoSd + 1) - s.duoLz →
      val s.duo + val s.quo * val div = V0 → val s.duo < 2 ^ (divSb + 61 * fuel) →
      ∃ r, divLoopScratch n div divSd divSb (divSb - 64) d1 fuel s = .ok r ∧ (r = [] ∨ r = [n]) := by
  induction fuel with
  | zero =>
    intro s _ _ _ _ _ h1 _ h2 _ h
    have : 2 ^ (divSb + 61 * 0) ≤ 2 ^ (64 * (s.duoSd + 1) - s.duoLz - 1) :=
      Nat.pow_le_pow_right (by decide) (by omega)
    omega
  | succ fuel ih =>
    intro s a1 a2 a3 a4 a5 a6 a7 a8 a9 a10
    rw [divLoopScratch]
    simp only [csub_ok (show s.duoLz ≤ 64 by omega), csub_ok a3, run_bind_ok]
    split
    · obtain ⟨r, e, hr⟩ := divLoopBody_ok h2 a1 a2 hl a3 a4 a5 a6 a7 a8 ht1 ht2 hV1 hV2 hV3 hds hd1
        a9 hV0
      simp only [e, run_bind_ok]
      cases r with
      | done u v => exact ⟨[], rfl, .inl rfl⟩
      | next s' =>
        obtain ⟨b1, b2, b3, b4, b5, b6, b7, b8, b9, b10⟩ := hr
        refine ih s' b1 b2 b3 b4 b5 b6 b7 b8 b9 ?_
        rw [show divSb + 61 * (fuel + 1) = divSb + 61 * fuel + 61 by omega, Nat.pow_add _ _ 61]
          at a10
        exact Nat.lt_of_mul_lt_mul_right (Nat.lt_trans b10 a10)
    · rename_i hbr
      obtain ⟨duo, quo, sd, lz⟩ := s
      simp only at *
      obtain ⟨D, r, eD, e, hr⟩ := mulOrMulSub1QuoSub_length (duo := duo) (div := div)
        (quo := quo) (s := sd) (lz := lz) (t := divSd) (tb := divSb) (by omega) (by omega) a3 a5 ht1
        (by omega) a7 (by omega) (by omega) hV1 hV2
      rw [a1] at e hr
      simp only [eD, run_bind_ok, e, hr]
      exact ⟨[n], by rw [vecRequests_exact (by omega)], .inr rfl⟩

theorem longDivisionScratch_ok {duo div : List Digit} {k n s lz t tz : Nat} (h1 : duo.length = n)
    (hl : div.length = n) (hs2 : 2 ≤ s) (hs : s < n) (hlz : lz < 64)
    (hu1 : 2 ^ (64 * (s + 1) - lz - 1) ≤ val duo) (hu2 : val duo < 2 ^ (64 * (s + 1) - lz))
    (ht1 : 1 ≤ t) (htz : tz < 64) (hV1 : 2 ^ (64 * (t + 1) - tz - 1) ≤ val div)
    (hV2 : val div < 2 ^ (64 * (t + 1) - tz))
    (hbits : 64 ≤ 64 * (s + 1) - lz - (64 * (t + 1) - tz))
    (hk : val duo < val div * 2 ^ (61 * k)) :
    ∃ r, longDivisionScratch k n duo s lz div t tz (64 * (t + 1) - tz) = .ok r ∧
      (r = [n] ∨ r = [n, n]) := by
  have kt : t < div.length := by omega
  have kt1 : t - 1 < div.length := by omega
  have hV3 : val div < B ^ (t + 1) := by
    rw [B_pow]
    exact Nat.lt_of_lt_of_le hV2 (Nat.pow_le_pow_right (by decide) (by omega))
  obtain ⟨x, ex, hx1⟩ := divSig_ok kt ht1 htz hV2
  obtain ⟨r, e, hr⟩ := divLoopScratch_ok (n := n) (div := div) (divSd := t)
    (divSb := 64 * (t + 1) - tz) (V0 := val duo) (by omega) hl ht1 (by omega) hV1 hV2 hV3
    (by omega) hx1 (val_lt_of_le (by omega)) k
    ⟨duo, List.replicate n Digit.ZERO, s, lz⟩ h1 (by simp) hs2 hs hlz hu1 hu2
    (show 64 * (t + 1) - tz < 64 * (s + 1) - lz by omega)
    (by
      show val duo + val (List.replicate n Digit.ZERO) * val div = val duo
      rw [Digit.ZERO, val_replicate_zero, Nat.zero_mul, Nat.add_zero])
    (by
      rw [Nat.pow_add]
      exact Nat.lt_of_lt_of_le hk (Nat.mul_le_mul_right _ (Nat.le_of_lt hV2)))
  refine ⟨n :: r, ?_, by rcases hr with rfl | rfl <;> simp⟩
  have hq : vecRequests n (List.replicate n Digit.ZERO).length = [n] := by
    rw [List.length_replicate, vecRequests_exact (by omega)]
  unfold longDivisionScratch
  simp only [csub_ok (show tz ≤ 64 by omega), csub_ok ht1, run_bind_ok]
  rw [show 64 - tz + 64 * (t - 1) = 64 * (t + 1) - tz - 64 by omega]
  by_cases h0 : tz = 0
  · rw [if_pos h0] at ex ⊢
    rw [ex]
    simp only [run_bind_ok]
    rw [e]
    simp only [run_bind_ok, hq]
    rfl
  · rw [if_neg h0] at ex ⊢
    simp only [idx_ok kt, idx_ok kt1, run_bind_ok] at ex ⊢
    injection ex with ex
    rw [ex, e]
    simp only [run_bind_ok, hq]
    rfl

theorem divremScratch_ok {duo div : List Digit} {w : Nat} (hw : 64 < w)
    (h1 : duo.length = digitsFor w) (hl : div.length = digitsFor w) :
    ∃ r, divremScratch duo div = .ok r ∧ DivBuffers w (val duo) (val div) r := by
  have hB : B ^ 1 = 2 ^ 64 := by rw [B_pow]
  have hB2 : B ^ 2 = 2 ^ 128 := by rw [B_pow]
  have none_ : (val duo < 2 ^ 128 ∨ val div < 2 ^ 64 ∨ Nat.size (val duo) ≤ Nat.size (val div)) →
      DivBuffers w (val duo) (val div) [] := by
    intro h
    unfold DivBuffers
    rw [if_pos (.inr h)]
  unfold divremScratch
  cases ht : rpositionNonzero div with
  | none => exact ⟨[], rfl, none_ (.inr (.inl (by rw [rpositionNonzero_none ht]; decide)))⟩
  | some t =>
    obtain ⟨t1, t2, t3⟩ := rpositionNonzero_some ht
    cases hs : rpositionNonzero duo with
    | none => exact ⟨[], rfl, none_ (.inl (by rw [rpositionNonzero_none hs]; decide))⟩
    | some s =>
      obtain ⟨s1, s2, s3⟩ := rpositionNonzero_some hs
      simp only
      split
      · rename_i hlt
        refine ⟨[], rfl, none_ (.inr (.inr (Nat.size_le_size ?_)))⟩
        exact Nat.le_of_lt (Nat.lt_of_lt_of_le s3
          (Nat.le_trans (Nat.pow_le_pow_right B_pos (by omega)) t2))
      · rename_i hge
        by_cases ts : t = 0
        · subst ts
          rw [show ((0 : Nat) == 0) = true from rfl]
          have := none_ (.inr (.inl (by rw [← hB]; exact t3)))
          cases s == 0 <;> exact ⟨[], rfl, this⟩
        · rw [show (t == 0) = false by simp [ts], show (s == 0) = false by simp; omega]
          simp only
          split
          · rename_i ss
            subst ss
            exact ⟨[], rfl, none_ (.inl (by rw [← hB2]; exact s3))⟩
          · rename_i ss
            obtain ⟨a1, a2, a3, a4⟩ := sigBits_ok s1 s2 s3
            obtain ⟨b1, b2, b3, b4⟩ := sigBits_ok t1 t2 t3
            have hu64 : ¬ val duo < 2 ^ 128 := by
              rw [← hB2]
              have := Nat.pow_le_pow_right B_pos (show 2 ≤ s by omega)
              omega
            have hv64 : ¬ val div < 2 ^ 64 := by
              rw [← hB]
              have := Nat.pow_le_pow_right B_pos (show 1 ≤ t by omega)
              omega
            unfold largeDivByLargeScratch
            simp only [idx_ok s1, idx_ok t1, run_bind_ok, a2, b2]
            generalize Digit.leadingZeros duo[s] = lz at *
            generalize Digit.leadingZeros div[t] = tz at *
            have z1 := size_of (by omega) a3 a4
            have z2 := size_of (by omega) b3 b4
            split
            · exact ⟨[], rfl, none_ (.inr (.inr (by omega)))⟩
            · split
              · exact ⟨[], rfl, none_ (.inr (.inr (by omega)))⟩
              · rename_i n1 n2
                have hno : ¬ (w ≤ 64 ∨ val duo < 2 ^ 128 ∨ val div < 2 ^ 64 ∨
                    Nat.size (val duo) ≤ Nat.size (val div)) := by
                  rintro (h | h | h | h)
                  · omega
                  · exact hu64 h
                  · exact hv64 h
                  · omega
                rw [csub_ok (show 64 * (t + 1) - tz ≤ 64 * (s + 1) - lz by omega)]
                simp only [run_bind_ok]
                split
                · rename_i hb
                  obtain ⟨r, e, hr⟩ := mulOrMulSub1Sub_length (duo := duo) (div := div) (s := s)
                    (lz := lz) (t := t) (tb := 64 * (t + 1) - tz) s1 (by omega) (by omega) a1
                    (by omega) (by omega) a4 (by omega) hb b3 b4
                  simp only [e, run_bind_ok, hr]
                  refine ⟨[digitsFor w], by rw [vecRequests_exact (by omega), h1], ?_⟩
                  unfold DivBuffers
                  rw [if_neg hno, if_pos (by omega)]
                · rename_i hb
                  obtain ⟨r, e, hr⟩ := longDivisionScratch_ok (duo := duo) (div := div)
                    (k := 2 * duo.length) (n := duo.length) (s := s) (lz := lz) (t := t) (tz := tz)
                    rfl (by omega) (by omega) s1 a1 a3 a4 (by omega) b1 b3 b4 (by omega) (by
                      refine Nat.lt_of_lt_of_le (val_lt duo) ?_
                      refine Nat.le_trans ?_ (Nat.le_mul_of_pos_left _ (by omega))
                      rw [B_pow]
                      exact Nat.pow_le_pow_right (by decide) (by omega))
                  rw [h1] at e hr ⊢
                  refine ⟨r, e, ?_⟩
                  unfold DivBuffers
                  rw [if_neg hno, if_neg (by omega)]
                  exact hr

/-- The copy of an operand. -/
theorem cloneScratch_eq (a : ApInt) : a.cloneScratch = copyBuffers a.w := by
  unfold cloneScratch copyBuffers w lenDigits
  rw [BitWidth.requiredDigits_eq]
  unfold BitWidth.storage
  have := a.len.pos
  by_cases h : a.len.toUsize ≤ 64
  · rw [if_pos h, if_pos h]
  · rw [if_neg h, if_neg h]
    exact vecRequests_exact (by omega)

theorem divBuffers_small {w x y : Nat} (h : w ≤ 64) : DivBuffers w x y [] := by
  unfold DivBuffers
  rw [if_pos (.inl h)]

theorem divBuffers_zero {w x : Nat} {r : List Nat} (h : DivBuffers w x 0 r) : r = [] := by
  unfold DivBuffers at h
  rwa [if_pos (.inr (.inr (.inl (by decide))))] at h

/-- Unsigned division changing both operands. -/
theorem udivremScratch_ok {a b : ApInt} (ha : a.WF) (hb : b.WF) (h : a.len = b.len) :
    ∃ r, DivBuffers a.w a.uval b.uval r ∧ udivremScratch a b =
      .ok (r ++ if b.uval = 0 then copyBuffers a.w else []) := by
  unfold udivremScratch
  rcases zipAccessData_ok ha.1 hb.1 h with ⟨x, y, ex, ey, h1, e⟩ | ⟨xs, ys, ex, ey, h1, h2, h3, e⟩
  · have hu : b.uval = y.toNat := by simp [uval, digits, ey]
    refine ⟨[], divBuffers_small h1, ?_⟩
    simp only [e, run_bind_ok, cloneScratch_eq, hu]
    by_cases hz : y.toNat = 0
    · simp [(Digit.isZero_iff y).mpr hz, hz]
    · simp [(Digit.isZero_false_iff y).mpr (by omega), hz]
  · have hu : b.uval = val ys := by simp [uval, digits, ey]
    have hu' : a.uval = val xs := by simp [uval, digits, ex]
    obtain ⟨r, er, hr⟩ := divremScratch_ok h1 h2 h3
    refine ⟨r, by rw [hu, hu']; exact hr, ?_⟩
    simp only [e, er, run_bind_ok, cloneScratch_eq, hu]
    by_cases hz : val ys = 0
    · rw [divremDigits_zero hz, if_pos hz]
      rfl
    · obtain ⟨q, m, e2, -⟩ := divremDigits_ok (duo := xs) (div := ys) (by omega) (by omega)
      rw [e2, if_neg hz, List.append_nil]
      rfl

/-- Unsigned division changing the dividend. -/
theorem udivScratch_ok {a b : ApInt} (ha : a.WF) (hb : b.WF) (h : a.len = b.len) :
    ∃ r, DivBuffers a.w a.uval b.uval r ∧ udivScratch a b =
      .ok (copyBuffers a.w ++ r ++ if b.uval = 0 then copyBuffers a.w else []) := by
  unfold udivScratch
  rcases zipAccessData_ok ha.1 hb.1 h with ⟨x, y, ex, ey, h1, e⟩ | ⟨xs, ys, ex, ey, h1, h2, h3, e⟩
  · have hu : b.uval = y.toNat := by simp [uval, digits, ey]
    have hc : copyBuffers a.w = [] := by unfold copyBuffers; rw [if_pos h1]
    refine ⟨[], divBuffers_small h1, ?_⟩
    simp only [e, run_bind_ok, cloneScratch_eq, hu, hc]
    cases hz : Digit.isZero y <;> simp
  · have hu : b.uval = val ys := by simp [uval, digits, ey]
    have hu' : a.uval = val xs := by simp [uval, digits, ex]
    have hc : vecRequests ys.length ys.length = copyBuffers a.w := by
      unfold copyBuffers
      rw [vecRequests_exact (by omega), if_neg (by omega), h3]
      rfl
    obtain ⟨r, er, hr⟩ := divremScratch_ok h1 h2 h3
    refine ⟨r, by rw [hu, hu']; exact hr, ?_⟩
    simp only [e, er, run_bind_ok, cloneScratch_eq, hu, hc]
    by_cases hz : val ys = 0
    · rw [divremDigits_zero hz, if_pos hz]
      rfl
    · obtain ⟨q, m, e2, -⟩ := divremDigits_ok (duo := xs) (div := ys) (by omega) (by omega)
      rw [e2, if_neg hz, List.append_nil]
      rfl

theorem magnitude_ok {a : ApInt} (h : a.WF) :
    ∃ c, a.magnitude = .ok c ∧ c.WF ∧ c.len = a.len ∧ c.uval = a.sval.natAbs := by
  unfold magnitude
  rcases msb_sval h with ⟨m, v⟩ | ⟨m, v, p⟩
  · simp only [m, run_bind_ok, negIf]
    exact ⟨a, rfl, h, rfl, by rw [v]; rfl⟩
  · obtain ⟨c, e, h1, h2, h3⟩ := neg_abs h v p
    simp only [m, run_bind_ok, negIf, if_true]
    exact ⟨c, e, h1, h2, by omega⟩

theorem sval_zero_iff {a : ApInt} (h : a.WF) : a.sval = 0 ↔ a.uval = 0 := by
  have := h.2
  have hc : ((2 ^ a.w : Nat) : Int) = (2 : Int) ^ a.w := by push_cast; rfl
  rcases msb_sval h with ⟨_, v⟩ | ⟨_, v, p⟩ <;> omega

/-- Signed division changing both operands. -/
theorem sdivremScratch_ok {a b : ApInt} (ha : a.WF) (hb : b.WF) (h : a.len = b.len) :
    ∃ r, DivBuffers a.w a.sval.natAbs b.sval.natAbs r ∧ sdivremScratch a b =
      .ok (if b.sval = 0 then copyBuffers a.w else r) := by
  unfold sdivremScratch
  rw [isZero_ok hb.1]
  simp only [run_bind_ok, cloneScratch_eq]
  by_cases hz : b.uval = 0
  · refine ⟨[], ?_, ?_⟩
    · rw [(sval_zero_iff hb).mpr hz]
      unfold DivBuffers
      rw [if_pos (.inr (.inr (.inl (by decide))))]
    · rw [if_pos ((sval_zero_iff hb).mpr hz)]
      simp [hz]
  · obtain ⟨l, el, hl, ll, vl⟩ := magnitude_ok ha
    obtain ⟨r, er, hr, lr, vr⟩ := magnitude_ok hb
    obtain ⟨s, hs, es⟩ := udivremScratch_ok hl hr (by rw [ll, lr, h])
    have hw : l.w = a.w := by unfold w; rw [ll]
    have hsz : ¬ b.sval = 0 := fun hc => hz ((sval_zero_iff hb).mp hc)
    rw [hw, vl, vr] at hs
    refine ⟨s, hs, ?_⟩
    rw [vr, if_neg (show ¬ b.sval.natAbs = 0 by omega), List.append_nil] at es
    simp only [hz, decide_false, Bool.false_eq_true, if_false, el, er, run_bind_ok, es, if_neg hsz]

/-- Signed division changing the dividend. -/
theorem sdivScratch_ok {a b : ApInt} (ha : a.WF) (hb : b.WF) (h : a.len = b.len) :
    ∃ r, DivBuffers a.w a.sval.natAbs b.sval.natAbs r ∧ sdivScratch a b =
      .ok (copyBuffers a.w ++ r) := by
  obtain ⟨r, hr, e⟩ := sdivremScratch_ok ha hb h
  unfold sdivremScratch at e
  unfold sdivScratch
  have hw : b.w = a.w := by unfold w; rw [h]
  rw [isZero_ok hb.1] at e ⊢
  simp only [run_bind_ok, cloneScratch_eq, hw] at e ⊢
  by_cases hz : b.uval = 0
  · have hs := (sval_zero_iff hb).mpr hz
    rw [hs] at hr
    cases divBuffers_zero hr
    exact ⟨[], by rw [hs]; exact hr, by simp [hz]⟩
  · refine ⟨r, hr, ?_⟩
    simp only [hz, decide_false, Bool.false_eq_true, if_false] at e ⊢
    rw [if_neg fun hc => hz ((sval_zero_iff hb).mp hc)] at e
    obtain ⟨l, el, -⟩ := magnitude_ok ha
    obtain ⟨m, em, -⟩ := magnitude_ok hb
    simp only [el, em, run_bind_ok] at e ⊢
    rw [e]
    rfl

end ApInt

end Verif
