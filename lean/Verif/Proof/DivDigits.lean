import Verif.Proof.DivMain

/-! # Small divisors, and the choice between the algorithms -/

namespace Verif

namespace ApInt

theorem digit_divrem_ok {x y : Digit} (h : 0 < y.toNat) :
    ∃ q r, Digit.wrappingDivrem x y = .ok (q, r) ∧ q.toNat = x.toNat / y.toNat ∧
      r.toNat = x.toNat % y.toNat := by
  have : y ≠ 0 := by rintro rfl; simp at h
  refine ⟨x / y, x % y, ?_, BitVec.toNat_udiv, BitVec.toNat_umod⟩
  simp only [Digit.wrappingDivrem, Digit.wrappingDiv, Digit.wrappingRem, if_neg this, run_bind_ok]
  rfl

theorem drop_set_self {l : List Digit} {i : Nat} (h : i < l.length) (v : Digit) :
    (l.set i v).drop i = v :: l.drop (i + 1) := by
  rw [List.drop_eq_getElem_cons (by simpa using h), List.getElem_set_self, drop_set_succ]

theorem take_set_self {l : List Digit} {i : Nat} (v : Digit) :
    (l.set i v).take i = l.take i := List.take_set_of_le (Nat.le_refl i)

theorem getElem_of_take {l m : List Digit} {i n : Nat} (h : l.take n = m.take n) (hi : i < n)
    (hl : i < l.length) (hm : i < m.length) : l[i] = m[i] := by
  have h1 : (l.take n)[i]? = (m.take n)[i]? := by rw [h]
  rw [List.getElem?_take_of_lt hi, List.getElem?_take_of_lt hi] at h1
  simpa [hl, hm] using h1

theorem take_of_take {l m : List Digit} {i n : Nat} (h : l.take n = m.take n) (hi : i ≤ n) :
    l.take i = m.take i := by
  have := congrArg (List.take i) h
  rwa [List.take_take, List.take_take, Nat.min_eq_left hi] at this

theorem val_one_digit {l : List Digit} (h0 : 0 < l.length) (h : val l < B) :
    val l = (l[0]).toNat := by
  rw [← val_take_one h0, val_take_of_lt (by rwa [pow_one])]

theorem val_set_zero {l : List Digit} (h0 : 0 < l.length) (h : val l < B) (r : Digit) :
    val (l.set 0 r) = r.toNat := by
  have := val_set h0 r
  rw [← val_one_digit h0 h, Nat.pow_zero, Nat.one_mul, Nat.one_mul] at this
  omega

theorem largeDivBySmall_ok {duo div : List Digit} {s : Nat} (hl : div.length = duo.length)
    (hs : s < duo.length) (hu : val duo < B ^ (s + 1)) (hv : val div < B) (hV : 0 < val div) :
    ∃ duo' div', largeDivBySmall duo s div = .ok (duo', div') ∧ duo'.length = duo.length ∧
      div'.length = duo.length ∧ val duo' = val duo / val div ∧ val div' = val duo % val div := by
  have v0 : 0 < div.length := by omega
  have hV0 := val_one_digit v0 hv
  obtain ⟨q, r, e, hq, hr⟩ := digit_divrem_ok (x := duo[s]) (y := div[0]) (by omega)
  rw [← hV0] at hq hr
  obtain ⟨⟨u, rem⟩, e2, g1, g2, g3, g4⟩ := forRev_spec
    (body := fun i (s : List Digit × Digit) => do
      let d ← idx s.1 i
      let duoDouble := DDigit.fromLoHi d s.2
      let temp ← DDigit.wrappingDivrem duoDouble (Digit.dd div[0])
      let quo := DDigit.lo temp.1
      let rem := DDigit.lo temp.2
      let duo ← upd s.1 i quo
      .ok (duo, rem))
    (I := fun j (t : List Digit × Digit) => t.1.length = duo.length ∧
      t.1.take j = duo.take j ∧ val (t.1.drop j) * val div + t.2.toNat = val (duo.drop j) ∧
      t.2.toNat < val div)
    (lo := 0) (hi := s) (s := (duo.set s q, r)) (by omega)
    ⟨by simp, take_set_self _, by
      simp only [drop_set_self hs]
      rw [List.drop_eq_getElem_cons hs, val_cons, val_cons, val_drop_of_lt hu (Nat.le_refl _),
        Nat.mul_zero, Nat.add_zero, Nat.add_zero, hq, hr]
      exact Nat.div_add_mod' _ _, by rw [hr]; exact Nat.mod_lt _ hV⟩ (by
      rintro i ⟨t, r⟩ - hi ⟨g1, g2, g3, g4⟩
      simp only at g1 g2 g3 g4
      have k1 : i < t.length := by omega
      have k2 : i < duo.length := by omega
      have hx : t[i] = duo[i] := getElem_of_take g2 (by omega) k1 k2
      obtain ⟨Q, R, e, hQ, hR⟩ := ddivrem_ok (x := DDigit.fromLoHi t[i] r) (y := Digit.dd div[0])
        (by rw [Digit.dd_toNat]; omega)
      rw [Digit.dd_toNat, ← hV0, DDigit.fromLoHi_toNat] at hQ hR
      have hQB : Q.toNat < B := by
        rw [hQ]
        apply Nat.div_lt_of_lt_mul
        have := dlt t[i]
        have := Nat.mul_le_mul_left B (Nat.succ_le_of_lt g4)
        rw [Nat.mul_succ, Nat.mul_comm B (val div)] at this
        omega
      have hRV : R.toNat < val div := by rw [hR]; exact Nat.mod_lt _ hV
      have hdm : Q.toNat * val div + R.toNat = (t[i]).toNat + B * r.toNat := by
        rw [hQ, hR]; exact Nat.div_add_mod' _ _
      have hQl : (DDigit.lo Q).toNat = Q.toNat := by rw [DDigit.lo_toNat, Nat.mod_eq_of_lt hQB]
      have hRl : (DDigit.lo R).toNat = R.toNat := by
        rw [DDigit.lo_toNat, Nat.mod_eq_of_lt (by omega)]
      simp only [idx_ok k1, run_bind_ok, e, upd_ok k1]
      refine ⟨_, rfl, by simp [g1], ?_, ?_, by simp only [hRl]; exact hRV⟩
      · simp only [take_set_self]; exact take_of_take g2 (by omega)
      · simp only [drop_set_self k1]
        rw [List.drop_eq_getElem_cons k2, val_cons, val_cons, hQl, hRl, ← hx, ← g3]
        linear_combination hdm)
  simp only at g1 g2 g3 g4
  rw [List.drop_zero, List.drop_zero] at g3
  obtain ⟨m1, m2⟩ := divmod_of (V0 := val duo) (V := val div) (q := val u) (r := rem.toNat)
    (by omega) g4
  refine ⟨u, div.set 0 rem, ?_, g1, by simp [hl], m1, ?_⟩
  · simp only [largeDivBySmall, idx_ok v0, idx_ok hs, run_bind_ok, e, upd_ok hs]
    rw [e2]
    simp only [run_bind_ok, upd_ok v0]
  · rw [val_set_zero v0 hv, m2]

theorem u32lo_toNat (x : Digit) : (u32lo x).toNat = x.toNat % 2 ^ 32 := by simp [u32lo]

theorem u32hi_toNat (x : Digit) : (u32hi x).toNat = x.toNat / 2 ^ 32 := by
  have := x.isLt
  simp [u32hi, Nat.shiftRight_eq_div_pow]
  omega

theorem u32_split (x : Digit) : (u32lo x).toNat + 2 ^ 32 * (u32hi x).toNat = x.toNat := by
  rw [u32lo_toNat, u32hi_toNat]; exact Nat.mod_add_div _ _

theorem u32dd_toNat (x : BitVec 32) : (u32dd x).toNat = x.toNat := by
  have := x.isLt
  simp [u32dd]
  omega

theorem u32fromLoHi_toNat (l h : BitVec 32) :
    (u32fromLoHi l h).toNat = l.toNat + 2 ^ 32 * h.toNat := by
  have hl := l.isLt
  have hh := h.isLt
  have e1 : (l.setWidth 64).toNat = l.toNat := by simp; omega
  have e2 : (h.setWidth 64 <<< 32).toNat = 2 ^ 32 * h.toNat := by
    rw [BitVec.toNat_shiftLeft, Nat.shiftLeft_eq]
    simp only [BitVec.toNat_setWidth]
    rw [Nat.mod_eq_of_lt (by omega : h.toNat < 2 ^ 64), Nat.mod_eq_of_lt (by omega), Nat.mul_comm]
  unfold u32fromLoHi
  rw [BitVec.toNat_or, e1, e2, Nat.or_comm, or_eq_add (n := 32) ⟨_, rfl⟩ hl, Nat.add_comm]

/-- One half-digit of long division by a 32-bit divisor. -/
theorem u32step {x r v : BitVec 32} (hr : r.toNat < v.toNat) :
    ∃ a b, Digit.wrappingDivrem (u32fromLoHi x r) (u32dd v) = .ok (a, b) ∧
      (u32lo a).toNat * v.toNat + (u32lo b).toNat = x.toNat + 2 ^ 32 * r.toNat ∧
      (u32lo b).toNat < v.toNat := by
  obtain ⟨a, b, e, ha, hb⟩ := digit_divrem_ok (x := u32fromLoHi x r) (y := u32dd v)
    (by rw [u32dd_toNat]; omega)
  rw [u32dd_toNat, u32fromLoHi_toNat] at ha hb
  have hv : 0 < v.toNat := by omega
  have hx := x.isLt
  have hbv : b.toNat < v.toNat := by rw [hb]; exact Nat.mod_lt _ hv
  have haB : a.toNat < 2 ^ 32 := by
    rw [ha]
    apply Nat.div_lt_of_lt_mul
    have := Nat.mul_le_mul_left (2 ^ 32) (Nat.succ_le_of_lt hr)
    rw [Nat.mul_succ, Nat.mul_comm (2 ^ 32) v.toNat] at this
    omega
  have hvl := v.isLt
  have h1 : (u32lo a).toNat = a.toNat := by rw [u32lo_toNat, Nat.mod_eq_of_lt haB]
  have h2 : (u32lo b).toNat = b.toNat := by rw [u32lo_toNat, Nat.mod_eq_of_lt (by omega)]
  refine ⟨a, b, e, ?_, by rw [h2]; exact hbv⟩
  rw [h1, h2]
  rw [ha, hb]
  exact Nat.div_add_mod' _ _

theorem largeDivByU32_ok {duo div : List Digit} {s : Nat} (hl : div.length = duo.length)
    (hs : s < duo.length) (hu : val duo < B ^ (s + 1)) (hv : val div < 2 ^ 32)
    (hV : 0 < val div) :
    ∃ duo' div', largeDivByU32 duo s div = .ok (duo', div') ∧ duo'.length = duo.length ∧
      div'.length = duo.length ∧ val duo' = val duo / val div ∧ val div' = val duo % val div := by
  have v0 : 0 < div.length := by omega
  have hvB : val div < B := by rw [B_eq]; omega
  have hV0 : val div = (u32lo div[0]).toNat := by
    rw [u32lo_toNat, ← val_one_digit v0 hvB, Nat.mod_eq_of_lt hv]
  generalize hvv : u32lo div[0] = v at *
  have hp : v ≠ 0 := by rintro rfl; simp at hV0; omega
  have hx1 : ((u32hi duo[s]) / v).toNat = (u32hi duo[s]).toNat / v.toNat := BitVec.toNat_udiv
  have hx2 : ((u32hi duo[s]) % v).toNat = (u32hi duo[s]).toNat % v.toNat := BitVec.toNat_umod
  have hr0 : ((u32hi duo[s]) % v).toNat < v.toNat := by
    rw [hx2]; exact Nat.mod_lt _ (by omega)
  obtain ⟨a, b, e, hab, hb⟩ := u32step (x := u32lo duo[s]) hr0
  have hdm0 := Nat.div_add_mod' (u32hi duo[s]).toNat v.toNat
  rw [← hx1, ← hx2] at hdm0
  have hsp := u32_split duo[s]
  obtain ⟨⟨u, rem⟩, e2, g1, g2, g3, g4⟩ := forRev_spec
    (body := fun i (s : List Digit × BitVec 32) => do
      let d ← idx s.1 i
      let duoDoubleHi := u32fromLoHi (u32hi d) s.2
      let tempHi ← Digit.wrappingDivrem duoDoubleHi (u32dd v)
      let quoHi := u32lo tempHi.1
      let remHi := u32lo tempHi.2
      let duoDoubleLo := u32fromLoHi (u32lo d) remHi
      let tempLo ← Digit.wrappingDivrem duoDoubleLo (u32dd v)
      let quoLo := u32lo tempLo.1
      let remLo := u32lo tempLo.2
      let duo ← upd s.1 i (u32fromLoHi quoLo quoHi)
      .ok (duo, remLo))
    (I := fun j (t : List Digit × BitVec 32) => t.1.length = duo.length ∧
      t.1.take j = duo.take j ∧ val (t.1.drop j) * v.toNat + t.2.toNat = val (duo.drop j) ∧
      t.2.toNat < v.toNat)
    (lo := 0) (hi := s)
    (s := (duo.set s (u32fromLoHi (u32lo a) ((u32hi duo[s]) / v)), u32lo b)) (by omega)
    ⟨by simp, take_set_self _, by
      simp only [drop_set_self hs]
      rw [List.drop_eq_getElem_cons hs, val_cons, val_cons, val_drop_of_lt hu (Nat.le_refl _),
        Nat.mul_zero, Nat.add_zero, Nat.add_zero, u32fromLoHi_toNat]
      linear_combination hab + 2 ^ 32 * hdm0 + hsp, hb⟩ (by
      rintro i ⟨t, r⟩ - hi ⟨g1, g2, g3, g4⟩
      simp only at g1 g2 g3 g4
      have k1 : i < t.length := by omega
      have k2 : i < duo.length := by omega
      have hx : t[i] = duo[i] := getElem_of_take g2 (by omega) k1 k2
      obtain ⟨a, b, e, hab, hb⟩ := u32step (x := u32hi t[i]) g4
      obtain ⟨a', b', e', hab', hb'⟩ := u32step (x := u32lo t[i]) hb
      have hsp := u32_split t[i]
      simp only [idx_ok k1, run_bind_ok, e, e', upd_ok k1]
      refine ⟨_, rfl, by simp [g1], ?_, ?_, hb'⟩
      · simp only [take_set_self]; exact take_of_take g2 (by omega)
      · simp only [drop_set_self k1]
        rw [List.drop_eq_getElem_cons k2, val_cons, val_cons, ← hx, ← g3, u32fromLoHi_toNat, B_eq]
        linear_combination hab' + 2 ^ 32 * hab + hsp)
  simp only at g1 g2 g3 g4
  rw [List.drop_zero, List.drop_zero] at g3
  obtain ⟨m1, m2⟩ := divmod_of (V0 := val duo) (V := val div) (q := val u) (r := rem.toNat)
    (by rw [hV0]; omega) (by rw [hV0]; exact g4)
  refine ⟨u, div.set 0 (u32dd rem), ?_, g1, by simp [hl], m1, ?_⟩
  · simp only [largeDivByU32, idx_ok v0, idx_ok hs, run_bind_ok, hvv, u32divrem, if_neg hp, e,
      upd_ok hs]
    rw [e2]
    simp only [run_bind_ok, upd_ok v0]
  · rw [val_set_zero v0 hvB, u32dd_toNat, m2]

/-- `aarons_algorithm_divrem` on slices of one length; a quotient below `2 ^ (61 * k)` needs at most
`k` rounds of the main loop. -/
theorem divremWithin_ok {k : Nat} {duo div : List Digit} (hl : div.length = duo.length)
    (hV : 0 < val div) (hk : val duo < val div * 2 ^ (61 * k)) :
    ∃ duo' div', divremWithin k duo div = .ok (some (duo', div')) ∧ duo'.length = duo.length ∧
      div'.length = duo.length ∧ val duo' = val duo / val div ∧ val div' = val duo % val div := by
  have hz : ∀ l : List Digit, val (l.map Digit.unsetAll) = 0 := by
    intro l
    rw [val_eq_zero_iff]
    simp [Digit.unsetAll, Digit.ZERO]
  unfold divremWithin
  cases ht : rpositionNonzero div with
  | none => rw [rpositionNonzero_none ht] at hV; omega
  | some t =>
    obtain ⟨t1, t2, t3⟩ := rpositionNonzero_some ht
    cases hs : rpositionNonzero duo with
    | none =>
      have h0 := rpositionNonzero_none hs
      refine ⟨duo, _, rfl, rfl, by simp [hl], ?_, ?_⟩
      · rw [h0, Nat.zero_div]
      · rw [h0, Nat.zero_mod, hz]
    | some s =>
      obtain ⟨s1, s2, s3⟩ := rpositionNonzero_some hs
      simp only
      split
      · rename_i hlt
        have hm : min duo.length div.length = duo.length := by omega
        rw [hm, take_self rfl, drop_self rfl, drop_self hl, List.append_nil, List.append_nil]
        have : val duo < val div :=
          Nat.lt_of_lt_of_le s3 (Nat.le_trans (Nat.pow_le_pow_right B_pos (by omega)) t2)
        refine ⟨_, _, rfl, by simp, rfl, ?_, ?_⟩
        · rw [hz, Nat.div_eq_of_lt this]
        · rw [Nat.mod_eq_of_lt this]
      · rename_i hge
        by_cases ts : t = 0
        · subst ts
          have hvB : val div < B := by rwa [Nat.zero_add, pow_one] at t3
          have v0 : 0 < div.length := by omega
          by_cases ss : s = 0
          · subst ss
            have huB : val duo < B := by rwa [Nat.zero_add, pow_one] at s3
            have u0 : 0 < duo.length := by omega
            obtain ⟨q, r, e, hq, hr⟩ := digit_divrem_ok (x := duo[0]) (y := div[0])
              (by rw [← val_one_digit v0 hvB]; exact hV)
            rw [← val_one_digit v0 hvB, ← val_one_digit u0 huB] at hq hr
            simp only [beq_self_eq_true, idx_ok v0, idx_ok u0, run_bind_ok, e, upd_ok u0, upd_ok v0]
            exact ⟨_, _, rfl, by simp, by simp [hl], by rw [val_set_zero u0 huB, hq],
              by rw [val_set_zero v0 hvB, hr]⟩
          · rw [show (s == 0) = false by simp [ss]]
            simp only [beq_self_eq_true, idx_ok v0, run_bind_ok]
            split
            · rename_i hlz
              obtain ⟨g1, g2, g3, g4⟩ := leadingZeros64_spec div[0]
              have : val div < 2 ^ 32 := by
                rw [val_one_digit v0 hvB]
                refine Nat.lt_of_lt_of_le g2 (Nat.pow_le_pow_right (by decide) ?_)
                unfold Digit.leadingZeros at hlz
                omega
              obtain ⟨u, v, e, r⟩ := largeDivByU32_ok hl s1 s3 this hV
              simp only [e, run_bind_ok]
              exact ⟨u, v, rfl, r⟩
            · obtain ⟨u, v, e, r⟩ := largeDivBySmall_ok hl s1 s3 hvB hV
              simp only [e, run_bind_ok]
              exact ⟨u, v, rfl, r⟩
        · rw [show (t == 0) = false by simp [ts], show (s == 0) = false by simp; omega]
          simp only
          split
          · rename_i ss
            have tt : t = 1 := by omega
            subst ss tt
            have two : ∀ l : List Digit, (hl : 2 ≤ l.length) → val l < B ^ 2 →
                (DDigit.fromLoHi l[0] l[1]).toNat = val l := by
              intro l hl hv
              rw [DDigit.fromLoHi_toNat, ← val_take_of_lt hv, show (2:Nat) = 1 + 1 from rfl,
                val_take_succ (by omega : 1 < l.length), val_take_one (by omega), pow_one]
            have setTwo : ∀ (l : List Digit) (x : DDigit), 2 ≤ l.length → val l < B ^ 2 →
                val ((l.set 0 (DDigit.lo x)).set 1 (DDigit.hi x)) = x.toNat := by
              intro l x hl hv
              have v0 : 0 < l.length := by omega
              have v1' : 1 < (l.set 0 (DDigit.lo x)).length := by simp; omega
              have a1 := val_take_set v1' (DDigit.hi x)
              have a0 := val_take_set v0 (DDigit.lo x)
              simp only [List.take_zero, val_nil, Nat.pow_zero, Nat.one_mul, Nat.zero_add] at a0
              rw [a0] at a1
              rw [val_take_drop _ 2 (by simp; omega), drop_set_succ,
                List.drop_set_of_lt (by omega : 0 < 2), val_drop_of_lt hv (Nat.le_refl _),
                show (2:Nat) = 1 + 1 from rfl, a1, Nat.mul_zero, Nat.add_zero, pow_one,
                DDigit.lo_add_hi]
            have u0 : 0 < duo.length := by omega
            have u1 : 1 < duo.length := by omega
            have v0 : 0 < div.length := by omega
            have v1 : 1 < div.length := by omega
            obtain ⟨q, r, e, hq, hr⟩ := ddivrem_ok (x := DDigit.fromLoHi duo[0] duo[1])
              (y := DDigit.fromLoHi div[0] div[1]) (by rw [two div v1 t3]; exact hV)
            rw [two div v1 t3, two duo u1 s3] at hq hr
            have u1' : 1 < (duo.set 0 (DDigit.lo q)).length := by simpa using u1
            have v1' : 1 < (div.set 0 (DDigit.lo r)).length := by simpa using v1
            simp only [idx_ok u0, idx_ok u1, idx_ok v0, idx_ok v1, run_bind_ok, e, upd_ok u0,
              upd_ok u1', upd_ok v0, upd_ok v1']
            exact ⟨_, _, rfl, by simp, by simp [hl], by rw [setTwo duo q u1 s3, hq],
              by rw [setTwo div r v1 t3, hr]⟩
          · rename_i ss
            obtain ⟨u, v, e, r⟩ := largeDivByLarge_ok (s := s) (t := t) hl (by omega) s1 (by omega)
              (by omega) s2 s3 t2 t3 hk
            simp only [e, run_bind_ok]
            exact ⟨u, v, rfl, r⟩

theorem divremDigits_ok {duo div : List Digit} (hl : div.length = duo.length) (hV : 0 < val div) :
    ∃ duo' div', divremDigits duo div = .ok (some (duo', div')) ∧ duo'.length = duo.length ∧
      div'.length = duo.length ∧ val duo' = val duo / val div ∧ val div' = val duo % val div := by
  refine divremWithin_ok hl hV ?_
  calc val duo < B ^ duo.length := val_lt_of_le (Nat.le_refl _)
    _ ≤ 2 ^ (61 * (2 * duo.length)) := by
        rw [B_pow]
        exact Nat.pow_le_pow_right (by decide) (by omega)
    _ ≤ _ := Nat.le_mul_of_pos_left _ hV

theorem divremDigits_zero {duo div : List Digit} (h : val div = 0) :
    divremDigits duo div = .ok none := by
  unfold divremDigits divremWithin
  cases ht : rpositionNonzero div with
  | none => rfl
  | some t =>
    obtain ⟨-, t2, -⟩ := rpositionNonzero_some ht
    have := B_pow_pos t
    omega

theorem remdivDigits_ok {duo div : List Digit} (hl : div.length = duo.length) (hV : 0 < val div) :
    ∃ duo' div', remdivDigits duo div = .ok (some (duo', div')) ∧ duo'.length = duo.length ∧
      div'.length = duo.length ∧ val duo' = val duo % val div ∧ val div' = val duo / val div := by
  obtain ⟨u, v, e, l1, l2, g1, g2⟩ := divremDigits_ok hl hV
  unfold remdivDigits
  simp only [e, run_bind_ok]
  obtain ⟨⟨a, b⟩, e2, f1, f2, f3, f4, f5, f6⟩ := forRange_spec
    (body := fun i (s : List Digit × List Digit) => do
      let temp ← idx s.1 i
      let d ← idx s.2 i
      let duo ← upd s.1 i d
      let div ← upd s.2 i temp
      .ok (duo, div))
    (I := fun i (s : List Digit × List Digit) => s.1.length = duo.length ∧
      s.2.length = duo.length ∧ val (s.1.take i) = val (v.take i) ∧
      val (s.2.take i) = val (u.take i) ∧ s.1.drop i = u.drop i ∧ s.2.drop i = v.drop i)
    (lo := 0) (hi := u.length) (s := (u, v)) (by omega) ⟨l1, l2, rfl, rfl, rfl, rfl⟩ (by
      rintro i ⟨a, b⟩ - hi ⟨f1, f2, f3, f4, f5, f6⟩
      simp only at f1 f2 f3 f4 f5 f6
      have k1 : i < a.length := by omega
      have k2 : i < b.length := by omega
      have k3 : i < u.length := by omega
      have k4 : i < v.length := by omega
      have x1 : a[i] = u[i] := getElem_of_drop f5 (Nat.le_refl _) k1 k3
      have x2 : b[i] = v[i] := getElem_of_drop f6 (Nat.le_refl _) k2 k4
      simp only [idx_ok k1, idx_ok k2, upd_ok k1, upd_ok k2, run_bind_ok]
      refine ⟨_, rfl, by simp [f1], by simp [f2], ?_, ?_, ?_, ?_⟩
      · simp only [val_take_set k1, val_take_succ k4, f3, x2]
      · simp only [val_take_set k2, val_take_succ k3, f4, x1]
      · simp only [drop_set_succ]; exact drop_of_drop f5 (by omega)
      · simp only [drop_set_succ]; exact drop_of_drop f6 (by omega))
  simp only at f1 f2 f3 f4
  rw [take_self (by omega), take_self (by omega)] at f3 f4
  simp only [e2, run_bind_ok]
  exact ⟨a, b, rfl, f1, f2, by rw [f3, g2], by rw [f4, g1]⟩

theorem remdivDigits_zero {duo div : List Digit} (h : val div = 0) :
    remdivDigits duo div = .ok none := by
  unfold remdivDigits
  simp only [divremDigits_zero h, run_bind_ok]

end ApInt

end Verif
