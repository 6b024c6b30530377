import Verif.Proof.Text

/-! # Parsing: from digit values to integers -/

namespace Verif

namespace ApInt

/-! ## Radices whose digits fill a machine word exactly -/

theorem foldChunk_cons (bits c : Nat) (l : List Nat) :
    foldChunk bits (c :: l) = (foldChunk bits l <<< bits) ||| BitVec.ofNat 64 c := by
  unfold foldChunk
  rw [List.foldl_reverse, List.foldl_reverse, List.foldr_cons]

theorem pow_bits (bits n : Nat) : (2 ^ bits) ^ n = 2 ^ (bits * n) := (Nat.pow_mul 2 bits n).symm

theorem ofDigits_bits_lt {bits : Nat} {l : List Nat} (h : ∀ c ∈ l, c < 2 ^ bits) :
    Nat.ofDigits (2 ^ bits) l < 2 ^ (bits * l.length) := by
  induction l with
  | nil => simp [Nat.ofDigits]
  | cons c l ih =>
    have h1 := h c (by simp)
    have h2 := ih (fun c hc => h c (by simp [hc]))
    rw [Nat.ofDigits_cons, List.length_cons]
    have e : 2 ^ (bits * (l.length + 1)) = 2 ^ bits * 2 ^ (bits * l.length) := by
      rw [← Nat.pow_add]; congr 1; ring
    rw [e]
    calc c + 2 ^ bits * Nat.ofDigits (2 ^ bits) l
        < 2 ^ bits * (Nat.ofDigits (2 ^ bits) l + 1) := by rw [Nat.mul_add]; omega
      _ ≤ _ := Nat.mul_le_mul_left _ h2

theorem foldChunk_ok {bits : Nat} : ∀ {l : List Nat}, bits * l.length ≤ 64 →
    (∀ c ∈ l, c < 2 ^ bits) → (foldChunk bits l).toNat = Nat.ofDigits (2 ^ bits) l := by
  intro l
  induction l with
  | nil => intro _ _; rfl
  | cons c l ih =>
    intro hl h
    have h1 := h c (by simp)
    have h' : ∀ c ∈ l, c < 2 ^ bits := fun c hc => h c (by simp [hc])
    have hlen : bits * l.length + bits ≤ 64 := by
      rw [List.length_cons, Nat.mul_add] at hl; omega
    have h2 := ih (by omega) h'
    have h3 := ofDigits_bits_lt h'
    have hc64 : c < 2 ^ 64 :=
      lt_of_lt_of_le h1 (Nat.pow_le_pow_right (by decide) (by omega))
    have h4 : 2 ^ bits * Nat.ofDigits (2 ^ bits) l < 2 ^ 64 := by
      calc _ < 2 ^ bits * 2 ^ (bits * l.length) := by
            apply Nat.mul_lt_mul_of_pos_left h3 (by positivity)
        _ = 2 ^ (bits * l.length + bits) := by rw [← Nat.pow_add, Nat.add_comm]
        _ ≤ _ := Nat.pow_le_pow_right (by decide) hlen
    rw [foldChunk_cons, BitVec.toNat_or, BitVec.toNat_shiftLeft, h2, BitVec.toNat_ofNat,
      Nat.mod_eq_of_lt hc64, Nat.shiftLeft_eq, Nat.mul_comm, Nat.mod_eq_of_lt h4,
      ← Nat.two_pow_add_eq_or_of_lt h1, Nat.ofDigits_cons, Nat.add_comm]

theorem chunksAux_ok {bits n : Nat} (hn : bits * n = 64) : ∀ (k : Nat) (l : List Nat),
    l.length ≤ k → (∀ c ∈ l, c < 2 ^ bits) →
    val ((chunksAux n k l).map (foldChunk bits)) = Nat.ofDigits (2 ^ bits) l ∧
    (chunksAux n k l).length = (l.length + n - 1) / n := by
  have hn0 : 0 < n := by
    rcases Nat.eq_zero_or_pos n with h | h
    · subst h; simp at hn
    · exact h
  intro k
  induction k with
  | zero =>
    intro l hk _
    have : l = [] := List.length_eq_zero_iff.1 (by omega)
    subst this
    simp [chunksAux, val]
    exact (Nat.div_eq_of_lt (by omega)).symm
  | succ k ih =>
    intro l hk h
    rw [chunksAux]
    by_cases hl : l = []
    · subst hl
      simp [val]
      exact (Nat.div_eq_of_lt (by omega)).symm
    · have hpos : 0 < l.length := List.length_pos_iff.2 hl
      have he : l.isEmpty = false := by simp [hl]
      rw [he]
      simp only [Bool.false_eq_true, if_false, List.map_cons, List.length_cons]
      obtain ⟨i1, i2⟩ := ih (l.drop n) (by rw [List.length_drop]; omega)
        (fun c hc => h c (List.mem_of_mem_drop hc))
      have hf : (foldChunk bits (l.take n)).toNat = Nat.ofDigits (2 ^ bits) (l.take n) := by
        apply foldChunk_ok
        · rw [← hn]; apply Nat.mul_le_mul_left; simp
        · exact fun c hc => h c (List.mem_of_mem_take hc)
      rw [val_cons, hf, i1, i2, List.length_drop]
      constructor
      · conv_rhs => rw [← List.take_append_drop n l]
        rw [Nat.ofDigits_append, pow_bits]
        by_cases hle : n ≤ l.length
        · rw [List.length_take, Nat.min_eq_left hle, hn, B_eq]
        · rw [List.drop_eq_nil_of_le (by omega)]
          simp [Nat.ofDigits]
      · by_cases hle : n ≤ l.length
        · rw [show l.length + n - 1 = (l.length - n + n - 1) + n by omega, Nat.add_div_right _ hn0]
        · rw [Nat.div_eq_of_lt (by omega), show l.length + n - 1 = (l.length - 1) + n by omega,
            Nat.add_div_right _ hn0, Nat.div_eq_of_lt (by omega)]

/-- Parsing the digits of radix 2, 4, 16 (least significant first). -/
theorem fromBitwiseDigits_ok {v : List Nat} {bits : Nat} (hv : v ≠ [])
    (hb : bits ≤ 8) (hb0 : bits ≠ 0) (h64 : 64 % bits = 0) (h : ∀ c ∈ v, c < 2 ^ bits) :
    ∃ c, fromBitwiseDigits v bits = .ok c ∧ c.WF ∧
      c.w = 64 * ((bits * v.length + 63) / 64) ∧ c.uval = Nat.ofDigits (2 ^ bits) v := by
  have hn : bits * (64 / bits) = 64 := Nat.mul_div_cancel' (Nat.dvd_of_mod_eq_zero h64)
  have hn0 : 64 / bits ≠ 0 := by intro h0; rw [h0] at hn; simp at hn
  obtain ⟨h1, h2⟩ := chunksAux_ok hn v.length v (le_refl _) h
  have hpos : 0 < v.length := List.length_pos_iff.2 hv
  have hlen : 0 < (v.length + 64 / bits - 1) / (64 / bits) :=
    Nat.div_pos (by generalize 64 / bits = n at *; omega) (Nat.pos_of_ne_zero hn0)
  obtain ⟨c, e, p1, p2, p3⟩ := fromIter_ok
    (ds := (chunksAux (64 / bits) v.length v).map (foldChunk bits)) (by
      intro h0
      have := congrArg List.length h0
      rw [List.length_map, h2] at this
      simp only [List.length_nil] at this
      omega)
  refine ⟨c, ?_, p1, ?_, ?_⟩
  · unfold fromBitwiseDigits
    rw [if_neg (by simp only [not_not]; exact ⟨hv, hb, hb0, h64⟩),
      if_neg (by simp only [not_not]; simpa using h)]
    simp [chunks, hn0, e]
  · rw [p2, List.length_map, h2]
    congr 1
    generalize 64 / bits = n at *
    have hn' : 0 < n := by omega
    have hb' : 0 < bits := by omega
    rw [← hn]
    have : (bits * v.length + 63) = bits * (v.length + n - 1) + (bits - 1) := by
      have : bits * (v.length + n - 1) + bits = bits * v.length + 64 := by
        rw [← hn, ← Nat.mul_add, ← Nat.mul_succ]; congr 1; omega
      omega
    rw [this, ← Nat.div_div_eq_div_mul, Nat.mul_add_div hb', Nat.div_eq_of_lt (a := bits - 1) (by omega),
      Nat.add_zero]
  · unfold uval
    rw [p3, h1]

/-! ## Radices whose digits do not -/

/-- The state of the loop after the digits `l`. -/
structure InexactInv (bits : Nat) (l : List Nat) (s : InexactState) : Prop where
  lt : s.dbits < 64
  small : s.d.toNat < 2 ^ s.dbits
  bitsEq : 64 * s.data.length + s.dbits = bits * l.length
  value : val s.data + 2 ^ (64 * s.data.length) * s.d.toNat = Nat.ofDigits (2 ^ bits) l

theorem inexactStep_ok {bits : Nat} (hb : bits ≤ 8) {l : List Nat}
    {s : InexactState} (h : InexactInv bits l s) {c : Nat} (hc : c < 2 ^ bits) :
    ∃ s', inexactStep bits s c = .ok s' ∧ InexactInv bits (l ++ [c]) s' := by
  obtain ⟨h1, h2, h3, h4⟩ := h
  have hc8 : 2 ^ bits ≤ 2 ^ 8 := Nat.pow_le_pow_right (by decide) hb
  have hc64 : c < 2 ^ 64 := by
    have : (2:Nat) ^ 8 < 2 ^ 64 := by decide
    omega
  have hor : (s.d ||| (BitVec.ofNat 64 c) <<< s.dbits).toNat =
      s.d.toNat + 2 ^ s.dbits * (c % 2 ^ (64 - s.dbits)) := by
    rw [BitVec.toNat_or, BitVec.toNat_shiftLeft, BitVec.toNat_ofNat, Nat.mod_eq_of_lt hc64,
      Nat.shiftLeft_eq, Nat.mul_comm c]
    have : (2:Nat) ^ 64 = 2 ^ s.dbits * 2 ^ (64 - s.dbits) := by
      rw [← Nat.pow_add]; congr 1; omega
    have e : 2 ^ s.dbits * c % 2 ^ 64 = 2 ^ s.dbits * (c % 2 ^ (64 - s.dbits)) := by
      rw [this, Nat.mul_mod_mul_left]
    rw [e, Nat.or_comm, ← Nat.two_pow_add_eq_or_of_lt h2, Nat.add_comm]
  have hval : Nat.ofDigits (2 ^ bits) (l ++ [c]) =
      val s.data + 2 ^ (64 * s.data.length) * (s.d.toNat + 2 ^ s.dbits * c) := by
    rw [Nat.ofDigits_append, Nat.ofDigits_singleton, ← h4, pow_bits, ← h3, Nat.pow_add]
    ring
  unfold inexactStep
  simp only [rawShl_ok _ h1, run_bind_ok]
  by_cases hge : s.dbits + bits ≥ 64
  · rw [if_pos hge]
    simp only [csub_ok hge, run_bind_ok, csub_ok (show s.dbits + bits - 64 ≤ bits by omega),
      rawShr_ok (BitVec.ofNat 64 c) (show bits - (s.dbits + bits - 64) < 64 by omega)]
    have hsh : bits - (s.dbits + bits - 64) = 64 - s.dbits := by omega
    have hd : ((BitVec.ofNat 64 c) >>> (bits - (s.dbits + bits - 64))).toNat =
        c / 2 ^ (64 - s.dbits) := by
      rw [BitVec.toNat_ushiftRight, BitVec.toNat_ofNat, Nat.mod_eq_of_lt hc64, hsh,
        Nat.shiftRight_eq_div_pow]
    refine ⟨_, rfl, ⟨by dsimp only; omega, ?_, ?_, ?_⟩⟩
    · dsimp only
      rw [hd]
      apply Nat.div_lt_of_lt_mul
      rw [← Nat.pow_add, show 64 - s.dbits + (s.dbits + bits - 64) = bits by omega]
      exact hc
    · simp only [List.length_append, List.length_singleton]
      have := Nat.mul_succ bits l.length
      rw [Nat.succ_eq_add_one] at this
      omega
    · dsimp only
      rw [hd, val_append, val_singleton, hor, hval, List.length_append, List.length_singleton,
        B_pow, Nat.mul_add 64 s.data.length 1, Nat.pow_add]
      have hp : (2:Nat) ^ (64 * 1) = 2 ^ s.dbits * 2 ^ (64 - s.dbits) := by
        rw [← Nat.pow_add]; congr 1; omega
      rw [hp]
      have hdm := Nat.div_add_mod c (2 ^ (64 - s.dbits))
      generalize (2:Nat) ^ (64 * s.data.length) = P at *
      conv_rhs => rw [← hdm]
      ring
  · rw [if_neg hge]
    refine ⟨_, rfl, ⟨by dsimp only; omega, ?_, ?_, ?_⟩⟩
    · dsimp only
      have hcm : c % 2 ^ (64 - s.dbits) = c :=
        Nat.mod_eq_of_lt (lt_of_lt_of_le hc (Nat.pow_le_pow_right (by decide) (by omega)))
      rw [hor, hcm, Nat.pow_add]
      calc s.d.toNat + 2 ^ s.dbits * c < 2 ^ s.dbits * (c + 1) := by rw [Nat.mul_add]; omega
        _ ≤ _ := Nat.mul_le_mul_left _ hc
    · simp only [List.length_append, List.length_singleton]
      have := Nat.mul_succ bits l.length
      rw [Nat.succ_eq_add_one] at this
      omega
    · dsimp only
      have hcm : c % 2 ^ (64 - s.dbits) = c :=
        Nat.mod_eq_of_lt (lt_of_lt_of_le hc (Nat.pow_le_pow_right (by decide) (by omega)))
      rw [hor, hcm, hval]

theorem inexactLoop_ok {bits : Nat} (hb : bits ≤ 8) : ∀ (v l : List Nat) (s : InexactState),
    InexactInv bits l s → (∀ c ∈ v, c < 2 ^ bits) →
    ∃ s', inexactLoop bits v s = .ok s' ∧ InexactInv bits (l ++ v) s' := by
  intro v
  induction v with
  | nil => intro l s h _; exact ⟨s, rfl, by simpa using h⟩
  | cons c v ih =>
    intro l s h hv
    obtain ⟨s1, e1, h1⟩ := inexactStep_ok hb h (hv c (by simp))
    obtain ⟨s2, e2, h2⟩ := ih (l ++ [c]) s1 h1 (fun c hc => hv c (by simp [hc]))
    refine ⟨s2, by simp [inexactLoop, e1, e2], by simpa using h2⟩

/-- Parsing the digits of radix 8 and 32 (least significant first). -/
theorem fromInexactBitwiseDigits_ok {v : List Nat} {bits : Nat} (hv : v ≠ [])
    (hb : bits ≤ 8) (hb0 : bits ≠ 0) (h64 : 64 % bits ≠ 0) (h : ∀ c ∈ v, c < 2 ^ bits) :
    ∃ c, fromInexactBitwiseDigits v bits = .ok c ∧ c.WF ∧
      c.w = 64 * ((bits * v.length + 63) / 64) ∧ c.uval = Nat.ofDigits (2 ^ bits) v := by
  obtain ⟨s, e, g1, g2, g3, g4⟩ := inexactLoop_ok hb v [] ⟨[], 0#64, 0⟩
    ⟨by decide, by simp, by simp, by simp [val, Nat.ofDigits]⟩ h
  rw [List.nil_append] at g3 g4
  have hpos : 0 < v.length := List.length_pos_iff.2 hv
  have hbv : 0 < bits * v.length := Nat.mul_pos (by omega) hpos
  have fin : ∀ ds : List Digit, val ds = Nat.ofDigits (2 ^ bits) v →
      ds.length = (bits * v.length + 63) / 64 →
      ∃ c, (do let r ← fromIter ds; expect r) = .ok c ∧ c.WF ∧
        c.w = 64 * ((bits * v.length + 63) / 64) ∧ c.uval = Nat.ofDigits (2 ^ bits) v := by
    intro ds k1 k2
    obtain ⟨c, e3, p1, p2, p3⟩ := fromIter_ok (ds := ds) (by
      intro h0; rw [h0] at k2; simp only [List.length_nil] at k2; omega)
    exact ⟨c, by rw [e3]; rfl, p1, by rw [p2, k2], by unfold uval; rw [p3, k1]⟩
  unfold fromInexactBitwiseDigits
  rw [if_neg (by simp only [not_not]; exact ⟨hv, hb, hb0, h64⟩),
    if_neg (by simp only [not_not]; simpa using h), e, run_bind_ok]
  dsimp only
  by_cases hd : s.dbits > 0
  · rw [if_pos hd, if_neg (by omega), run_bind_ok]
    apply fin
    · rw [val_append, val_singleton, ← g4, B_pow]
    · rw [List.length_append, List.length_singleton]; omega
  · rw [if_neg hd, run_bind_ok]
    apply fin
    · have hd0 : s.dbits = 0 := by omega
      rw [hd0] at g2
      rw [← g4, show s.d.toNat = 0 by simpa using g2, Nat.mul_zero, Nat.add_zero]
    · omega

/-! ## Other radices -/

theorem foldRadix_ok {r : Nat} : ∀ (l : List Nat) (acc : Nat), (∀ d ∈ l, d < r) →
    (acc + 1) * r ^ l.length ≤ 2 ^ 64 →
    foldRadix r l acc = .ok (l.foldl (fun acc d => acc * r + d) acc) := by
  intro l
  induction l with
  | nil => intro acc _ _; rfl
  | cons d l ih =>
    intro acc h hle
    have hd := h d (by simp)
    rw [List.length_cons, Nat.pow_succ] at hle
    have h1 : acc * r + d + 1 ≤ (acc + 1) * r := by rw [Nat.add_mul]; omega
    have h2 : (acc * r + d + 1) * r ^ l.length ≤ 2 ^ 64 := by
      calc _ ≤ (acc + 1) * r * r ^ l.length := Nat.mul_le_mul_right _ h1
        _ = (acc + 1) * (r ^ l.length * r) := by ring
        _ ≤ _ := hle
    have h3 : acc * r + d < 2 ^ 64 := by
      have : 1 ≤ r ^ l.length := Nat.one_le_pow _ _ (by omega)
      have := Nat.le_mul_of_pos_right (acc * r + d + 1) this
      omega
    rw [foldRadix, mulAddU64, if_pos h3, run_bind_ok, ih _ (fun x hx => h x (by simp [hx])) h2]
    rfl

theorem chunksAux_mem {n : Nat} : ∀ (k : Nat) (l : List Nat), ∀ ch ∈ chunksAux n k l,
    ch.length ≤ n ∧ ∀ x ∈ ch, x ∈ l := by
  intro k
  induction k with
  | zero => intro l ch h; simp [chunksAux] at h
  | succ k ih =>
    intro l ch h
    rw [chunksAux] at h
    split at h
    · simp at h
    · rcases List.mem_cons.1 h with rfl | h
      · exact ⟨by simp, fun x hx => List.mem_of_mem_take hx⟩
      · obtain ⟨h1, h2⟩ := ih _ _ h
        exact ⟨h1, fun x hx => List.mem_of_mem_drop (h2 x hx)⟩

theorem radixTailLoop_ok {r p f : Nat} (hp : r ^ p ≤ 2 ^ 64) (hr : 0 < r) :
    ∀ (cs : List (List Nat)) (data : List Nat),
    (∀ ch ∈ cs, ch.length ≤ p ∧ ∀ d ∈ ch, d < r) → (data = [f] ∨ data = [f, 0]) →
    ∃ data', radixTailLoop r cs data = .ok data' ∧ (data' = [f] ∨ data' = [f, 0]) := by
  intro cs
  induction cs with
  | nil => intro data _ h; exact ⟨data, rfl, h⟩
  | cons ch cs ih =>
    intro data hc h
    obtain ⟨h1, h2⟩ := hc ch (by simp)
    have hf : foldRadix r ch 0 = .ok (ch.foldl (fun acc d => acc * r + d) 0) := by
      apply foldRadix_ok ch 0 h2
      rw [Nat.zero_add, Nat.one_mul]
      exact le_trans (Nat.pow_le_pow_right hr h1) hp
    rw [radixTailLoop]
    simp only [hf, run_bind_ok]
    apply ih _ (fun x hx => hc x (by simp [hx]))
    rcases h with rfl | rfl
    · by_cases h0 : f = 0
      · subst h0; left; rfl
      · right
        simp [h0]
    · right; rfl

/-- What the table of bases says about one radix. -/
def BaseOk (r : Nat) : Bool :=
  match Radix.BASES[r]? with
  | none => false
  | some (base, power) =>
    base = r ^ power ∧ base < 2 ^ 64 ∧ 2 ^ 64 ≤ r ^ (power + 1) ∧ 0 < power

theorem bases_ok : ∀ i < 35, BaseOk (i + 2) = true := by decide +kernel

theorem bases_entry {r : Nat} (h1 : 2 ≤ r) (h2 : r ≤ 36) :
    ∃ power, Radix.BASES[r]? = some (r ^ power, power) ∧ r ^ power < 2 ^ 64 ∧
      2 ^ 64 ≤ r ^ (power + 1) ∧ 0 < power := by
  have h := bases_ok (r - 2) (by omega)
  rw [show r - 2 + 2 = r by omega] at h
  unfold BaseOk at h
  split at h
  · cases h
  · rename_i base power e
    simp only [Bool.decide_and, Bool.and_eq_true, decide_eq_true_eq] at h
    obtain ⟨g1, g2, g3, g4⟩ := h
    subst g1
    exact ⟨power, e, g2, g3, g4⟩

theorem pow_two_iff {r : Radix} (h1 : 2 ≤ r.toU8) (h2 : r.toU8 ≤ 36) :
    r.isPowerOfTwo = true ↔ r.toU8 ∈ [2, 4, 8, 16, 32] := by
  unfold Radix.isPowerOfTwo
  rw [decide_eq_true_eq]
  simp only [List.mem_cons, List.not_mem_nil, or_false]
  omega

/-- Parsing in radices that are not powers of two: only the first chunk of digits counts. -/
theorem fromRadixDigits_ok {v : List Nat} {r : Radix} {power : Nat} (hv : v ≠ [])
    (h1 : 2 ≤ r.toU8) (h2 : r.toU8 ≤ 36) (hnp : r.isPowerOfTwo = false)
    (h : ∀ c ∈ v, c < r.toU8) (hb : Radix.BASES[r.toU8]? = some (r.toU8 ^ power, power)) :
    ∃ c, fromRadixDigits v r = .ok c ∧ c.WF ∧ (c.w = 64 ∨ c.w = 128) ∧
      c.uval = numeral r.toU8
        (v.take (if v.length % power = 0 then power else v.length % power)) := by
  obtain ⟨p', hb', g1, g2, g3⟩ := bases_entry h1 h2
  rw [hb] at hb'
  have hpp : power = p' := by
    simp only [Option.some.injEq, Prod.mk.injEq] at hb'; exact hb'.2
  subst hpp
  have hpos : 0 < v.length := List.length_pos_iff.2 hv
  have hmod := Nat.mod_lt v.length g3
  have hdm := Nat.div_add_mod v.length power
  set i := (if v.length % power = 0 then power else v.length % power) with hi
  have hi1 : i ≤ power := by rw [hi]; split <;> omega
  have hi2 : i ≤ v.length := by
    rw [hi]; split
    · rename_i h0
      exact Nat.le_of_dvd hpos (Nat.dvd_of_mod_eq_zero h0)
    · exact Nat.mod_le _ _
  have htail : (v.drop i).length % power = 0 := by
    rw [List.length_drop, hi]
    split
    · rename_i h0
      have hdv := Nat.dvd_of_mod_eq_zero h0
      exact Nat.mod_eq_zero_of_dvd (Nat.dvd_sub hdv (dvd_refl _))
    · exact Nat.mod_eq_zero_of_dvd (Nat.dvd_sub_mod _)
  have hfirst : foldRadix r.toU8 (v.take i) 0 = .ok (numeral r.toU8 (v.take i)) := by
    apply foldRadix_ok _ _ (fun d hd => h d (List.mem_of_mem_take hd))
    rw [Nat.zero_add, Nat.one_mul, List.length_take, Nat.min_eq_left hi2]
    exact le_trans (Nat.pow_le_pow_right (by omega) hi1) (by omega)
  have hfirst_lt : numeral r.toU8 (v.take i) < 2 ^ 64 := by
    rw [numeral_eq]
    calc _ < r.toU8 ^ (v.take i).reverse.length := by
          apply Nat.ofDigits_lt_base_pow_length (by omega)
          intro x hx
          exact h x (List.mem_of_mem_take (List.mem_reverse.1 hx))
      _ ≤ r.toU8 ^ power := by
          apply Nat.pow_le_pow_right (by omega)
          rw [List.length_reverse, List.length_take]; omega
      _ ≤ _ := by omega
  set f := numeral r.toU8 (v.take i) with hf
  obtain ⟨data, e, hdata⟩ := radixTailLoop_ok (f := f) (r := r.toU8) (p := power) (by omega)
    (by omega) (chunksAux power (v.drop i).length (v.drop i)) [f]
    (fun ch hch => by
      obtain ⟨k1, k2⟩ := chunksAux_mem _ _ ch hch
      exact ⟨k1, fun d hd => h d (List.mem_of_mem_drop (k2 d hd))⟩)
    (Or.inl rfl)
  obtain ⟨c, e3, p1, p2, p3⟩ := fromIter_ok (ds := data.map (BitVec.ofNat 64)) (by
    rcases hdata with rfl | rfl <;> simp)
  have hlen : r.toU8 - 2 < LB_2_36_I3F13.length := by
    have : LB_2_36_I3F13.length = 35 := by decide
    omega
  refine ⟨c, ?_, p1, ?_, ?_⟩
  · unfold fromRadixDigits
    rw [if_neg (by simp only [not_not]; exact ⟨hv, by simp [hnp]⟩),
      if_neg (by simp only [not_not]; simpa [Radix.isValidByte] using h)]
    simp only [csub_ok h1, run_bind_ok, idx_ok hlen, Radix.getRadixBase, hnp, Bool.false_eq_true,
      if_false, idx_some hb]
    rw [if_neg (by omega), if_neg (by omega)]
    simp only [← hi, hfirst, run_bind_ok, htail, ne_eq, not_true_eq_false, if_false, chunks,
      show power ≠ 0 by omega]
    simp only [e, run_bind_ok, e3, expect_ok]
  · rcases hdata with rfl | rfl
    · left; rw [p2]; rfl
    · right; rw [p2]; rfl
  · unfold uval
    rw [p3]
    have hf64 : (BitVec.ofNat 64 f).toNat = f := by
      rw [BitVec.toNat_ofNat, Nat.mod_eq_of_lt hfirst_lt]
    rcases hdata with rfl | rfl
    · simp only [List.map_cons, List.map_nil, val_singleton, hf64]
    · simp only [List.map_cons, List.map_nil, val, hf64]
      simp

/-! ## The whole parser -/

theorem bits_table (i : Nat) (h : i ∈ [2, 4, 8, 16, 32]) :
    (Radix.exactBitsPerDigit ⟨i⟩ = .ok (some (Nat.log2 i)) ∧ 2 ^ Nat.log2 i = i ∧
      Nat.log2 i ≤ 8 ∧ Nat.log2 i ≠ 0) := by
  simp only [List.mem_cons, List.not_mem_nil, or_false] at h
  rcases h with rfl | rfl | rfl | rfl | rfl <;>
    exact ⟨by decide, by decide, by decide, by decide⟩

theorem exactBits_none {r : Radix} (h : r.isPowerOfTwo = false) :
    r.exactBitsPerDigit = .ok none := by
  simp [Radix.exactBitsPerDigit, h]

theorem fromStrRadix_rejected {r : Radix} {s : List Char} (hr : r.toU8 ≤ 36)
    (h : ¬ Accepted r.toU8 s) :
    fromStrRadix' r s = .ok (.error (.invalidStringRepr s r none)) := by
  unfold fromStrRadix'
  by_cases h1 : s = []
  · subst h1; rfl
  rw [if_neg (by simpa using h1)]
  by_cases h2 : s.head? = some '_'
  · rw [if_pos h2]
  rw [if_neg h2]
  by_cases h3 : s.getLast? = some '_'
  · rw [if_pos h3]
  rw [if_neg h3, collect_bad hr s [] (fun h4 => h ⟨h1, h2, h3, h4⟩)]

theorem fromStrRadix_accepted {r : Radix} {s : List Char} (h : Accepted r.toU8 s) :
    fromStrRadix' r s = (do
      match ← r.exactBitsPerDigit with
      | some bits =>
        if bits = 0 then .error .panic
        else if 64 % bits = 0 then do
          let a ← fromBitwiseDigits (textDigits s).reverse bits
          .ok (.ok a)
        else do
          let a ← fromInexactBitwiseDigits (textDigits s).reverse bits
          .ok (.ok a)
      | none => do
        let a ← fromRadixDigits (textDigits s) r
        .ok (.ok a)) := by
  obtain ⟨h1, h2, h3, h4⟩ := h
  unfold fromStrRadix'
  rw [if_neg (by simpa using h1), if_neg h2, if_neg h3, collect_good s [] h4, List.nil_append]
  rfl

/-- Parsing in the radices 2, 4, 8, 16 and 32. -/
theorem fromStrRadix_pow2 {r : Radix} {s : List Char} (hr : r.toU8 ∈ [2, 4, 8, 16, 32])
    (h : Accepted r.toU8 s) :
    ∃ c, fromStrRadix' r s = .ok (.ok c) ∧ c.WF ∧
      c.w = 64 * ((Nat.log2 r.toU8 * (textDigits s).length + 63) / 64) ∧
      c.uval = numeral r.toU8 (textDigits s) := by
  obtain ⟨t1, t2, t3, t4⟩ := bits_table r.toU8 hr
  have hv : (textDigits s).reverse ≠ [] := by
    simpa using textDigits_ne_nil h
  have hlt : ∀ c ∈ (textDigits s).reverse, c < 2 ^ Nat.log2 r.toU8 := by
    intro c hc
    rw [t2]
    exact textDigits_lt h.2.2.2 c (List.mem_reverse.1 hc)
  rw [fromStrRadix_accepted h, t1, run_bind_ok]
  simp only [t4, if_false]
  by_cases h64 : 64 % Nat.log2 r.toU8 = 0
  · obtain ⟨c, e, p1, p2, p3⟩ := fromBitwiseDigits_ok hv t3 t4 h64 hlt
    rw [if_pos h64, e]
    refine ⟨c, rfl, p1, by rw [p2, List.length_reverse], ?_⟩
    rw [p3, numeral_eq, t2]
  · obtain ⟨c, e, p1, p2, p3⟩ := fromInexactBitwiseDigits_ok hv t3 t4 h64 hlt
    rw [if_neg h64, e]
    refine ⟨c, rfl, p1, by rw [p2, List.length_reverse], ?_⟩
    rw [p3, numeral_eq, t2]

/-- Parsing in the other radices. -/
theorem fromStrRadix_other {r : Radix} {s : List Char} {power : Nat} (h1 : 2 ≤ r.toU8)
    (h2 : r.toU8 ≤ 36) (hr : r.toU8 ∉ [2, 4, 8, 16, 32]) (h : Accepted r.toU8 s)
    (hb : Radix.BASES[r.toU8]? = some (r.toU8 ^ power, power)) :
    ∃ c, fromStrRadix' r s = .ok (.ok c) ∧ c.WF ∧ (c.w = 64 ∨ c.w = 128) ∧
      c.uval = numeral r.toU8 ((textDigits s).take
        (if (textDigits s).length % power = 0 then power else (textDigits s).length % power)) := by
  have hnp : r.isPowerOfTwo = false := by
    by_contra hc
    exact hr ((pow_two_iff h1 h2).1 (by simpa using hc))
  obtain ⟨c, e, p⟩ := fromRadixDigits_ok (textDigits_ne_nil h) h1 h2 hnp
    (textDigits_lt h.2.2.2) hb
  refine ⟨c, ?_, p⟩
  rw [fromStrRadix_accepted h, exactBits_none hnp, run_bind_ok, e]
  rfl

theorem radix_from_ok {r : Nat} (h : 2 ≤ r ∧ r ≤ 36) : Radix.from r = .ok ⟨r⟩ := by
  simp [Radix.from, Radix.new, h, expect_ok]

theorem radix_from_panic {r : Nat} (h : ¬ (2 ≤ r ∧ r ≤ 36)) : Radix.from r = .error .panic := by
  rw [Radix.from, Radix.new, if_pos h]
  rfl

theorem fromStrRadix_eq {r : Nat} (h : 2 ≤ r ∧ r ≤ 36) (s : List Char) :
    fromStrRadix r s = fromStrRadix' ⟨r⟩ s := by
  rw [fromStrRadix, radix_from_ok h, run_bind_ok]

end ApInt

end Verif
