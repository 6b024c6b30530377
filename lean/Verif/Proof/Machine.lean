import Verif.Model.Machine
import Verif.SpecMachine
import Verif.Proof.Program
import Verif.Proof.Scratch

/-!
# Machine words: the repeated functions agree with the originals

As long as the digits of an integer have fewer than `2 ^ bits` bits, every size is exact; building a
longer integer stops.
-/

namespace Verif

namespace Machine

open ApInt

/-- `n` digits have fewer bits than `usize` can count. -/
def Room (m : Machine) (n : Nat) : Prop := 64 * n < 2 ^ m.bits

/-- How a build stops when an integer gets too wide. -/
def stop (m : Machine) : Fault := if m.checks then .overflow else .panic

variable {m : Machine}

theorem fit_ok {v : Nat} (h : v < 2 ^ m.bits) : m.fit v = .ok v := if_pos h

theorem add_ok {a b : Nat} (h : a + b < 2 ^ m.bits) : m.add a b = .ok (a + b) := fit_ok h

theorem mul_ok {a b : Nat} (h : a * b < 2 ^ m.bits) : m.mul a b = .ok (a * b) := fit_ok h

theorem sub_ok {a b : Nat} (h : b ≤ a) : m.sub a b = .ok (a - b) := if_pos h

theorem sub_eq_csub {a b : Nat} (h : b ≤ a) : m.sub a b = csub a b := by
  rw [sub_ok h, csub_ok h]

/-- The number of values of `usize` is a multiple of 64. -/
theorem pow_bits (h : 6 ≤ m.bits) : ∃ k, 2 ^ m.bits = 64 * k :=
  ⟨2 ^ (m.bits - 6), by rw [show (64 : Nat) = 2 ^ 6 from rfl, ← Nat.pow_add]; congr 1; omega⟩

theorem room_iff (h : 6 ≤ m.bits) (w : Nat) : m.Room ((w + 63) / 64) ↔ w + 64 ≤ 2 ^ m.bits := by
  obtain ⟨k, hk⟩ := m.pow_bits h
  unfold Room
  rw [hk]
  omega

theorem Room.mono {n k : Nat} (h : m.Room n) (hk : k ≤ n) : m.Room k := by
  unfold Room at *; omega

/-! ## Constructors and width changes -/

theorem fromIter_eq {ds : List Digit} (h : m.Room ds.length) : m.fromIter ds = ApInt.fromIter ds := by
  unfold Room at h
  match ds, h with
  | [], _ => rfl
  | [d], _ => rfl
  | x :: y :: rest, h =>
    simp only [Machine.fromIter, ApInt.fromIter]
    rw [mul_ok (by omega)]
    rfl

theorem fromIter_stop (hb : 7 ≤ m.bits) {ds : List Digit} (h : ¬ m.Room ds.length) :
    m.fromIter ds = .error m.stop := by
  unfold Room at h
  have h2 : 2 ^ 7 ≤ 2 ^ m.bits := Nat.pow_le_pow_right (by decide) hb
  match ds, h with
  | [], h => exact absurd (show 64 * 0 < 2 ^ m.bits by omega) h
  | [d], h => exact absurd (show 64 * 1 < 2 ^ m.bits by omega) h
  | x :: y :: rest, h =>
    simp only [Machine.fromIter]
    generalize hn : (x :: y :: rest).length = n at h ⊢
    obtain ⟨k, hk⟩ := m.pow_bits (by omega)
    unfold Machine.mul fit stop
    rw [if_neg (by omega)]
    cases m.checks with
    | true => rfl
    | false =>
      simp only [Bool.false_eq_true, if_false, run_bind_ok]
      have hlt : n * 64 % 2 ^ m.bits < 2 ^ m.bits := Nat.mod_lt _ (by omega)
      have h64 : n * 64 % 2 ^ m.bits % 64 = 0 := by
        rw [hk, Nat.mul_comm n 64, Nat.mul_mod_mul_left]
        omega
      by_cases h0 : n * 64 % 2 ^ m.bits = 0
      · rw [h0]; rfl
      · rw [BitWidth.new_ok h0]
        simp only [expect, run_bind_ok, BitWidth.requiredDigits_eq]
        rw [if_pos (by omega)]

theorem truncateAux_eq {t : BitWidth} (h : m.Room t.requiredDigits) :
    ∀ (fuel : Nat) (a : ApInt), m.truncateAux fuel a t = ApInt.truncateAux fuel a t
  | 0, _ => rfl
  | fuel + 1, a => by
    have e : ∀ ds : List Digit, m.fromIter (ds.take t.requiredDigits) =
        ApInt.fromIter (ds.take t.requiredDigits) := fun ds =>
      fromIter_eq (h.mono (by rw [List.length_take]; omega))
    simp only [Machine.truncateAux, ApInt.truncateAux, e, truncateAux_eq h fuel]
    rfl

theorem truncate_eq {t : BitWidth} (h : m.Room t.requiredDigits) (a : ApInt) :
    m.truncate a t = a.truncate t := truncateAux_eq h 2 a

theorem intoTruncate_eq {t : BitWidth} (h : m.Room t.requiredDigits) (a : ApInt) :
    m.intoTruncate a t = a.intoTruncate t := by
  unfold Machine.intoTruncate ApInt.intoTruncate tryForwardBinMutImpl
  rw [truncate_eq h]

/-- Truncating an integer that exists never asks for a wider one. -/
theorem truncate_fits {a : ApInt} (ha : m.Room ((a.w + 63) / 64)) (t : BitWidth) :
    m.truncate a t = a.truncate t := by
  by_cases ht : t.toUsize ≤ a.w
  · refine truncate_eq (ha.mono ?_) a
    rw [BitWidth.requiredDigits_eq]
    omega
  · rw [truncate_err (by omega)]
    unfold Machine.truncate Machine.truncateAux
    have : t ≠ a.width := fun e => ht (by rw [e]; exact Nat.le_refl _)
    simp only [if_neg this]
    rw [if_pos (show t.toUsize > a.width.toUsize by show a.w < _; omega)]
    rfl

theorem intoTruncate_fits {a : ApInt} (ha : m.Room ((a.w + 63) / 64)) (t : BitWidth) :
    m.intoTruncate a t = a.intoTruncate t := by
  unfold Machine.intoTruncate ApInt.intoTruncate tryForwardBinMutImpl
  rw [truncate_fits ha]

theorem ext_length {a : ApInt} (ha : a.Shape) {t : BitWidth} {d : Digit}
    (h : t.requiredDigits > a.width.requiredDigits) :
    (a.digits ++ List.replicate (t.requiredDigits - a.width.requiredDigits) d).length ≤
      t.requiredDigits := by
  simp only [List.length_append, List.length_replicate, ha.length_digits]
  have : a.width.requiredDigits = (a.w + 63) / 64 := BitWidth.requiredDigits_eq _
  omega

theorem zeroExtend_eq {a : ApInt} (ha : a.Shape) {t : BitWidth} (h : m.Room t.requiredDigits) :
    m.zeroExtend a t = a.zeroExtend t := by
  unfold Machine.zeroExtend ApInt.zeroExtend
  simp only [intoTruncate_eq h, asDigitSlice_ok ha, run_bind_ok]
  split
  · rfl
  · split
    · rfl
    · split
      · rfl
      · split
        · rfl
        · rename_i h1 h2 h3 h4
          simp only [Decidable.not_not] at h4
          rw [csub_ok (by omega)]
          simp only [run_bind_ok]
          rw [fromIter_eq (h.mono (ext_length ha h4))]
          rfl

theorem zeroExtend_stop (hb : 7 ≤ m.bits) {a : ApInt} (ha : a.Shape)
    (hr : m.Room ((a.w + 63) / 64)) {t : BitWidth} (h : ¬ m.Room t.requiredDigits) :
    m.zeroExtend a t = .error m.stop := by
  have e : a.width.requiredDigits = (a.w + 63) / 64 := BitWidth.requiredDigits_eq _
  have hlt : a.width.requiredDigits < t.requiredDigits := by
    rw [e]
    by_contra hc
    exact h (hr.mono (by omega))
  have hw : a.w < t.toUsize := by
    rw [e, BitWidth.requiredDigits_eq] at hlt
    omega
  unfold Machine.zeroExtend
  simp only
  rw [if_neg (fun e => by rw [e] at hw; exact absurd hw (Nat.lt_irrefl _)),
    if_neg (by show ¬ t.toUsize < a.w; omega), if_neg (by omega), if_neg (by omega),
    csub_ok (by omega)]
  simp only [asDigitSlice_ok ha, run_bind_ok]
  rw [fromIter_stop hb]
  · rfl
  · simpa only [List.length_append, List.length_replicate, ha.length_digits, ← e,
      Nat.add_sub_cancel' (Nat.le_of_lt hlt)] using h

theorem intoZeroExtend_eq {a : ApInt} (ha : a.Shape) {t : BitWidth} (h : m.Room t.requiredDigits) :
    m.intoZeroExtend a t = a.intoZeroExtend t := by
  unfold Machine.intoZeroExtend ApInt.intoZeroExtend tryForwardBinMutImpl
  rw [zeroExtend_eq ha h]

theorem msb_neg {a : ApInt} (ha : a.WF) (h : a.msb = .ok true) : 2 ^ (a.w - 1) ≤ a.uval := by
  rw [msb_ok ha.1] at h
  injection h with h
  exact Nat.ge_two_pow_of_testBit h

theorem signExtend_eq {a : ApInt} (ha : a.WF) {t : BitWidth} (h : m.Room t.requiredDigits) :
    m.signExtend a t = a.signExtend t := by
  unfold Machine.signExtend ApInt.signExtend
  simp only [intoTruncate_eq h, zeroExtend_eq ha.1 h]
  split
  · rfl
  · split
    · rfl
    · cases e : a.msb with
      | error f => rfl
      | ok top =>
        simp only [run_bind_ok]
        cases top with
        | false => rfl
        | true =>
          split
          · rfl
          · split
            · rfl
            · split
              · rfl
              · rename_i h1 h2 h3 h4 h5
                simp only [Decidable.not_not] at h5
                obtain ⟨c, e', s1, s2, s3⟩ := signExtendMsd_ok (n := a.width) ha.1 ha.2 rfl (msb_neg ha e)
                have hw : c.width = a.width := s2
                rw [csub_ok (by omega)]
                simp only [run_bind_ok, e', asDigitSlice_ok s1]
                rw [fromIter_eq (h.mono (by rw [← hw]; exact ext_length s1 (by rw [hw]; exact h5)))]
                rfl

theorem signExtend_stop (hb : 7 ≤ m.bits) {a : ApInt} (ha : a.WF)
    (hr : m.Room ((a.w + 63) / 64)) {t : BitWidth} (h : ¬ m.Room t.requiredDigits) :
    m.signExtend a t = .error m.stop := by
  have e : a.width.requiredDigits = (a.w + 63) / 64 := BitWidth.requiredDigits_eq _
  have hlt : a.width.requiredDigits < t.requiredDigits := by
    rw [e]
    by_contra hc
    exact h (hr.mono (by omega))
  have hw : a.w < t.toUsize := by
    rw [e, BitWidth.requiredDigits_eq] at hlt
    omega
  unfold Machine.signExtend
  simp only
  rw [if_neg (fun e => by rw [e] at hw; exact absurd hw (Nat.lt_irrefl _)),
    if_neg (by show ¬ t.toUsize < a.w; omega), msb_ok ha.1]
  simp only [run_bind_ok]
  cases hm : a.uval.testBit (a.w - 1) with
  | false => exact zeroExtend_stop hb ha.1 hr h
  | true =>
    have em : a.msb = .ok true := by rw [msb_ok ha.1, hm]
    obtain ⟨c, e', s1, s2, s3⟩ := signExtendMsd_ok (n := a.width) ha.1 ha.2 rfl (msb_neg ha em)
    have hcw : c.w = a.w := by unfold ApInt.w; rw [s2]
    simp only [Bool.not_true, Bool.false_eq_true, if_false]
    rw [if_neg (by omega), if_neg (by omega), csub_ok (by omega)]
    simp only [run_bind_ok, e', asDigitSlice_ok s1]
    rw [fromIter_stop hb]
    · rfl
    · simpa only [List.length_append, List.length_replicate, s1.length_digits, hcw, ← e,
        Nat.add_sub_cancel' (Nat.le_of_lt hlt)] using h

theorem intoZeroExtend_stop (hb : 7 ≤ m.bits) {a : ApInt} (ha : a.Shape)
    (hr : m.Room ((a.w + 63) / 64)) {t : BitWidth} (h : ¬ m.Room t.requiredDigits) :
    m.intoZeroExtend a t = .error m.stop := by
  unfold Machine.intoZeroExtend tryForwardBinMutImpl
  rw [zeroExtend_stop hb ha hr h]
  rfl

theorem intoSignExtend_eq {a : ApInt} (ha : a.WF) {t : BitWidth} (h : m.Room t.requiredDigits) :
    m.intoSignExtend a t = a.intoSignExtend t := by
  unfold Machine.intoSignExtend ApInt.intoSignExtend tryForwardBinMutImpl
  rw [signExtend_eq ha h]

theorem intoSignExtend_stop (hb : 7 ≤ m.bits) {a : ApInt} (ha : a.WF)
    (hr : m.Room ((a.w + 63) / 64)) {t : BitWidth} (h : ¬ m.Room t.requiredDigits) :
    m.intoSignExtend a t = .error m.stop := by
  unfold Machine.intoSignExtend tryForwardBinMutImpl
  rw [signExtend_stop hb ha hr h]
  rfl

/-- A target without room is wider than an integer with room. -/
theorem wider {a : ApInt} (hr : m.Room ((a.w + 63) / 64)) {t : BitWidth}
    (h : ¬ m.Room t.requiredDigits) : ¬ t.toUsize ≤ a.width.toUsize := by
  intro hc
  refine h (hr.mono ?_)
  rw [BitWidth.requiredDigits_eq]
  have : t.toUsize ≤ a.w := hc
  omega

theorem zeroResize_eq {a : ApInt} (ha : a.Shape) {t : BitWidth} (h : m.Room t.requiredDigits) :
    m.zeroResize a t = a.zeroResize t := by
  unfold Machine.zeroResize ApInt.zeroResize
  simp only [truncate_eq h, zeroExtend_eq ha h]

theorem zeroResize_stop (hb : 7 ≤ m.bits) {a : ApInt} (ha : a.Shape)
    (hr : m.Room ((a.w + 63) / 64)) {t : BitWidth} (h : ¬ m.Room t.requiredDigits) :
    m.zeroResize a t = .error m.stop := by
  unfold Machine.zeroResize
  simp only [if_neg (wider hr h), zeroExtend_stop hb ha hr h]
  rfl

theorem signResize_eq {a : ApInt} (ha : a.WF) {t : BitWidth} (h : m.Room t.requiredDigits) :
    m.signResize a t = a.signResize t := by
  unfold Machine.signResize ApInt.signResize
  simp only [truncate_eq h, signExtend_eq ha h]

theorem signResize_stop (hb : 7 ≤ m.bits) {a : ApInt} (ha : a.WF)
    (hr : m.Room ((a.w + 63) / 64)) {t : BitWidth} (h : ¬ m.Room t.requiredDigits) :
    m.signResize a t = .error m.stop := by
  unfold Machine.signResize
  simp only [if_neg (wider hr h), signExtend_stop hb ha hr h]
  rfl

theorem intoZeroResize_eq {a : ApInt} (ha : a.Shape) {t : BitWidth} (h : m.Room t.requiredDigits) :
    m.intoZeroResize a t = a.intoZeroResize t := zeroResize_eq ha h

theorem intoZeroResize_stop (hb : 7 ≤ m.bits) {a : ApInt} (ha : a.Shape)
    (hr : m.Room ((a.w + 63) / 64)) {t : BitWidth} (h : ¬ m.Room t.requiredDigits) :
    m.intoZeroResize a t = .error m.stop := zeroResize_stop hb ha hr h

theorem intoSignResize_eq {a : ApInt} (ha : a.WF) {t : BitWidth} (h : m.Room t.requiredDigits) :
    m.intoSignResize a t = a.intoSignResize t := signResize_eq ha h

theorem intoSignResize_stop (hb : 7 ≤ m.bits) {a : ApInt} (ha : a.WF)
    (hr : m.Room ((a.w + 63) / 64)) {t : BitWidth} (h : ¬ m.Room t.requiredDigits) :
    m.intoSignResize a t = .error m.stop := signResize_stop hb ha hr h

/-! ## Constructors -/

theorem fromArray_eq {l : List (BitVec 64)} (h : m.Room l.length) :
    m.fromArray l = ApInt.fromArray l := by
  unfold Machine.fromArray ApInt.fromArray
  rw [fromIter_eq (by rwa [List.length_reverse])]

theorem fromArray_stop (hb : 7 ≤ m.bits) {l : List (BitVec 64)} (h : ¬ m.Room l.length) :
    m.fromArray l = .error m.stop := by
  unfold Machine.fromArray
  rw [fromIter_stop hb (by rwa [List.length_reverse])]
  rfl

theorem repeatDigit_eq {t : BitWidth} (h : m.Room t.requiredDigits) (d : Digit) :
    m.repeatDigit t d = ApInt.repeatDigit t d := by
  unfold Machine.repeatDigit ApInt.repeatDigit
  simp only [fromIter_eq (ds := List.replicate t.requiredDigits d) (by rwa [List.length_replicate]),
    intoTruncate_eq h]

theorem repeatDigit_stop (hb : 7 ≤ m.bits) {t : BitWidth} (h : ¬ m.Room t.requiredDigits)
    (d : Digit) : m.repeatDigit t d = .error m.stop := by
  unfold Machine.repeatDigit
  simp only [fromIter_stop hb (ds := List.replicate t.requiredDigits d)
    (by rwa [List.length_replicate])]
  rfl

theorem room_one (hb : 7 ≤ m.bits) : m.Room 1 := by
  have h2 : 2 ^ 7 ≤ 2 ^ m.bits := Nat.pow_le_pow_right (by decide) hb
  unfold Room
  omega

theorem one_eq {t : BitWidth} (h : m.Room t.requiredDigits) : m.one t = ApInt.one t := by
  obtain ⟨c, e, h1, h2, h3⟩ := fromU64_ok 1#64
  unfold Machine.one ApInt.one
  simp only [e, run_bind_ok, intoZeroResize_eq h1.1 h]

theorem one_stop (hb : 7 ≤ m.bits) {t : BitWidth} (h : ¬ m.Room t.requiredDigits) :
    m.one t = .error m.stop := by
  obtain ⟨c, e, h1, h2, h3⟩ := fromU64_ok 1#64
  unfold Machine.one
  simp only [e, run_bind_ok]
  refine intoZeroResize_stop hb h1.1 ?_ h
  have : c.w = 64 := by unfold ApInt.w; rw [h2]; rfl
  rw [this]
  exact room_one hb

theorem random_eq {t : BitWidth} (h : m.Room t.requiredDigits) (rng : Rng) :
    m.randomWithWidthUsing t rng = ApInt.randomWithWidthUsing t rng := by
  unfold Machine.randomWithWidthUsing ApInt.randomWithWidthUsing
  simp only [fromIter_eq (ds := rng.take t.requiredDigits) (h.mono (by simp [Rng.take])),
    intoTruncate_eq h]

theorem random_stop (hb : 7 ≤ m.bits) {t : BitWidth} (h : ¬ m.Room t.requiredDigits) (rng : Rng) :
    m.randomWithWidthUsing t rng = .error m.stop := by
  have : t.requiredDigits ≥ 1 := by
    have := t.pos
    rw [BitWidth.requiredDigits_eq]; omega
  unfold Machine.randomWithWidthUsing
  simp only [fromIter_stop hb (ds := rng.take t.requiredDigits) (by simpa [Rng.take] using h)]
  rw [if_neg (by omega)]
  rfl

/-! ## Parsing -/

theorem digits_of_build {ds : List Digit} {c : ApInt}
    (h : (do let r ← ApInt.fromIter ds; expect r) = .ok c) : 64 * ds.length = c.w := by
  by_cases h0 : ds = []
  · subst h0; cases h
  · obtain ⟨c', e, h1, h2, h3⟩ := fromIter_ok h0
    rw [e] at h
    cases h
    exact h2.symm

theorem build_eq {ds : List Digit} {c : ApInt}
    (h : (do let r ← ApInt.fromIter ds; expect r) = .ok c) (hr : c.w < 2 ^ m.bits) :
    (do let r ← m.fromIter ds; expect r) = .ok c := by
  rw [fromIter_eq (by unfold Room; rw [digits_of_build h]; exact hr), h]

theorem build_stop (hb : 7 ≤ m.bits) {ds : List Digit} {c : ApInt}
    (h : (do let r ← ApInt.fromIter ds; expect r) = .ok c) (hr : ¬ c.w < 2 ^ m.bits) :
    (do let r ← m.fromIter ds; expect r) = .error m.stop := by
  rw [fromIter_stop hb (by unfold Room; rw [digits_of_build h]; exact hr)]
  rfl

theorem fromBitwiseDigits_cases (hb : 7 ≤ m.bits) {v : List Nat} {bits : Nat} {c : ApInt}
    (h : ApInt.fromBitwiseDigits v bits = .ok c) :
    m.fromBitwiseDigits v bits = if c.w < 2 ^ m.bits then .ok c else .error m.stop := by
  unfold Machine.fromBitwiseDigits
  unfold ApInt.fromBitwiseDigits at h
  split at h
  · cases h
  · rw [if_neg (by assumption)]
    split at h
    · cases h
    · rw [if_neg (by assumption)]
      dsimp only at h ⊢
      cases e : chunks v (64 / bits) with
      | error f => rw [e] at h; cases h
      | ok cs =>
        rw [e] at h
        simp only [run_bind_ok] at h ⊢
        split
        · exact build_eq h (by assumption)
        · exact build_stop hb h (by assumption)

theorem inexactLen_checks (hc : m.checks = true) (n bits : Nat) :
    m.inexactLen n bits =
      if bits * n + 64 < 2 ^ m.bits then .ok (bits * n + 64 - 1) else .error .overflow := by
  rw [Nat.mul_comm]
  simp only [inexactLen, mul, add, fit, hc, if_true]
  generalize n * bits = k
  by_cases h1 : k + 64 < 2 ^ m.bits
  · rw [if_pos (by omega)]
    simp only [run_bind_ok]
    rw [if_pos h1, run_bind_ok, sub_ok (by omega), if_pos h1]
  · rw [if_neg h1]
    split
    · simp only [run_bind_ok]
      rw [if_neg h1]
      rfl
    · rfl

theorem fit_release (hc : m.checks = false) (v : Nat) : ∃ x, m.fit v = .ok x := by
  unfold fit
  split
  · exact ⟨_, rfl⟩
  · rw [hc]; exact ⟨_, rfl⟩

theorem inexactLen_release (hc : m.checks = false) (n bits : Nat) :
    ∃ x, m.inexactLen n bits = .ok x := by
  unfold inexactLen mul add
  obtain ⟨x, hx⟩ := fit_release hc (n * bits)
  obtain ⟨y, hy⟩ := fit_release hc (x + 64)
  rw [hx, run_bind_ok, hy, run_bind_ok]
  unfold sub
  split
  · exact ⟨_, rfl⟩
  · rw [hc]; exact ⟨_, rfl⟩

theorem fromInexactBitwiseDigits_cases (hb : 7 ≤ m.bits) {v : List Nat} {bits : Nat} {c : ApInt}
    (h : ApInt.fromInexactBitwiseDigits v bits = .ok c)
    (hw : c.w = 64 * ((bits * v.length + 63) / 64)) :
    m.fromInexactBitwiseDigits v bits =
      if m.checks ∧ bits * v.length + 64 = 2 ^ m.bits then .error .overflow
      else if c.w < 2 ^ m.bits then .ok c else .error m.stop := by
  have key : ∀ (ds : List Digit), (do let r ← ApInt.fromIter ds; expect r) = .ok c →
      (do let r ← m.fromIter ds; expect r) =
        if c.w < 2 ^ m.bits then .ok c else .error m.stop := by
    intro ds h
    split
    · exact build_eq h (by assumption)
    · exact build_stop hb h (by assumption)
  unfold Machine.fromInexactBitwiseDigits
  unfold ApInt.fromInexactBitwiseDigits at h
  obtain ⟨k, hk⟩ := m.pow_bits (by omega)
  have h7 : 2 ^ 7 ≤ 2 ^ m.bits := Nat.pow_le_pow_right (by decide) hb
  split at h
  · cases h
  · rw [if_neg (by assumption)]
    split at h
    · cases h
    · rw [if_neg (by assumption)]
      have rest : (do
          let s ← inexactLoop bits v ⟨[], 0#64, 0⟩
          let data ←
            if s.dbits > 0 then
              if ¬ (s.dbits < 64) then .error .overflow else .ok (s.data ++ [s.d])
            else .ok s.data
          let r ← m.fromIter data
          expect r) = if c.w < 2 ^ m.bits then .ok c else .error m.stop := by
        cases e : inexactLoop bits v ⟨[], 0#64, 0⟩ with
        | error f => rw [e] at h; cases h
        | ok s =>
          rw [e] at h
          simp only [run_bind_ok] at h ⊢
          split at h
          · rw [if_pos (by assumption)]
            split at h
            · cases h
            · rw [if_neg (by assumption)]
              exact key _ h
          · rw [if_neg (by assumption)]
            exact key _ h
      cases hc : m.checks with
      | false =>
        obtain ⟨x, hx⟩ := inexactLen_release hc v.length bits
        rw [hx, run_bind_ok, rest]
        simp
      | true =>
        rw [inexactLen_checks hc]
        generalize bits * v.length = n at hw ⊢
        simp only [true_and]
        by_cases h1 : n + 64 = 2 ^ m.bits
        · rw [if_pos h1, if_neg (by omega)]
          rfl
        · rw [if_neg h1]
          by_cases h2 : n + 64 < 2 ^ m.bits
          · rw [if_pos h2, run_bind_ok, rest]
          · rw [if_neg h2, if_neg (by omega)]
            simp only [stop, hc, if_true]
            rfl

/-! ## Counting bits -/

theorem sumAux_ok : ∀ (l : List Nat) (acc : Nat), acc + l.sum < 2 ^ m.bits →
    m.sumAux l acc = .ok (acc + l.sum)
  | [], acc, _ => rfl
  | n :: rest, acc, h => by
    rw [List.sum_cons] at h ⊢
    rw [sumAux, add_ok (by omega), run_bind_ok, sumAux_ok rest _ (by omega), Nat.add_assoc]

theorem sum_ok {l : List Nat} (h : l.sum < 2 ^ m.bits) : m.sum l = .ok l.sum := by
  rw [sum, sumAux_ok l 0 (by omega), Nat.zero_add]

theorem sum_map_le {f : Digit → Nat} (hf : ∀ d, f d ≤ 64) (ds : List Digit) :
    (ds.map f).sum ≤ 64 * ds.length := by
  induction ds with
  | nil => simp
  | cons d ds ih =>
    have := hf d
    rw [List.map_cons, List.sum_cons, List.length_cons]
    omega

theorem room_digits {a : ApInt} (ha : a.Shape) (hr : m.Room ((a.w + 63) / 64)) :
    64 * a.digits.length < 2 ^ m.bits := by
  rw [ha.length_digits]; exact hr

theorem countOnes_eq {a : ApInt} (ha : a.Shape) (hr : m.Room ((a.w + 63) / 64)) :
    m.countOnes a = a.countOnes := by
  unfold Machine.countOnes ApInt.countOnes
  have := sum_map_le countOnes64_le a.digits
  have := room_digits ha hr
  simp only [asDigitSlice_ok ha, run_bind_ok]
  rw [sum_ok (by omega)]
  rfl

theorem sub_of_csub {a b : Nat} (h : ∃ x, csub a b = .ok x) : m.sub a b = csub a b := by
  obtain ⟨x, h⟩ := h
  unfold csub at h
  split at h
  · exact sub_eq_csub (by assumption)
  · cases h

theorem countZeros_eq {a : ApInt} (ha : a.WF) (hr : m.Room ((a.w + 63) / 64)) :
    m.countZeros a = a.countZeros := by
  have e := countZeros_ok ha
  unfold ApInt.countZeros at e
  unfold Machine.countZeros ApInt.countZeros
  have := sum_map_le (f := countZeros64) (fun d => by unfold countZeros64; omega) a.digits
  have := room_digits ha.1 hr
  simp only [asDigitSlice_ok ha.1, run_bind_ok, unusedBits_ok] at e ⊢
  rw [sum_ok (by omega)]
  exact sub_of_csub ⟨_, e⟩

theorem zerosLoop_eq {count : Digit → Nat} (hc : ∀ d, count d ≤ 64) : ∀ (ds : List Digit) (acc : Nat),
    acc + 64 * ds.length < 2 ^ m.bits →
    m.zerosLoop count ds acc = .ok (ApInt.zerosLoop count ds acc)
  | [], _, _ => rfl
  | d :: rest, acc, h => by
    have := hc d
    rw [List.length_cons] at h
    rw [zerosLoop, ApInt.zerosLoop]
    rw [add_ok (by omega), run_bind_ok]
    split
    · rfl
    · exact zerosLoop_eq hc rest _ (by omega)

theorem leadingZeros_eq {a : ApInt} (ha : a.WF) (hr : m.Room ((a.w + 63) / 64)) :
    m.leadingZeros a = a.leadingZeros := by
  obtain ⟨n, e, -⟩ := leadingZeros_ok ha
  unfold ApInt.leadingZeros at e
  unfold Machine.leadingZeros ApInt.leadingZeros
  have := room_digits ha.1 hr
  simp only [asDigitSlice_ok ha.1, run_bind_ok, unusedBits_ok] at e ⊢
  rw [zerosLoop_eq (fun d => (leadingZeros64_spec d).1) _ _ (by simpa using this)]
  exact sub_of_csub ⟨_, e⟩

theorem trailingZeros64_le (d : Digit) : trailingZeros64 d ≤ 64 := by
  obtain ⟨z, e, h1, -⟩ := trailingLoop_ok [d] 0
  simp only [ApInt.zerosLoop, ite_self, Nat.zero_add, List.length_singleton, Nat.mul_one] at e h1
  omega

theorem trailingZeros_eq {a : ApInt} (ha : a.WF) (hr : m.Room ((a.w + 63) / 64)) :
    m.trailingZeros a = a.trailingZeros := by
  obtain ⟨n, e, -⟩ := trailingZeros_ok ha
  unfold ApInt.trailingZeros at e
  unfold Machine.trailingZeros ApInt.trailingZeros
  have := room_digits ha.1 hr
  simp only [asDigitSlice_ok ha.1, run_bind_ok, unusedBits_ok] at e ⊢
  rw [zerosLoop_eq trailingZeros64_le _ _ (by simpa using this), run_bind_ok]
  split
  · rename_i h
    rw [if_pos h] at e
    exact sub_of_csub ⟨_, e⟩
  · rfl

/-! ## Multiplication -/

theorem sigBits_eq {l : List Digit} {i : Nat} (hi : i < l.length) (hr : 64 * l.length < 2 ^ m.bits) :
    m.sigBits l i = ApInt.sigBits l i := by
  have h1 : Digit.leadingZeros l[i] ≤ 64 := (leadingZeros64_spec l[i]).1
  unfold Machine.sigBits ApInt.sigBits
  simp only [idx_ok hi, run_bind_ok, csub_ok h1]
  rw [mul_ok (by omega), run_bind_ok, add_ok (by omega)]

theorem mulNonOverflow_eq {lhs rhs : List Digit} {ls rs : Nat} (h : ls + rs + 2 < 2 ^ m.bits) :
    m.mulNonOverflow lhs rhs ls rs = ApInt.mulNonOverflow lhs rhs ls rs := by
  unfold Machine.mulNonOverflow
  rw [add_ok (by omega), run_bind_ok, add_ok h, run_bind_ok]

/-- Both long multiplications compute the product, so it does not matter which one runs. -/
theorem mul_either {lhs rhs : List Digit} {ls rs : Nat} (hl : 2 ≤ lhs.length)
    (hr : rhs.length = lhs.length) (l1 : ls < lhs.length) (r1 : rs < rhs.length)
    (l3 : val lhs < B ^ (ls + 1)) (r3 : val rhs < B ^ (rs + 1)) (hl0 : 1 ≤ ls) (hr0 : 1 ≤ rs) :
    ApInt.mulNonOverflow lhs rhs ls rs = mulWrapping lhs rhs := by
  obtain ⟨r, e, h1, h2⟩ := mulNonOverflow_ok hl0 hr0 l1 r1 l3 r3
  obtain ⟨r', e', h1', h2'⟩ := mulWrapping_ok hl hr
  rw [e, e', val_inj (h1.trans h1'.symm) (h2.trans h2'.symm)]

/-- The significant bits of the operands of a long multiplication cannot be counted. -/
def Strained (m : Machine) (lhs rhs : Nat) : Prop :=
  2 ^ 64 ≤ lhs ∧ 2 ^ 64 ≤ rhs ∧ 2 ^ m.bits ≤ Nat.size lhs + Nat.size rhs

theorem mulCases_cases {lhs rhs : List Digit} {ls rs : Nat} (hl : 2 ≤ lhs.length)
    (hr : rhs.length = lhs.length) (l1 : ls < lhs.length) (r1 : rs < rhs.length)
    (l2 : B ^ ls ≤ val lhs) (r2 : B ^ rs ≤ val rhs)
    (l3 : val lhs < B ^ (ls + 1)) (r3 : val rhs < B ^ (rs + 1))
    (hroom : 64 * lhs.length < 2 ^ m.bits) :
    (m.checks = true ∧ m.Strained (val lhs) (val rhs) → m.mulCases lhs rhs ls rs = .error .overflow) ∧
    (¬ (m.checks = true ∧ m.Strained (val lhs) (val rhs)) →
      m.mulCases lhs rhs ls rs = ApInt.mulCases lhs rhs ls rs) := by
  have small : ∀ {v i : Nat}, v < B ^ (i + 1) → 2 ^ 64 ≤ v → i ≠ 0 := by
    rintro v i h1 h2 rfl
    rw [Nat.zero_add, pow_one] at h1
    exact absurd h1 (Nat.not_lt.2 h2)
  have big : ∀ {v i : Nat}, B ^ i ≤ v → i ≠ 0 → 2 ^ 64 ≤ v := by
    intro v i h1 h2
    refine Nat.le_trans ?_ h1
    calc 2 ^ 64 = B ^ 1 := (pow_one B).symm
      _ ≤ B ^ i := Nat.pow_le_pow_right (by decide) (by omega)
  unfold Machine.mulCases ApInt.mulCases
  by_cases h0 : ls = 0 ∨ rs = 0
  · refine ⟨fun ⟨_, h1, h2, _⟩ => ?_, fun _ => ?_⟩
    · rcases h0 with h0 | h0
      · exact absurd h0 (small l3 h1)
      · exact absurd h0 (small r3 h2)
    · rcases h0 with rfl | rfl
      · cases rs <;> rfl
      · cases ls <;> rfl
  · rw [show (ls == 0) = false by simpa using fun h => h0 (.inl h),
      show (rs == 0) = false by simpa using fun h => h0 (.inr h)]
    simp only
    have hl0 : ls ≠ 0 := fun h => h0 (.inl h)
    have hr0 : rs ≠ 0 := fun h => h0 (.inr h)
    rw [sigBits_eq l1 hroom, sigBits_eq r1 (by rw [hr]; exact hroom), (mul_sigBits l1 l2 l3).1,
      (mul_sigBits r1 r2 r3).1, mul_ok (by omega), mulNonOverflow_eq (by omega),
      mul_either hl hr l1 r1 l3 r3 (by omega) (by omega)]
    simp only [run_bind_ok, ite_self]
    unfold Strained
    rw [iff_true_intro (big l2 hl0), iff_true_intro (big r2 hr0)]
    simp only [true_and]
    unfold add fit
    generalize Nat.size (val lhs) + Nat.size (val rhs) = n
    refine ⟨fun ⟨hc, hn⟩ => ?_, fun h => ?_⟩
    · rw [if_neg (by omega), hc]
      rfl
    · split
      · rfl
      · cases hc : m.checks with
        | false => rfl
        | true => exact absurd ⟨hc, by omega⟩ h

theorem mulDigits_cases {lhs rhs : List Digit} (hl : 2 ≤ lhs.length)
    (hr : rhs.length = lhs.length) (hroom : 64 * lhs.length < 2 ^ m.bits) :
    (m.checks = true ∧ m.Strained (val lhs) (val rhs) → m.mulDigits lhs rhs = .error .overflow) ∧
    (¬ (m.checks = true ∧ m.Strained (val lhs) (val rhs)) →
      m.mulDigits lhs rhs = ApInt.mulDigits lhs rhs) := by
  unfold Machine.mulDigits ApInt.mulDigits
  cases hrs : rpositionNonzero rhs with
  | none =>
    refine ⟨fun ⟨_, _, h, _⟩ => ?_, fun _ => rfl⟩
    rw [rpositionNonzero_none hrs] at h
    exact absurd h (by decide)
  | some rs =>
    cases hls : rpositionNonzero lhs with
    | none =>
      refine ⟨fun ⟨_, h, _⟩ => ?_, fun _ => rfl⟩
      rw [rpositionNonzero_none hls] at h
      exact absurd h (by decide)
    | some ls =>
      obtain ⟨r1, r2, r3⟩ := rpositionNonzero_some hrs
      obtain ⟨l1, l2, l3⟩ := rpositionNonzero_some hls
      obtain ⟨k1, k2⟩ := mulCases_cases hl hr l1 r1 l2 r2 l3 r3 hroom
      refine ⟨fun h => ?_, fun h => ?_⟩
      · simp only [k1 h]
        rfl
      · simp only [k2 h]

theorem wrappingMulAssign_cases {a b : ApInt} (ha : a.Shape) (hb : b.Shape)
    (hr : m.Room ((a.w + 63) / 64)) :
    (m.checks = true ∧ a.w = b.w ∧ m.Strained a.uval b.uval →
      m.wrappingMulAssign a b = .error .overflow) ∧
    (¬ (m.checks = true ∧ a.w = b.w ∧ m.Strained a.uval b.uval) →
      m.wrappingMulAssign a b = a.wrappingMulAssign b) := by
  by_cases hw : a.len = b.len
  · have hw' : a.w = b.w := by unfold ApInt.w; rw [hw]
    rw [iff_true_intro hw']
    simp only [true_and]
    unfold Machine.wrappingMulAssign ApInt.wrappingMulAssign
    rcases zipAccessData_ok ha hb hw with ⟨x, y, ex, ey, h1, e⟩ | ⟨xs, ys, ex, ey, h1, h2, h3, e⟩
    · refine ⟨fun ⟨_, h, _⟩ => ?_, fun _ => by simp only [e, run_bind_ok]⟩
      rw [show a.uval = x.toNat by simp [uval, digits, ex]] at h
      exact absurd x.isLt (by omega)
    · rw [show a.uval = val xs by simp [uval, digits, ex],
        show b.uval = val ys by simp [uval, digits, ey]]
      obtain ⟨k1, k2⟩ := mulDigits_cases (m := m) (lhs := xs) (rhs := ys) (by omega)
        (by rw [h2, h3]) (by rw [h2]; exact hr)
      refine ⟨fun h => ?_, fun h => ?_⟩
      · simp only [e, run_bind_ok, k1 h]
        rfl
      · simp only [e, run_bind_ok, k2 h]
  · refine ⟨fun ⟨_, h, _⟩ => absurd (BitWidth.ext h) hw, fun _ => ?_⟩
    rw [wrappingMulAssign_err hw]
    unfold Machine.wrappingMulAssign
    rw [zipAccessData_err hw]
    rfl

/-! ## Division -/

theorem sigBitsOf_eq {sd lz : Nat} (hr : 64 * (sd + 1) < 2 ^ m.bits) :
    m.sigBitsOf sd lz = ApInt.sigBitsOf sd lz := by
  unfold Machine.sigBitsOf ApInt.sigBitsOf csub
  split
  · simp only [run_bind_ok]
    rw [mul_ok (by omega), run_bind_ok, add_ok (by omega)]
  · rfl

theorem findLoop_le {duo : List Digit} : ∀ (n : Nat) (acc r : Option Nat),
    loopDownB (fun i (acc : Option Nat) => do
      let d ← idx duo i
      if !Digit.isZero d then .ok (.brk (some i)) else .ok (.cont acc)) 0 n acc = .ok r →
    r = acc ∨ ∃ i, r = some i ∧ i < n
  | 0, acc, r, h => by cases h; exact .inl rfl
  | n + 1, acc, r, h => by
    unfold loopDownB at h
    cases e : idx duo (0 + n) with
    | error f => rw [e] at h; cases h
    | ok d =>
      rw [e] at h
      simp only [run_bind_ok] at h
      cases hz : Digit.isZero d with
      | true =>
        rw [hz] at h
        simp only [Bool.not_true, Bool.false_eq_true, if_false, run_bind_ok] at h
        rcases findLoop_le n acc r h with h' | ⟨i, h1, h2⟩
        · exact .inl h'
        · exact .inr ⟨i, h1, by omega⟩
      | false =>
        rw [hz] at h
        simp only [Bool.not_false, if_true, run_bind_ok] at h
        cases h
        exact .inr ⟨0 + n, rfl, by omega⟩

theorem findDuoSd_le {duo : List Digit} {sd i : Nat} (h : findDuoSd duo sd = .ok (some i)) :
    i ≤ sd := by
  rcases findLoop_le _ _ _ h with h' | ⟨j, h1, h2⟩
  · cases h'
  · cases h1; omega

theorem divLoopTail_eq {len : Nat} {duo quo div : List Digit} {sd divSb : Nat}
    (hr : 64 * (sd + 1) < 2 ^ m.bits) :
    m.divLoopTail len duo quo div sd divSb = ApInt.divLoopTail len duo quo div sd divSb := by
  unfold Machine.divLoopTail ApInt.divLoopTail
  cases e : findDuoSd duo sd with
  | error f => rfl
  | ok o =>
    cases o with
    | none => rfl
    | some i =>
      have := findDuoSd_le e
      have e' : ∀ lz, m.sigBitsOf i lz = ApInt.sigBitsOf i lz := fun lz =>
        sigBitsOf_eq (by omega)
      simp only [run_bind_ok, e']

theorem divLoopTail_next {len : Nat} {duo quo div : List Digit} {sd divSb : Nat} {s : DivState}
    (h : ApInt.divLoopTail len duo quo div sd divSb = .ok (.next s)) : s.duoSd ≤ sd := by
  unfold ApInt.divLoopTail at h
  cases e : findDuoSd duo sd with
  | error f => rw [e] at h; cases h
  | ok o =>
    rw [e] at h
    have done : ∀ {α : Type} {x : Run α} {f : α → List Digit} {g : α → List Digit},
        (do let r ← x; .ok (.done (f r) (g r))) ≠ (Except.ok (DivStep.next s) : Run DivStep) := by
      intro α x f g h
      cases x <;> cases h
    cases o with
    | none => exact absurd h done
    | some i =>
      have hi := findDuoSd_le e
      simp only [run_bind_ok] at h
      cases e1 : idx duo i with
      | error f => rw [e1] at h; cases h
      | ok d =>
        rw [e1] at h
        simp only [run_bind_ok] at h
        cases e2 : ApInt.sigBitsOf i (Digit.leadingZeros d) with
        | error f => rw [e2] at h; cases h
        | ok sb =>
          rw [e2] at h
          simp only [run_bind_ok] at h
          split at h
          · simp only [bind, Except.bind] at h
            repeat' split at h
            all_goals cases h
          · split at h
            · simp only [bind, Except.bind] at h
              repeat' split at h
              all_goals cases h
            · split at h
              · simp only [bind, Except.bind] at h
                repeat' split at h
                all_goals cases h
              · cases h
                exact hi

theorem divLoopBody_eq {len : Nat} {div : List Digit} {divSd divSb lesser : Nat} {d1 : DDigit}
    {s : DivState} (hr : 64 * (s.duoSd + 1) < 2 ^ m.bits) :
    m.divLoopBody len div divSd divSb lesser d1 s =
      ApInt.divLoopBody len div divSd divSb lesser d1 s := by
  have e : ∀ duo quo, m.divLoopTail len duo quo div s.duoSd divSb =
      ApInt.divLoopTail len duo quo div s.duoSd divSb := fun _ _ => divLoopTail_eq hr
  unfold Machine.divLoopBody ApInt.divLoopBody csub
  split
  · simp only [run_bind_ok]
    split
    · simp only [run_bind_ok]
      rw [mul_ok (by omega), run_bind_ok, add_ok (by omega), run_bind_ok]
      simp only [e]
    · rfl
  · rfl

theorem divLoopBody_next {len : Nat} {div : List Digit} {divSd divSb lesser : Nat} {d1 : DDigit}
    {s s' : DivState} (h : ApInt.divLoopBody len div divSd divSb lesser d1 s = .ok (.next s')) :
    s'.duoSd ≤ s.duoSd := by
  unfold ApInt.divLoopBody at h
  cases e1 : csub 64 s.duoLz with
  | error f => rw [e1] at h; cases h
  | ok n =>
    rw [e1] at h
    simp only [run_bind_ok] at h
    cases e2 : csub s.duoSd 2 with
    | error f => rw [e2] at h; cases h
    | ok k =>
      rw [e2] at h
      simp only [run_bind_ok] at h
      cases e3 : sigDD s.duo s.duoSd s.duoLz with
      | error f => rw [e3] at h; cases h
      | ok dd =>
        rw [e3] at h
        simp only [run_bind_ok] at h
        split at h
        · cases e4 : DDigit.wrappingDiv dd d1 with
          | error f => rw [e4] at h; cases h
          | ok q =>
            rw [e4] at h
            simp only [run_bind_ok] at h
            generalize (n + 64 * k - lesser) = bits at h
            cases e5 : addToQuo s.quo q (bits / 64) (bits % 64) with
            | error f => rw [e5] at h; cases h
            | ok quo =>
              rw [e5] at h
              simp only [run_bind_ok] at h
              split at h
              · cases e6 : subCoreLow s.duo div (DDigit.lo q) s.duoSd (bits / 64) (bits % 64) with
                | error f => rw [e6] at h; cases h
                | ok duo => rw [e6] at h; exact divLoopTail_next h
              · cases e6 : subCoreHigh s.duo div (DDigit.lo q) s.duoSd (bits / 64) (bits % 64) with
                | error f => rw [e6] at h; cases h
                | ok duo => rw [e6] at h; exact divLoopTail_next h
        · simp only [bind, Except.bind] at h
          split at h <;> cases h

theorem divLoop_eq {len : Nat} {div : List Digit} {divSd divSb lesser : Nat} {d1 : DDigit} :
    ∀ (fuel : Nat) (s : DivState), 64 * (s.duoSd + 1) < 2 ^ m.bits →
    m.divLoop len div divSd divSb lesser d1 fuel s =
      ApInt.divLoop len div divSd divSb lesser d1 fuel s
  | 0, _, _ => rfl
  | fuel + 1, s, h => by
    unfold Machine.divLoop ApInt.divLoop
    rw [divLoopBody_eq h]
    cases e : ApInt.divLoopBody len div divSd divSb lesser d1 s with
    | error f => rfl
    | ok r =>
      cases r with
      | done => rfl
      | next s' =>
        have := divLoopBody_next e
        exact divLoop_eq fuel s' (by omega)

theorem longDivision_eq {budget len : Nat} {duo div : List Digit} {ini lz sd tz sb : Nat}
    (h1 : 64 * (ini + 1) < 2 ^ m.bits) (h2 : 64 * (sd + 1) < 2 ^ m.bits) :
    m.longDivision budget len duo ini lz div sd tz sb =
      ApInt.longDivision budget len duo ini lz div sd tz sb := by
  have e : ∀ lesser d1, m.divLoop len div sd sb lesser d1 budget
      ⟨duo, List.replicate len Digit.ZERO, ini, lz⟩ =
      ApInt.divLoop len div sd sb lesser d1 budget ⟨duo, List.replicate len Digit.ZERO, ini, lz⟩ :=
    fun _ _ => divLoop_eq budget _ h1
  unfold Machine.longDivision ApInt.longDivision csub
  split
  · simp only [run_bind_ok]
    split
    · simp only [run_bind_ok]
      rw [mul_ok (by omega), run_bind_ok, add_ok (by omega), run_bind_ok]
      simp only [e]
    · rfl
  · rfl

theorem largeDivByLarge_eq {budget len : Nat} {duo div : List Digit} {ini sd : Nat}
    (h1 : 64 * (ini + 1) < 2 ^ m.bits) (h2 : 64 * (sd + 1) < 2 ^ m.bits) :
    m.largeDivByLarge budget len duo ini div sd =
      ApInt.largeDivByLarge budget len duo ini div sd := by
  have e1 : ∀ lz, m.sigBitsOf ini lz = ApInt.sigBitsOf ini lz := fun _ => sigBitsOf_eq h1
  have e2 : ∀ lz, m.sigBitsOf sd lz = ApInt.sigBitsOf sd lz := fun _ => sigBitsOf_eq h2
  have e3 : ∀ lz tz sb, m.longDivision budget len duo ini lz div sd tz sb =
      ApInt.longDivision budget len duo ini lz div sd tz sb := fun _ _ _ => longDivision_eq h1 h2
  unfold Machine.largeDivByLarge ApInt.largeDivByLarge
  rw [add_ok (by omega)]
  simp only [e1, e2, e3, run_bind_ok]

theorem divremWithin_eq {budget : Nat} {duo div : List Digit}
    (h1 : 64 * duo.length < 2 ^ m.bits) (h2 : 64 * div.length < 2 ^ m.bits) :
    m.divremWithin budget duo div = ApInt.divremWithin budget duo div := by
  unfold Machine.divremWithin ApInt.divremWithin
  cases e1 : rpositionNonzero div with
  | none => rfl
  | some sd =>
    cases e2 : rpositionNonzero duo with
    | none => rfl
    | some ini =>
      have k1 := (rpositionNonzero_some e1).1
      have k2 := (rpositionNonzero_some e2).1
      simp only [largeDivByLarge_eq (m := m) (budget := budget) (len := duo.length) (duo := duo)
        (div := div) (ini := ini) (sd := sd) (by omega) (by omega)]
      rfl

theorem divremDigits_eq {duo div : List Digit}
    (h1 : 64 * duo.length < 2 ^ m.bits) (h2 : 64 * div.length < 2 ^ m.bits) :
    m.divremDigits duo div = ApInt.divremDigits duo div := divremWithin_eq h1 h2

theorem remdivDigits_eq {duo div : List Digit}
    (h1 : 64 * duo.length < 2 ^ m.bits) (h2 : 64 * div.length < 2 ^ m.bits) :
    m.remdivDigits duo div = ApInt.remdivDigits duo div := by
  unfold Machine.remdivDigits ApInt.remdivDigits
  rw [divremDigits_eq h1 h2]
  rfl

/-- The digits of both operands, when there are any, are counted in `usize`. -/
theorem zip_digits {a b : ApInt} (ha : a.Shape) (hb : b.Shape) (hr : m.Room ((a.w + 63) / 64))
    {duo div : List Digit} (h : a.zipAccessData b = .ok (.ok (.ext duo div))) :
    64 * duo.length < 2 ^ m.bits ∧ 64 * div.length < 2 ^ m.bits := by
  by_cases hw : a.len = b.len
  · rcases zipAccessData_ok ha hb hw with ⟨x, y, ex, ey, h1, e⟩ | ⟨xs, ys, ex, ey, h1, h2, h3, e⟩
    · rw [e] at h; cases h
    · rw [e] at h
      cases h
      rw [h2, h3]
      exact ⟨hr, hr⟩
  · rw [zipAccessData_err hw] at h
    cases h

theorem wrappingUdivremAssign_eq {a b : ApInt} (ha : a.Shape) (hb : b.Shape)
    (hr : m.Room ((a.w + 63) / 64)) :
    m.wrappingUdivremAssign a b = ApInt.wrappingUdivremAssign a b := by
  unfold Machine.wrappingUdivremAssign ApInt.wrappingUdivremAssign
  cases e : a.zipAccessData b with
  | error f => rfl
  | ok r =>
    match r, e with
    | .error _, _ => rfl
    | .ok (.inl _ _), _ => rfl
    | .ok (.ext duo div), e =>
      obtain ⟨h1, h2⟩ := zip_digits ha hb hr e
      simp only [run_bind_ok, divremDigits_eq h1 h2]
      rfl

theorem wrappingUremdivAssign_eq {a b : ApInt} (ha : a.Shape) (hb : b.Shape)
    (hr : m.Room ((a.w + 63) / 64)) :
    m.wrappingUremdivAssign a b = ApInt.wrappingUremdivAssign a b := by
  unfold Machine.wrappingUremdivAssign ApInt.wrappingUremdivAssign
  cases e : a.zipAccessData b with
  | error f => rfl
  | ok r =>
    match r, e with
    | .error _, _ => rfl
    | .ok (.inl _ _), _ => rfl
    | .ok (.ext duo div), e =>
      obtain ⟨h1, h2⟩ := zip_digits ha hb hr e
      simp only [run_bind_ok, remdivDigits_eq h1 h2]
      rfl

theorem wrappingUdivAssign_eq {a b : ApInt} (ha : a.Shape) (hb : b.Shape)
    (hr : m.Room ((a.w + 63) / 64)) :
    m.wrappingUdivAssign a b = a.wrappingUdivAssign b := by
  unfold Machine.wrappingUdivAssign ApInt.wrappingUdivAssign
  cases e : a.zipAccessData b with
  | error f => rfl
  | ok r =>
    match r, e with
    | .error _, _ => rfl
    | .ok (.inl _ _), _ => rfl
    | .ok (.ext duo div), e =>
      obtain ⟨h1, h2⟩ := zip_digits ha hb hr e
      simp only [run_bind_ok, divremDigits_eq h1 h2]
      rfl

theorem wrappingUremAssign_eq {a b : ApInt} (ha : a.Shape) (hb : b.Shape)
    (hr : m.Room ((a.w + 63) / 64)) :
    m.wrappingUremAssign a b = a.wrappingUremAssign b := by
  unfold Machine.wrappingUremAssign ApInt.wrappingUremAssign
  cases e : a.zipAccessData b with
  | error f => rfl
  | ok r =>
    match r, e with
    | .error _, _ => rfl
    | .ok (.inl _ _), _ => rfl
    | .ok (.ext duo div), e =>
      obtain ⟨h1, h2⟩ := zip_digits ha hb hr e
      simp only [run_bind_ok, remdivDigits_eq h1 h2]
      rfl

theorem wrappingSdivremAssign_eq {a b : ApInt} (ha : a.WF) (hb : b.WF)
    (hr : m.Room ((a.w + 63) / 64)) :
    m.wrappingSdivremAssign a b = ApInt.wrappingSdivremAssign a b := by
  unfold Machine.wrappingSdivremAssign ApInt.wrappingSdivremAssign
  obtain ⟨na, ea, a1, a2, a3⟩ := wrappingNeg_ok ha
  obtain ⟨nb, eb, b1, b2, b3⟩ := wrappingNeg_ok hb
  have hna : m.Room ((na.w + 63) / 64) := by unfold ApInt.w; rw [a2]; exact hr
  have k1 := wrappingUdivremAssign_eq (m := m) ha.1 hb.1 hr
  have k2 := wrappingUdivremAssign_eq (m := m) ha.1 b1.1 hr
  have k3 := wrappingUdivremAssign_eq (m := m) a1.1 hb.1 hna
  have k4 := wrappingUdivremAssign_eq (m := m) a1.1 b1.1 hna
  rw [msb_ok ha.1, msb_ok hb.1, ea, eb]
  cases a.uval.testBit (a.w - 1) <;> cases b.uval.testBit (b.w - 1) <;>
    simp only [run_bind_ok, k1, k2, k3, k4]

theorem wrappingSremdivAssign_eq {a b : ApInt} (ha : a.WF) (hb : b.WF)
    (hr : m.Room ((a.w + 63) / 64)) :
    m.wrappingSremdivAssign a b = ApInt.wrappingSremdivAssign a b := by
  unfold Machine.wrappingSremdivAssign ApInt.wrappingSremdivAssign
  obtain ⟨na, ea, a1, a2, a3⟩ := wrappingNeg_ok ha
  obtain ⟨nb, eb, b1, b2, b3⟩ := wrappingNeg_ok hb
  have hna : m.Room ((na.w + 63) / 64) := by unfold ApInt.w; rw [a2]; exact hr
  have k1 := wrappingUremdivAssign_eq (m := m) ha.1 hb.1 hr
  have k2 := wrappingUremdivAssign_eq (m := m) ha.1 b1.1 hr
  have k3 := wrappingUremdivAssign_eq (m := m) a1.1 hb.1 hna
  have k4 := wrappingUremdivAssign_eq (m := m) a1.1 b1.1 hna
  rw [msb_ok ha.1, msb_ok hb.1, ea, eb]
  cases a.uval.testBit (a.w - 1) <;> cases b.uval.testBit (b.w - 1) <;>
    simp only [run_bind_ok, k1, k2, k3, k4]

theorem wrappingSdivAssign_eq {a b : ApInt} (ha : a.WF) (hb : b.WF)
    (hr : m.Room ((a.w + 63) / 64)) :
    m.wrappingSdivAssign a b = a.wrappingSdivAssign b := by
  unfold Machine.wrappingSdivAssign ApInt.wrappingSdivAssign
  obtain ⟨na, ea, a1, a2, a3⟩ := wrappingNeg_ok ha
  obtain ⟨nb, eb, b1, b2, b3⟩ := wrappingNeg_ok hb
  have hna : m.Room ((na.w + 63) / 64) := by unfold ApInt.w; rw [a2]; exact hr
  have k1 := wrappingUdivremAssign_eq (m := m) ha.1 hb.1 hr
  have k2 := wrappingUdivremAssign_eq (m := m) ha.1 b1.1 hr
  have k3 := wrappingUdivremAssign_eq (m := m) a1.1 hb.1 hna
  have k4 := wrappingUdivremAssign_eq (m := m) a1.1 b1.1 hna
  simp only [clone_ok hb.1, run_bind_ok, msb_ok ha.1, msb_ok hb.1, ea, eb]
  cases a.uval.testBit (a.w - 1) <;> cases b.uval.testBit (b.w - 1) <;>
    simp only [run_bind_ok, k1, k2, k3, k4]

theorem wrappingSremAssign_eq {a b : ApInt} (ha : a.WF) (hb : b.WF)
    (hr : m.Room ((a.w + 63) / 64)) :
    m.wrappingSremAssign a b = a.wrappingSremAssign b := by
  unfold Machine.wrappingSremAssign ApInt.wrappingSremAssign
  obtain ⟨na, ea, a1, a2, a3⟩ := wrappingNeg_ok ha
  obtain ⟨nb, eb, b1, b2, b3⟩ := wrappingNeg_ok hb
  have hna : m.Room ((na.w + 63) / 64) := by unfold ApInt.w; rw [a2]; exact hr
  have k1 := wrappingUremdivAssign_eq (m := m) ha.1 hb.1 hr
  have k2 := wrappingUremdivAssign_eq (m := m) ha.1 b1.1 hr
  have k3 := wrappingUremdivAssign_eq (m := m) a1.1 hb.1 hna
  have k4 := wrappingUremdivAssign_eq (m := m) a1.1 b1.1 hna
  simp only [clone_ok hb.1, run_bind_ok, msb_ok ha.1, msb_ok hb.1, ea, eb]
  cases a.uval.testBit (a.w - 1) <;> cases b.uval.testBit (b.w - 1) <;>
    simp only [run_bind_ok, k1, k2, k3, k4]

/-! ## Programs -/

theorem fits_iff (hb : 7 ≤ m.bits) (z : AInt) : z.Fits m.bits ↔ m.Room ((z.width + 63) / 64) :=
  (m.room_iff (by omega) z.width).symm

theorem fits_target (hb : 7 ≤ m.bits) (t : BitWidth) (v : Int) :
    (AInt.ofInt t.toUsize v).Fits m.bits ↔ m.Room t.requiredDigits := by
  rw [fits_iff hb, BitWidth.requiredDigits_eq]
  rfl

/-- The call `r` does what `r0` does if the number it should give fits, and stops otherwise. -/
def Gives {α : Type} (m : Machine) (r r0 : Run α) (o : Except AErr AInt) : Prop :=
  ((∀ z, o = .ok z → z.Fits m.bits) ∧ r = r0) ∨ ((∃ z, o = .ok z ∧ ¬ z.Fits m.bits) ∧ r = .error m.stop)

theorem Gives.of_room (hb : 7 ≤ m.bits) {α : Type} {r r0 : Run α} {t : BitWidth} {v : Int}
    (h1 : m.Room t.requiredDigits → r = r0) (h2 : ¬ m.Room t.requiredDigits → r = .error m.stop) :
    m.Gives r r0 (.ok (AInt.ofInt t.toUsize v)) := by
  by_cases h : m.Room t.requiredDigits
  · refine .inl ⟨?_, h1 h⟩
    rintro z ⟨⟩
    exact (fits_target hb t v).2 h
  · exact .inr ⟨⟨_, rfl, fun h' => h ((fits_target hb t v).1 h')⟩, h2 h⟩

theorem Gives.of_digits (hb : 7 ≤ m.bits) {α : Type} {r r0 : Run α} {n v : Nat}
    (h1 : m.Room n → r = r0) (h2 : ¬ m.Room n → r = .error m.stop) :
    m.Gives r r0 (.ok ⟨64 * n, v⟩) := by
  have e : (⟨64 * n, v⟩ : AInt).Fits m.bits ↔ m.Room n := by
    rw [fits_iff hb]
    rw [show ((⟨64 * n, v⟩ : AInt).width + 63) / 64 = n by show (64 * n + 63) / 64 = n; omega]
  by_cases h : m.Room n
  · refine .inl ⟨?_, h1 h⟩
    rintro z ⟨⟩
    exact e.2 h
  · exact .inr ⟨⟨_, rfl, fun h' => h (e.1 h')⟩, h2 h⟩

theorem Gives.small (hb : 7 ≤ m.bits) {α : Type} {r : Run α} {z : AInt} (hz : z.width ≤ 64) :
    m.Gives r r (.ok z) := by
  refine .inl ⟨?_, rfl⟩
  rintro z' ⟨⟩
  have h2 : 2 ^ 7 ≤ 2 ^ m.bits := Nat.pow_le_pow_right (by decide) hb
  unfold AInt.Fits
  omega

theorem Gives.bind {α β : Type} {r r0 : Run α} {o : Except AErr AInt} (h : m.Gives r r0 o)
    (f : α → Run β) : m.Gives (r >>= f) (r0 >>= f) o := by
  rcases h with ⟨h1, h2⟩ | ⟨h1, h2⟩
  · exact .inl ⟨h1, by rw [h2]⟩
  · exact .inr ⟨h1, by rw [h2]; rfl⟩

theorem Gives.fine {r r0 : Run ApInt} {o : Except AErr AInt} (h : m.Gives r r0 o) :
    m.Gives (Verif.fine r) (Verif.fine r0) o := h.bind _

theorem fits_cases {z : AInt} {α : Type} {r r0 : Run α} {w : Nat} (hb : 7 ≤ m.bits) (hz : z.width = w)
    (hw : w % 64 = 0) (h1 : w < 2 ^ m.bits → r = r0) (h2 : ¬ w < 2 ^ m.bits → r = .error m.stop) :
    m.Gives r r0 (.ok z) := by
  obtain ⟨k, hk⟩ := m.pow_bits (by omega)
  have e : z.Fits m.bits ↔ w < 2 ^ m.bits := by unfold AInt.Fits; rw [hz]; omega
  by_cases h : w < 2 ^ m.bits
  · refine .inl ⟨?_, h1 h⟩
    rintro z ⟨⟩
    exact e.2 h
  · exact .inr ⟨⟨_, rfl, fun h' => h (e.1 h')⟩, h2 h⟩

theorem fromStrRadix_rejected {r : Radix} {s : List Char} (hr : r.toU8 ≤ 36)
    (h : ¬ Accepted r.toU8 s) :
    m.fromStrRadix' r s = .ok (.error (.invalidStringRepr s r none)) := by
  unfold Machine.fromStrRadix'
  by_cases h1 : s = []
  · subst h1; rfl
  rw [if_neg (by simpa using h1)]
  by_cases h2 : s.head? = some '_'
  · rw [if_pos h2]
  rw [if_neg h2]
  by_cases h3 : s.getLast? = some '_'
  · rw [if_pos h3]
  rw [if_neg h3, collect_bad hr s [] (fun h4 => h ⟨h1, h2, h3, h4⟩)]

theorem fromStrRadix_accepted {r : Radix} {s : List Char} (h : Accepted r.toU8 s) :
    m.fromStrRadix' r s = (do
      match ← r.exactBitsPerDigit with
      | some bits =>
        if bits = 0 then .error .panic
        else if 64 % bits = 0 then do
          let a ← m.fromBitwiseDigits (textDigits s).reverse bits
          .ok (.ok a)
        else do
          let a ← m.fromInexactBitwiseDigits (textDigits s).reverse bits
          .ok (.ok a)
      | none => do
        let a ← m.fromRadixDigits (textDigits s) r
        .ok (.ok a)) := by
  obtain ⟨h1, h2, h3, h4⟩ := h
  unfold Machine.fromStrRadix'
  rw [if_neg (by simpa using h1), if_neg h2, if_neg h3, collect_good s [] h4, List.nil_append]
  rfl

/-- Parsing in a radix that is a power of two. -/
theorem parse_cases (hb : 7 ≤ m.bits) (k : Fin 5) (s : List Char) :
    (m.checks = true ∧ (k.val = 2 ∨ k.val = 4) ∧ Accepted (2 ^ (k.val + 1)) s ∧
        (k.val + 1) * (textDigits s).length + 64 = 2 ^ m.bits →
      m.make (.parse k s) = .error .overflow) ∧
    (¬ (m.checks = true ∧ (k.val = 2 ∨ k.val = 4) ∧ Accepted (2 ^ (k.val + 1)) s ∧
        (k.val + 1) * (textDigits s).length + 64 = 2 ^ m.bits) →
      m.Gives (m.make (.parse k s)) (Make.parse k s).exec (Make.parse k s).spec) := by
  have hr : 2 ^ (k.val + 1) ∈ [2, 4, 8, 16, 32] := by
    have : ∀ k : Fin 5, 2 ^ (k.val + 1) ∈ [2, 4, 8, 16, 32] := by decide
    exact this k
  have h36 : 2 ≤ 2 ^ (k.val + 1) ∧ 2 ^ (k.val + 1) ≤ 36 := by
    have : ∀ k : Fin 5, 2 ≤ 2 ^ (k.val + 1) ∧ 2 ^ (k.val + 1) ≤ 36 := by decide
    exact this k
  have hl : Nat.log2 (2 ^ (k.val + 1)) = k.val + 1 := Nat.log2_two_pow
  have e1 : m.make (.parse k s) = m.fromStrRadix' ⟨2 ^ (k.val + 1)⟩ s := by
    show m.fromStrRadix _ s = _
    unfold Machine.fromStrRadix
    rw [radix_from_ok h36, run_bind_ok]
  have e2 : (Make.parse k s).exec = ApInt.fromStrRadix' ⟨2 ^ (k.val + 1)⟩ s := fromStrRadix_eq h36 s
  rw [e1, e2]
  simp only [Make.spec]
  by_cases ha : Accepted (2 ^ (k.val + 1)) s
  · rw [if_pos ha, fromStrRadix_accepted (r := ⟨2 ^ (k.val + 1)⟩) ha,
      ApInt.fromStrRadix_accepted (r := ⟨2 ^ (k.val + 1)⟩) ha]
    obtain ⟨t1, t2, t3, t4⟩ := bits_table (2 ^ (k.val + 1)) hr
    rw [hl] at t1 t2 t3 t4
    rw [t1]
    simp only [run_bind_ok, if_neg t4]
    have hv : (textDigits s).reverse ≠ [] := by simpa using textDigits_ne_nil ha
    have hlt : ∀ c ∈ (textDigits s).reverse, c < 2 ^ (k.val + 1) := by
      intro c hc
      exact textDigits_lt ha.2.2.2 c (List.mem_reverse.1 hc)
    by_cases h64 : 64 % (k.val + 1) = 0
    · have hk : ¬ (k.val = 2 ∨ k.val = 4) := by
        rintro (h | h) <;> rw [h] at h64 <;> exact absurd h64 (by decide)
      refine ⟨fun h => absurd h.2.1 hk, fun _ => ?_⟩
      obtain ⟨c, e, p1, p2, p3⟩ := fromBitwiseDigits_ok hv t3 t4 h64 hlt
      rw [if_pos h64, if_pos h64, fromBitwiseDigits_cases hb e, e]
      rw [List.length_reverse] at p2
      refine fits_cases (w := c.w) hb ?_ (by rw [p2]; omega) (fun h => by rw [if_pos h])
        (fun h => by rw [if_neg h]; rfl)
      rw [p2]; rfl
    · have hk : k.val = 2 ∨ k.val = 4 := by
        have : ∀ k : Fin 5, 64 % (k.val + 1) ≠ 0 → k.val = 2 ∨ k.val = 4 := by decide
        exact this k h64
      obtain ⟨c, e, p1, p2, p3⟩ := fromInexactBitwiseDigits_ok hv t3 t4 h64 hlt
      rw [if_neg h64, if_neg h64, fromInexactBitwiseDigits_cases hb e p2, e]
      rw [List.length_reverse] at p2 ⊢
      refine ⟨fun h => ?_, fun h => ?_⟩
      · rw [if_pos ⟨h.1, h.2.2.2⟩]
        rfl
      · rw [if_neg (fun h' => h ⟨h'.1, hk, ha, h'.2⟩)]
        refine fits_cases (w := c.w) hb ?_ (by rw [p2]; omega) (fun h => by rw [if_pos h])
          (fun h => by rw [if_neg h]; rfl)
        rw [p2]; rfl
  · rw [if_neg ha, fromStrRadix_rejected (r := ⟨2 ^ (k.val + 1)⟩) h36.2 ha,
      ApInt.fromStrRadix_rejected (r := ⟨2 ^ (k.val + 1)⟩) h36.2 ha]
    exact ⟨fun h => absurd h.2.2.1 ha, fun _ => .inl ⟨by rintro z ⟨⟩, rfl⟩⟩

theorem make_gives (hb : 7 ≤ m.bits) (k : Make) (b : ABank)
    (hs : ¬ (m.checks = true ∧ (Instr.make k).Strains m.bits b)) :
    m.Gives (m.make k) k.exec k.spec := by
  have rep : ∀ (t : BitWidth) (d : Digit) (v : Int),
      m.Gives (m.repeatDigit t d) (ApInt.repeatDigit t d) (.ok (AInt.ofInt t.toUsize v)) :=
    fun t d v => .of_room hb (fun h => repeatDigit_eq h d) (fun h => repeatDigit_stop hb h d)
  have w128 : BitWidth.requiredDigits (BitWidth.w128) = 2 := by decide
  have arr : ∀ (l : List (BitVec 64)) (v : Nat), m.Gives (m.fromArray l) (ApInt.fromArray l)
      (.ok ⟨64 * l.length, v⟩) := fun l v =>
    .of_digits hb (fun h => fromArray_eq h) (fun h => fromArray_stop hb h)
  cases k with
  | zero t => exact (rep t _ _).fine
  | one t => exact (Gives.of_room hb (fun h => one_eq h) (fun h => one_stop hb h)).fine
  | allUnset t => exact (rep t _ _).fine
  | allSet t => exact (rep t _ _).fine
  | unsignedMin t => exact (rep t _ _).fine
  | unsignedMax t => exact (rep t _ _).fine
  | signedMin t => exact ((rep t _ _).bind _).fine
  | signedMax t => exact ((rep t _ _).bind _).fine
  | bool b => exact .small hb (show 1 ≤ 64 by decide)
  | u8 v => exact .small hb (show 8 ≤ 64 by decide)
  | i8 v => exact .small hb (show 8 ≤ 64 by decide)
  | u16 v => exact .small hb (show 16 ≤ 64 by decide)
  | i16 v => exact .small hb (show 16 ≤ 64 by decide)
  | u32 v => exact .small hb (show 32 ≤ 64 by decide)
  | i32 v => exact .small hb (show 32 ≤ 64 by decide)
  | u64 v => exact .small hb (show 64 ≤ 64 by decide)
  | i64 v => exact .small hb (show 64 ≤ 64 by decide)
  | u128 v => exact (arr [_, _] _).fine
  | i128 v => exact (arr [_, _] _).fine
  | array v vs => exact (arr (v :: vs) _).fine
  | digits ds =>
    by_cases h0 : ds = []
    · subst h0
      exact .inl ⟨fun z hz => by simp [Make.spec] at hz, rfl⟩
    · simp only [Make.spec, if_neg h0]
      exact .of_digits hb (fun h => fromIter_eq h) (fun h => fromIter_stop hb h)
  | parse k s => exact (parse_cases hb k s).2 hs
  | random t rng =>
    exact ((Gives.of_room hb (fun h => random_eq h rng) (fun h => random_stop hb h rng)).bind _).fine

theorem un_gives (hb : 7 ≤ m.bits) (o : Un) {a : ApInt} (ha : a.WF) (hf : a.abs.Fits m.bits) :
    m.Gives (m.un o a) (o.exec a) (o.spec a.abs) ∧
      m.Gives (m.intoUn o a) (o.execInto a) (o.spec a.abs) := by
  have hr : m.Room ((a.w + 63) / 64) := (fits_iff hb a.abs).1 hf
  have same : ∀ {α : Type} (r : Run α) (v : Int), m.Gives r r (.ok (AInt.ofInt a.abs.width v)) :=
    fun r v => .inl ⟨by rintro z ⟨⟩; exact hf, rfl⟩
  have err : ∀ {α : Type} (r : Run α) (e : AErr), m.Gives r r (.error e) :=
    fun r v => .inl ⟨by rintro z ⟨⟩, rfl⟩
  cases o with
  | bitnot => exact ⟨same _ _, same _ _⟩
  | neg => exact ⟨same _ _, same _ _⟩
  | inc => exact ⟨same _ _, same _ _⟩
  | dec => exact ⟨same _ _, same _ _⟩
  | shl s => simp only [Un.spec]; split <;> first | exact ⟨same _ _, same _ _⟩ | exact ⟨err _ _, err _ _⟩
  | lshr s => simp only [Un.spec]; split <;> first | exact ⟨same _ _, same _ _⟩ | exact ⟨err _ _, err _ _⟩
  | ashr s => simp only [Un.spec]; split <;> first | exact ⟨same _ _, same _ _⟩ | exact ⟨err _ _, err _ _⟩
  | truncate t =>
    have e1 : m.un (.truncate t) a = (Un.truncate t).exec a := truncate_fits hr t
    have e2 : m.intoUn (.truncate t) a = (Un.truncate t).execInto a := intoTruncate_fits hr t
    rw [e1, e2]
    simp only [Un.spec]
    split
    · rename_i h
      have hf' : ∀ v, (AInt.ofInt t.toUsize v).Fits m.bits := by
        intro v
        have h : t.toUsize ≤ a.w := h
        have hf : a.w + 64 ≤ _ := hf
        show t.toUsize + 64 ≤ _
        omega
      exact ⟨.inl ⟨by rintro z ⟨⟩; exact hf' _, rfl⟩, .inl ⟨by rintro z ⟨⟩; exact hf' _, rfl⟩⟩
    · exact ⟨err _ _, err _ _⟩
  | zeroExtend t =>
    simp only [Un.spec]
    split
    · exact ⟨.of_room hb (fun h => zeroExtend_eq ha.1 h) (fun h => zeroExtend_stop hb ha.1 hr h),
        .of_room hb (fun h => intoZeroExtend_eq ha.1 h) (fun h => intoZeroExtend_stop hb ha.1 hr h)⟩
    · rename_i h
      have hrt : m.Room t.requiredDigits := hr.mono (by
        rw [BitWidth.requiredDigits_eq]
        have : ¬ a.w ≤ t.toUsize := h
        omega)
      exact ⟨.inl ⟨by rintro z ⟨⟩, zeroExtend_eq ha.1 hrt⟩,
        .inl ⟨by rintro z ⟨⟩, intoZeroExtend_eq ha.1 hrt⟩⟩
  | signExtend t =>
    simp only [Un.spec]
    split
    · exact ⟨.of_room hb (fun h => signExtend_eq ha h) (fun h => signExtend_stop hb ha hr h),
        .of_room hb (fun h => intoSignExtend_eq ha h) (fun h => intoSignExtend_stop hb ha hr h)⟩
    · rename_i h
      have hrt : m.Room t.requiredDigits := hr.mono (by
        rw [BitWidth.requiredDigits_eq]
        have : ¬ a.w ≤ t.toUsize := h
        omega)
      exact ⟨.inl ⟨by rintro z ⟨⟩, signExtend_eq ha hrt⟩,
        .inl ⟨by rintro z ⟨⟩, intoSignExtend_eq ha hrt⟩⟩
  | zeroResize t =>
    exact ⟨(Gives.of_room hb (fun h => zeroResize_eq ha.1 h)
        (fun h => zeroResize_stop hb ha.1 hr h)).bind _,
      (Gives.of_room hb (fun h => intoZeroResize_eq ha.1 h)
        (fun h => intoZeroResize_stop hb ha.1 hr h)).fine⟩
  | signResize t =>
    exact ⟨(Gives.of_room hb (fun h => signResize_eq ha h)
        (fun h => signResize_stop hb ha hr h)).bind _,
      (Gives.of_room hb (fun h => intoSignResize_eq ha h)
        (fun h => intoSignResize_stop hb ha hr h)).fine⟩

/-- All numbers have the width of a number that was there before. -/
def Kept (s s' : ABank) : Prop := ∀ z ∈ s', ∃ y ∈ s, z.width = y.width

theorem Kept.refl (s : ABank) : Kept s s := fun z hz => ⟨z, hz, rfl⟩

theorem Kept.push {s : ABank} {x : Nat} {a z : AInt} (hx : s[x]? = some a) (h : z.width = a.width) :
    Kept s (s ++ [z]) := by
  intro y hy
  rcases List.mem_append.1 hy with hy | hy
  · exact ⟨y, hy, rfl⟩
  · rw [List.mem_singleton.1 hy]
    exact ⟨a, List.mem_of_getElem? hx, h⟩

theorem Kept.store {s : ABank} {x x' : Nat} {a z : AInt} (hx : s[x']? = some a)
    (h : z.width = a.width) : Kept s (s.set x z) := by
  intro y hy
  rcases List.mem_or_eq_of_mem_set hy with hy | hy
  · exact ⟨y, hy, rfl⟩
  · rw [hy]
    exact ⟨a, List.mem_of_getElem? hx, h⟩

theorem Kept.trans {s t u : ABank} (h : Kept s t) (h' : Kept t u) : Kept s u := by
  intro z hz
  obtain ⟨y, hy, e⟩ := h' z hz
  obtain ⟨x, hx, e'⟩ := h y hy
  exact ⟨x, hx, e.trans e'⟩

theorem Kept.fits {s t : ABank} (h : Kept s t) {u : Nat} (hs : ∀ z ∈ s, z.Fits u) :
    ∀ z ∈ t, z.Fits u := by
  intro z hz
  obtain ⟨y, hy, e⟩ := h z hz
  have := hs y hy
  unfold AInt.Fits at *
  rw [e]
  exact this

theorem alter_width {o : Alter} {x z : AInt} (h : o.spec x = .ok z) : z.width = x.width := by
  cases o <;> simp only [Alter.spec] at h <;> (try split at h) <;> first | (cases h; rfl) | cases h

theorem bin_width {o : Bin} {x y z : AInt} (h : o.spec x y = some (.ok z)) : z.width = x.width := by
  cases o <;> simp only [Bin.spec] at h <;> (repeat' split at h) <;>
    first | (cases h; rfl) | cases h

theorem op_width {o : Op} {x y z : AInt} (h : o.spec x y = some z) : z.width = x.width := by
  unfold Op.spec okOnly at h
  split at h
  · rename_i e
    cases h
    exact bin_width e
  · cases h

theorem shl_width {n : Nat} {x z : AInt} (h : okOnly (some ((Un.shl n).spec x)) = some z) :
    z.width = x.width := by
  simp only [Un.spec] at h
  split at h
  · cases h; rfl
  · cases h

theorem pair_width {o : Pair} {x y z z' : AInt} (h : o.spec x y = some (.ok (z, z'))) :
    z.width = x.width ∧ z'.width = x.width := by
  cases o <;> simp only [Pair.spec] at h <;> (repeat' split at h) <;>
    first | (cases h; exact ⟨rfl, rfl⟩) | cases h

/-- One call does what it does without limits if all numbers it should leave fit, and stops
otherwise. -/
def Sound (m : Machine) (r r0 : Run (Res Out × Bank)) (o : Option (Except AErr Out × ABank)) : Prop :=
  (r = r0 ∧ ∀ x s, o = some (x, s) → ∀ z ∈ s, z.Fits m.bits) ∨
  (r = .error m.stop ∧ ∃ x s, o = some (x, s) ∧ ¬ ∀ z ∈ s, z.Fits m.bits)

theorem Sound.push {b : Bank} (hf : ∀ z ∈ b.map ApInt.abs, z.Fits m.bits) {r r0 : Run (Res ApInt)}
    {o : Except AErr AInt} (h : m.Gives r r0 o) :
    m.Sound (pushRes b r) (pushRes b r0) (some (ABank.push (b.map ApInt.abs) o)) := by
  rcases h with ⟨h1, h2⟩ | ⟨⟨z, h1, h2⟩, h3⟩
  · refine .inl ⟨by rw [h2], ?_⟩
    cases o with
    | error e =>
      rintro x s ⟨⟩
      exact hf
    | ok z =>
      rintro x s ⟨⟩
      intro y hy
      rcases List.mem_append.1 hy with hy | hy
      · exact hf y hy
      · rw [List.mem_singleton.1 hy]
        exact h1 z rfl
  · refine .inr ⟨by rw [h3]; rfl, ?_⟩
    subst h1
    exact ⟨_, _, rfl, fun h => h2 (h z (by simp))⟩

theorem Sound.store {b : Bank} (hf : ∀ z ∈ b.map ApInt.abs, z.Fits m.bits) {x : Nat} {a : ApInt}
    (hx : b[x]? = some a) {r r0 : Run (Res Unit × ApInt)} {o : Except AErr AInt}
    (h : m.Gives r r0 o) :
    m.Sound (storeRes b x r) (storeRes b x r0) (some (ABank.store (b.map ApInt.abs) x o)) := by
  rcases h with ⟨h1, h2⟩ | ⟨⟨z, h1, h2⟩, h3⟩
  · refine .inl ⟨by rw [h2], ?_⟩
    cases o with
    | error e =>
      rintro x s ⟨⟩
      exact hf
    | ok z =>
      rintro x s ⟨⟩
      intro y hy
      rcases List.mem_or_eq_of_mem_set hy with hy | hy
      · exact hf y hy
      · rw [hy]
        exact h1 z rfl
  · refine .inr ⟨by rw [h3]; rfl, ?_⟩
    subst h1
    refine ⟨_, _, rfl, fun h => h2 (h z ?_)⟩
    have hl : x < (b.map ApInt.abs).length := by
      rw [List.length_map]
      exact (List.getElem?_eq_some_iff.1 hx).1
    exact List.mem_set hl z

theorem Sound.keep {b : ABank} (hf : ∀ z ∈ b, z.Fits m.bits) {r r0 : Run (Res Out × Bank)}
    {o : Option (Except AErr Out × ABank)} (h : r = r0)
    (hk : ∀ x s, o = some (x, s) → Kept b s) : m.Sound r r0 o :=
  .inl ⟨h, fun x s e => (hk x s e).fits hf⟩

theorem kept_push {b : ABank} {x : Nat} {a : AInt} (hx : b[x]? = some a)
    {o : Except AErr AInt} (h : ∀ z, o = .ok z → z.width = a.width) :
    Kept b (ABank.push b o).2 := by
  cases o with
  | error e => exact .refl b
  | ok z => exact .push hx (h z rfl)

theorem kept_store {b : ABank} {x : Nat} {a : AInt} (hx : b[x]? = some a)
    {o : Except AErr AInt} (h : ∀ z, o = .ok z → z.width = a.width) :
    Kept b (ABank.store b x o).2 := by
  cases o with
  | error e => exact .refl b
  | ok z => exact .store hx (h z rfl)

theorem bin_eq (o : Bin) {a c : ApInt} (hb : 7 ≤ m.bits) (ha : a.WF) (hc : c.WF)
    (hf : a.abs.Fits m.bits) (hs : o = .mul → ¬ (m.checks = true ∧ a.abs.Strains m.bits c.abs)) :
    m.bin o a c = o.exec a c ∧ m.intoBin o a c = o.execInto a c := by
  have hr : m.Room ((a.w + 63) / 64) := (fits_iff hb a.abs).1 hf
  have into : ∀ {f g : ApInt → ApInt → Run (Res Unit × ApInt)}, f a c = g a c →
      tryForwardBinMutImpl a c f = tryForwardBinMutImpl a c g := by
    intro f g h
    unfold tryForwardBinMutImpl
    rw [h]
  cases o with
  | add => exact ⟨rfl, rfl⟩
  | sub => exact ⟨rfl, rfl⟩
  | and => exact ⟨rfl, rfl⟩
  | or => exact ⟨rfl, rfl⟩
  | xor => exact ⟨rfl, rfl⟩
  | mul =>
    have := (wrappingMulAssign_cases ha.1 hc.1 hr).2 (hs rfl)
    exact ⟨this, into this⟩
  | udiv => exact ⟨wrappingUdivAssign_eq ha.1 hc.1 hr, into (wrappingUdivAssign_eq ha.1 hc.1 hr)⟩
  | urem => exact ⟨wrappingUremAssign_eq ha.1 hc.1 hr, into (wrappingUremAssign_eq ha.1 hc.1 hr)⟩
  | sdiv => exact ⟨wrappingSdivAssign_eq ha hc hr, into (wrappingSdivAssign_eq ha hc hr)⟩
  | srem => exact ⟨wrappingSremAssign_eq ha hc hr, into (wrappingSremAssign_eq ha hc hr)⟩

theorem op_eq (o : Op) {a c : ApInt} (hb : 7 ≤ m.bits) (ha : a.WF) (hc : c.WF)
    (hf : a.abs.Fits m.bits) (hs : o = .mul → ¬ (m.checks = true ∧ a.abs.Strains m.bits c.abs)) :
    m.opAssign o a c = o.execAssign a c ∧ m.op o a c = o.exec a c := by
  cases o with
  | add => exact ⟨rfl, rfl⟩
  | sub => exact ⟨rfl, rfl⟩
  | and => exact ⟨rfl, rfl⟩
  | or => exact ⟨rfl, rfl⟩
  | xor => exact ⟨rfl, rfl⟩
  | mul =>
    obtain ⟨h1, h2⟩ := bin_eq .mul hb ha hc hf (fun _ => hs rfl)
    exact ⟨congrArg unwrapMut h1, congrArg unwrapRes h2⟩

theorem pair_eq (o : Pair) {a c : ApInt} (hb : 7 ≤ m.bits) (ha : a.WF) (hc : c.WF)
    (hf : a.abs.Fits m.bits) : m.pair o a c = o.exec a c := by
  have hr : m.Room ((a.w + 63) / 64) := (fits_iff hb a.abs).1 hf
  cases o with
  | udivrem => exact wrappingUdivremAssign_eq ha.1 hc.1 hr
  | uremdiv => exact wrappingUremdivAssign_eq ha.1 hc.1 hr
  | sdivrem => exact wrappingSdivremAssign_eq ha hc hr
  | sremdiv => exact wrappingSremdivAssign_eq ha hc hr

theorem ask_eq (q : Ask) {a : ApInt} (hb : 7 ≤ m.bits) (ha : a.WF) (hf : a.abs.Fits m.bits) :
    m.ask q a = q.exec a := by
  have hr : m.Room ((a.w + 63) / 64) := (fits_iff hb a.abs).1 hf
  cases q with
  | countOnes => exact congrArg (tell .nat) (countOnes_eq ha.1 hr)
  | countZeros => exact congrArg (tell .nat) (countZeros_eq ha hr)
  | leadingZeros => exact congrArg (tell .nat) (leadingZeros_eq ha hr)
  | trailingZeros => exact congrArg (tell .nat) (trailingZeros_eq ha hr)
  | _ => rfl

/-- A call that is not strained. -/
theorem exec_sound (hb : 7 ≤ m.bits) (i : Instr) {b : Bank} (hw : ∀ a ∈ b, a.WF)
    (hf : ∀ z ∈ b.map ApInt.abs, z.Fits m.bits)
    (hs : ¬ (m.checks = true ∧ i.Strains m.bits (b.map ApInt.abs))) :
    m.Sound (m.exec i b) (i.exec b) (i.spec (b.map ApInt.abs)) := by
  have skip : m.Sound (pure (.ok .unit, b)) (pure (.ok .unit, b))
      (some (.ok .unit, b.map ApInt.abs)) :=
    .keep hf rfl (by rintro x s ⟨⟩; exact .refl _)
  have wf : ∀ {x : Nat} {a : ApInt}, b[x]? = some a → a.WF := fun h =>
    hw _ (List.mem_of_getElem? h)
  have fit : ∀ {x : Nat} {a : ApInt}, b[x]? = some a → a.abs.Fits m.bits := fun h =>
    hf _ (List.mem_map_of_mem (List.mem_of_getElem? h))
  have abs : ∀ {x : Nat} {a : ApInt}, b[x]? = some a → (b.map ApInt.abs)[x]? = some a.abs := by
    intro x a h
    rw [List.getElem?_map, h]; rfl
  have one : ∀ (x : Nat) {f f' : ApInt → Run (Res Out × Bank)}
      {g : AInt → Option (Except AErr Out × ABank)},
      (∀ a, b[x]? = some a → m.Sound (f a) (f' a) (g a.abs)) →
      m.Sound (match b[x]? with | some a => f a | none => pure (.ok .unit, b))
        (match b[x]? with | some a => f' a | none => pure (.ok .unit, b))
        (match (b.map ApInt.abs)[x]? with
          | some a => g a | none => some (.ok .unit, b.map ApInt.abs)) := by
    intro x f f' g h
    rw [List.getElem?_map]
    cases hx : b[x]? with
    | none => exact skip
    | some a => exact h a hx
  have two : ∀ (x y : Nat) {f f' : ApInt → ApInt → Run (Res Out × Bank)}
      {g : AInt → AInt → Option (Except AErr Out × ABank)},
      (∀ a c, b[x]? = some a → b[y]? = some c → m.Sound (f a c) (f' a c) (g a.abs c.abs)) →
      m.Sound (match b[x]?, b[y]? with | some a, some c => f a c | _, _ => pure (.ok .unit, b))
        (match b[x]?, b[y]? with | some a, some c => f' a c | _, _ => pure (.ok .unit, b))
        (match (b.map ApInt.abs)[x]?, (b.map ApInt.abs)[y]? with
          | some a, some c => g a c | _, _ => some (.ok .unit, b.map ApInt.abs)) := by
    intro x y f f' g h
    rw [List.getElem?_map, List.getElem?_map]
    cases hx : b[x]? with
    | none => exact skip
    | some a =>
      cases hy : b[y]? with
      | none => exact skip
      | some c => exact h a c hx hy
  cases i with
  | make k => exact .push hf (make_gives hb k _ hs)
  | clone x =>
    refine one x fun a hx => .keep hf rfl ?_
    rintro y s ⟨⟩
    exact kept_push (o := .ok a.abs) (abs hx) (by rintro z ⟨⟩; rfl)
  | drop x =>
    refine .keep hf rfl ?_
    rintro y s ⟨⟩
    exact fun z hz => ⟨z, List.mem_of_mem_eraseIdx hz, rfl⟩
  | assign x y =>
    refine two x y fun a c hx hy => .keep hf rfl ?_
    rintro y s ⟨⟩
    exact Kept.store (abs hy) rfl
  | strictAssign x y =>
    refine two x y fun a c hx hy => .keep hf rfl ?_
    intro y s h
    rw [← show _ = s from congrArg Prod.snd (Option.some.inj h)]
    refine kept_store (abs hx) ?_
    intro z hz
    split at hz
    · rename_i h
      cases hz
      exact h.symm
    · cases hz
  | un o x => exact one x fun a hx => .store hf hx (un_gives hb o (wf hx) (fit hx)).1
  | intoUn o x =>
    refine one x fun a hx => .push hf ?_
    rw [clone_ok (wf hx).1]
    exact (un_gives hb o (wf hx) (fit hx)).2
  | alter o x =>
    refine one x fun a hx => .keep hf rfl ?_
    intro y s h
    rw [← show _ = s from congrArg Prod.snd (Option.some.inj h)]
    exact kept_store (abs hx) fun z hz => alter_width hz
  | bin o x y =>
    refine two x y fun a c hx hy => .keep hf ?_ ?_
    · rw [(bin_eq o hb (wf hx) (wf hy) (fit hx) (by
        rintro rfl ⟨h1, h2⟩
        refine hs ⟨h1, ?_⟩
        simp only [Instr.Strains, abs hx, abs hy]
        exact h2)).1]
    · intro y s h
      simp only [Option.map_eq_some_iff] at h
      obtain ⟨r, h1, h2⟩ := h
      rw [← show _ = s from congrArg Prod.snd h2]
      exact kept_store (abs hx) fun z hz => bin_width (by rw [h1, hz])
  | intoBin o x y =>
    refine two x y fun a c hx hy => .keep hf ?_ ?_
    · simp only [clone_ok (wf hx).1, run_bind_ok]
      rw [(bin_eq o hb (wf hx) (wf hy) (fit hx) (by
        rintro rfl ⟨h1, h2⟩
        refine hs ⟨h1, ?_⟩
        simp only [Instr.Strains, abs hx, abs hy]
        exact h2)).2]
    · intro y s h
      simp only [Option.map_eq_some_iff] at h
      obtain ⟨r, h1, h2⟩ := h
      rw [← show _ = s from congrArg Prod.snd h2]
      exact kept_push (abs hx) fun z hz => bin_width (by rw [h1, hz])
  | opAssign o x y =>
    refine two x y fun a c hx hy => .keep hf ?_ ?_
    · rw [(op_eq o hb (wf hx) (wf hy) (fit hx) (by
        rintro rfl ⟨h1, h2⟩
        refine hs ⟨h1, ?_⟩
        simp only [Instr.Strains, abs hx, abs hy]
        exact h2)).1]
    · intro y s h
      simp only [Option.map_eq_some_iff] at h
      obtain ⟨r, h1, h2⟩ := h
      cases h2
      exact kept_store (o := .ok r) (abs hx) (by rintro z ⟨⟩; exact op_width h1)
  | op o x y =>
    refine two x y fun a c hx hy => .keep hf ?_ ?_
    · simp only [clone_ok (wf hx).1, run_bind_ok]
      rw [(op_eq o hb (wf hx) (wf hy) (fit hx) (by
        rintro rfl ⟨h1, h2⟩
        refine hs ⟨h1, ?_⟩
        simp only [Instr.Strains, abs hx, abs hy]
        exact h2)).2]
    · intro y s h
      simp only [Option.map_eq_some_iff] at h
      obtain ⟨r, h1, h2⟩ := h
      cases h2
      exact kept_push (o := .ok r) (abs hx) (by rintro z ⟨⟩; exact op_width h1)
  | opShlAssign n x =>
    refine one x fun a hx => .keep hf rfl ?_
    intro y s h
    simp only [Option.map_eq_some_iff] at h
    obtain ⟨r, h1, h2⟩ := h
    cases h2
    exact kept_store (o := .ok r) (abs hx) (by rintro z ⟨⟩; exact shl_width h1)
  | opShl n x =>
    refine one x fun a hx => .keep hf rfl ?_
    intro y s h
    simp only [Option.map_eq_some_iff] at h
    obtain ⟨r, h1, h2⟩ := h
    cases h2
    exact kept_push (o := .ok r) (abs hx) (by rintro z ⟨⟩; exact shl_width h1)
  | pair o x y =>
    refine two x y fun a c hx hy => .keep hf ?_ ?_
    · rw [pair_eq o hb (wf hx) (wf hy) (fit hx)]
    · intro y' s h
      simp only [Option.map_eq_some_iff] at h
      obtain ⟨r, h1, h2⟩ := h
      match r, h1, h2 with
      | .error e, h1, h2 => cases h2; exact .refl _
      | .ok (z, z'), h1, h2 =>
        cases h2
        obtain ⟨k1, k2⟩ := pair_width h1
        refine (Kept.store (x := x) (abs hx) k1).trans ?_
        have hl : x < (b.map ApInt.abs).length := (List.getElem?_eq_some_iff.1 (abs hx)).1
        refine Kept.store (x' := x) (a := z) ?_ (by rw [k1, k2])
        rw [List.getElem?_set_self hl]
  | ask q x =>
    refine one x fun a hx => .keep hf ?_ ?_
    · rw [ask_eq q hb (wf hx) (fit hx)]
    · intro y s h
      simp only [Option.map_eq_some_iff] at h
      obtain ⟨r, h1, h2⟩ := h
      cases h2
      exact .refl _
  | ask2 q x y =>
    refine two x y fun a c hx hy => .keep hf rfl ?_
    rintro y s ⟨⟩
    exact .refl _

/-- A call that is strained. -/
theorem exec_strained (hb : 7 ≤ m.bits) (i : Instr) {b : Bank} (hw : ∀ a ∈ b, a.WF)
    (hf : ∀ z ∈ b.map ApInt.abs, z.Fits m.bits) (hc : m.checks = true)
    (hs : i.Strains m.bits (b.map ApInt.abs)) : m.exec i b = .error .overflow := by
  have mul : ∀ {x y : Nat}, (match (b.map ApInt.abs)[x]?, (b.map ApInt.abs)[y]? with
      | some a, some c => a.Strains m.bits c
      | _, _ => False) → ∃ a c, b[x]? = some a ∧ b[y]? = some c ∧ a.WF ∧
        m.wrappingMulAssign a c = .error .overflow := by
    intro x y h
    rw [List.getElem?_map, List.getElem?_map] at h
    cases hx : b[x]? with
    | none => rw [hx] at h; cases h
    | some a =>
      cases hy : b[y]? with
      | none => rw [hx, hy] at h; cases h
      | some c =>
        rw [hx, hy] at h
        have wa := hw _ (List.mem_of_getElem? hx)
        have hr := (fits_iff hb a.abs).1 (hf _ (List.mem_map_of_mem (List.mem_of_getElem? hx)))
        exact ⟨a, c, rfl, rfl, wa, (wrappingMulAssign_cases wa.1
          (hw _ (List.mem_of_getElem? hy)).1 hr).1 ⟨hc, h⟩⟩
  match i, hs with
  | .make (.parse k t), hs =>
    have : m.exec (.make (.parse k t)) b = pushRes b (m.make (.parse k t)) := rfl
    rw [this, (parse_cases hb k t).1 ⟨hc, hs⟩]
    rfl
  | .bin .mul x y, hs =>
    obtain ⟨a, c, hx, hy, wa, h⟩ := mul hs
    simp only [Machine.exec, hx, hy, Machine.bin, h]
    rfl
  | .intoBin .mul x y, hs =>
    obtain ⟨a, c, hx, hy, wa, h⟩ := mul hs
    simp only [Machine.exec, hx, hy, Machine.intoBin, clone_ok wa.1, run_bind_ok,
      Machine.intoWrappingMul, tryForwardBinMutImpl, h]
    rfl
  | .opAssign .mul x y, hs =>
    obtain ⟨a, c, hx, hy, wa, h⟩ := mul hs
    simp only [Machine.exec, hx, hy, Machine.opAssign, Machine.opMulAssign, h]
    rfl
  | .op .mul x y, hs =>
    obtain ⟨a, c, hx, hy, wa, h⟩ := mul hs
    simp only [Machine.exec, hx, hy, Machine.op, Machine.opMul, clone_ok wa.1, run_bind_ok,
      Machine.intoWrappingMul, tryForwardBinMutImpl, h]
    rfl

/-- One call on a machine agrees with the abstract machine that knows the limit. -/
theorem exec_agreesOn (hb : 7 ≤ m.bits) (i : Instr) {b : Bank} (hw : ∀ a ∈ b, a.WF)
    (hf : ∀ z ∈ b.map ApInt.abs, z.Fits m.bits)
    (hs : ¬ (m.checks = true ∧ i.Strains m.bits (b.map ApInt.abs))) :
    match i.specOn m.bits (b.map ApInt.abs) with
    | none => m.exec i b = .error .panic ∨ m.exec i b = .error m.stop
    | some (x, s) => ∃ y c, m.exec i b = .ok (y, c) ∧ i.exec b = .ok (y, c) ∧ absRes y = x ∧
        (∀ a ∈ c, a.WF) ∧ c.map ApInt.abs = s ∧ ∀ z ∈ s, z.Fits m.bits := by
  have h := exec_sound hb i hw hf hs
  have h0 := exec_agrees i hw
  unfold Instr.specOn
  match hi : i.spec (b.map ApInt.abs) with
  | none =>
    rw [hi] at h h0
    have h0 : i.exec b = .error .panic := h0
    rcases h with ⟨h, _⟩ | ⟨h, x, s, e, _⟩
    · exact .inl (by rw [h, h0])
    · cases e
  | some (x, s) =>
    rw [hi] at h h0
    obtain ⟨y, c, h1, h2, h3, h4⟩ := h0
    rcases h with ⟨h, hfit⟩ | ⟨h, x', s', e, hn⟩
    · dsimp only
      rw [if_pos (hfit x s rfl)]
      exact ⟨y, c, by rw [h, h1], h1, h2, h3, h4, hfit x s rfl⟩
    · cases e
      dsimp only
      rw [if_neg hn]
      exact .inr h

end Machine

end Verif
