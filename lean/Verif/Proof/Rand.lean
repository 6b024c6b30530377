import Mathlib.SetTheory.Cardinal.Finite
import Verif.Model.Rand
import Verif.Proof.Ops

/-! # Random values -/

namespace Verif

namespace ApInt

/-- Collecting as many digits as a width requires and truncating to that width. -/
theorem collect_truncate {ds : List Digit} {t : BitWidth} (h : ds.length = (t.toUsize + 63) / 64) :
    ∃ a c, fromIter ds = .ok (.ok a) ∧ a.intoTruncate t = .ok (.ok c) ∧ c.WF ∧ c.len = t ∧
      c.uval = val ds % 2 ^ t.toUsize := by
  have hp := t.pos
  obtain ⟨a, e, h1, h2, h3⟩ := fromIter_ok (ds := ds) (by
    intro h0; rw [h0] at h; simp only [List.length_nil] at h; omega)
  obtain ⟨c, e2, g1, g2, g3⟩ := into_of_updates (truncate_ok h1 (t := t) (by rw [h2]; omega))
  refine ⟨a, c, e, e2, g1, g2, ?_⟩
  rw [g3]
  unfold uval
  rw [h3]

theorem Rng.length_take (rng : Rng) (n : Nat) : (rng.take n).length = n := by
  simp [Rng.take]

theorem randomWithWidthUsing_ok (t : BitWidth) (rng : Rng) :
    ∃ c, randomWithWidthUsing t rng = .ok (c, rng.drop ((t.toUsize + 63) / 64)) ∧ c.WF ∧
      c.len = t ∧ c.uval = val (rng.take ((t.toUsize + 63) / 64)) % 2 ^ t.toUsize := by
  obtain ⟨a, c, e1, e2, h⟩ := collect_truncate (t := t) (Rng.length_take rng _)
  refine ⟨c, ?_, h⟩
  unfold randomWithWidthUsing
  have hp := t.pos
  simp only [BitWidth.requiredDigits_eq]
  rw [if_neg (by omega)]
  simp only [e1, e2, run_bind_ok, expect_ok]

theorem randomizeUsing_ok {a : ApInt} (ha : a.Shape) (rng : Rng) :
    ∃ c, a.randomizeUsing rng = .ok (c, rng.drop ((a.w + 63) / 64)) ∧ c.WF ∧
      c.len = a.len ∧ c.uval = val (rng.take ((a.w + 63) / 64)) % 2 ^ a.w := by
  obtain ⟨b, e1, h1, h2, h3⟩ := writeDigitSlice_ok (a := a)
    (Rng.length_take rng ((a.w + 63) / 64))
  obtain ⟨c, e2, g1, g2, g3⟩ := clearUnusedBits_ok h1
  refine ⟨c, ?_, g1, by rw [g2, h2], ?_⟩
  · unfold randomizeUsing
    simp only [asDigitSlice_ok ha, run_bind_ok, ha.length_digits, e1, e2]
  · rw [g3]
    unfold uval w
    rw [h3, h2]

/-! ## Counting -/

/-- The digits of a number. -/
def toDigits : Nat → Nat → List Digit
  | 0, _ => []
  | n + 1, x => BitVec.ofNat 64 x :: toDigits n (x / B)

theorem length_toDigits (n x : Nat) : (toDigits n x).length = n := by
  induction n generalizing x with
  | zero => rfl
  | succ n ih => rw [toDigits, List.length_cons, ih]

theorem val_toDigits : ∀ (n x : Nat), x < B ^ n → val (toDigits n x) = x := by
  intro n
  induction n with
  | zero => intro x h; simp only [Nat.pow_zero] at h; simp [toDigits, val]; omega
  | succ n ih =>
    intro x h
    rw [toDigits, val_cons, ih _ (Nat.div_lt_of_lt_mul (by rw [Nat.mul_comm, ← Nat.pow_succ]; exact h)),
      BitVec.toNat_ofNat, ← B_eq]
    exact Nat.mod_add_div x B

theorem ofFn_getD {n : Nat} {l : List Digit} (h : l.length = n) :
    List.ofFn (fun i : Fin n => l.getD i 0#64) = l := by
  apply List.ext_getElem
  · simp [h]
  · intro i h1 h2
    simp [List.getD_eq_getElem?_getD, h2]

/-- The sequences of `n` digits with a given remainder modulo `2 ^ w` correspond to the possible
values of the bits above. -/
def digitsEquiv {n w v : Nat} (hw : w ≤ 64 * n) (hv : v < 2 ^ w) :
    {f : Fin n → Digit // val (List.ofFn f) % 2 ^ w = v} ≃ Fin (2 ^ (64 * n - w)) := by
  have hpow : (2:Nat) ^ (64 * n) = 2 ^ w * 2 ^ (64 * n - w) := by
    rw [← Nat.pow_add]; congr 1; omega
  have hbound : ∀ k : Nat, k < 2 ^ (64 * n - w) → v + 2 ^ w * k < B ^ n := by
    intro k hk
    rw [B_pow, hpow]
    calc v + 2 ^ w * k < 2 ^ w * (k + 1) := by rw [Nat.mul_add]; omega
      _ ≤ _ := Nat.mul_le_mul_left _ hk
  have hval : ∀ k : Nat, k < 2 ^ (64 * n - w) →
      val (List.ofFn (fun i : Fin n => (toDigits n (v + 2 ^ w * k)).getD i 0#64)) =
        v + 2 ^ w * k := by
    intro k hk
    rw [ofFn_getD (length_toDigits _ _), val_toDigits _ _ (hbound k hk)]
  refine
    { toFun := fun f => ⟨val (List.ofFn f.1) / 2 ^ w, ?_⟩
      invFun := fun k => ⟨fun i => (toDigits n (v + 2 ^ w * k.1)).getD i 0#64, ?_⟩
      left_inv := ?_
      right_inv := ?_ }
  · apply Nat.div_lt_of_lt_mul
    rw [← hpow, ← B_pow]
    have := val_lt (List.ofFn f.1)
    rwa [List.length_ofFn] at this
  · rw [hval k.1 k.2, Nat.add_mul_mod_self_left, Nat.mod_eq_of_lt hv]
  · rintro ⟨f, hf⟩
    apply Subtype.ext
    apply List.ofFn_injective
    apply val_inj (by simp)
    dsimp only
    have hlt : val (List.ofFn f) / 2 ^ w < 2 ^ (64 * n - w) := by
      apply Nat.div_lt_of_lt_mul
      rw [← hpow, ← B_pow]
      have := val_lt (List.ofFn f)
      rwa [List.length_ofFn] at this
    rw [hval _ hlt]
    have := Nat.mod_add_div (val (List.ofFn f)) (2 ^ w)
    omega
  · rintro ⟨k, hk⟩
    apply Fin.ext
    dsimp only
    rw [hval k hk, Nat.add_mul_div_left _ _ (by positivity), Nat.div_eq_of_lt hv, Nat.zero_add]

theorem card_digits {n w v : Nat} (hw : w ≤ 64 * n) (hv : v < 2 ^ w) :
    Nat.card {f : Fin n → Digit // val (List.ofFn f) % 2 ^ w = v} = 2 ^ (64 * n - w) := by
  rw [Nat.card_congr (digitsEquiv hw hv), Nat.card_fin]

end ApInt

end Verif
