import Verif.Proof.Machine
import Verif.Proof.Serde

/-! # Deserialization on a machine -/

namespace Verif.Machine

open ApInt Serde

variable {m : Machine}

theorem deFinish_eq {t : BitWidth} (h : m.Room t.requiredDigits) (ds : List Digit) :
    m.deFinish t ds = Serde.deFinish t ds := by
  unfold Machine.deFinish Serde.deFinish
  by_cases hl : t.requiredDigits = ds.length
  · rw [fromIter_eq (by rwa [← hl])]
    simp only [intoTruncate_eq h]
  · rw [if_pos hl, if_pos hl]

theorem deFinish_stop (hb : 7 ≤ m.bits) {t : BitWidth} (h : ¬ m.Room t.requiredDigits)
    {ds : List Digit} (hl : ds.length = (t.toUsize + 63) / 64) :
    m.deFinish t ds = .error m.stop := by
  rw [← BitWidth.requiredDigits_eq] at hl
  unfold Machine.deFinish
  rw [if_neg (by simp [hl]), fromIter_stop hb (by rwa [hl])]
  rfl

theorem deFinish_refuse {t : BitWidth} {ds : List Digit} (hl : ds.length ≠ (t.toUsize + 63) / 64) :
    m.deFinish t ds = .ok (.error .invalidValue) := by
  rw [← BitWidth.requiredDigits_eq] at hl
  unfold Machine.deFinish
  rw [if_pos (fun h => hl h.symm)]

/-- The end of both visitors: as without limits if the integer fits. -/
theorem deFinish_cases (hb : 7 ≤ m.bits) (t : BitWidth) (ds : List Digit) :
    (m.deFinish t ds = Serde.deFinish t ds ∧
      ∀ c, Serde.deFinish t ds = .ok (.ok c) → c.abs.Fits m.bits) ∨
    (m.deFinish t ds = .error m.stop ∧
      ∃ c, Serde.deFinish t ds = .ok (.ok c) ∧ ¬ c.abs.Fits m.bits) := by
  have key : ∀ {c : ApInt}, Serde.deFinish t ds = .ok (.ok c) →
      (c.abs.Fits m.bits ↔ m.Room t.requiredDigits) := by
    intro c hc
    obtain ⟨_, _, h, _⟩ := deFinish_sound hc
    subst h
    rw [fits_iff hb, BitWidth.requiredDigits_eq]
    rfl
  by_cases h : m.Room t.requiredDigits
  · exact .inl ⟨deFinish_eq h ds, fun c hc => (key hc).2 h⟩
  · by_cases hl : ds.length = (t.toUsize + 63) / 64
    · obtain ⟨c, e, _⟩ := deFinish_ok hl
      exact .inr ⟨deFinish_stop hb h hl, c, e, fun hc => h ((key e).1 hc)⟩
    · refine .inl ⟨by rw [deFinish_refuse hl, deFinish_err hl], fun c hc => ?_⟩
      rw [deFinish_err hl] at hc
      cases hc

/-- What the loop over the fields accepts. -/
theorem deFields_ok (m : Machine) : ∀ (fs : List (String × SVal)) (w : Option BitWidth)
    (ds : Option (List Digit)) (w' : BitWidth) (ds' : List Digit),
    m.deFields fs w ds = .ok (some w', some ds') →
    (fs = [] ∧ w = some w' ∧ ds = some ds') ∨
    (∃ x, fs = [("width", x)] ∧ w = none ∧ ds = some ds' ∧ m.deBitWidth true x = .ok w') ∨
    (∃ y, fs = [("digits", y)] ∧ w = some w' ∧ ds = none ∧ deDigits y = .ok ds') ∨
    (∃ x y, (fs = [("width", x), ("digits", y)] ∨ fs = [("digits", y), ("width", x)]) ∧
      w = none ∧ ds = none ∧ m.deBitWidth true x = .ok w' ∧ deDigits y = .ok ds') := by
  intro fs
  induction fs with
  | nil =>
    intro w ds w' ds' h
    simp only [Machine.deFields, Except.ok.injEq, Prod.mk.injEq] at h
    exact Or.inl ⟨rfl, h.1, h.2⟩
  | cons f fs ih =>
    intro w ds w' ds' h
    obtain ⟨key, v⟩ := f
    rw [Machine.deFields] at h
    by_cases h1 : key = "width"
    · subst h1
      rw [if_pos rfl] at h
      cases w with
      | some w => simp at h
      | none =>
        simp only [Option.isSome_none, Bool.false_eq_true, if_false] at h
        split at h
        · cases h
        · rename_i w1 e1
          rcases ih _ _ _ _ h with ⟨a1, a2, a3⟩ | ⟨x, -, a2, -⟩ | ⟨y, a1, a2, a3, a4⟩ |
            ⟨x, y, -, a2, -⟩
          · cases a2
            subst a1 a3
            exact Or.inr (Or.inl ⟨v, rfl, rfl, rfl, e1⟩)
          · cases a2
          · cases a2
            subst a1 a3
            exact Or.inr (Or.inr (Or.inr ⟨v, y, Or.inl rfl, rfl, rfl, e1, a4⟩))
          · cases a2
    · rw [if_neg h1] at h
      by_cases h2 : key = "digits"
      · subst h2
        rw [if_pos rfl] at h
        cases ds with
        | some ds => simp at h
        | none =>
          simp only [Option.isSome_none, Bool.false_eq_true, if_false] at h
          split at h
          · cases h
          · rename_i d1 e1
            rcases ih _ _ _ _ h with ⟨a1, a2, a3⟩ | ⟨x, a1, a2, a3, a4⟩ | ⟨y, -, -, a3, -⟩ |
              ⟨x, y, -, -, a3, -⟩
            · cases a3
              subst a1 a2
              exact Or.inr (Or.inr (Or.inl ⟨v, rfl, rfl, rfl, e1⟩))
            · cases a3
              subst a1 a2
              exact Or.inr (Or.inr (Or.inr ⟨x, v, Or.inr rfl, rfl, rfl, a4, e1⟩))
            · cases a3
            · cases a3
      · rw [if_neg h2] at h
        cases h

theorem visitMap_sound {fs : List (String × SVal)} {c : ApInt}
    (h : m.visitMap fs = .ok (.ok c)) :
    ∃ x y t ds, (fs = [("width", x), ("digits", y)] ∨ fs = [("digits", y), ("width", x)]) ∧
      m.deBitWidth true x = .ok t ∧ deDigits y = .ok ds ∧ m.deFinish t ds = .ok (.ok c) := by
  unfold Machine.visitMap at h
  split at h
  · cases h
  · cases h
  · cases h
  · rename_i t ds e
    rcases m.deFields_ok _ _ _ _ _ e with ⟨-, a, -⟩ | ⟨x, -, -, a, -⟩ | ⟨y, -, a, -⟩ |
      ⟨x, y, a1, -, -, a4, a5⟩
    · cases a
    · cases a
    · cases a
    · exact ⟨x, y, t, ds, a1, a4, a5, h⟩

theorem visitSeq_sound {xs : List SVal} {c : ApInt} (h : m.visitSeq xs = .ok (.ok c)) :
    ∃ x y rest t ds, xs = x :: y :: rest ∧ m.deBitWidth false x = .ok t ∧ deDigits y = .ok ds ∧
      m.deFinish t ds = .ok (.ok c) := by
  unfold Machine.visitSeq at h
  split at h
  · cases h
  · split at h
    · cases h
    · rename_i hw
      split at h
      · cases h
      · split at h
        · cases h
        · rename_i hd
          exact ⟨_, _, _, _, _, rfl, hw, hd, h⟩


theorem tryNew_sound {n : BitVec 64} {t : BitWidth} (h : m.tryNewBitwidth n = .ok t) :
    n.toNat % 2 ^ m.bits = t.toUsize := by
  unfold Machine.tryNewBitwidth BitWidth.new ofU64 at h
  by_cases h0 : n.toNat % 2 ^ m.bits = 0
  · rw [dif_pos h0] at h
    cases h
  · rw [dif_neg h0] at h
    cases h
    rfl

theorem deBitWidth_human {x : SVal} {t : BitWidth} (h : m.deBitWidth true x = .ok t) :
    ∃ n xs, deSeq x = .ok (.u64 n :: xs) ∧ n.toNat % 2 ^ m.bits = t.toUsize := by
  unfold Machine.deBitWidth at h
  rw [if_pos rfl] at h
  split at h
  · cases h
  · cases h
  · rename_i v xs e
    split at h
    · cases h
    · rename_i n en
      have := tryNew_sound h
      cases v <;> simp [deU64] at en
      subst en
      exact ⟨_, xs, e, this⟩

theorem deBitWidth_compact {x : SVal} {t : BitWidth} (h : m.deBitWidth false x = .ok t) :
    ∃ n, x = .u64 n ∧ n.toNat % 2 ^ m.bits = t.toUsize := by
  unfold Machine.deBitWidth at h
  rw [if_neg (by decide)] at h
  split at h
  · cases h
  · rename_i n en
    have := tryNew_sound h
    cases x <;> simp [deU64] at en
    subst en
    exact ⟨_, rfl, this⟩

/-! ## Machines whose words hold a `u64` -/

theorem tryNew_eq (h : 64 ≤ m.bits) (n : BitVec 64) : m.tryNewBitwidth n = Serde.tryNewBitwidth n := by
  unfold Machine.tryNewBitwidth Serde.tryNewBitwidth ofU64
  rw [Nat.mod_eq_of_lt (lt_of_lt_of_le n.isLt (Nat.pow_le_pow_right (by decide) h))]
  rfl

theorem deBitWidth_eq (h : 64 ≤ m.bits) (human : Bool) (v : SVal) :
    m.deBitWidth human v = Serde.deBitWidth human v := by
  unfold Machine.deBitWidth Serde.deBitWidth
  simp only [tryNew_eq h]
  rfl

theorem deFields_eq (h : 64 ≤ m.bits) : ∀ (fs : List (String × SVal)) (w : Option BitWidth)
    (ds : Option (List Digit)), m.deFields fs w ds = Serde.deFields fs w ds := by
  intro fs
  induction fs with
  | nil => intro w ds; rfl
  | cons f fs ih =>
    intro w ds
    obtain ⟨key, v⟩ := f
    simp only [Machine.deFields, Serde.deFields, deBitWidth_eq h, ih]
    rfl

/-- As without limits if the integer fits. -/
theorem deserialize_cases (h : 64 ≤ m.bits) (human : Bool) (v : SVal) :
    (m.deserialize human v = Serde.deserialize human v ∧
      ∀ c, Serde.deserialize human v = .ok (.ok c) → c.abs.Fits m.bits) ∨
    (m.deserialize human v = .error m.stop ∧
      ∃ c, Serde.deserialize human v = .ok (.ok c) ∧ ¬ c.abs.Fits m.bits) := by
  have hb : 7 ≤ m.bits := by omega
  unfold Machine.deserialize Serde.deserialize
  cases human with
  | true =>
    rw [if_pos rfl, if_pos rfl]
    cases v with
    | struct n fs =>
      dsimp only
      unfold Machine.visitMap Serde.visitMap
      rw [deFields_eq h]
      match Serde.deFields fs none none with
      | .error e => exact .inl ⟨rfl, nofun⟩
      | .ok (none, _) => exact .inl ⟨rfl, nofun⟩
      | .ok (some _, none) => exact .inl ⟨rfl, nofun⟩
      | .ok (some t, some ds) => exact deFinish_cases hb t ds
    | _ => exact .inl ⟨rfl, nofun⟩
  | false =>
    rw [if_neg (by decide), if_neg (by decide)]
    match deSeq v with
    | .error e => exact .inl ⟨rfl, nofun⟩
    | .ok [] => exact .inl ⟨rfl, nofun⟩
    | .ok (x :: rest) =>
      dsimp only
      unfold Machine.visitSeq Serde.visitSeq
      dsimp only
      rw [deBitWidth_eq h]
      match Serde.deBitWidth false x, rest with
      | .error e, _ => exact .inl ⟨rfl, nofun⟩
      | .ok t, [] => exact .inl ⟨rfl, nofun⟩
      | .ok t, y :: _ =>
        dsimp only
        match deDigits y with
        | .error e => exact .inl ⟨rfl, nofun⟩
        | .ok ds => exact deFinish_cases hb t ds

end Verif.Machine
