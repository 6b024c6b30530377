import Verif.Model.Serde
import Verif.Proof.Rand

/-! # Serialization -/

namespace Verif

namespace Serde

open ApInt

theorem deDigitList_map (ds : List Digit) : deDigitList (ds.map SVal.u64) = .ok ds := by
  induction ds with
  | nil => rfl
  | cons d ds ih => simp only [List.map_cons, deDigitList, deDigit, deU64, ih]

theorem deFinish_ok {t : BitWidth} {ds : List Digit} (h : ds.length = (t.toUsize + 63) / 64) :
    ∃ c, deFinish t ds = .ok (.ok c) ∧ c.WF ∧ c.len = t ∧ c.uval = val ds % 2 ^ t.toUsize := by
  obtain ⟨a, c, e1, e2, h1⟩ := collect_truncate h
  refine ⟨c, ?_, h1⟩
  unfold deFinish
  rw [if_neg (by rw [BitWidth.requiredDigits_eq, h]; simp)]
  simp only [e1, e2, run_bind_ok, expect_ok]

theorem deFinish_err {t : BitWidth} {ds : List Digit} (h : ds.length ≠ (t.toUsize + 63) / 64) :
    deFinish t ds = .ok (.error .invalidValue) := by
  unfold deFinish
  rw [if_pos (by rw [BitWidth.requiredDigits_eq]; exact fun hc => h hc.symm)]

theorem deFinish_total (t : BitWidth) (ds : List Digit) : ∃ x, deFinish t ds = .ok x := by
  by_cases h : ds.length = (t.toUsize + 63) / 64
  · obtain ⟨c, e, -⟩ := deFinish_ok h; exact ⟨_, e⟩
  · exact ⟨_, deFinish_err h⟩

theorem deFinish_sound {t : BitWidth} {ds : List Digit} {c : ApInt}
    (h : deFinish t ds = .ok (.ok c)) :
    ds.length = (t.toUsize + 63) / 64 ∧ c.WF ∧ c.len = t ∧ c.uval = val ds % 2 ^ t.toUsize := by
  by_cases hl : ds.length = (t.toUsize + 63) / 64
  · obtain ⟨c', e, h'⟩ := deFinish_ok hl
    rw [e] at h; cases h
    exact ⟨hl, h'⟩
  · rw [deFinish_err hl] at h; cases h

theorem tryNew_ok {v : BitVec 64} (h : v.toNat ≠ 0) :
    tryNewBitwidth v = .ok ⟨v.toNat, Nat.pos_of_ne_zero h⟩ := by
  simp [tryNewBitwidth, BitWidth.new, h]

theorem tryNew_err {v : BitVec 64} (h : v.toNat = 0) :
    tryNewBitwidth v = .error .invalidValue := by
  simp [tryNewBitwidth, BitWidth.new, h]

/-- What the loop over the fields accepts. -/
theorem deFields_ok : ∀ (fs : List (String × SVal)) (w : Option BitWidth)
    (ds : Option (List Digit)) (w' : BitWidth) (ds' : List Digit),
    deFields fs w ds = .ok (some w', some ds') →
    (fs = [] ∧ w = some w' ∧ ds = some ds') ∨
    (∃ x, fs = [("width", x)] ∧ w = none ∧ ds = some ds' ∧ deBitWidth true x = .ok w') ∨
    (∃ y, fs = [("digits", y)] ∧ w = some w' ∧ ds = none ∧ deDigits y = .ok ds') ∨
    (∃ x y, (fs = [("width", x), ("digits", y)] ∨ fs = [("digits", y), ("width", x)]) ∧
      w = none ∧ ds = none ∧ deBitWidth true x = .ok w' ∧ deDigits y = .ok ds') := by
  intro fs
  induction fs with
  | nil =>
    intro w ds w' ds' h
    simp only [deFields, Except.ok.injEq, Prod.mk.injEq] at h
    exact Or.inl ⟨rfl, h.1, h.2⟩
  | cons f fs ih =>
    intro w ds w' ds' h
    obtain ⟨key, v⟩ := f
    rw [deFields] at h
    by_cases h1 : key = "width"
    · subst h1
      rw [if_pos rfl] at h
      cases w with
      | some w => simp at h
      | none =>
        simp only [Option.isSome_none, Bool.false_eq_true, if_false] at h
        split at h
        · cases h
        · rename_i w1 e1
          rcases ih _ _ _ _ h with ⟨a1, a2, a3⟩ | ⟨x, -, a2, -⟩ | ⟨y, a1, a2, a3, a4⟩ |
            ⟨x, y, -, a2, -⟩
          · cases a2
            subst a1 a3
            exact Or.inr (Or.inl ⟨v, rfl, rfl, rfl, e1⟩)
          · cases a2
          · cases a2
            subst a1 a3
            exact Or.inr (Or.inr (Or.inr ⟨v, y, Or.inl rfl, rfl, rfl, e1, a4⟩))
          · cases a2
    · rw [if_neg h1] at h
      by_cases h2 : key = "digits"
      · subst h2
        rw [if_pos rfl] at h
        cases ds with
        | some ds => simp at h
        | none =>
          simp only [Option.isSome_none, Bool.false_eq_true, if_false] at h
          split at h
          · cases h
          · rename_i d1 e1
            rcases ih _ _ _ _ h with ⟨a1, a2, a3⟩ | ⟨x, a1, a2, a3, a4⟩ | ⟨y, -, -, a3, -⟩ |
              ⟨x, y, -, -, a3, -⟩
            · cases a3
              subst a1 a2
              exact Or.inr (Or.inr (Or.inl ⟨v, rfl, rfl, rfl, e1⟩))
            · cases a3
              subst a1 a2
              exact Or.inr (Or.inr (Or.inr ⟨x, v, Or.inr rfl, rfl, rfl, a4, e1⟩))
            · cases a3
            · cases a3
      · rw [if_neg h2] at h
        cases h

theorem visitMap_sound {fs : List (String × SVal)} {c : ApInt}
    (h : visitMap fs = .ok (.ok c)) :
    ∃ x y t ds, (fs = [("width", x), ("digits", y)] ∨ fs = [("digits", y), ("width", x)]) ∧
      deBitWidth true x = .ok t ∧ deDigits y = .ok ds ∧ deFinish t ds = .ok (.ok c) := by
  unfold visitMap at h
  split at h
  · cases h
  · cases h
  · cases h
  · rename_i t ds e
    rcases deFields_ok _ _ _ _ _ e with ⟨-, a, -⟩ | ⟨x, -, -, a, -⟩ | ⟨y, -, a, -⟩ |
      ⟨x, y, a1, -, -, a4, a5⟩
    · cases a
    · cases a
    · cases a
    · exact ⟨x, y, t, ds, a1, a4, a5, h⟩

theorem visitMap_two {x y : SVal} {t : BitWidth} {ds : List Digit} (hx : deBitWidth true x = .ok t)
    (hy : deDigits y = .ok ds) :
    visitMap [("width", x), ("digits", y)] = deFinish t ds ∧
    visitMap [("digits", y), ("width", x)] = deFinish t ds := by
  constructor <;> simp [visitMap, deFields, hx, hy]

theorem visitMap_total (fs : List (String × SVal)) : ∃ x, visitMap fs = .ok x := by
  unfold visitMap
  split
  · exact ⟨_, rfl⟩
  · exact ⟨_, rfl⟩
  · exact ⟨_, rfl⟩
  · exact deFinish_total _ _

theorem deBitWidth_human {x : SVal} {t : BitWidth} (h : deBitWidth true x = .ok t) :
    ∃ n xs, deSeq x = .ok (.u64 n :: xs) ∧ n.toNat = t.toUsize := by
  unfold deBitWidth at h
  rw [if_pos rfl] at h
  split at h
  · cases h
  · cases h
  · rename_i v xs e
    split at h
    · cases h
    · rename_i n en
      by_cases hn : n.toNat = 0
      · rw [tryNew_err hn] at h; cases h
      · rw [tryNew_ok hn] at h
        cases h
        cases v <;> simp [deU64] at en
        subst en
        exact ⟨_, xs, e, rfl⟩

theorem deBitWidth_compact {x : SVal} {t : BitWidth} (h : deBitWidth false x = .ok t) :
    ∃ n, x = .u64 n ∧ n.toNat = t.toUsize := by
  unfold deBitWidth at h
  rw [if_neg (by decide)] at h
  split at h
  · cases h
  · rename_i n en
    by_cases hn : n.toNat = 0
    · rw [tryNew_err hn] at h; cases h
    · rw [tryNew_ok hn] at h
      cases h
      cases x <;> simp [deU64] at en
      subst en
      exact ⟨_, rfl, rfl⟩

theorem deDigitList_ok : ∀ {xs : List SVal} {ds : List Digit}, deDigitList xs = .ok ds →
    xs = ds.map SVal.u64 := by
  intro xs
  induction xs with
  | nil => intro ds h; cases h; rfl
  | cons x xs ih =>
    intro ds h
    rw [deDigitList] at h
    split at h
    · cases h
    · rename_i d hd
      split at h
      · cases h
      · rename_i ds' hds
        cases h
        cases x <;> simp [deDigit, deU64] at hd
        subst hd
        rw [List.map_cons, ih hds]

theorem deDigits_ok {y : SVal} {ds : List Digit} (h : deDigits y = .ok ds) :
    deSeq y = .ok (ds.map SVal.u64) := by
  unfold deDigits at h
  split at h
  · cases h
  · rename_i xs e
    rw [e, deDigitList_ok h]

theorem visitSeq_sound {xs : List SVal} {c : ApInt} (h : visitSeq xs = .ok (.ok c)) :
    ∃ x y rest t ds, xs = x :: y :: rest ∧ deBitWidth false x = .ok t ∧ deDigits y = .ok ds ∧
      deFinish t ds = .ok (.ok c) := by
  unfold visitSeq at h
  split at h
  · cases h
  · split at h
    · cases h
    · rename_i hw
      split at h
      · cases h
      · split at h
        · cases h
        · rename_i hd
          exact ⟨_, _, _, _, _, rfl, hw, hd, h⟩

theorem visitSeq_total {xs : List SVal} (h : xs ≠ []) : ∃ x, visitSeq xs = .ok x := by
  unfold visitSeq
  split
  · exact absurd rfl h
  · split
    · exact ⟨_, rfl⟩
    · split
      · exact ⟨_, rfl⟩
      · split
        · exact ⟨_, rfl⟩
        · exact deFinish_total _ _

end Serde

end Verif
