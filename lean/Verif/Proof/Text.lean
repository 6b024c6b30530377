import Mathlib.Data.Nat.Digits.Lemmas
import Verif.Model.Strings
import Verif.SpecText
import Verif.Proof.Casting

/-! # Parsing: from characters to digit values -/

namespace Verif

theorem charVal_lt {c : Char} {d : Nat} (h : charVal c = some d) : d < 36 := by
  unfold charVal at h
  simp only [Char.le_def, UInt32.le_iff_toNat_le] at h
  simp only [Char.toNat] at h
  split at h
  · simp at h; simp at *; omega
  · split at h
    · simp at h; simp at *; omega
    · split at h
      · simp at h; simp at *; omega
      · cases h

theorem charVal_underscore : charVal '_' = none := by decide

namespace ApInt

/-- The bytes of one character, seen by the parser. -/
theorem byteToDigit_ascii {c : Char} (h : c.toNat < 128) :
    byteToDigit c.toNat = if c = '_' then none else some ((charVal c).getD 255) := by
  unfold byteToDigit charVal
  simp only [Char.le_def, UInt32.le_iff_toNat_le]
  have hu : c = '_' ↔ c.toNat = 95 := by
    constructor
    · rintro rfl; rfl
    · intro h; exact Char.ext (UInt32.toNat_inj.1 h)
  simp only [hu]
  simp only [Char.toNat] at *
  have e0 : '0'.val.toNat = 48 := rfl
  have e9 : '9'.val.toNat = 57 := rfl
  have ea : 'a'.val.toNat = 97 := rfl
  have ez : 'z'.val.toNat = 122 := rfl
  have eA : 'A'.val.toNat = 65 := rfl
  have eZ : 'Z'.val.toNat = 90 := rfl
  simp only [e0, e9, ea, ez, eA, eZ]
  by_cases h1 : 48 ≤ c.val.toNat ∧ c.val.toNat ≤ 57
  · rw [if_pos h1, if_pos h1, if_neg (by omega)]; rfl
  · by_cases h2 : 97 ≤ c.val.toNat ∧ c.val.toNat ≤ 122
    · rw [if_neg h1, if_pos h2, if_neg h1, if_pos h2, if_neg (by omega)]; rfl
    · by_cases h3 : 65 ≤ c.val.toNat ∧ c.val.toNat ≤ 90
      · rw [if_neg h1, if_neg h2, if_pos h3, if_neg h1, if_neg h2, if_pos h3, if_neg (by omega)]
        rfl
      · rw [if_neg h1, if_neg h2, if_neg h3, if_neg h1, if_neg h2, if_neg h3]; rfl

theorem charVal_of_ge {c : Char} (h : 128 ≤ c.toNat) : charVal c = none ∧ c ≠ '_' := by
  constructor
  · unfold charVal
    simp only [Char.le_def, UInt32.le_iff_toNat_le]
    simp only [Char.toNat] at *
    have e9 : '9'.val.toNat = 57 := rfl
    have ez : 'z'.val.toNat = 122 := rfl
    have eZ : 'Z'.val.toNat = 90 := rfl
    simp only [e9, ez, eZ]
    rw [if_neg (by omega), if_neg (by omega), if_neg (by omega)]
  · rintro rfl
    revert h; decide

/-- A character outside ASCII is encoded in bytes that all have the top bit set. -/
theorem utf8_big {c : Char} (h : 128 ≤ c.toNat) :
    ∃ b rest, (String.utf8EncodeChar c).map UInt8.toNat = b :: rest ∧ 128 ≤ b := by
  unfold String.utf8EncodeChar
  simp only [Char.toNat] at h
  have h0 : ¬ c.val.toNat ≤ 127 := by omega
  by_cases h1 : c.val.toNat ≤ 0x7ff
  · simp only [h0, h1, if_true, if_false, List.map_cons]
    refine ⟨_, _, rfl, ?_⟩
    simp only [UInt8.toNat_ofNat']
    omega
  · by_cases h2 : c.val.toNat ≤ 0xffff
    · simp only [h0, h1, h2, if_true, if_false, List.map_cons]
      refine ⟨_, _, rfl, ?_⟩
      simp only [UInt8.toNat_ofNat']
      omega
    · simp only [h0, h1, h2, if_false, List.map_cons]
      refine ⟨_, _, rfl, ?_⟩
      simp only [UInt8.toNat_ofNat']
      omega

theorem utf8_small {c : Char} (h : c.toNat < 128) :
    (String.utf8EncodeChar c).map UInt8.toNat = [c.toNat] := by
  unfold String.utf8EncodeChar
  simp only [Char.toNat] at *
  have h0 : c.val.toNat ≤ 127 := by omega
  simp only [h0, if_true, List.map_cons, List.map_nil, UInt8.toNat_ofNat']
  congr 1
  omega

/-- A character the parser takes: an underscore or a digit of the radix. -/
def GoodChar (r : Nat) (c : Char) : Prop := c = '_' ∨ ∃ d, charVal c = some d ∧ d < r

theorem goodChar_ascii {r : Nat} {c : Char} (h : GoodChar r c) : c.toNat < 128 := by
  by_contra hn
  obtain ⟨h1, h2⟩ := charVal_of_ge (c := c) (by omega)
  rcases h with h | ⟨d, h, -⟩
  · exact h2 h
  · rw [h1] at h; cases h

theorem collect_good {input : List Char} {r : Radix} : ∀ (s : List Char) (v : List Nat),
    (∀ c ∈ s, GoodChar r.toU8 c) →
    collectDigits input r (utf8Bytes s) v = .ok (v ++ textDigits s) := by
  intro s
  induction s with
  | nil => intro v _; simp [utf8Bytes, collectDigits, textDigits]
  | cons c s ih =>
    intro v hg
    have hc := hg c (by simp)
    have ha := goodChar_ascii hc
    have ih' := fun v => ih v (fun c hc => hg c (by simp [hc]))
    have e : utf8Bytes (c :: s) = c.toNat :: utf8Bytes s := by
      unfold utf8Bytes
      rw [List.flatMap_cons, utf8_small ha]; rfl
    rw [e, collectDigits, byteToDigit_ascii ha]
    by_cases hu : c = '_'
    · subst hu
      simp only [if_true]
      rw [ih']
      simp [textDigits, charVal_underscore]
    · rcases hc with hc | ⟨d, hd, hlt⟩
      · exact absurd hc hu
      · simp only [hu, if_false, hd, Option.getD_some, Radix.isValidByte, hlt, decide_true,
          Bool.not_true, Bool.false_eq_true]
        rw [ih']
        simp [textDigits, hd]

theorem collect_bad {input : List Char} {r : Radix} (hr : r.toU8 ≤ 36) :
    ∀ (s : List Char) (v : List Nat), (¬ ∀ c ∈ s, GoodChar r.toU8 c) →
    collectDigits input r (utf8Bytes s) v = .error (.invalidStringRepr input r none) := by
  intro s
  induction s with
  | nil => intro v h; exact absurd (by simp) h
  | cons c s ih =>
    intro v hb
    by_cases hc : GoodChar r.toU8 c
    · have hs : ¬ ∀ c ∈ s, GoodChar r.toU8 c := by
        intro h; apply hb
        intro x hx
        rcases List.mem_cons.1 hx with rfl | hx
        · exact hc
        · exact h x hx
      have ha := goodChar_ascii hc
      have e : utf8Bytes (c :: s) = c.toNat :: utf8Bytes s := by
        unfold utf8Bytes
        rw [List.flatMap_cons, utf8_small ha]; rfl
      rw [e, collectDigits, byteToDigit_ascii ha]
      by_cases hu : c = '_'
      · simp only [hu, if_true]; exact ih _ hs
      · rcases hc with hc | ⟨d, hd, hlt⟩
        · exact absurd hc hu
        · simp only [hu, if_false, hd, Option.getD_some, Radix.isValidByte, hlt, decide_true,
            Bool.not_true, Bool.false_eq_true]
          exact ih _ hs
    · by_cases ha : c.toNat < 128
      · have e : utf8Bytes (c :: s) = c.toNat :: utf8Bytes s := by
          unfold utf8Bytes
          rw [List.flatMap_cons, utf8_small ha]; rfl
        have hu : c ≠ '_' := fun h => hc (Or.inl h)
        rw [e, collectDigits, byteToDigit_ascii ha]
        simp only [hu, if_false]
        have hlt : ¬ (charVal c).getD 255 < r.toU8 := by
          cases hd : charVal c with
          | none => simp; omega
          | some d =>
            intro h
            exact hc (Or.inr ⟨d, hd, by simpa using h⟩)
        simp [Radix.isValidByte, hlt]
      · obtain ⟨b, rest, e, hb'⟩ := utf8_big (c := c) (by omega)
        have e' : utf8Bytes (c :: s) = b :: (rest ++ utf8Bytes s) := by
          unfold utf8Bytes
          rw [List.flatMap_cons, e]; rfl
        rw [e', collectDigits]
        have : byteToDigit b = some 255 := by
          unfold byteToDigit
          rw [if_neg (by omega), if_neg (by omega), if_neg (by omega), if_neg (by omega)]
        rw [this]
        have hv : r.isValidByte 255 = false := by
          unfold Radix.isValidByte
          exact decide_eq_false (by omega)
        simp only [hv, Bool.not_false, if_true]

theorem textDigits_lt {r : Nat} {s : List Char} (h : ∀ c ∈ s, GoodChar r c) :
    ∀ d ∈ textDigits s, d < r := by
  intro d hd
  obtain ⟨c, hc, hcd⟩ := List.mem_filterMap.1 hd
  rcases h c hc with rfl | ⟨d', h1, h2⟩
  · rw [charVal_underscore] at hcd; cases hcd
  · rw [h1] at hcd; cases hcd; exact h2

theorem textDigits_ne_nil {r : Nat} {s : List Char} (h : Accepted r s) : textDigits s ≠ [] := by
  obtain ⟨h1, h2, -, h4⟩ := h
  cases s with
  | nil => exact absurd rfl h1
  | cons c s =>
    rcases h4 c (by simp) with rfl | ⟨d, hd, -⟩
    · simp at h2
    · simp [textDigits, hd]

/-! ## Positional value -/

theorem numeral_eq (r : Nat) (ds : List Nat) : numeral r ds = Nat.ofDigits r ds.reverse := by
  unfold numeral
  rw [Nat.ofDigits_eq_foldr, List.foldr_reverse]
  congr 1
  funext a d
  simp only [Nat.cast_id]
  rw [Nat.mul_comm, Nat.add_comm]

end ApInt

end Verif
