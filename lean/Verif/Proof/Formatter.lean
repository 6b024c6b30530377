import Verif.SpecFormatter
import Verif.Proof.Format

/-!
# Lemmas about printing into a formatter (C94)
-/

namespace Verif

open ApInt

variable {a : ApInt} {cut : List Char → List (List Char)}

theorem handed_pieces {σ : Type} (s : Sink σ) (ps : List (List Char)) (t : σ) :
    Handed s ps t (s.pieces ps t).1 (s.pieces ps t).2 := by
  induction ps generalizing t with
  | nil => exact .all t
  | cons p ps ih =>
    unfold Sink.pieces
    split
    · rename_i h; exact .takes h (ih _)
    · rename_i h; exact .refuses h

theorem pieces_append {σ : Type} (s : Sink σ) (ps qs : List (List Char)) (t : σ) :
    s.pieces (ps ++ qs) t = match s.pieces ps t with
      | (true, t) => s.pieces qs t
      | (false, t) => (false, t) := by
  induction ps generalizing t with
  | nil => rfl
  | cons p ps ih =>
    rw [List.cons_append, Sink.pieces, Sink.pieces]
    cases hp : s.writeStr p t with
    | mk r t' =>
      cases r with
      | false => rfl
      | true => exact ih t'

theorem pad_plain (pre buf : List Char) : padIntegral {} pre buf = buf := rfl

theorem pad_zero (w : Nat) (pre buf : List Char) :
    padIntegral { zero := true, width := some w } pre buf =
      List.replicate (w - buf.length) '0' ++ buf := by
  simp [padIntegral]

/-- The pieces of the lower digits. -/
def restPieces (cut : List Char → List (List Char)) (b : Base) (ds : List Digit) :
    List (List Char) :=
  ds.flatMap fun d => cut (stdFmtPad b.radix b.char b.chars d.toNat)

/-- The pieces of the digits. -/
def digitPieces (cut : List Char → List (List Char)) (b : Base) : List Digit → List (List Char)
  | [] => []
  | d :: ds =>
    if Digit.isZero d then digitPieces cut b ds
    else cut (stdFmt b.radix b.char d.toNat) ++ restPieces cut b ds

theorem rest_pieces {σ : Type} (s : Sink σ) (b : Base) (ds : List Digit) (t : σ) :
    fmtRestTo cut s b ds t = s.pieces (restPieces cut b ds) t := by
  induction ds generalizing t with
  | nil => rfl
  | cons d ds ih =>
    rw [show restPieces cut b (d :: ds) =
      cut (stdFmtPad b.radix b.char b.chars d.toNat) ++ restPieces cut b ds from rfl, pieces_append]
    unfold fmtRestTo Digit.fmtTo Sink.write
    rw [pad_zero]
    split <;> rename_i h
    · rw [show s.pieces (cut (stdFmtPad b.radix b.char b.chars d.toNat)) t = _ from h]
      exact ih _
    · rw [show s.pieces (cut (stdFmtPad b.radix b.char b.chars d.toNat)) t = _ from h]

theorem digit_pieces {σ : Type} (s : Sink σ) (b : Base) (ds : List Digit) (t : σ) :
    fmtDigitsTo cut s b ds t = s.pieces (digitPieces cut b ds) t := by
  induction ds with
  | nil => rfl
  | cons d ds ih =>
    unfold fmtDigitsTo digitPieces
    split
    · exact ih
    · rw [pieces_append]
      unfold Digit.fmtTo Sink.write
      rw [pad_plain]
      split <;> rename_i h
      · rw [h]; exact rest_pieces s b ds _
      · rw [h]

theorem rest_text (hc : ∀ t, (cut t).flatten = t) (b : Base) (ds : List Digit) :
    (restPieces cut b ds).flatten = ds.flatMap fun d => stdFmtPad b.radix b.char b.chars d.toNat := by
  induction ds with
  | nil => rfl
  | cons d ds ih =>
    rw [show restPieces cut b (d :: ds) =
      cut (stdFmtPad b.radix b.char b.chars d.toNat) ++ restPieces cut b ds from rfl,
      List.flatten_append, hc, ih]
    rfl

theorem digit_text (hc : ∀ t, (cut t).flatten = t) (b : Base) (ds : List Digit) :
    (digitPieces cut b ds).flatten = fmtDigits b.radix b.char b.chars ds := by
  induction ds with
  | nil => rfl
  | cons d ds ih =>
    unfold digitPieces fmtDigits
    split
    · exact ih
    · rw [List.flatten_append, hc, rest_text hc]

theorem prints (hc : ∀ t, (cut t).flatten = t) (b : Base) {text : List Char}
    (h : (do
      let z ← a.isZero
      if z then .ok ['0']
      else do
        let ds ← a.asDigitSlice
        .ok (fmtDigits b.radix b.char b.chars ds.reverse) : Run (List Char)) = .ok text) :
    Prints (fun s => a.fmtTo cut s b) text := by
  unfold Prints ApInt.fmtTo
  cases hz : a.isZero with
  | error f => rw [hz] at h; cases h
  | ok z =>
    rw [hz, run_bind_ok] at h
    cases z with
    | true =>
      cases h
      exact ⟨cut ['0'], hc _, fun s fl t => ⟨_, _, rfl, handed_pieces s _ t⟩⟩
    | false =>
      cases hd : a.asDigitSlice with
      | error f => rw [hd] at h; cases h
      | ok ds =>
        rw [hd] at h
        have h : fmtDigits b.radix b.char b.chars ds.reverse = text := Except.ok.inj h
        refine ⟨digitPieces cut b ds.reverse, by rw [digit_text hc, h], fun s fl t => ?_⟩
        refine ⟨_, _, rfl, ?_⟩
        have hp := handed_pieces s (digitPieces cut b ds.reverse) t
        rw [← digit_pieces] at hp
        exact hp

/-- What the writers of the specification hold after being handed the pieces. -/
theorem handed_string {ps : List (List Char)} {t u : List Char} {r : Bool}
    (h : Handed stringSink ps t r u) : r = true ∧ u = t ++ ps.flatten := by
  generalize hs : stringSink = s at h
  induction h with
  | all t => simp
  | takes hw _ ih =>
    subst hs
    cases hw
    obtain ⟨hr, hu⟩ := ih
    exact ⟨hr, by rw [hu]; simp⟩
  | refuses hw => subst hs; cases hw

theorem handed_buffer {n : Nat} {ps : List (List Char)} {t u : List Char} {r : Bool}
    (h : Handed (bufferSink n) ps t r u) (ht : t.length ≤ n) :
    ∃ q, u = t ++ q ∧ q <+: ps.flatten ∧ u.length ≤ n ∧
      (r = true → q = ps.flatten) ∧ (r = false → n < t.length + ps.flatten.length) := by
  generalize hs : bufferSink n = s at h
  induction h with
  | all t => exact ⟨[], by simp, by simp, ht, by simp, by simp⟩
  | @takes p ps t t' u r hw _ ih =>
    subst hs
    simp only [bufferSink] at hw
    split at hw
    · rename_i hle
      cases hw
      obtain ⟨q, hu, hq, hl, h1, h2⟩ := ih (by simpa using hle)
      refine ⟨p ++ q, by rw [hu, List.append_assoc], ?_, hl, ?_, ?_⟩
      · simpa using hq
      · intro hr; rw [h1 hr]; rfl
      · intro hr; have := h2 hr; simp at this ⊢; omega
    · cases hw
  | @refuses p ps t t' hw =>
    subst hs
    simp only [bufferSink] at hw
    split at hw
    · cases hw
    · rename_i hle
      cases hw
      refine ⟨[], by simp, by simp, ht, by simp, fun _ => ?_⟩
      simp; omega

/-- A way to print, as its pieces handed over one by one. -/
theorem Prints.string {f : ∀ {σ : Type}, Sink σ → Flags → σ → Run (Bool × σ)} {text : List Char}
    (h : Prints f text) (fl : Flags) (t : List Char) :
    f stringSink fl t = .ok (true, t ++ text) := by
  obtain ⟨ps, rfl, h⟩ := h
  obtain ⟨r, u, e, hh⟩ := h stringSink fl t
  obtain ⟨rfl, rfl⟩ := handed_string hh
  exact e

theorem Prints.buffer {f : ∀ {σ : Type}, Sink σ → Flags → σ → Run (Bool × σ)} {text : List Char}
    (h : Prints f text) (n : Nat) (fl : Flags) {t : List Char} (ht : t.length ≤ n) :
    (t.length + text.length ≤ n → f (bufferSink n) fl t = .ok (true, t ++ text)) ∧
    (n < t.length + text.length → ∃ q, f (bufferSink n) fl t = .ok (false, t ++ q) ∧
      q <+: text ∧ t.length + q.length ≤ n) := by
  obtain ⟨ps, rfl, h⟩ := h
  obtain ⟨r, u, e, hh⟩ := h (bufferSink n) fl t
  obtain ⟨q, rfl, hq, hl, h1, h2⟩ := handed_buffer hh ht
  cases r with
  | true =>
    cases h1 rfl
    refine ⟨fun _ => e, fun hn => ?_⟩
    simp at hl hn
    omega
  | false =>
    have := h2 rfl
    exact ⟨fun hn => absurd hn (by omega), fun _ => ⟨q, e, hq, by simpa using hl⟩⟩

theorem Prints.broken {f : ∀ {σ : Type}, Sink σ → Flags → σ → Run (Bool × σ)} {text : List Char}
    (h : Prints f text) (h0 : text ≠ []) (fl : Flags) (t : Nat) :
    f brokenSink fl t = .ok (false, t + 1) := by
  obtain ⟨ps, rfl, h⟩ := h
  obtain ⟨r, u, e, hh⟩ := h brokenSink fl t
  cases hh with
  | all => exact absurd rfl h0
  | takes hw => cases hw
  | refuses hw => cases hw; exact e

theorem canonical_ne_nil (b : Nat) (al : List Char) (v : Nat) : canonical b al v ≠ [] := by
  unfold canonical
  split
  · simp
  · rename_i h
    simpa [Nat.digits_eq_nil_iff_eq_zero] using h

theorem stdFmt_canonical (d : Digit) :
    stdFmt 16 lowerChar d.toNat = canonical 16 hexLower d.toNat := by
  by_cases h : d.toNat = 0
  · rw [h]; rfl
  · rw [stdFmt_pos (by omega) d.isLt h, text_canonical (by omega) lower_hex h]

end Verif
