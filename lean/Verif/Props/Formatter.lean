import Verif.Proof.Formatter
import Verif.Props.Trace

/-!
# C94: formatting into a formatter
-/

namespace Verif.Props

open Verif ApInt Ex

variable {a : ApInt} {cut : List Char → List (List Char)}

/-- C94: a writer is handed the text of C42 in pieces, in order and until it refuses one, whatever
the flags of the formatter are; the answer is `Ok` exactly when it took all of them. `cut` is how the
standard library cuts what it prints into pieces. -/
theorem C94_prints (hc : ∀ t, (cut t).flatten = t) (ha : a.WF) :
    Prints (fun s => a.fmtTo cut s .binary) (canonical 2 binAlphabet a.uval) ∧
    Prints (fun s => a.fmtTo cut s .lowerHex) (canonical 16 hexLower a.uval) ∧
    Prints (fun s => a.fmtTo cut s .upperHex) (canonical 16 hexUpper a.uval) :=
  ⟨prints hc _ (fmtBinary_ok ha.1), prints hc _ (fmtLowerHex_ok ha.1),
    prints hc _ (fmtUpperHex_ok ha.1)⟩

/-- Cut into single characters. -/
def byChar (t : List Char) : List (List Char) := t.map fun c => [c]

theorem byChar_flatten (t : List Char) : (byChar t).flatten = t := by
  induction t with
  | nil => rfl
  | cons c t ih => exact congrArg (c :: ·) ih

example : Prints (fun s => a65.fmtTo byChar s .lowerHex) (canonical 16 hexLower a65.uval) :=
  (C94_prints byChar_flatten a65_wf).2.1

/-- C94: so do the types `UInt` and `Int`: an `Int` prints the bits of its two's complement. -/
theorem C94_typed (hc : ∀ t, (cut t).flatten = t) {u : UInt} {i : SInt} (hu : u.value.WF)
    (hi : i.value.WF) :
    (Prints (fun s fl => u.fmtTo cut s .binary fl) (canonical 2 binAlphabet u.value.uval) ∧
     Prints (fun s fl => u.fmtTo cut s .lowerHex fl) (canonical 16 hexLower u.value.uval) ∧
     Prints (fun s fl => u.fmtTo cut s .upperHex fl) (canonical 16 hexUpper u.value.uval)) ∧
    (Prints (fun s fl => i.fmtTo cut s .binary fl) (canonical 2 binAlphabet i.value.uval) ∧
     Prints (fun s fl => i.fmtTo cut s .lowerHex fl) (canonical 16 hexLower i.value.uval) ∧
     Prints (fun s fl => i.fmtTo cut s .upperHex fl) (canonical 16 hexUpper i.value.uval)) :=
  ⟨C94_prints hc hu, C94_prints hc hi⟩

example : Prints (fun s fl => (⟨a65⟩ : SInt).fmtTo byChar s .upperHex fl)
    (canonical 16 hexUpper a65.uval) :=
  (C94_typed (u := ⟨a7⟩) byChar_flatten a7_wf a65_wf).2.2.2

/-- C94: the flags of the formatter change nothing: no prefix for `#`, no sign for `+`, no padding. -/
theorem C94_flags {σ : Type} (s : Sink σ) (b : Base) (fl fl' : Flags) (t : σ) :
    a.fmtTo cut s b fl t = a.fmtTo cut s b fl' t ∧
    a.fmtOctalTo cut s fl t = a.fmtOctalTo cut s fl' t := ⟨rfl, rfl⟩

/-- C94: so `{:#x}` prints a `u64` with the prefix `0x` and an integer of 64 bits with the same value
without. -/
theorem C94_unlike_u64 (hc : ∀ t, (cut t).flatten = t) (d : Digit) :
    Digit.fmtTo cut stringSink .lowerHex { alternate := true } d [] =
      (true, ['0', 'x'] ++ canonical 16 hexLower d.toNat) ∧
    (⟨bw 64, .inl d⟩ : ApInt).fmtTo cut stringSink .lowerHex { alternate := true } [] =
      .ok (true, canonical 16 hexLower d.toNat) := by
  have hw : (⟨bw 64, .inl d⟩ : ApInt).WF :=
    ⟨Nat.le_refl 64, by
      show val [d] < 2 ^ 64
      simpa [val] using d.isLt⟩
  constructor
  · have h := handed_string (handed_pieces stringSink
      (cut (['0', 'x'] ++ stdFmt 16 lowerChar d.toNat)) [])
    rw [hc, List.nil_append] at h
    rw [← stdFmt_canonical]
    exact Prod.ext h.1 h.2
  · exact ((C94_prints hc hw).2.1).string _ []

/-- And `{:08x}` fills a `u64` with zeros but no integer. -/
example :
    (Digit.fmtTo byChar stringSink .lowerHex { zero := true, width := some 8 } 255#64 []).2 =
      "000000ff".toList ∧
    (⟨bw 64, .inl 255#64⟩ : ApInt).fmtTo byChar stringSink .lowerHex
      { zero := true, width := some 8 } [] = .ok (true, "ff".toList) := by decide +kernel

/-- C94: a `String` gets the text appended. -/
theorem C94_string (hc : ∀ t, (cut t).flatten = t) (ha : a.WF) (fl : Flags) (t : List Char) :
    a.fmtTo cut stringSink .binary fl t = .ok (true, t ++ canonical 2 binAlphabet a.uval) ∧
    a.fmtTo cut stringSink .lowerHex fl t = .ok (true, t ++ canonical 16 hexLower a.uval) ∧
    a.fmtTo cut stringSink .upperHex fl t = .ok (true, t ++ canonical 16 hexUpper a.uval) := by
  obtain ⟨h1, h2, h3⟩ := C94_prints hc ha
  exact ⟨h1.string fl t, h2.string fl t, h3.string fl t⟩

example : a7.fmtTo byChar stringSink .lowerHex { alternate := true } ['<'] =
    .ok (true, ['<', '6', '4']) := by decide +kernel

/-- C94: a buffer of fixed size gets the whole text if that fits; otherwise the answer is `Err`, and
the buffer has got some beginning of the text. -/
theorem C94_buffer (hc : ∀ t, (cut t).flatten = t) (ha : a.WF) (n : Nat) (fl : Flags)
    {t : List Char} (ht : t.length ≤ n) {b : Base} {text : List Char}
    (hb : (b = .binary ∧ text = canonical 2 binAlphabet a.uval) ∨
      (b = .lowerHex ∧ text = canonical 16 hexLower a.uval) ∨
      (b = .upperHex ∧ text = canonical 16 hexUpper a.uval)) :
    (t.length + text.length ≤ n →
      a.fmtTo cut (bufferSink n) b fl t = .ok (true, t ++ text)) ∧
    (n < t.length + text.length → ∃ q, a.fmtTo cut (bufferSink n) b fl t = .ok (false, t ++ q) ∧
      q <+: text ∧ t.length + q.length ≤ n) := by
  obtain ⟨h1, h2, h3⟩ := C94_prints hc ha
  rcases hb with ⟨rfl, rfl⟩ | ⟨rfl, rfl⟩ | ⟨rfl, rfl⟩
  · exact h1.buffer n fl ht
  · exact h2.buffer n fl ht
  · exact h3.buffer n fl ht

example : a7.fmtTo byChar (bufferSink 2) .lowerHex {} [] = .ok (true, ['6', '4']) ∧
    a7.fmtTo byChar (bufferSink 2) .binary {} [] = .ok (false, ['1', '1']) := by decide +kernel

/-- C94: a writer that refuses the first piece is asked no second time. -/
theorem C94_broken (hc : ∀ t, (cut t).flatten = t) (ha : a.WF) (fl : Flags) (t : Nat) :
    a.fmtTo cut brokenSink .binary fl t = .ok (false, t + 1) ∧
    a.fmtTo cut brokenSink .lowerHex fl t = .ok (false, t + 1) ∧
    a.fmtTo cut brokenSink .upperHex fl t = .ok (false, t + 1) := by
  obtain ⟨h1, h2, h3⟩ := C94_prints hc ha
  exact ⟨h1.broken (canonical_ne_nil _ _ _) fl t, h2.broken (canonical_ne_nil _ _ _) fl t,
    h3.broken (canonical_ne_nil _ _ _) fl t⟩

example : a150.fmtTo byChar brokenSink .binary {} 0 = .ok (false, 1) :=
  (C94_broken byChar_flatten a150_wf {} 0).1

/-- C94: octal prints zero as `0` and panics on everything else, before anything is written. -/
theorem C94_octal (hc : ∀ t, (cut t).flatten = t) (ha : a.WF) :
    (a.uval = 0 → Prints (fun s => a.fmtOctalTo cut s) ['0']) ∧
    (a.uval ≠ 0 → ∀ {σ : Type} (s : Sink σ) (fl : Flags) (t : σ),
      a.fmtOctalTo cut s fl t = .error .panic) := by
  have hz := isZero_ok ha.1
  constructor
  · intro h
    refine ⟨cut ['0'], hc _, fun s fl t => ⟨_, _, ?_, handed_pieces s _ t⟩⟩
    show a.fmtOctalTo cut s fl t = _
    unfold ApInt.fmtOctalTo
    rw [hz, run_bind_ok, decide_eq_true h]
    rfl
  · intro h σ s fl t
    unfold ApInt.fmtOctalTo
    rw [hz, run_bind_ok, decide_eq_false h]
    rfl

example : Prints (fun s => zero256.fmtOctalTo byChar s) ['0'] ∧
    a7.fmtOctalTo byChar stringSink {} [] = .error .panic :=
  ⟨(C94_octal byChar_flatten (a := zero256) (by decide +kernel)).1 (by decide +kernel),
    by decide +kernel⟩

end Verif.Props
