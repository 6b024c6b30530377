import Verif.Model.Formatter

/-!
# What it means to print into a formatter (C94)
-/

namespace Verif

/-- The writer in state `t` is handed the texts in order until it refuses one; `r` is whether it took
all of them and `u` its state then. -/
inductive Handed {σ : Type} (s : Sink σ) : List (List Char) → σ → Bool → σ → Prop
  | all (t : σ) : Handed s [] t true t
  | takes {p : List Char} {ps : List (List Char)} {t t' u : σ} {r : Bool} :
      s.writeStr p t = (true, t') → Handed s ps t' r u → Handed s (p :: ps) t r u
  | refuses {p : List Char} {ps : List (List Char)} {t t' : σ} :
      s.writeStr p t = (false, t') → Handed s (p :: ps) t false t'

/-- A way to print hands every writer the same pieces of the text, whatever the flags are, and
returns `Ok` exactly when the writer took all of them. -/
def Prints (f : ∀ {σ : Type}, Sink σ → Flags → σ → Run (Bool × σ)) (text : List Char) : Prop :=
  ∃ ps : List (List Char), ps.flatten = text ∧ ∀ {σ : Type} (s : Sink σ) (fl : Flags) (t : σ),
    ∃ r u, f s fl t = .ok (r, u) ∧ Handed s ps t r u

/-- A `String` to append to: it takes everything. -/
def stringSink : Sink (List Char) where
  writeStr p t := (true, t ++ p)

/-- A buffer for `n` characters: it refuses a text that does not fit in the room left and keeps what
it has. -/
def bufferSink (n : Nat) : Sink (List Char) where
  writeStr p t := if t.length + p.length ≤ n then (true, t ++ p) else (false, t)

/-- A writer that refuses everything and counts how often it was asked. -/
def brokenSink : Sink Nat where
  writeStr _ t := (false, t + 1)

end Verif
