import Verif.Model.Sharing
import Verif.SpecProgram

/-!
# What threads that share integers should see

The abstract machine of `SpecProgram.lean` with several threads, in which every call happens at
once, at the moment it returns or panics.  It knows nothing of heaps.  A call sees the numbers that
were shared when it began, and those of its thread.
-/

namespace Verif

/-- The numbers that are shared, and those of each thread. -/
structure ACrew where
  shared : ABank
  own : List ABank

/-- One thread without numbers. -/
def ACrew.start : ACrew := ⟨[], [[]]⟩

/-- One event.  No call changes the numbers that are shared, and a thread whose call panics keeps
what `Instr.specLeft` says. -/
inductive ACrew.Step : ACrew → CEvent → ACrew → Prop where
  | spawned {s : ACrew} :
      Step s (.spawned s.own.length) { s with own := s.own ++ [[]] }
  | returned {s : ACrew} {t n : Nat} {i : Instr} {r : Res Out} {b c : ABank}
      (hn : n ≤ s.shared.length) (ht : s.own[t]? = some b)
      (e : i.spec (s.shared.take n ++ b) = some (absRes r, s.shared.take n ++ c)) :
      Step s (.returned t n i r) { s with own := s.own.set t c }
  | panicked {s : ACrew} {t n : Nat} {i : Instr} {b c : ABank}
      (hn : n ≤ s.shared.length) (ht : s.own[t]? = some b)
      (e : i.spec (s.shared.take n ++ b) = none)
      (hc : i.specLeft (s.shared.take n ++ b) = s.shared.take n ++ c) :
      Step s (.panicked t n i) { s with own := s.own.set t c }
  | moved {s : ACrew} {t u x : Nat} {b b' : ABank} {v : AInt} (ne : t ≠ u)
      (ht : s.own[t]? = some b) (hu : s.own[u]? = some b') (hx : b[x]? = some v) :
      Step s (.moved t x u) { s with own := (s.own.set t (b.eraseIdx x)).set u (b' ++ [v]) }
  | shared {s : ACrew} {t x : Nat} {b : ABank} {v : AInt} (ht : s.own[t]? = some b)
      (hx : b[x]? = some v) :
      Step s (.shared t x) ⟨s.shared ++ [v], s.own.set t (b.eraseIdx x)⟩
  | reclaimed {s : ACrew} {t x : Nat} {b : ABank} {v : AInt} (ht : s.own[t]? = some b)
      (hx : s.shared[x]? = some v) :
      Step s (.reclaimed t x) ⟨s.shared.eraseIdx x, s.own.set t (b ++ [v])⟩

/-- The events of a whole run, one after the other. -/
inductive ACrew.Steps : ACrew → List CEvent → ACrew → Prop where
  | none {s : ACrew} : Steps s [] s
  | more {s s' s'' : ACrew} {tr : List CEvent} {e : CEvent} (hs : Steps s tr s')
      (h : ACrew.Step s' e s'') : Steps s (tr ++ [e]) s''

end Verif
