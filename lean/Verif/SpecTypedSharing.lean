import Verif.Model.TypedSharing
import Verif.TypedClient

/-!
# What threads that share `UInt`s and `Int`s should see

The machine over integers of `SpecTyped.lean` with several threads, in which every call happens at
once, at the moment it returns or panics.  It knows nothing of heaps or of digits.  A call sees the
numbers that were shared when it began, and those of its thread.
-/

namespace Verif

/-- The numbers that are shared, and those of each thread. -/
structure NCrew where
  shared : NBank
  own : List NBank

/-- One thread without numbers. -/
def NCrew.start : NCrew := ⟨[], [[]]⟩

/-- One event.  No call changes the numbers that are shared or their types, and a thread whose call
panics keeps what `TInstr.specLeft` says. -/
inductive NCrew.Step : NCrew → TCEvent → NCrew → Prop where
  | spawned {s : NCrew} :
      Step s (.spawned s.own.length) { s with own := s.own ++ [[]] }
  | returned {s : NCrew} {t n : Nat} {i : TInstr} {r : Res TOut} {b c : NBank}
      (hn : n ≤ s.shared.length) (ht : s.own[t]? = some b)
      (e : i.spec (s.shared.take n ++ b) = some (tabsRes r, s.shared.take n ++ c)) :
      Step s (.ended t n i (.returned r)) { s with own := s.own.set t c }
  | panicked {s : NCrew} {t n : Nat} {i : TInstr} {b c : NBank}
      (hn : n ≤ s.shared.length) (ht : s.own[t]? = some b)
      (e : i.spec (s.shared.take n ++ b) = none)
      (hc : i.specLeft (s.shared.take n ++ b) = s.shared.take n ++ c) :
      Step s (.ended t n i .panicked) { s with own := s.own.set t c }
  | moved {s : NCrew} {t u x : Nat} {b b' : NBank} {v : Num} (ne : t ≠ u)
      (ht : s.own[t]? = some b) (hu : s.own[u]? = some b') (hx : b[x]? = some v) :
      Step s (.moved t x u) { s with own := (s.own.set t (b.eraseIdx x)).set u (b' ++ [v]) }
  | shared {s : NCrew} {t x : Nat} {b : NBank} {v : Num} (ht : s.own[t]? = some b)
      (hx : b[x]? = some v) :
      Step s (.shared t x) ⟨s.shared ++ [v], s.own.set t (b.eraseIdx x)⟩
  | reclaimed {s : NCrew} {t x : Nat} {b : NBank} {v : Num} (ht : s.own[t]? = some b)
      (hx : s.shared[x]? = some v) :
      Step s (.reclaimed t x) ⟨s.shared.eraseIdx x, s.own.set t (b ++ [v])⟩

/-- The events of a whole run, one after the other. -/
inductive NCrew.Steps : NCrew → List TCEvent → NCrew → Prop where
  | none {s : NCrew} : Steps s [] s
  | more {s s' s'' : NCrew} {tr : List TCEvent} {e : TCEvent} (hs : Steps s tr s')
      (h : NCrew.Step s' e s'') : Steps s (tr ++ [e]) s''

end Verif
