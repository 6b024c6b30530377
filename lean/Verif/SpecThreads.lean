import Verif.Model.Threads
import Verif.SpecProgram

/-!
# What threads should see

The abstract machine of `SpecProgram.lean` with several threads, in which every call happens at
once: at the moment it returns.  It knows nothing of heaps and of accesses to them.
-/

namespace Verif

/-- The numbers lent to all threads, and those of each thread that has not panicked. -/
structure ASystem where
  lent : ABank
  own : List (Option ABank)

/-- One event.  No call changes the numbers that are lent. -/
inductive ASystem.Step : ASystem → TEvent → ASystem → Prop where
  | spawned {s : ASystem} :
      Step s (.spawned s.own.length) { s with own := s.own ++ [some []] }
  | returned {s : ASystem} {t : Nat} {i : Instr} {r : Res Out} {b c : ABank}
      (ht : s.own[t]? = some (some b)) (e : i.spec (s.lent ++ b) = some (absRes r, s.lent ++ c)) :
      Step s (.returned t i r) { s with own := s.own.set t (some c) }
  | panicked {s : ASystem} {t : Nat} {i : Instr} {b : ABank} (ht : s.own[t]? = some (some b))
      (e : i.spec (s.lent ++ b) = none) :
      Step s (.panicked t i) { s with own := s.own.set t none }
  | moved {s : ASystem} {t u x : Nat} {b b' : ABank} {v : AInt} (ne : t ≠ u)
      (ht : s.own[t]? = some (some b)) (hu : s.own[u]? = some (some b')) (hx : b[x]? = some v) :
      Step s (.moved t x u)
        { s with own := (s.own.set t (some (b.eraseIdx x))).set u (some (b' ++ [v])) }

/-- The events of a whole run, one after the other. -/
inductive ASystem.Steps : ASystem → List TEvent → ASystem → Prop where
  | none {s : ASystem} : Steps s [] s
  | more {s s' s'' : ASystem} {tr : List TEvent} {e : TEvent} (hs : Steps s tr s')
      (h : ASystem.Step s' e s'') : Steps s (tr ++ [e]) s''

end Verif
