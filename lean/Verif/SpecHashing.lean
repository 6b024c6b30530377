import Mathlib.Data.List.Basic

/-!
# Finite maps: what a hash table should do

Independent of the model.
-/

namespace Verif

/-- The operations of a program on a map. -/
inductive MapOp (K V : Type) where
  | insert (k : K) (v : V)
  | remove (k : K)
  | get (k : K)
  | count
  /-- reserve room, `n + 1` places in all -/
  | resize (n : Nat)

/-- What they answer. -/
inductive MapOut (V : Type) where
  | value (v : Option V)
  | number (n : Nat)
  | unit
  deriving DecidableEq

/-- The same operations on other keys. -/
def MapOp.map {K A V : Type} (f : K → A) : MapOp K V → MapOp A V
  | .insert k v => .insert (f k) v
  | .remove k => .remove (f k)
  | .get k => .get (f k)
  | .count => .count
  | .resize n => .resize n

/-- The keys an operation names. -/
def MapOp.keys {K V : Type} : MapOp K V → List K
  | .insert k _ | .remove k | .get k => [k]
  | .count | .resize _ => []

section

variable {A V : Type} [DecidableEq A]

/-- The value of a key. -/
def found (m : List (A × V)) (a : A) : Option V := (m.find? fun e => e.1 = a).map Prod.snd

/-- The map without a key. -/
def without (m : List (A × V)) (a : A) : List (A × V) := m.filter fun e => e.1 ≠ a

/-- One operation.  Inserting and removing answer the value the key had. -/
def MapOp.spec (m : List (A × V)) : MapOp A V → MapOut V × List (A × V)
  | .insert a v => (.value (found m a), (a, v) :: without m a)
  | .remove a => (.value (found m a), without m a)
  | .get a => (.value (found m a), m)
  | .count => (.number m.length, m)
  | .resize _ => (.unit, m)

/-- The answers of a program. -/
def mapSpecRun : List (MapOp A V) → List (A × V) → List (MapOut V)
  | [], _ => []
  | o :: os, m => (o.spec m).1 :: mapSpecRun os (o.spec m).2

end

end Verif
