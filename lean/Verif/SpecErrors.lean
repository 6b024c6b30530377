import Verif.SpecProgram
import Verif.Model.HeapErrors

/-!
# Errors as values

What a program that keeps its errors should see: an error is a value with a number in it, which no
later call changes.  Of the model only the names are used (`Holder`, `EAct`, `Held`, and the rules
of the borrow checker).
-/

namespace Verif

/-- The holder and the number of an error that owns one. -/
def AErr.owned : AErr → Option (Holder × AInt)
  | .divZero op x => some (.division op, x)
  | .unrepresentable x ty => some (.range ty, x)
  | _ => none

/-- Numbers and their holders. -/
abbrev AHeld := List (Holder × AInt)

/-- What is left when a call has left the numbers `b`: errors keep their numbers, variables have
those of `b`. -/
def Instr.keep (i : Instr) (s : AHeld) (b : ABank) : AHeld :=
  match i with
  | .drop x => s.eraseIdx x
  | _ => (List.zipWith (fun (p : Holder × AInt) v => if p.1 = .variable then (p.1, v) else p) s b) ++
      (b.drop s.length).map fun v => (.variable, v)

/-- One step, `none` when it panics. -/
def EAct.spec (a : EAct) (s : AHeld) : Option (Except AErr Out × AHeld) :=
  match a with
  | .call i =>
    if i.Fits (s.map Prod.fst) then
      match i.spec (s.map Prod.snd) with
      | none => none
      | some (.ok o, b) => some (.ok o, i.keep s b)
      | some (.error e, b) => some (.error e, i.keep s b ++ e.owned.toList)
    else some (.ok .unit, s)
  | .cloneErr k =>
    match s[k]? with
    | none | some (.variable, _) => some (.ok .unit, s)
    | some e => some (.ok .unit, s ++ [e])
  | .dropErr k =>
    match s[k]? with
    | none | some (.variable, _) => some (.ok .unit, s)
    | some _ => some (.ok .unit, s.eraseIdx k)
  | .eqErr k l =>
    match s[k]?, s[l]? with
    | none, _ | _, none | some (.variable, _), _ | _, some (.variable, _) => some (.ok .unit, s)
    | some e, some f => some (.ok (.bool (decide (e = f))), s)

/-- The errors among them. -/
def AHeld.errors (s : AHeld) : AHeld := s.filter fun p => p.1 ≠ .variable

/-- A step whose panic is caught: errors keep their numbers, variables have what the call has left
(`Instr.specLeft`). -/
def EAct.specCaught (a : EAct) (s : AHeld) : ASeen × AHeld :=
  match a.spec s with
  | some (r, s) => (.returned r, s)
  | none =>
    match a with
    | .call i => (.panicked, i.keep s (i.specLeft (s.map Prod.snd)))
    | _ => (.panicked, s)

/-- A client that keeps errors: it decides from everything it has seen what to do next. -/
abbrev EClient := List ASeen → Option EAct

/-- The first `n` steps of a client. -/
def especPlay (c : EClient) : Nat → List ASeen → AHeld → List ASeen × AHeld
  | 0, seen, s => (seen, s)
  | n + 1, seen, s =>
    match c seen with
    | none => (seen, s)
    | some a => especPlay c n (seen ++ [(a.specCaught s).1]) (a.specCaught s).2

end Verif
