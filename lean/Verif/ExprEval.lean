import Verif.SpecExpr
import Verif.Model.Program

/-!
# Expressions over the API, run on the modelled code

A client of the API: it evaluates an expression bottom up with the calls the expression names and
stops at the first error (`?`).  The model of each call is in `Model/Program.lean` and the files
cited there.
-/

namespace Verif

/-- `?`: go on with the value or return the error. -/
def andThen {α β : Type} (r : Run (Res α)) (k : α → Run (Res β)) : Run (Res β) := do
  match ← r with
  | .ok x => k x
  | .error e => pure (.error e)

/-- `let mut z = x; z.op()?; z` -/
def inPlace (r : Run (Res Unit × ApInt)) : Run (Res ApInt) := do
  match ← r with
  | (.ok (), c) => pure (.ok c)
  | (.error e, _) => pure (.error e)

def Const.exec : Const → BitWidth → Run (Res ApInt)
  | .zero, w => fine (ApInt.zero w)
  | .one, w => fine (ApInt.one w)
  | .allSet, w => fine (ApInt.allSet w)
  | .unsignedMin, w => fine (ApInt.unsignedMinValue w)
  | .unsignedMax, w => fine (ApInt.unsignedMaxValue w)
  | .signedMin, w => fine (ApInt.signedMinValue w)
  | .signedMax, w => fine (ApInt.signedMaxValue w)

/-- The comparison calls. -/
def Ask2.test (q : Ask2) (x y : ApInt) : Run (Res Bool) :=
  match q with
  | .eq => fine (x.eq y)
  | .ult => x.checkedUlt y
  | .ule => x.checkedUle y
  | .ugt => x.checkedUgt y
  | .uge => x.checkedUge y
  | .slt => x.checkedSlt y
  | .sle => x.checkedSle y
  | .sgt => x.checkedSgt y
  | .sge => x.checkedSge y

/-- Evaluate an expression with the calls of the API. -/
def Expr.eval {ι : Type} {Γ : ι → BitWidth} (ρ : ι → ApInt) :
    {w : BitWidth} → Expr Γ w → Run (Res ApInt)
  | _, .var i => fine (ρ i).clone
  | w, .const c _ => c.exec w
  | _, .un o e => andThen (e.eval ρ) fun x => o.execInto x
  | _, .alter o e => andThen (e.eval ρ) fun x => inPlace (o.exec x)
  | _, .bin o e f => andThen (e.eval ρ) fun x => andThen (f.eval ρ) fun y => o.execInto x y
  | _, .pick q l r e f =>
      andThen (l.eval ρ) fun x => andThen (r.eval ρ) fun y => andThen (q.test x y) fun b =>
        if b then e.eval ρ else f.eval ρ

end Verif
