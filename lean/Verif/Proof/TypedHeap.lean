import Verif.Proof.Typed
import Verif.Proof.HeapUnwind
import Verif.TypedClient

/-! Lemmas about scripts of `UInt` and `Int`. -/

namespace Verif

open ApInt

@[simp] theorem Kind.wrap_kind (k : Kind) (a : ApInt) : (k.wrap a).kind = k := by cases k <;> rfl
@[simp] theorem Kind.wrap_value (k : Kind) (a : ApInt) : (k.wrap a).value = a := by cases k <;> rfl
@[simp] theorem WInt.wrap_self (a : WInt) : a.kind.wrap a.value = a := by cases a <;> rfl

/-- A script on the pure model where a panic stops the program. -/
def Script.run : Script → Bank → Run ((Res TOut × List Kind) × Bank)
  | .done r ks, b => .ok ((r, ks), b)
  | .panic, _ => .error .panic
  | .call i k, b => do
    let (r, b) ← i.exec b
    (k r).run b

/-- The bank as types and fields. -/
def splitBank (p : Res TOut × TBank) : (Res TOut × List Kind) × Bank :=
  ((p.1, p.2.map WInt.kind), p.2.map WInt.value)

/-- The script does what the method does. -/
def Lower (s : Script) (b : TBank) (r : Run (Res TOut × TBank)) : Prop :=
  s.run (b.map WInt.value) = r.map splitBank

theorem except_bind_map {ε α β γ : Type} (r : Except ε α) (f : α → β) (g : β → Except ε γ) :
    ((r.map f) >>= g) = (r >>= fun a => g (f a)) := by cases r <;> rfl

theorem except_map_map {ε α β γ : Type} (r : Except ε α) (f : α → β) (g : β → γ) :
    (r.map f).map g = r.map fun a => g (f a) := by cases r <;> rfl

/-- An in-place method on the field. -/
def wrapMut (k : Kind) (p : Res Unit × ApInt) : Res Unit × WInt := (p.1, k.wrap p.2)

/-- A consuming method that works in place on the field. -/
def wrapRes (k : Kind) (p : Res Unit × ApInt) : Res WInt := p.1.map fun _ => k.wrap p.2

section

variable {b : TBank} {x : Nat} {a : WInt} {q : Run (Res Unit × ApInt)} {i : Instr}

theorem set_kinds (ha : b[x]? = some a) (c : ApInt) :
    (b.set x (a.kind.wrap c)).map WInt.kind = b.map WInt.kind := by
  rw [List.map_set, Kind.wrap_kind]
  apply List.ext_getElem?
  intro j
  rw [List.getElem?_set]
  split
  · rename_i h
    subst h
    simp only [List.length_map, List.getElem?_map, ha, Option.map_some]
    rw [if_pos (List.getElem?_eq_some_iff.mp ha).1]
  · rfl

theorem set_values (k : Kind) (c : ApInt) :
    (b.set x (k.wrap c)).map WInt.value = (b.map WInt.value).set x c := by
  rw [List.map_set, Kind.wrap_value]

theorem lower_store (ha : b[x]? = some a) (hi : i.exec (b.map WInt.value) =
    storeRes (b.map WInt.value) x q) :
    Lower (Script.pass (b.map WInt.kind) i) b (b.storeRes x (q.map (wrapMut a.kind))) := by
  unfold Lower Script.pass Script.run
  rw [hi]
  cases q with
  | error f => rfl
  | ok p =>
    obtain ⟨e, c⟩ := p
    cases e with
    | ok _ =>
      show Except.ok _ = Except.ok _
      simp only [splitBank, wrapMut, set_kinds ha, set_values, Except.map]
    | error e =>
      show Except.ok _ = Except.ok _
      simp only [splitBank, wrapMut, set_kinds ha, set_values, Except.map]

theorem lower_consume (ha : b[x]? = some a) (hi : i.exec (b.map WInt.value) =
    storeRes (b.map WInt.value) x q) :
    Lower (Script.consume (b.map WInt.kind) x i) b (b.moveRes x (q.map (wrapRes a.kind))) := by
  unfold Lower Script.consume Script.run
  rw [hi]
  cases q with
  | error f => rfl
  | ok p =>
    obtain ⟨e, c⟩ := p
    cases e with
    | ok _ =>
      show Except.ok _ = Except.ok _
      simp only [splitBank, set_kinds ha, set_values]
    | error e =>
      show Except.ok _ = Except.ok _
      simp only [splitBank]
      rw [List.eraseIdx_set_eq, List.eraseIdx_map, List.eraseIdx_map]

theorem lower_unwrap_move (ha : b[x]? = some a) (hi : i.exec (b.map WInt.value) =
    storeRes (b.map WInt.value) x q) :
    Lower (Script.unwrap (b.map WInt.kind) i) b
      (b.moveRes x (putNew id (unwrapRes (q.map (wrapRes a.kind))))) := by
  unfold Lower Script.unwrap Script.run
  rw [hi]
  cases q with
  | error f => rfl
  | ok p =>
    obtain ⟨e, c⟩ := p
    cases e with
    | ok _ =>
      show Except.ok _ = Except.ok _
      simp only [splitBank, set_kinds ha, set_values, id]
    | error e => rfl

theorem lower_unwrap_store (ha : b[x]? = some a) (hi : i.exec (b.map WInt.value) =
    storeRes (b.map WInt.value) x q) :
    Lower (Script.unwrap (b.map WInt.kind) i) b
      (b.storeRes x (putDone id (unwrapMut (q.map (wrapMut a.kind))))) := by
  unfold Lower Script.unwrap Script.run
  rw [hi]
  cases q with
  | error f => rfl
  | ok p =>
    obtain ⟨e, c⟩ := p
    cases e with
    | ok _ =>
      show Except.ok _ = Except.ok _
      simp only [splitBank, wrapMut, set_kinds ha, set_values, id, Except.map]
    | error e => rfl

/-- The answer of a method on the field. -/
def outRes (r : Res Out) : Res TOut := r.map .out

theorem lower_answer {q : Run (Res Out)} (hi : i.exec (b.map WInt.value) =
    (do let r ← q; pure (r, b.map WInt.value))) :
    Lower (Script.pass (b.map WInt.kind) i) b (b.answer (q.map outRes)) := by
  unfold Lower Script.pass Script.run
  rw [hi]
  cases q with
  | error f => rfl
  | ok p => cases p <;> rfl

theorem lower_push {k : Kind} {q : Run (Res ApInt)} (hi : i.exec (b.map WInt.value) =
    pushRes (b.map WInt.value) q) :
    Lower (Script.push (b.map WInt.kind) k i) b
      (b.pushRes (q.map fun r => r.map k.wrap)) := by
  unfold Lower Script.push Script.run
  rw [hi]
  cases q with
  | error f => rfl
  | ok p =>
    cases p with
    | error e => rfl
    | ok c =>
      show Except.ok _ = Except.ok _
      simp [splitBank]

theorem lower_skip : Lower (Script.unit (b.map WInt.kind)) b (pure (.ok (.out .unit), b)) := rfl

end

/-! ## Shapes of the wrapper methods -/

section

variable (r : Run ApInt) (q : Run (Res Unit × ApInt)) (p : Run (Res ApInt))

theorem u_done : putDone .u (UInt.lift r) = (done r).map (wrapMut .unsigned) := by cases r <;> rfl
theorem s_done : putDone .s (SInt.lift r) = (done r).map (wrapMut .signed) := by cases r <;> rfl
theorem u_mut : putMut .u (UInt.liftMut q) = q.map (wrapMut .unsigned) := by cases q <;> rfl
theorem s_mut : putMut .s (SInt.liftMut q) = q.map (wrapMut .signed) := by cases q <;> rfl

theorem u_new : putNew .u (UInt.lift r) = (fine r).map fun x => x.map (Kind.wrap .unsigned) := by
  cases r <;> rfl
theorem s_new : putNew .s (SInt.lift r) = (fine r).map fun x => x.map (Kind.wrap .signed) := by
  cases r <;> rfl

theorem u_forward {α : Type} (x : α) (f : α → Run UInt) (h : f x = UInt.lift r) :
    putNew .u (do let this ← f x; pure this) = (done r).map (wrapRes .unsigned) := by
  rw [h]; cases r <;> rfl
theorem s_forward {α : Type} (x : α) (f : α → Run SInt) (h : f x = SInt.lift r) :
    putNew .s (do let this ← f x; pure this) = (done r).map (wrapRes .signed) := by
  rw [h]; cases r <;> rfl

theorem u_try {α β : Type} (x : α) (y : β) (f : α → β → Run (Res Unit × UInt))
    (h : f x y = UInt.liftMut q) :
    putRes .u (do
      let (r, this) ← f x y
      match r with
      | .error e => .ok (.error e)
      | .ok () => .ok (.ok this)) = q.map (wrapRes .unsigned) := by
  rw [h]; rcases q with _ | ⟨_ | _, _⟩ <;> rfl
theorem s_try {α β : Type} (x : α) (y : β) (f : α → β → Run (Res Unit × SInt))
    (h : f x y = SInt.liftMut q) :
    putRes .s (do
      let (r, this) ← f x y
      match r with
      | .error e => .ok (.error e)
      | .ok () => .ok (.ok this)) = q.map (wrapRes .signed) := by
  rw [h]; rcases q with _ | ⟨_ | _, _⟩ <;> rfl

theorem u_res {α : Type} (x : ApInt) (y : α) (f : ApInt → α → Run (Res Unit × ApInt)) :
    putRes .u (UInt.liftRes (tryForwardBinMutImpl x y f)) = (f x y).map (wrapRes .unsigned) := by
  unfold tryForwardBinMutImpl
  rcases f x y with _ | ⟨_ | _, _⟩ <;> rfl
theorem s_res {α : Type} (x : ApInt) (y : α) (f : ApInt → α → Run (Res Unit × ApInt)) :
    putRes .s (SInt.liftRes (tryForwardBinMutImpl x y f)) = (f x y).map (wrapRes .signed) := by
  unfold tryForwardBinMutImpl
  rcases f x y with _ | ⟨_ | _, _⟩ <;> rfl

end

/-! ## The methods -/

theorem un_field (o : TUn) (a : WInt) {u : Un} (h : o.field a.kind = some u) :
    o.exec a = some ((u.exec a.value).map (wrapMut a.kind)) := by
  cases a <;> cases o <;> cases h <;>
    first
    | exact congrArg some (u_done _)
    | exact congrArg some (s_done _)
    | exact congrArg some (u_mut _)
    | exact congrArg some (s_mut _)

theorem un_field_into (o : TUn) (a : WInt) {u : Un} (h : o.field a.kind = some u) :
    o.execInto a = some ((u.exec a.value).map (wrapRes a.kind)) := by
  cases a <;> cases o <;> cases h <;>
    first
    | exact congrArg some (u_res _ _ _)
    | exact congrArg some (s_res _ _ _)
    | exact congrArg some (u_forward _ _ _ rfl)
    | exact congrArg some (s_forward _ _ _ rfl)
    | exact congrArg some (u_try _ _ _ _ rfl)
    | exact congrArg some (s_try _ _ _ _ rfl)

theorem alter_field (o : TAlter) (a : WInt) {u : Alter} (h : o.field a.kind = some u) :
    o.exec a = some ((u.exec a.value).map (wrapMut a.kind)) := by
  cases a <;> cases o <;> cases h <;>
    first
    | exact congrArg some (u_done _)
    | exact congrArg some (s_done _)
    | exact congrArg some (u_mut _)
    | exact congrArg some (s_mut _)
    | skip
  · rename_i x rng
    simp only [TAlter.exec, UInt.randomizeUsing, Alter.exec, WInt.value, WInt.kind]
    cases x.value.randomizeUsing rng <;> rfl
  · rename_i x rng
    simp only [TAlter.exec, SInt.randomizeUsing, Alter.exec, WInt.value, WInt.kind]
    cases x.value.randomizeUsing rng <;> rfl

theorem bin_field_u (o : TBin) (x y : UInt) :
    putMut .u (o.unsigned.1 x y) = ((o.field .unsigned).exec x.value y.value).map (wrapMut .unsigned) := by
  cases o <;> exact u_mut _

theorem bin_field_s (o : TBin) (x y : SInt) :
    putMut .s (o.signed.1 x y) = ((o.field .signed).exec x.value y.value).map (wrapMut .signed) := by
  cases o <;> exact s_mut _

theorem bin_into_u (o : TBin) (x y : UInt) :
    putRes .u (o.unsigned.2.1 x y) =
      ((o.field .unsigned).exec x.value y.value).map (wrapRes .unsigned) := by
  cases o <;> exact u_try _ _ _ _ rfl

theorem bin_into_s (o : TBin) (x y : SInt) :
    putRes .s (o.signed.2.1 x y) =
      ((o.field .signed).exec x.value y.value).map (wrapRes .signed) := by
  cases o <;> exact s_try _ _ _ _ rfl

theorem put_unwrapRes {α : Type} (f : α → WInt) (r : Run (Res α)) :
    putNew f (unwrapRes r) = putNew id (unwrapRes (putRes f r)) := by
  rcases r with _ | _ | _ <;> rfl

theorem put_unwrapMut {α : Type} (f : α → WInt) (r : Run (Res Unit × α)) :
    putDone f (unwrapMut r) = putDone id (unwrapMut (putMut f r)) := by
  rcases r with _ | ⟨_ | _, _⟩ <;> rfl

theorem bin_op_u (o : TBin) (x y : UInt) :
    o.unsigned.2.2.1 x y = unwrapRes (o.unsigned.2.1 x y) := by cases o <;> rfl
theorem bin_op_s (o : TBin) (x y : SInt) :
    o.signed.2.2.1 x y = unwrapRes (o.signed.2.1 x y) := by cases o <;> rfl
theorem bin_assign_u (o : TBin) (x y : UInt) :
    o.unsigned.2.2.2 x y = unwrapMut (o.unsigned.1 x y) := by cases o <;> rfl
theorem bin_assign_s (o : TBin) (x y : SInt) :
    o.signed.2.2.2 x y = unwrapMut (o.signed.1 x y) := by cases o <;> rfl

theorem unop_field (o : TUnOp) (a : WInt) :
    o.exec a = putNew id (unwrapRes (((o.field a.kind).exec a.value).map (wrapRes a.kind))) := by
  cases a with
  | u a =>
    cases o
    · show putNew .u (do let this ← a.bitnot; pure this) = _
      rw [u_forward a.value.bitnot a UInt.bitnot rfl]
      show _ = putNew id (unwrapRes ((done a.value.bitnot).map (wrapRes .unsigned)))
      cases a.value.bitnot <;> rfl
    · show putNew .u (do let this ← a.wrappingNeg; pure this) = _
      rw [u_forward a.value.wrappingNeg a UInt.wrappingNeg rfl]
      show _ = putNew id (unwrapRes ((done a.value.wrappingNeg).map (wrapRes .unsigned)))
      cases a.value.wrappingNeg <;> rfl
    · exact (put_unwrapRes _ _).trans (congrArg (fun r => putNew id (unwrapRes r)) (u_res _ _ _))
    · exact (put_unwrapRes _ _).trans (congrArg (fun r => putNew id (unwrapRes r)) (u_res _ _ _))
  | s a =>
    cases o
    · show putNew .s (do let this ← a.bitnot; pure this) = _
      rw [s_forward a.value.bitnot a SInt.bitnot rfl]
      show _ = putNew id (unwrapRes ((done a.value.bitnot).map (wrapRes .signed)))
      cases a.value.bitnot <;> rfl
    · show putNew .s (do let this ← a.wrappingNeg; pure this) = _
      rw [s_forward a.value.wrappingNeg a SInt.wrappingNeg rfl]
      show _ = putNew id (unwrapRes ((done a.value.wrappingNeg).map (wrapRes .signed)))
      cases a.value.wrappingNeg <;> rfl
    · exact (put_unwrapRes _ _).trans (congrArg (fun r => putNew id (unwrapRes r)) (s_res _ _ _))
    · exact (put_unwrapRes _ _).trans (congrArg (fun r => putNew id (unwrapRes r)) (s_res _ _ _))

theorem shift_field (o : TShift) (a : WInt) :
    o.exec a = putDone id (unwrapMut (((o.field a.kind).exec a.value).map (wrapMut a.kind))) := by
  cases a <;> cases o <;>
    first
    | exact (put_unwrapMut _ _).trans (congrArg (fun r => putDone id (unwrapMut r)) (u_mut _))
    | exact (put_unwrapMut _ _).trans (congrArg (fun r => putDone id (unwrapMut r)) (s_mut _))

theorem make_field (m : TMake) :
    m.exec = m.field.1.exec.map fun r => r.map m.field.2.wrap := by
  cases m with
  | array k v vs =>
    cases k
    · exact u_new (ApInt.fromArray (v :: vs))
    · exact s_new (ApInt.fromArray (v :: vs))
  | parse k n t =>
    cases k
    · show putRes .u (UInt.liftRes (ApInt.fromStrRadix (2 ^ (n.val + 1)) t)) =
        (ApInt.fromStrRadix (2 ^ (n.val + 1)) t).map fun r => r.map (Kind.wrap .unsigned)
      rcases ApInt.fromStrRadix (2 ^ (n.val + 1)) t with _ | _ | _ <;> rfl
    · show putRes .s (SInt.liftRes (ApInt.fromStrRadix (2 ^ (n.val + 1)) t)) =
        (ApInt.fromStrRadix (2 ^ (n.val + 1)) t).map fun r => r.map (Kind.wrap .signed)
      rcases ApInt.fromStrRadix (2 ^ (n.val + 1)) t with _ | _ | _ <;> rfl
  | random k t rng =>
    cases k
    · simp only [TMake.exec, TMake.field, Make.exec, UInt.randomWithWidthUsing]
      rcases ApInt.randomWithWidthUsing t rng with _ | _ <;> rfl
    · simp only [TMake.exec, TMake.field, Make.exec, SInt.randomWithWidthUsing]
      rcases ApInt.randomWithWidthUsing t rng with _ | _ <;> rfl
  | zero k => cases k <;> first | exact u_new _ | exact s_new _
  | allUnset k => cases k <;> first | exact u_new _ | exact s_new _
  | allSet k => cases k <;> first | exact u_new _ | exact s_new _
  | min k => cases k <;> first | exact u_new _ | exact s_new _
  | max k => cases k <;> first | exact u_new _ | exact s_new _
  | bool k => cases k <;> first | exact u_new _ | exact s_new _
  | _ => first | exact u_new _ | exact s_new _

theorem say_tell {α : Type} (f : α → Out) (r : Run α) : say f r = (tell f r).map outRes := by
  cases r <;> rfl

theorem sayRes_tell {α : Type} (f : α → Out) (r : Run (Res α)) :
    sayRes f r = (tellRes f r).map outRes := by
  rcases r with _ | _ | _ <;> rfl

section

variable {b : TBank} {x y : Nat} {a c : WInt}

theorem field_get (ha : b[x]? = some a) : (b.map WInt.value)[x]? = some a.value := by
  rw [List.getElem?_map, ha]; rfl

theorem ask_exec (ha : b[x]? = some a) (q : Ask) : (Instr.ask q x).exec (b.map WInt.value) =
    (do let r ← q.exec a.value; pure (r, b.map WInt.value)) := by
  simp only [Instr.exec, field_get ha]

theorem ask2_exec (ha : b[x]? = some a) (hc : b[y]? = some c) (q : Ask2) :
    (Instr.ask2 q x y).exec (b.map WInt.value) =
    (do let r ← q.exec a.value c.value; pure (r, b.map WInt.value)) := by
  simp only [Instr.exec, field_get ha, field_get hc]

theorem un_exec (ha : b[x]? = some a) (o : Un) : (Instr.un o x).exec (b.map WInt.value) =
    storeRes (b.map WInt.value) x (o.exec a.value) := by
  simp only [Instr.exec, field_get ha]

theorem run_test {i : Instr} {k : Bool → Script} {v : Bank} {r : Run Bool}
    (h : i.exec v = (do let r ← tell .bool r; pure (r, v))) :
    (Script.test i k).run v = (do let t ← r; (k t).run v) := by
  unfold Script.test
  simp only [Script.run, h]
  cases r <;> rfl

theorem run_test_res {i : Instr} {k : Bool → Script} {v : Bank} {r : Run (Res Bool)}
    (h : i.exec v = (do let r ← tellRes .bool r; pure (r, v))) :
    (Script.test i k).run v = (do let t ← r; let t ← expect t; (k t).run v) := by
  unfold Script.test
  simp only [Script.run, h]
  rcases r with _ | _ | _ <;> rfl

theorem lower_orFalse {i : Instr} {r : Run (Res Bool)}
    (h : i.exec (b.map WInt.value) = (do let r ← tellRes .bool r; pure (r, b.map WInt.value)))
    {g : Res Bool → Bool} (h1 : ∀ t, g (.ok t) = t) (h2 : ∀ e, g (.error e) = false) :
    Lower (Script.orFalse (b.map WInt.kind) i) b
      (b.answer (say .bool (do let t ← r; pure (g t)))) := by
  unfold Script.orFalse Lower
  simp only [Script.run, h]
  rcases r with _ | _ | _
  · rfl
  · show _ = Except.ok _
    rw [h2]; rfl
  · show _ = Except.ok _
    rw [h1]; rfl

theorem lower_abs_store {x' : SInt} (ha : b[x]? = some (.s x')) :
    Lower (absScript (b.map WInt.kind) x) b (b.storeRes x (putDone .s x'.wrappingAbs)) := by
  unfold absScript Lower
  rw [run_test (r := x'.value.msb) (ask_exec ha .msb)]
  unfold SInt.wrappingAbs SInt.msb
  cases x'.value.msb with
  | error f => rfl
  | ok t =>
    cases t with
    | true =>
      have := lower_store ha (un_exec ha .neg)
      unfold Lower at this
      show (Script.pass (b.map WInt.kind) (.un .neg x)).run (b.map WInt.value) = _
      rw [this]
      show _ = Except.map splitBank (b.storeRes x (putDone .s (SInt.lift x'.value.wrappingNeg)))
      rw [s_done]; rfl
    | false =>
      show Except.ok _ = Except.ok _
      have h1 := set_kinds ha x'.value
      have h2 := set_values (b := b) (x := x) .signed x'.value
      have h3 : (b.map WInt.value).set x x'.value = b.map WInt.value :=
        set_self (field_get ha)
      rw [h3] at h2
      exact congrArg Except.ok (Prod.ext (Prod.ext rfl h1.symm) h2.symm)

theorem lower_abs_move {x' : SInt} (ha : b[x]? = some (.s x')) :
    Lower (absScript (b.map WInt.kind) x) b (b.moveRes x (putNew .s x'.intoAbs)) := by
  have h := lower_abs_store ha
  unfold Lower at h ⊢
  rw [h]
  unfold SInt.intoAbs forwardMutImpl
  cases x'.wrappingAbs <;> rfl

theorem ask_cast_u (x' : UInt) (ty : PrimitiveTy) :
    x'.resizeTo ty = if Kind.unsigned.casts ty then some (((Ask.resize ty).exec x'.value).map outRes)
      else none := by
  cases ty <;> first | rfl | exact congrArg some (say_tell _ _)

theorem ask_cast_s (x' : SInt) (ty : PrimitiveTy) :
    x'.resizeTo ty = if Kind.signed.casts ty then some (((Ask.resize ty).exec x'.value).map outRes)
      else none := by
  cases ty <;> first | rfl | exact congrArg some (say_tell _ _)

theorem ask_try_u (x' : UInt) (ty : PrimitiveTy) :
    x'.tryTo ty = if Kind.unsigned.casts ty then some (((Ask.tryTo ty).exec x'.value).map outRes)
      else none := by
  cases ty <;> first | rfl | exact congrArg some (sayRes_tell _ _)

/-- Do nothing when the type has no such call. -/
def orSkip (b : TBank) {α : Type} (r : Option α) (k : α → Run (Res TOut × TBank)) :
    Run (Res TOut × TBank) :=
  match r with
  | some r => k r
  | none => pure (.ok (.out .unit), b)

theorem lower_ask (ha : b[x]? = some a) (q : TAsk) :
    Lower (q.script (b.map WInt.kind) x a.kind) b (orSkip b (q.exec a) b.answer) := by
  have key : ∀ {r : Run (Res TOut)} (q : Ask), r = (q.exec a.value).map outRes →
      Lower (Script.pass (b.map WInt.kind) (.ask q x)) b (b.answer r) := by
    intro r q h
    rw [h]
    exact lower_answer (ask_exec ha q)
  cases a with
  | u a =>
    cases q
    case resize ty =>
      unfold TAsk.script TAsk.exec
      dsimp only [WInt.kind]
      rw [ask_cast_u]
      split
      · exact key _ rfl
      · rfl
    case tryTo ty =>
      unfold TAsk.script TAsk.exec
      dsimp only [WInt.kind]
      rw [ask_try_u]
      split
      · exact key _ rfl
      · rfl
    all_goals
      first
      | exact key _ (say_tell _ _)
      | exact key _ (sayRes_tell _ _)
      | exact key _ rfl
      | rfl
  | s a =>
    have msb : ∀ (k : Bool → Script), (Script.test (.ask .msb x) k).run (b.map WInt.value) =
        (do let t ← a.value.msb; (k t).run (b.map WInt.value)) :=
      fun k => run_test (ask_exec ha .msb)
    have isZero : ∀ (k : Bool → Script), (Script.test (.ask .isZero x) k).run (b.map WInt.value) =
        (do let t ← a.value.isZero; (k t).run (b.map WInt.value)) :=
      fun k => run_test (ask_exec ha .isZero)
    cases q
    case resize ty =>
      unfold TAsk.script TAsk.exec
      dsimp only [WInt.kind]
      rw [ask_cast_s]
      split
      · exact key _ rfl
      · rfl
    case isNegative =>
      refine (msb _).trans ?_
      show _ = (b.answer (say .bool a.isNegative)).map splitBank
      unfold SInt.isNegative SInt.isPositive SInt.msb
      cases a.value.msb <;> rfl
    case isPositive =>
      refine (msb _).trans ?_
      show _ = (b.answer (say .bool a.isPositive)).map splitBank
      unfold SInt.isPositive SInt.msb
      cases a.value.msb <;> rfl
    case signum =>
      refine (isZero _).trans ?_
      show _ = (b.answer (say .int a.signum)).map splitBank
      unfold SInt.signum SInt.isNegative SInt.isPositive SInt.msb SInt.isZero
      cases a.value.isZero with
      | error f => rfl
      | ok z =>
        cases z with
        | true => rfl
        | false =>
          refine (msb _).trans ?_
          rcases a.value.msb with _ | _ | _ <;> rfl
    all_goals
      first
      | exact key _ (say_tell _ _)
      | exact key _ (sayRes_tell _ _)
      | exact key _ rfl
      | rfl

theorem run_count {i : Instr} {k : Nat → Script} {v : Bank} {n : Nat}
    (h : i.exec v = .ok (.ok (.nat n), v)) : (Script.count i k).run v = (k n).run v := by
  unfold Script.count
  simp only [Script.run, h]
  rfl

theorem lower_cmp (ha : b[x]? = some a) (hc : b[y]? = some c) (q : TAsk2) (k : Kind)
    (hak : a.kind = k) (hck : c.kind = k) :
    Lower (q.script (b.map WInt.kind) x y k) b (orSkip b (q.exec a c) b.answer) := by
  have key : ∀ {r : Run (Res TOut)} (q : Ask2), r = (q.exec a.value c.value).map outRes →
      Lower (Script.pass (b.map WInt.kind) (.ask2 q x y)) b (b.answer r) := by
    intro r q h
    rw [h]
    exact lower_answer (ask2_exec ha hc q)
  have wd : ∀ (k : Nat → Script), (Script.count (.ask .width x) k).run (b.map WInt.value) =
      (k a.value.width.toUsize).run (b.map WInt.value) :=
    fun k => run_count (ask_exec ha .width)
  have wd' : ∀ (k : Nat → Script), (Script.count (.ask .width y) k).run (b.map WInt.value) =
      (k c.value.width.toUsize).run (b.map WInt.value) :=
    fun k => run_count (ask_exec hc .width)
  have eq : ∀ (k : Bool → Script), (Script.test (.ask2 .eq x y) k).run (b.map WInt.value) =
        (do let t ← a.value.eq c.value; (k t).run (b.map WInt.value)) :=
    fun k => run_test (ask2_exec ha hc .eq)
  have ult : ∀ (k : Bool → Script), (Script.test (.ask2 .ult x y) k).run (b.map WInt.value) =
        (do let t ← a.value.checkedUlt c.value; let t ← expect t; (k t).run (b.map WInt.value)) :=
    fun k => run_test_res (ask2_exec ha hc .ult)
  have slt : ∀ (k : Bool → Script), (Script.test (.ask2 .slt x y) k).run (b.map WInt.value) =
        (do let t ← a.value.checkedSlt c.value; let t ← expect t; (k t).run (b.map WInt.value)) :=
    fun k => run_test_res (ask2_exec ha hc .slt)
  have hw : ∀ {s t : BitWidth}, s.toUsize ≠ t.toUsize ↔ s ≠ t := by
    intro s t
    constructor
    · intro h e; exact h (congrArg _ e)
    · intro h e; cases s; cases t; cases e; exact h rfl
  cases k <;> cases a <;> cases hak <;> cases c <;> cases hck
  · rename_i a c
    cases q
    case partialCmp =>
      refine (wd _).trans ((wd' _).trans ?_)
      show _ = (b.answer (do
        let o ← a.partialCmp c
        pure (.ok (.ord o)))).map splitBank
      unfold UInt.partialCmp
      by_cases h : a.width = c.width
      · rw [if_neg (by rw [hw]; exact not_not.mpr h), if_neg (not_not.mpr h)]
        refine (ult _).trans ?_
        dsimp only [WInt.value]
        unfold UInt.checkedLt
        rcases a.value.checkedUlt c.value with _ | _ | _ | _
        · rfl
        · rfl
        · refine (eq _).trans ?_
          dsimp only [WInt.value]
          show _ = Except.map splitBank (b.answer (do
            let o ← (do
              let e ← a.value.eq c.value
              if e then .ok (some .eq) else .ok (some .gt))
            pure (.ok (.ord o))))
          rcases a.value.eq c.value with _ | _ | _ <;> rfl
        · rfl
      · rw [if_pos (by rw [hw]; exact h), if_pos h]; rfl
    all_goals
      first
      | exact key _ (say_tell _ _)
      | exact key _ (sayRes_tell _ _)
      | exact lower_orFalse (ask2_exec ha hc _) (fun _ => rfl) (fun _ => rfl)
  · rename_i a c
    cases q
    case partialCmp =>
      refine (wd _).trans ((wd' _).trans ?_)
      show _ = (b.answer (do
        let o ← a.partialCmp c
        pure (.ok (.ord o)))).map splitBank
      unfold SInt.partialCmp
      by_cases h : a.width = c.width
      · rw [if_neg (by rw [hw]; exact not_not.mpr h), if_neg (not_not.mpr h)]
        refine (slt _).trans ?_
        dsimp only [WInt.value]
        unfold SInt.checkedLt
        rcases a.value.checkedSlt c.value with _ | _ | _ | _
        · rfl
        · rfl
        · refine (eq _).trans ?_
          dsimp only [WInt.value]
          show _ = Except.map splitBank (b.answer (do
            let o ← (do
              let e ← a.value.eq c.value
              if e then .ok (some .eq) else .ok (some .gt))
            pure (.ok (.ord o))))
          rcases a.value.eq c.value with _ | _ | _ <;> rfl
        · rfl
      · rw [if_pos (by rw [hw]; exact h), if_pos h]; rfl
    all_goals
      first
      | exact key _ (say_tell _ _)
      | exact key _ (sayRes_tell _ _)
      | exact lower_orFalse (ask2_exec ha hc _) (fun _ => rfl) (fun _ => rfl)

/-- One call on two integers. -/
theorem lower_two {α : Type} (x y : Nat) {f : WInt → WInt → Option α}
    {k : α → Run (Res TOut × TBank)} {s : Kind → Script}
    (h1 : ∀ u v, f (.u u) (.s v) = none) (h2 : ∀ u v, f (.s v) (.u u) = none)
    (h : ∀ a c, b[x]? = some a → b[y]? = some c → c.kind = a.kind →
      Lower (s a.kind) b (orSkip b (f a c) k)) :
    Lower (match (b.map WInt.kind)[x]?, (b.map WInt.kind)[y]? with
      | some .unsigned, some .unsigned => s .unsigned
      | some .signed, some .signed => s .signed
      | _, _ => .unit (b.map WInt.kind)) b
    (match b[x]?, b[y]? with
      | some a, some c =>
        match f a c with
        | some r => k r
        | none => pure (.ok (.out .unit), b)
      | _, _ => pure (.ok (.out .unit), b)) := by
  rw [List.getElem?_map, List.getElem?_map]
  cases ha : b[x]? with
  | none => exact lower_skip
  | some a =>
    cases hc : b[y]? with
    | none => cases a <;> exact lower_skip
    | some c =>
      cases a with
      | u a =>
        cases c with
        | u c => exact h _ _ ha hc rfl
        | s c => dsimp only [Option.map]; rw [h1]; exact lower_skip
      | s a =>
        cases c with
        | u c => dsimp only [Option.map]; rw [h2]; exact lower_skip
        | s c => exact h _ _ ha hc rfl

theorem lower_one {α : Type} (x : Nat) {f : WInt → Option α}
    {k : α → Run (Res TOut × TBank)} {s : Kind → Script}
    (h : ∀ a, b[x]? = some a → Lower (s a.kind) b (orSkip b (f a) k)) :
    Lower (match (b.map WInt.kind)[x]? with
      | some k => s k
      | none => .unit (b.map WInt.kind)) b
    (match b[x]? with
      | some a =>
        match f a with
        | some r => k r
        | none => pure (.ok (.out .unit), b)
      | none => pure (.ok (.out .unit), b)) := by
  rw [List.getElem?_map]
  cases ha : b[x]? with
  | none => exact lower_skip
  | some a => exact h _ ha

theorem bin_exec (ha : b[x]? = some a) (hc : b[y]? = some c) (o : Bin) :
    (Instr.bin o x y).exec (b.map WInt.value) =
      storeRes (b.map WInt.value) x (o.exec a.value c.value) := by
  simp only [Instr.exec, field_get ha, field_get hc]

/-- The script of a method does what the method does. -/
theorem lower_call (b : TBank) (i : TInstr) : Lower (i.script (b.map WInt.kind)) b (i.exec b) := by
  cases i with
  | make m =>
    show Lower (Script.push _ _ _) b (b.pushRes m.exec)
    rw [make_field]
    exact lower_push rfl
  | intOne t =>
    unfold TInstr.script TInstr.exec SInt.one
    dsimp only
    by_cases h : t = BitWidth.w1
    · rw [if_pos h, if_pos h]; rfl
    · rw [if_neg h, if_neg h]
      unfold Lower
      simp only [Script.run, Instr.exec, Make.exec]
      rcases ApInt.one t with _ | _
      · rfl
      · show Except.ok _ = Except.ok _
        simp [splitBank, WInt.kind, WInt.value]
  | clone x =>
    refine lower_one x (f := fun a => some (putNew id a.clone)) fun a ha => ?_
    have h : (Instr.clone x).exec (b.map WInt.value) =
        pushRes (b.map WInt.value) (fine a.value.clone) := by
      simp only [Instr.exec, field_get ha]
    have := lower_push (k := a.kind) h
    refine this.trans ?_
    cases a with
    | u a => show _ = Except.map splitBank (b.pushRes (putNew id (do let c ← a.value.clone; pure (.u ⟨c⟩))))
             show Except.map splitBank (b.pushRes ((fine a.value.clone).map fun r => r.map (Kind.wrap .unsigned))) = _
             cases a.value.clone <;> rfl
    | s a => show _ = Except.map splitBank (b.pushRes (putNew id (do let c ← a.value.clone; pure (.s ⟨c⟩))))
             show Except.map splitBank (b.pushRes ((fine a.value.clone).map fun r => r.map (Kind.wrap .signed))) = _
             cases a.value.clone <;> rfl
  | drop x =>
    show Except.ok _ = Except.ok _
    simp only [splitBank, List.eraseIdx_map]
  | assign x y =>
    refine lower_two (b := b) x y (f := WInt.assign) (k := b.storeRes x)
      (s := fun k => .pass (b.map WInt.kind) (.assign x y)) (fun _ _ => rfl) (fun _ _ => rfl) fun a c ha hc hk => ?_
    have h := lower_store (i := .assign x y) (q := done (a.value.assign c.value)) ha
      (by simp only [Instr.exec, field_get ha, field_get hc])
    refine h.trans ?_
    cases a <;> cases c <;> cases hk
    · exact congrArg (fun r => (b.storeRes x r).map splitBank) (u_done _).symm
    · exact congrArg (fun r => (b.storeRes x r).map splitBank) (s_done _).symm
  | strictAssign x y =>
    refine lower_two (b := b) x y (f := WInt.strictAssign) (k := b.storeRes x)
      (s := fun k => .pass (b.map WInt.kind) (.strictAssign x y)) (fun _ _ => rfl) (fun _ _ => rfl) fun a c ha hc hk => ?_
    have h := lower_store (i := .strictAssign x y) (q := a.value.strictAssign c.value) ha
      (by simp only [Instr.exec, field_get ha, field_get hc])
    refine h.trans ?_
    cases a <;> cases c <;> cases hk
    · exact congrArg (fun r => (b.storeRes x r).map splitBank) (u_mut _).symm
    · exact congrArg (fun r => (b.storeRes x r).map splitBank) (s_mut _).symm
  | intoUnsigned x =>
    refine lower_one x fun a ha => ?_
    show Except.ok _ = _
    cases a with
    | u a =>
      rw [set_self (by rw [List.getElem?_map, ha]; rfl)]; rfl
    | s a =>
      show _ = Except.ok (splitBank (.ok (.out .unit), b.set x (.u ⟨a.value⟩)))
      simp only [splitBank, List.map_set, WInt.kind, WInt.value]
      rw [set_self (a := a.value) (field_get ha)]
  | intoSigned x =>
    refine lower_one x fun a ha => ?_
    show Except.ok _ = _
    cases a with
    | s a =>
      rw [set_self (by rw [List.getElem?_map, ha]; rfl)]; rfl
    | u a =>
      show _ = Except.ok (splitBank (.ok (.out .unit), b.set x (.s ⟨a.value⟩)))
      simp only [splitBank, List.map_set, WInt.kind, WInt.value]
      rw [set_self (a := a.value) (field_get ha)]
  | un o x =>
    refine lower_one x fun a ha => ?_
    unfold TUn.script
    cases h : o.field a.kind with
    | some u =>
      rw [un_field o a h]
      exact lower_store ha (un_exec ha u)
    | none =>
      cases a with
      | u a => cases o <;> first | exact lower_skip | cases h
      | s a => cases o <;> first | exact lower_abs_store ha | cases h
  | intoUn o x =>
    refine lower_one x fun a ha => ?_
    unfold TUn.scriptInto
    cases h : o.field a.kind with
    | some u =>
      rw [un_field_into o a h]
      exact lower_consume ha (un_exec ha u)
    | none =>
      cases a with
      | u a => cases o <;> first | exact lower_skip | cases h
      | s a => cases o <;> first | exact lower_abs_move ha | cases h
  | opUn o x =>
    refine lower_one x (f := fun a => some (o.exec a)) fun a ha => ?_
    rw [unop_field]
    exact lower_unwrap_move ha (un_exec ha _)
  | opShift o x =>
    refine lower_one x (f := fun a => some (o.exec a)) fun a ha => ?_
    rw [shift_field]
    exact lower_unwrap_store ha (un_exec ha _)
  | alter o x =>
    refine lower_one x fun a ha => ?_
    cases h : o.field a.kind with
    | some u =>
      rw [alter_field o a h]
      exact lower_store ha (by simp only [Instr.exec, field_get ha])
    | none => cases a <;> cases o <;> first | exact lower_skip | cases h
  | bin o x y =>
    refine lower_two (b := b) x y (f := o.exec) (k := b.storeRes x)
      (s := fun k => .pass (b.map WInt.kind) (.bin (o.field k) x y)) (fun _ _ => rfl) (fun _ _ => rfl) fun a c ha hc hk => ?_
    refine (lower_store ha (bin_exec ha hc _)).trans ?_
    cases a <;> cases c <;> cases hk
    · exact congrArg (fun r => (b.storeRes x r).map splitBank) (bin_field_u _ _ _).symm
    · exact congrArg (fun r => (b.storeRes x r).map splitBank) (bin_field_s _ _ _).symm
  | intoBin o x y =>
    refine lower_two (b := b) x y (f := o.execInto) (k := b.moveRes x)
      (s := fun k => .consume (b.map WInt.kind) x (.bin (o.field k) x y)) (fun _ _ => rfl) (fun _ _ => rfl) fun a c ha hc hk => ?_
    refine (lower_consume ha (bin_exec ha hc _)).trans ?_
    cases a <;> cases c <;> cases hk
    · exact congrArg (fun r => (b.moveRes x r).map splitBank) (bin_into_u _ _ _).symm
    · exact congrArg (fun r => (b.moveRes x r).map splitBank) (bin_into_s _ _ _).symm
  | op o x y =>
    refine lower_two (b := b) x y (f := o.execOp) (k := b.moveRes x)
      (s := fun k => .unwrap (b.map WInt.kind) (.bin (o.field k) x y)) (fun _ _ => rfl) (fun _ _ => rfl) fun a c ha hc hk => ?_
    refine (lower_unwrap_move ha (bin_exec ha hc _)).trans ?_
    cases a <;> cases c <;> cases hk
    · rename_i a c
      show _ = Except.map splitBank (b.moveRes x (putNew .u (o.unsigned.2.2.1 a c)))
      rw [bin_op_u, put_unwrapRes .u, bin_into_u]; rfl
    · rename_i a c
      show _ = Except.map splitBank (b.moveRes x (putNew .s (o.signed.2.2.1 a c)))
      rw [bin_op_s, put_unwrapRes .s, bin_into_s]; rfl
  | opAssign o x y =>
    refine lower_two (b := b) x y (f := o.execOpAssign) (k := b.storeRes x)
      (s := fun k => .unwrap (b.map WInt.kind) (.bin (o.field k) x y)) (fun _ _ => rfl) (fun _ _ => rfl) fun a c ha hc hk => ?_
    refine (lower_unwrap_store ha (bin_exec ha hc _)).trans ?_
    cases a <;> cases c <;> cases hk
    · rename_i a c
      show _ = Except.map splitBank (b.storeRes x (putDone .u (o.unsigned.2.2.2 a c)))
      rw [bin_assign_u, put_unwrapMut .u, bin_field_u]; rfl
    · rename_i a c
      show _ = Except.map splitBank (b.storeRes x (putDone .s (o.signed.2.2.2 a c)))
      rw [bin_assign_s, put_unwrapMut .s, bin_field_s]; rfl
  | ask q x => exact lower_one x fun a ha => lower_ask ha q
  | ask2 q x y =>
    exact lower_two (b := b) x y (f := q.exec) (k := b.answer)
      (s := fun k => q.script (b.map WInt.kind) x y k) (fun _ _ => rfl) (fun _ _ => rfl)
      fun a c ha hc hk => lower_cmp ha hc q _ rfl hk

end

/-! ## Scripts whose panics are caught -/

theorem exec_caught (i : Instr) (b : Bank) :
    (∀ r b', i.exec b = .ok (r, b') → i.caught b = .ok (.returned r, b')) ∧
    (i.exec b = .error .panic → ∃ b', i.caught b = .ok (.panicked, b')) := by
  unfold Instr.caught
  rw [← forget_execT i b]
  rcases i.execT b with ⟨f, b'⟩ | ⟨r, b'⟩
  · refine ⟨nofun, fun h => ?_⟩
    cases (Except.error.inj h : f = .panic)
    exact ⟨b', rfl⟩
  · refine ⟨fun r' b'' h => ?_, nofun⟩
    cases (Except.ok.inj h : (r, b') = (r', b''))
    rfl

theorem play_ok {s : Script} {b b' : Bank} {x : Res TOut × List Kind}
    (h : s.run b = .ok (x, b')) : s.play Instr.caught b = .ok (some x, b') := by
  induction s generalizing b with
  | done r ks => cases h; rfl
  | panic => cases h
  | call i k ih =>
    unfold Script.run at h
    match e : i.exec b with
    | .error f => rw [e] at h; cases h
    | .ok (r, c) =>
      rw [e] at h
      unfold Script.play
      rw [(exec_caught i b).1 _ _ e]
      exact ih r h

theorem play_panic {s : Script} {b : Bank}
    (h : s.run b = .error .panic) : ∃ b', s.play Instr.caught b = .ok (none, b') := by
  induction s generalizing b with
  | done r ks => cases h
  | panic => exact ⟨b, rfl⟩
  | call i k ih =>
    unfold Script.run at h
    unfold Script.play
    match e : i.exec b with
    | .error f =>
      rw [e] at h
      cases (Except.error.inj h : f = .panic)
      obtain ⟨b', e⟩ := (exec_caught i b).2 e
      exact ⟨b', by rw [e]; rfl⟩
    | .ok (r, c) =>
      rw [e] at h
      rw [(exec_caught i b).1 _ _ e]
      exact ih r h

/-- What a panicking call on the fields leaves behind. -/
def CallLeft (i : Instr) (v v' : Bank) : Prop :=
  i.spec (v.map ApInt.abs) = none ∧ v'.map ApInt.abs = i.specLeft (v.map ApInt.abs) ∧
    ∀ a ∈ v', a.WF

/-- What a call on the fields that reports an error leaves behind. -/
def CallErr (i : Instr) (v v' : Bank) : Prop :=
  ∃ e, i.spec (v.map ApInt.abs) = some (.error e, v'.map ApInt.abs) ∧ ∀ a ∈ v', a.WF

section

variable {v v' : Bank} {ks : List Kind} {i : Instr}

theorem caught_cases (i : Instr) (hv : ∀ a ∈ v, a.WF) :
    (∃ r v', i.caught v = .ok (.returned r, v') ∧
      i.spec (v.map ApInt.abs) = some (absRes r, v'.map ApInt.abs) ∧ ∀ a ∈ v', a.WF) ∨
    (∃ v', i.caught v = .ok (.panicked, v') ∧ CallLeft i v v') := by
  obtain ⟨s, v', e, w, h⟩ := caught_agrees i hv
  unfold Instr.specCaught at h
  cases hs : i.spec (v.map ApInt.abs) with
  | none =>
    rw [hs] at h
    cases s with
    | returned r => cases congrArg Prod.fst h
    | panicked => exact .inr ⟨v', e, hs, congrArg Prod.snd h, w⟩
  | some p =>
    rw [hs] at h
    cases s with
    | panicked => cases congrArg Prod.fst h
    | returned r =>
      refine .inl ⟨r, v', e, ?_, w⟩
      have h1 : ASeen.returned (absRes r) = .returned p.1 := congrArg Prod.fst h
      have h2 : v'.map ApInt.abs = p.2 := congrArg Prod.snd h
      rw [h2, ASeen.returned.inj h1]

theorem pass_left (hv : ∀ a ∈ v, a.WF)
    (h : (Script.pass ks i).play Instr.caught v = .ok (none, v')) : CallLeft i v v' := by
  unfold Script.pass Script.play at h
  rcases caught_cases i hv with ⟨r, c, e, _⟩ | ⟨c, e, l⟩
  · rw [e] at h; cases r <;> cases h
  · rw [e] at h; cases h; exact l

theorem consume_left {x : Nat} (hv : ∀ a ∈ v, a.WF)
    (h : (Script.consume ks x i).play Instr.caught v = .ok (none, v')) : CallLeft i v v' := by
  unfold Script.consume Script.play at h
  rcases caught_cases i hv with ⟨r, c, e, _⟩ | ⟨c, e, l⟩
  · rw [e] at h
    cases r with
    | ok o => cases h
    | error f =>
      have h : (Script.call (.drop x) fun _ => Script.done (.error f) (ks.eraseIdx x)).play
        Instr.caught c = .ok (none, v') := h
      unfold Script.play at h
      cases h
  · rw [e] at h; cases h; exact l

theorem unwrap_left (hv : ∀ a ∈ v, a.WF)
    (h : (Script.unwrap ks i).play Instr.caught v = .ok (none, v')) :
    CallLeft i v v' ∨ CallErr i v v' := by
  unfold Script.unwrap Script.play at h
  rcases caught_cases i hv with ⟨r, c, e, hs, w⟩ | ⟨c, e, l⟩
  · rw [e] at h
    cases r with
    | ok o => cases h
    | error f => cases h; exact .inr ⟨f.abs, hs, w⟩
  · rw [e] at h; cases h; exact .inl l

end

section

variable {b : TBank} {x y : Nat}

theorem num_abs (a : WInt) : a.num = a.value.abs.num a.kind := by cases a <;> rfl

theorem value_wf {a : WInt} (h : a.WF) : a.value.WF := by cases a <;> exact h

theorem values_wf (hb : ∀ a ∈ b, a.WF) : ∀ a ∈ b.map WInt.value, a.WF := by
  intro a ha
  obtain ⟨c, hc, rfl⟩ := List.mem_map.mp ha
  exact value_wf (hb c hc)

theorem num_magnitude {a : AInt} (ha : a.Ok) :
    a.magnitude.num .signed = (a.num .signed).put |(a.num .signed).val| := by
  have h1 : |a.sint| = ((a.sint.natAbs : Nat) : Int) := (Int.natCast_natAbs _).symm
  have hlt : a.sint.natAbs < 2 ^ a.width := by
    have h := sint_range ha
    have h2 := pow_even ha.pos
    have h3 : ((2 ^ a.width : Nat) : Int) = (2 : Int) ^ a.width := by norm_cast
    have h4 : (0 : Int) < 2 ^ (a.width - 1) := by positivity
    omega
  have hok : AInt.Ok ⟨a.width, a.sint.natAbs⟩ := ⟨ha.pos, hlt⟩
  unfold Num.put
  show AInt.num .signed ⟨a.width, a.sint.natAbs⟩ = Num.of .signed a.width |a.sint|
  rw [h1, ← num_ofInt .signed ha.pos]
  unfold AInt.ofInt
  rw [wrap_of_lt hlt]

theorem un_spec_err {o : Un} {s s' : ABank} {e : AErr}
    (h : (Instr.un o x).spec s = some (.error e, s')) : s' = s := by
  simp only [Instr.spec] at h
  cases hx : s[x]? with
  | none => rw [hx] at h; cases h
  | some a =>
    rw [hx] at h
    dsimp only at h
    cases ho : o.spec a with
    | ok z => rw [ho] at h; cases h
    | error f => rw [ho] at h; cases h; rfl

theorem un_spec_some (o : Un) (s : ABank) : (Instr.un o x).spec s ≠ none := by
  simp only [Instr.spec]
  cases s[x]? <;> nofun

theorem bin_spec_err {o : Bin} {s s' : ABank} {e : AErr}
    (h : (Instr.bin o x y).spec s = some (.error e, s')) : s' = s := by
  simp only [Instr.spec] at h
  cases hx : s[x]? with
  | none => rw [hx] at h; cases h
  | some a =>
    cases hy : s[y]? with
    | none => rw [hx, hy] at h; cases h
    | some c =>
      rw [hx, hy] at h
      dsimp only at h
      rcases ho : o.spec a c with _ | _ | _
      · rw [ho] at h; cases h
      · rw [ho] at h; cases h; rfl
      · rw [ho] at h; cases h

/-- The bank with the field of register `x` replaced by its magnitude. -/
theorem magnitude_bank (hb : ∀ a ∈ b, a.WF) {a : WInt} (ha : b[x]? = some a) {v' : Bank}
    (hv : ∀ a ∈ v', a.WF)
    (h : v'.map ApInt.abs = ((b.map WInt.value).map ApInt.abs).modify x AInt.magnitude) :
    ∃ m : ApInt, m.WF ∧ m.abs = a.value.abs.magnitude ∧ v' = (b.map WInt.value).set x m := by
  have h1 : (v'.map ApInt.abs)[x]? = some a.value.abs.magnitude := by
    rw [h, List.getElem?_modify, List.getElem?_map, List.getElem?_map, ha]
    simp
  rw [List.getElem?_map] at h1
  cases hm : v'[x]? with
  | none => rw [hm] at h1; cases h1
  | some m =>
    rw [hm] at h1
    have h2 : m.abs = a.value.abs.magnitude := Option.some.inj h1
    have hw := hv _ (List.mem_of_getElem? hm)
    refine ⟨m, hw, h2, ?_⟩
    refine abs_bank_inj hv ?_ ?_
    · intro c hc
      rcases List.mem_or_eq_of_mem_set hc with hc | rfl
      · exact values_wf hb _ hc
      · exact hw
    · rw [h, List.map_set, h2]
      apply List.ext_getElem?
      intro j
      rw [List.getElem?_modify, List.getElem?_set]
      by_cases hj : x = j
      · subst hj
        have hl := (List.getElem?_eq_some_iff.mp ha).1
        rw [List.getElem?_map, List.getElem?_map, ha]
        simp [hl]
      · simp [hj]

/-- A panic is caught with these integers. -/
def LeftAs (i : TInstr) (b : TBank) (r : Run (TSeen × List Kind × Bank)) : Prop :=
  ∃ b' : TBank, r = .ok (.panicked, b'.map WInt.kind, b'.map WInt.value) ∧ (∀ a ∈ b', a.WF) ∧
    b'.map WInt.num = i.specLeft (b.map WInt.num)

theorem modify_eraseIdx {α : Type} (l : List α) (x : Nat) (a : α) :
    (l.set x a).eraseIdx x = l.eraseIdx x := List.eraseIdx_set_eq

theorem erase_left (hb : ∀ a ∈ b, a.WF) {i : TInstr}
    (hl : i.specLeft (b.map WInt.num) = (b.map WInt.num).eraseIdx x) :
    LeftAs i b (.ok (.panicked, (b.map WInt.kind).eraseIdx x, (b.map WInt.value).eraseIdx x)) :=
  ⟨b.eraseIdx x, by simp only [List.eraseIdx_map],
    fun a ha => hb a (List.mem_of_mem_eraseIdx ha), by rw [hl, List.eraseIdx_map]⟩

theorem same_left (hb : ∀ a ∈ b, a.WF) {i : TInstr}
    (hl : i.specLeft (b.map WInt.num) = b.map WInt.num) :
    LeftAs i b (.ok (.panicked, b.map WInt.kind, b.map WInt.value)) :=
  ⟨b, rfl, hb, hl.symm⟩

theorem unchanged (hb : ∀ a ∈ b, a.WF) {v' : Bank} (hv : ∀ a ∈ v', a.WF)
    (h : v'.map ApInt.abs = (b.map WInt.value).map ApInt.abs) : v' = b.map WInt.value :=
  abs_bank_inj hv (values_wf hb) h

end

theorem onDid_none {α : Type} {b : NBank} {d : Did α} {g : α → Except AErr TOut × NBank} {r : NBank} :
    b.onDid d g r = none ↔ d = .panics := by
  cases d <;> simp [NBank.onDid]

theorem make_no_panic (m : TMake) : m.spec ≠ .panics := by
  cases m with
  | min k t => cases k <;> (intro h; cases h)
  | max k t => cases k <;> (intro h; cases h)
  | parse k n s => simp only [TMake.spec]; intro h; split at h <;> cases h
  | _ => (intro h; cases h)

theorem un_no_panic (o : TUn) (a : Num) : o.spec a ≠ .panics := by
  cases o <;> simp only [TUn.spec] <;> first | ((intro h; cases h); done) | (intro h; split at h <;> cases h)

theorem alter_no_panic (o : TAlter) (a : Num) : o.spec a ≠ .panics := by
  cases o <;> simp only [TAlter.spec] <;> first | ((intro h; cases h); done) | (intro h; split at h <;> cases h)

theorem ask_no_panic {q : TAsk} {a : Num} (h : q.spec a = .panics) : q = .octal := by
  cases q <;> simp only [TAsk.spec] at h
  case resize ty => cases h' : a.cast ty <;> rw [h'] at h <;> cases h
  case tryTo ty =>
    split at h
    · cases h
    · cases h' : a.cast ty <;> rw [h'] at h
      · cases h
      · dsimp only at h; split at h <;> cases h
  case octal => rfl
  all_goals first | (cases h; done) | (split at h <;> cases h)

theorem ask2_no_panic (q : TAsk2) (a c : Num) : q.spec a c ≠ .panics := by
  unfold TAsk2.spec
  dsimp only
  by_cases hk : a.kind = c.kind
  swap
  · rw [if_pos hk]; intro h; cases h
  · rw [if_neg (not_not.mpr hk)]
    cases q <;> dsimp only <;> first | ((intro h; cases h); done) | (intro h; split at h <;> cases h)

theorem bin_absent {o : TBin} {a c : Num} (h : a.kind ≠ c.kind) : o.spec a c = .absent := by
  unfold TBin.spec
  exact if_pos h

theorem bin_panics {o : TBin} {a c : Num} (h : o.spec a c = .panics) :
    a.kind = c.kind ∧ a.kind = .signed ∧ c.val ≠ 0 ∧ (o = .div ∨ o = .rem) := by
  by_cases hk : a.kind = c.kind
  swap
  · rw [bin_absent hk] at h; cases h
  refine ⟨hk, ?_⟩
  unfold TBin.spec at h
  rw [if_neg (not_not.mpr hk)] at h
  cases ha : a.kind with
  | unsigned =>
    rw [ha] at h
    exfalso
    cases o <;> dsimp only at h <;> split at h <;> first | (cases h; done) | (split at h <;> cases h)
  | signed =>
    rw [ha] at h
    refine ⟨rfl, ?_⟩
    cases o <;> dsimp only at h <;> split at h <;> first | (cases h; done) | skip
    · rename_i h0; exact ⟨h0, .inl rfl⟩
    · rename_i h0; exact ⟨h0, .inr rfl⟩

section

variable {v v' : Bank} {x y : Nat} {a c : ApInt}

theorem bin_call_left {o : Bin} (hx : v[x]? = some a) (hy : v[y]? = some c)
    (h : CallLeft (.bin o x y) v v') :
    (o = .sdiv ∨ o = .srem) ∧ c.abs.bits ≠ 0 ∧
      v'.map ApInt.abs = (v.map ApInt.abs).modify x AInt.magnitude := by
  obtain ⟨h1, h2, _⟩ := h
  simp only [Instr.spec, List.getElem?_map, hx, hy, Option.map_some] at h1
  have h1 : o.spec a.abs c.abs = none := by
    cases e : o.spec a.abs c.abs with
    | none => rfl
    | some r => rw [e] at h1; cases h1
  cases o
  case sdiv =>
    refine ⟨.inl rfl, ?_, h2⟩
    intro h0
    simp only [Bin.spec, if_pos h0] at h1
    cases h1
  case srem =>
    refine ⟨.inr rfl, ?_, h2⟩
    intro h0
    simp only [Bin.spec, if_pos h0] at h1
    cases h1
  all_goals cases h1

theorem bin_call_err {o : Bin} (hx : v[x]? = some a) (hy : v[y]? = some c)
    (h : CallErr (.bin o x y) v v') (ho : o = .sdiv ∨ o = .srem) : c.abs.bits = 0 := by
  obtain ⟨e, h1, _⟩ := h
  simp only [Instr.spec, List.getElem?_map, hx, hy, Option.map_some] at h1
  by_contra h0
  rcases ho with rfl | rfl
  · simp only [Bin.spec, if_neg h0] at h1
    by_cases hw : a.abs.width = c.abs.width
    · rw [if_neg (not_not.mpr hw)] at h1; cases h1
    · rw [if_pos hw] at h1; cases h1
  · simp only [Bin.spec, if_neg h0] at h1
    by_cases hw : a.abs.width = c.abs.width
    · rw [if_neg (not_not.mpr hw)] at h1; cases h1
    · rw [if_pos hw] at h1; cases h1

end

theorem field_div {o : TBin} {k : Kind} (h : o.field k = .sdiv ∨ o.field k = .srem) :
    k = .signed ∧ (o = .div ∨ o = .rem) := by
  cases o <;> cases k <;> simp [TBin.field] at h ⊢

section

variable {b : TBank}

/-- What a method that panics leaves behind. -/
theorem left_agrees (hb : ∀ a ∈ b, a.WF) (i : TInstr) (hs : i.spec (b.map WInt.num) = none)
    {v' : Bank}
    (hp : (i.script (b.map WInt.kind)).play Instr.caught (b.map WInt.value) = .ok (none, v')) :
    LeftAs i b (match i.consumes with
      | none => .ok (.panicked, b.map WInt.kind, v')
      | some x => .ok (.panicked, (b.map WInt.kind).eraseIdx x, v'.eraseIdx x)) := by
  have hv := values_wf hb
  have num : ∀ x : Nat, (b.map WInt.num)[x]? = b[x]?.map WInt.num := fun x => by simp
  have kind : ∀ x : Nat, (b.map WInt.kind)[x]? = b[x]?.map WInt.kind := fun x => by simp
  have one : ∀ {x : Nat} {α : Type} {f : Num → Did α} {k : Did α → Option (Except AErr TOut × NBank)},
      (match (b.map WInt.num)[x]? with
        | some a => k (f a)
        | none => some (.ok (.out .unit), b.map WInt.num)) = none →
      ∃ a, b[x]? = some a ∧ k (f a.num) = none := by
    intro x α f k h
    rw [num] at h
    cases hx : b[x]? with
    | none => rw [hx] at h; cases h
    | some a => rw [hx] at h; exact ⟨a, rfl, h⟩
  have two : ∀ {x y : Nat} {α : Type} {f : Num → Num → Did α}
      {k : Did α → Option (Except AErr TOut × NBank)},
      (match (b.map WInt.num)[x]?, (b.map WInt.num)[y]? with
        | some a, some c => k (f a c)
        | _, _ => some (.ok (.out .unit), b.map WInt.num)) = none →
      ∃ a c, b[x]? = some a ∧ b[y]? = some c ∧ k (f a.num c.num) = none := by
    intro x y α f k h
    rw [num, num] at h
    cases hx : b[x]? with
    | none => rw [hx] at h; cases h
    | some a =>
      cases hy : b[y]? with
      | none => rw [hx, hy] at h; cases h
      | some c => rw [hx, hy] at h; exact ⟨a, c, rfl, rfl, h⟩
  have script2 : ∀ {x y : Nat} {a c : WInt} {s : Kind → Script}, b[x]? = some a → b[y]? = some c →
      a.num.kind = c.num.kind →
      (match (b.map WInt.kind)[x]?, (b.map WInt.kind)[y]? with
        | some .unsigned, some .unsigned => s .unsigned
        | some .signed, some .signed => s .signed
        | _, _ => .unit (b.map WInt.kind)).play Instr.caught (b.map WInt.value) = .ok (none, v') →
      (s a.kind).play Instr.caught (b.map WInt.value) = .ok (none, v') := by
    intro x y a c s ha hc hk h
    rw [kind, kind, ha, hc] at h
    cases a <;> cases c <;> first | (cases hk; done) | exact h
  have mag : ∀ {i : TInstr} {x : Nat} {a : WInt}, b[x]? = some a → a.num.kind = .signed →
      (∀ a ∈ v', a.WF) →
      v'.map ApInt.abs = ((b.map WInt.value).map ApInt.abs).modify x AInt.magnitude →
      i.specLeft (b.map WInt.num) = (b.map WInt.num).set x (a.num.put |a.num.val|) →
      LeftAs i b (.ok (.panicked, b.map WInt.kind, v')) := by
    intro i x a ha hk hv' h hi
    obtain ⟨m, w, e, rfl⟩ := magnitude_bank hb ha hv' h
    cases a with
    | u a => cases hk
    | s a =>
      refine ⟨b.set x (Kind.wrap .signed m), ?_, ?_, ?_⟩
      · rw [show (b.set x (Kind.wrap .signed m)).map WInt.kind = b.map WInt.kind from
          set_kinds (a := .s a) ha m, set_values]
      · intro c hc
        rcases List.mem_or_eq_of_mem_set hc with hc | rfl
        · exact hb _ hc
        · exact w
      · rw [hi, List.map_set, num_abs, Kind.wrap_value, Kind.wrap_kind, e,
          num_magnitude (ok_abs (value_wf (hb _ (List.mem_of_getElem? ha))))]
        rfl
  cases i with
  | make m => exact absurd (onDid_none.mp hs) (make_no_panic m)
  | intOne t => cases hs
  | clone x =>
    obtain ⟨a, _, h⟩ := one (f := Did.gives) (k := NBank.push (b.map WInt.num)) hs
    cases h
  | drop x => cases hs
  | assign x y =>
    obtain ⟨a, c, _, _, h⟩ := two (k := NBank.store (b.map WInt.num) x)
      (f := fun a c => if a.kind = c.kind then .gives c else .absent) hs
    have h := onDid_none.mp h
    split at h <;> cases h
  | strictAssign x y =>
    obtain ⟨a, c, _, _, h⟩ := two (k := NBank.store (b.map WInt.num) x)
      (f := fun a c => if a.kind ≠ c.kind then .absent
        else if a.width = c.width then .gives c else .reports (.widths a.width c.width)) hs
    have h := onDid_none.mp h
    split at h
    · cases h
    · split at h <;> cases h
  | intoUnsigned x =>
    obtain ⟨a, _, h⟩ := one (k := NBank.move (b.map WInt.num) x)
      (f := fun a => if a.kind = .signed then .gives (Num.of .unsigned a.width a.val) else .absent) hs
    have h := onDid_none.mp h
    split at h <;> cases h
  | intoSigned x =>
    obtain ⟨a, _, h⟩ := one (k := NBank.move (b.map WInt.num) x)
      (f := fun a => if a.kind = .unsigned then .gives (Num.of .signed a.width a.val) else .absent) hs
    have h := onDid_none.mp h
    split at h <;> cases h
  | un o x =>
    obtain ⟨a, _, h⟩ := one (k := NBank.store (b.map WInt.num) x) (f := o.spec) hs
    exact absurd (onDid_none.mp h) (un_no_panic o _)
  | intoUn o x =>
    obtain ⟨a, _, h⟩ := one (k := NBank.move (b.map WInt.num) x) (f := o.spec) hs
    exact absurd (onDid_none.mp h) (un_no_panic o _)
  | alter o x =>
    obtain ⟨a, _, h⟩ := one (k := NBank.store (b.map WInt.num) x) (f := o.spec) hs
    exact absurd (onDid_none.mp h) (alter_no_panic o _)
  | ask2 q x y =>
    obtain ⟨a, c, _, _, h⟩ := two (k := NBank.answer (b.map WInt.num)) (f := q.spec) hs
    exact absurd (onDid_none.mp h) (ask2_no_panic q _ _)
  | ask q x =>
    obtain ⟨a, ha, h⟩ := one (k := NBank.answer (b.map WInt.num))
      (f := fun a => (q.spec a).map TOut.out) hs
    have h := onDid_none.mp h
    have hq : q = .octal := by
      cases e : q.spec a.num <;> rw [e] at h <;> first | (cases h; done) | exact ask_no_panic e
    subst hq
    have hp : (match (b.map WInt.kind)[x]? with
      | some _ => Script.pass (b.map WInt.kind) (.ask .octal x)
      | none => .unit (b.map WInt.kind)).play Instr.caught (b.map WInt.value) = .ok (none, v') := hp
    rw [kind, ha] at hp
    obtain ⟨_, h1, h2⟩ := pass_left hv hp
    rw [unchanged hb h2 h1]
    exact same_left hb rfl
  | opUn o x =>
    obtain ⟨a, ha, _⟩ := one (k := NBank.move (b.map WInt.num) x) (f := fun a => (o.un.spec a).op) hs
    have hp : (match (b.map WInt.kind)[x]? with
      | some k => Script.unwrap (b.map WInt.kind) (.un (o.field k) x)
      | none => .unit (b.map WInt.kind)).play Instr.caught (b.map WInt.value) = .ok (none, v') := hp
    rw [kind, ha] at hp
    have : v' = b.map WInt.value := by
      rcases unwrap_left hv hp with ⟨h, _⟩ | ⟨e, h, w⟩
      · exact absurd h (un_spec_some _ _)
      · exact unchanged hb w (un_spec_err h)
    rw [this]
    exact erase_left hb rfl
  | opShift o x =>
    obtain ⟨a, ha, _⟩ := one (k := NBank.store (b.map WInt.num) x) (f := fun a => (o.un.spec a).op) hs
    have hp : (match (b.map WInt.kind)[x]? with
      | some k => Script.unwrap (b.map WInt.kind) (.un (o.field k) x)
      | none => .unit (b.map WInt.kind)).play Instr.caught (b.map WInt.value) = .ok (none, v') := hp
    rw [kind, ha] at hp
    have : v' = b.map WInt.value := by
      rcases unwrap_left hv hp with ⟨h, _⟩ | ⟨e, h, w⟩
      · exact absurd h (un_spec_some _ _)
      · exact unchanged hb w (un_spec_err h)
    rw [this]
    exact same_left hb rfl
  | bin o x y =>
    obtain ⟨a, c, ha, hc, h⟩ := two (k := NBank.store (b.map WInt.num) x) (f := o.spec) hs
    obtain ⟨hk, hk', h0, ho⟩ := bin_panics (onDid_none.mp h)
    have hp := script2 (s := fun k => Script.pass (b.map WInt.kind) (.bin (o.field k) x y)) ha hc hk hp
    have hl := pass_left hv hp
    obtain ⟨_, _, h3⟩ := bin_call_left (field_get ha) (field_get hc) hl
    have hd : (TInstr.bin o x y).specLeft (b.map WInt.num) =
        (b.map WInt.num).set x (a.num.put |a.num.val|) := by
      rcases ho with rfl | rfl
      · simp only [TInstr.specLeft, num, ha, hc, Option.map_some]; exact if_pos ⟨hk', h0⟩
      · simp only [TInstr.specLeft, num, ha, hc, Option.map_some]; exact if_pos ⟨hk', h0⟩
    exact mag ha hk' hl.2.2 h3 hd
  | intoBin o x y =>
    obtain ⟨a, c, ha, hc, h⟩ := two (k := NBank.move (b.map WInt.num) x) (f := o.spec) hs
    obtain ⟨hk, hk', h0, ho⟩ := bin_panics (onDid_none.mp h)
    have hp := script2 (s := fun k => Script.consume (b.map WInt.kind) x (.bin (o.field k) x y)) ha hc hk hp
    have hl := consume_left hv hp
    obtain ⟨_, _, h3⟩ := bin_call_left (field_get ha) (field_get hc) hl
    obtain ⟨m, _, _, e⟩ := magnitude_bank hb ha hl.2.2 h3
    rw [e]
    dsimp only [TInstr.consumes]
    rw [List.eraseIdx_set_eq]
    exact erase_left hb rfl
  | op o x y =>
    obtain ⟨a, c, ha, hc, h⟩ := two (k := NBank.move (b.map WInt.num) x)
      (f := fun a c => (o.spec a c).op) hs
    have hk : a.num.kind = c.num.kind := by
      by_contra hk
      have h := onDid_none.mp h
      rw [bin_absent hk] at h; cases h
    have hp := script2 (s := fun k => Script.unwrap (b.map WInt.kind) (.bin (o.field k) x y)) ha hc hk hp
    have : v'.eraseIdx x = (b.map WInt.value).eraseIdx x := by
      rcases unwrap_left hv hp with hl | ⟨e, h, w⟩
      · obtain ⟨_, _, h3⟩ := bin_call_left (field_get ha) (field_get hc) hl
        obtain ⟨m, _, _, e⟩ := magnitude_bank hb ha hl.2.2 h3
        rw [e, List.eraseIdx_set_eq]
      · rw [unchanged hb w (bin_spec_err h)]
    dsimp only [TInstr.consumes]
    rw [this]
    exact erase_left hb rfl
  | opAssign o x y =>
    obtain ⟨a, c, ha, hc, h⟩ := two (k := NBank.store (b.map WInt.num) x)
      (f := fun a c => (o.spec a c).op) hs
    have hk : a.num.kind = c.num.kind := by
      by_contra hk
      have h := onDid_none.mp h
      rw [bin_absent hk] at h; cases h
    have hp := script2 (s := fun k => Script.unwrap (b.map WInt.kind) (.bin (o.field k) x y)) ha hc hk hp
    have hz : a.num.kind = .signed → (c.num.val = 0 ↔ c.value.abs.bits = 0) := by
      intro hs
      rw [num_abs c]
      have : c.kind = .signed := by rw [← hs, hk]; cases c <;> rfl
      rw [this]
      exact sint_eq_zero (ok_abs (value_wf (hb _ (List.mem_of_getElem? hc))))
    have ka : a.num.kind = a.kind := by cases a <;> rfl
    rcases unwrap_left hv hp with hl | hl
    · obtain ⟨h1, h2, h3⟩ := bin_call_left (field_get ha) (field_get hc) hl
      obtain ⟨h4, h5⟩ := field_div h1
      have hk' : a.num.kind = .signed := ka.trans h4
      have h0 : c.num.val ≠ 0 := fun e => h2 ((hz hk').mp e)
      have hd : (TInstr.opAssign o x y).specLeft (b.map WInt.num) =
          (b.map WInt.num).set x (a.num.put |a.num.val|) := by
        rcases h5 with rfl | rfl
        · simp only [TInstr.specLeft, num, ha, hc, Option.map_some]; exact if_pos ⟨hk', h0⟩
        · simp only [TInstr.specLeft, num, ha, hc, Option.map_some]; exact if_pos ⟨hk', h0⟩
      exact mag ha hk' hl.2.2 h3 hd
    · have hu : v' = b.map WInt.value := by
        obtain ⟨e, h, w⟩ := hl
        exact unchanged hb w (bin_spec_err h)
      rw [hu]
      refine same_left hb ?_
      have key : o = .div ∨ o = .rem → ¬ (a.num.kind = .signed ∧ c.num.val ≠ 0) := by
        rintro ho ⟨h1, h2⟩
        apply h2
        rw [hz h1]
        refine bin_call_err (field_get ha) (field_get hc) hl ?_
        rw [ka] at h1
        rw [h1]
        rcases ho with rfl | rfl
        · exact .inl rfl
        · exact .inr rfl
      cases o
      case div =>
        simp only [TInstr.specLeft, num, ha, hc, Option.map_some]
        exact if_neg (key (.inl rfl))
      case rem =>
        simp only [TInstr.specLeft, num, ha, hc, Option.map_some]
        exact if_neg (key (.inr rfl))
      all_goals rfl

end

/-- A caught call agrees with the abstract machine. -/
theorem tcaught_agrees {b : TBank} (hb : ∀ a ∈ b, a.WF) (i : TInstr) :
    ∃ (s : TSeen) (b' : TBank), i.caught Instr.caught (b.map WInt.kind) (b.map WInt.value) =
        .ok (s, b'.map WInt.kind, b'.map WInt.value) ∧ (∀ a ∈ b', a.WF) ∧
      (s.abs, b'.map WInt.num) = i.specCaught (b.map WInt.num) := by
  have hl := lower_call b i
  have ha := texec_agrees hb i
  unfold Lower at hl
  unfold TInstr.caught TInstr.specCaught
  cases hs : i.spec (b.map WInt.num) with
  | none =>
    rw [hs] at ha
    have ha : i.exec b = .error .panic := ha
    rw [ha] at hl
    obtain ⟨v', e⟩ := play_panic hl
    obtain ⟨b', e', w, h⟩ := left_agrees hb i hs e
    refine ⟨.panicked, b', ?_, w, ?_⟩
    · rw [e, ← e']
      cases i.consumes <;> rfl
    · rw [h]; rfl
  | some p =>
    obtain ⟨x, s⟩ := p
    rw [hs] at ha
    obtain ⟨y, b', e, hy, w, h⟩ := ha
    rw [e] at hl
    rw [play_ok hl]
    refine ⟨.returned y, b', rfl, w, ?_⟩
    rw [h]
    exact congrArg (fun r => (ATSeen.returned r, s)) hy

end Verif
