import Verif.Model.Panics
import Verif.SpecPanics
import Verif.Proof.ErrorText
import Verif.Proof.TypedHeap
import Verif.Props.Program
import Verif.Props.Typed

/-!
# The messages of panics
-/

namespace Verif

open ApInt Props

/-- The computation, with the message `t` at its fault. -/
def tag {α : Type} (r : Run α) (t : Text) : Loud α :=
  match r with
  | .ok a => .ok a
  | .error f => .error (f, t)

/-- The computation without messages. -/
def Loud.quiet {α : Type} : Loud α → Run α
  | .ok a => .ok a
  | .error p => .error p.1

namespace Loud

variable {α β : Type}

theorem quiet_ok (a : α) : quiet (.ok a : Loud α) = .ok a := rfl

theorem quiet_pure (a : α) : quiet (pure a : Loud α) = .ok a := rfl

theorem quiet_lift (r : Run α) : quiet (lift r) = r := by cases r <;> rfl

theorem quiet_lift' (r : Run α) : quiet (liftM r : Loud α) = r := quiet_lift r

theorem quiet_bind (x : Loud α) (f : α → Loud β) : quiet (x >>= f) = quiet x >>= fun a => quiet (f a) := by
  cases x <;> rfl

theorem quiet_unwrap (q : Quoting) (r : Res α) : quiet (unwrap q r) = expect r := by cases r <;> rfl

theorem eq_ok {x : Loud α} {a : α} (h : quiet x = .ok a) : x = .ok a := by
  cases x with
  | ok b => exact congrArg _ (Except.ok.inj h)
  | error p => cases h

end Loud

open Loud

section
variable {a b : ApInt} (q : Quoting)

theorem quiet_sdivrem : quiet (loudSdivrem q a b) = a.wrappingSdivremAssign b := by
  unfold loudSdivrem wrappingSdivremAssign magnitudes
  rw [quiet_bind, quiet_lift']
  refine bind_congr fun z => ?_
  cases z
  · simp only [Bool.false_eq_true, if_false]
    simp only [quiet_bind, quiet_lift', quiet_unwrap, quiet_ok, bind_assoc]
    refine bind_congr fun lm => bind_congr fun rm => ?_
    cases lm <;> cases rm <;> simp only [negIf, bind_assoc] <;> rfl
  · simp only [if_true, quiet_bind, quiet_lift', quiet_ok]

theorem quiet_sremdiv : quiet (loudSremdiv q a b) = a.wrappingSremdivAssign b := by
  unfold loudSremdiv wrappingSremdivAssign magnitudes
  rw [quiet_bind, quiet_lift']
  refine bind_congr fun z => ?_
  cases z
  · simp only [Bool.false_eq_true, if_false]
    simp only [quiet_bind, quiet_lift', quiet_unwrap, quiet_ok, bind_assoc]
    refine bind_congr fun lm => bind_congr fun rm => ?_
    cases lm <;> cases rm <;> simp only [negIf, bind_assoc] <;> rfl
  · simp only [if_true, quiet_bind, quiet_lift', quiet_ok]

theorem quiet_sdiv : quiet (loudSdiv q a b) = a.wrappingSdivAssign b := by
  unfold loudSdiv wrappingSdivAssign magnitudes
  rw [quiet_bind, quiet_lift']
  refine bind_congr fun z => ?_
  cases z
  · simp only [Bool.false_eq_true, if_false]
    simp only [quiet_bind, quiet_lift', quiet_unwrap, quiet_ok, bind_assoc]
    refine bind_congr fun _ => bind_congr fun lm => bind_congr fun rm => ?_
    cases lm <;> cases rm <;> simp only [negIf, bind_assoc] <;> rfl
  · simp only [if_true, quiet_bind, quiet_lift', quiet_ok]

theorem quiet_srem : quiet (loudSrem q a b) = a.wrappingSremAssign b := by
  unfold loudSrem wrappingSremAssign magnitudes
  rw [quiet_bind, quiet_lift']
  refine bind_congr fun z => ?_
  cases z
  · simp only [Bool.false_eq_true, if_false]
    simp only [quiet_bind, quiet_lift', quiet_unwrap, quiet_ok, bind_assoc]
    refine bind_congr fun _ => bind_congr fun lm => bind_congr fun rm => ?_
    cases lm <;> cases rm <;> simp only [negIf, bind_assoc] <;> rfl
  · simp only [if_true, quiet_bind, quiet_lift', quiet_ok]

theorem quiet_octal : quiet a.loudOctal = a.fmtOctal := by
  unfold loudOctal fmtOctal
  rw [quiet_bind, quiet_lift']
  refine bind_congr fun z => ?_
  cases z <;> rfl

theorem quiet_bin (o : Bin) : quiet (o.loud q a b) = o.exec a b := by
  cases o with
  | sdiv => exact quiet_sdiv q
  | srem => exact quiet_srem q
  | _ => exact quiet_lift _

theorem quiet_forward (r : Loud (Res Unit × ApInt)) {o : ApInt → ApInt → Run (Res Unit × ApInt)}
    (h : quiet r = o a b) : quiet (forward r) = tryForwardBinMutImpl a b o := by
  unfold forward tryForwardBinMutImpl
  rw [quiet_bind, h]
  refine bind_congr fun p => ?_
  obtain ⟨e, _⟩ := p
  cases e <;> rfl

theorem quiet_into (o : Bin) : quiet (o.loudInto q a b) = o.execInto a b := by
  have h := quiet_forward (o.loud q a b) (quiet_bin q o)
  cases o <;> exact h

theorem quiet_op (o : Bin) : quiet (o.loudOp q a b) = (do let r ← o.execInto a b; expect r) := by
  unfold Bin.loudOp
  simp only [quiet_bind, quiet_unwrap, quiet_into]

theorem quiet_assign (o : Bin) :
    quiet (o.loudAssign q a b) = (do let (r, c) ← o.exec a b; let () ← expect r; pure c) := by
  unfold Bin.loudAssign
  simp only [quiet_bind, quiet_unwrap, quiet_bin, quiet_pure]
  rfl

theorem quiet_pair (o : Pair) : quiet (o.loud q a b) = o.exec a b := by
  cases o with
  | sdivrem => exact quiet_sdivrem q
  | sremdiv => exact quiet_sremdiv q
  | _ => exact quiet_lift _

theorem quiet_unOp (o : Un) : quiet (o.loudOp q a) =
    (do
      let p ← o.exec a
      match p.1 with
      | .error _ => .error .panic
      | .ok () => .ok p.2) := by
  unfold Un.loudOp forward
  simp only [quiet_bind, quiet_unwrap, quiet_lift, bind_assoc]
  refine bind_congr fun p => ?_
  obtain ⟨e, _⟩ := p
  cases e <;> rfl

theorem quiet_unAssign (o : Un) : quiet (o.loudAssign q a) =
    (do
      let p ← o.exec a
      match p.1 with
      | .error _ => .error .panic
      | .ok () => .ok p.2) := by
  unfold Un.loudAssign
  simp only [quiet_bind, quiet_unwrap, quiet_lift', bind_assoc]
  refine bind_congr fun p => ?_
  obtain ⟨e, _⟩ := p
  cases e <;> rfl

theorem op_exec (o : Op) : o.exec a b = (do let r ← o.loudBin.execInto a b; expect r) := by
  cases o <;> rfl

theorem op_execAssign (o : Op) :
    o.execAssign a b = (do let (r, c) ← o.loudBin.exec a b; let () ← expect r; pure c) := by
  cases o <;> rfl

end

/-- The messages are all that the two machines differ in. -/
theorem quiet_loud (q : Quoting) (i : Instr) (b : Bank) : quiet (i.loud q b) = i.exec b := by
  cases i with
  | bin o x y =>
    simp only [Instr.loud, Instr.exec]
    cases b[x]? <;> cases b[y]? <;> try rfl
    simp only [quiet_bind, quiet_bin, quiet_pure, storeRes]
    rfl
  | intoBin o x y =>
    simp only [Instr.loud, Instr.exec]
    cases b[x]? <;> cases b[y]? <;> try rfl
    simp only [quiet_bind, quiet_lift', quiet_into, pushRes, bind_assoc]
    refine bind_congr fun _ => bind_congr fun r => ?_
    cases r <;> rfl
  | opAssign o x y =>
    simp only [Instr.loud, Instr.exec]
    cases b[x]? <;> cases b[y]? <;> try rfl
    simp only [quiet_bind, quiet_assign, quiet_pure, storeRes, done, op_execAssign, bind_assoc]
    rfl
  | op o x y =>
    simp only [Instr.loud, Instr.exec]
    cases b[x]? <;> cases b[y]? <;> try rfl
    simp only [quiet_bind, quiet_lift', quiet_op, quiet_pure, pushRes, fine, op_exec, bind_assoc]
    rfl
  | opShlAssign s x =>
    simp only [Instr.loud, Instr.exec]
    cases b[x]? <;> try rfl
    rename_i a
    simp only [quiet_bind, quiet_unAssign, quiet_pure, storeRes, done, opShlAssign, unwrapMut,
      Un.exec, bind_assoc]
    cases a.wrappingShlAssign s with
    | error f => rfl
    | ok p =>
      obtain ⟨e, _⟩ := p
      cases e <;> rfl
  | opShl s x =>
    simp only [Instr.loud, Instr.exec]
    cases b[x]? <;> try rfl
    simp only [quiet_bind, quiet_lift', quiet_unOp, quiet_pure, pushRes, fine, opShl, unwrapRes,
      Un.exec, intoWrappingShl, tryForwardBinMutImpl, bind_assoc]
    refine bind_congr fun a => ?_
    cases a.wrappingShlAssign s with
    | error f => rfl
    | ok p =>
      obtain ⟨e, _⟩ := p
      cases e <;> rfl
  | pair o x y =>
    simp only [Instr.loud, Instr.exec]
    cases b[x]? <;> cases b[y]? <;> try rfl
    simp only [quiet_bind, quiet_pair, quiet_pure]
    rfl
  | ask o x =>
    cases o with
    | octal =>
      simp only [Instr.loud, Instr.exec]
      cases b[x]? <;> try rfl
      simp only [quiet_bind, quiet_octal, quiet_pure, Ask.exec, tell, bind_assoc]
      rfl
    | _ => exact quiet_lift _
  | drop x => rfl
  | _ => exact quiet_lift _

/-! ## `UInt` and `Int` -/

section
variable {x y : ApInt} {r : Run (Res Unit × ApInt)}

/-- The integer left behind, or a panic. -/
def settle (r : Run (Res Unit × ApInt)) : Run ApInt := do
  let p ← r
  match p.1 with
  | .error _ => .error .panic
  | .ok () => .ok p.2

theorem quiet_op' (q : Quoting) (o : Bin) : quiet (o.loudOp q x y) = settle (o.exec x y) := by
  rw [quiet_op, show o.execInto x y = tryForwardBinMutImpl x y o.exec by cases o <;> rfl]
  unfold settle tryForwardBinMutImpl
  cases o.exec x y with
  | error f => rfl
  | ok p => obtain ⟨e, _⟩ := p; cases e <;> rfl

theorem quiet_assign' (q : Quoting) (o : Bin) : quiet (o.loudAssign q x y) = settle (o.exec x y) := by
  rw [quiet_assign]
  unfold settle
  cases o.exec x y with
  | error f => rfl
  | ok p => obtain ⟨e, _⟩ := p; cases e <;> rfl

theorem tbin_fields (o : TBin) (k : Kind) (x y : ApInt) :
    o.exec (k.wrap x) (k.wrap y) = some (do
      let p ← (o.field k).exec x y
      pure (p.1, k.wrap p.2)) ∧
    o.execInto (k.wrap x) (k.wrap y) = some (do
      let p ← (o.field k).exec x y
      match p.1 with
      | .error e => pure (.error e)
      | .ok () => pure (.ok (k.wrap p.2))) ∧
    o.execOp (k.wrap x) (k.wrap y) = some (do
      let z ← settle ((o.field k).exec x y)
      pure (.ok (k.wrap z))) ∧
    o.execOpAssign (k.wrap x) (k.wrap y) = some (do
      let z ← settle ((o.field k).exec x y)
      pure (.ok (), k.wrap z)) := by
  have hu : ∀ r : Run (Res Unit × ApInt), ∀ f : UInt → UInt → Run (Res Unit × UInt),
      f ⟨x⟩ ⟨y⟩ = UInt.liftMut r →
      (putMut .u (f ⟨x⟩ ⟨y⟩) = do
        let p ← r
        pure (p.1, Kind.wrap .unsigned p.2)) ∧
      (putRes .u (tryForwardBinMutImpl ⟨x⟩ ⟨y⟩ f) = do
        let p ← r
        match p.1 with
        | .error e => pure (.error e)
        | .ok () => pure (.ok (Kind.wrap .unsigned p.2))) ∧
      (putNew .u (unwrapRes (tryForwardBinMutImpl ⟨x⟩ ⟨y⟩ f)) = do
        let z ← settle r
        pure (.ok (Kind.wrap .unsigned z))) ∧
      (putDone .u (unwrapMut (f ⟨x⟩ ⟨y⟩)) = do
        let z ← settle r
        pure (.ok (), Kind.wrap .unsigned z)) := by
    intro r f h
    unfold tryForwardBinMutImpl
    rw [h]
    cases r with
    | error e => exact ⟨rfl, rfl, rfl, rfl⟩
    | ok p =>
      obtain ⟨e, _⟩ := p
      cases e <;> exact ⟨rfl, rfl, rfl, rfl⟩
  have hs : ∀ r : Run (Res Unit × ApInt), ∀ f : SInt → SInt → Run (Res Unit × SInt),
      f ⟨x⟩ ⟨y⟩ = SInt.liftMut r →
      (putMut .s (f ⟨x⟩ ⟨y⟩) = do
        let p ← r
        pure (p.1, Kind.wrap .signed p.2)) ∧
      (putRes .s (tryForwardBinMutImpl ⟨x⟩ ⟨y⟩ f) = do
        let p ← r
        match p.1 with
        | .error e => pure (.error e)
        | .ok () => pure (.ok (Kind.wrap .signed p.2))) ∧
      (putNew .s (unwrapRes (tryForwardBinMutImpl ⟨x⟩ ⟨y⟩ f)) = do
        let z ← settle r
        pure (.ok (Kind.wrap .signed z))) ∧
      (putDone .s (unwrapMut (f ⟨x⟩ ⟨y⟩)) = do
        let z ← settle r
        pure (.ok (), Kind.wrap .signed z)) := by
    intro r f h
    unfold tryForwardBinMutImpl
    rw [h]
    cases r with
    | error e => exact ⟨rfl, rfl, rfl, rfl⟩
    | ok p =>
      obtain ⟨e, _⟩ := p
      cases e <;> exact ⟨rfl, rfl, rfl, rfl⟩
  cases k with
  | unsigned =>
    obtain ⟨h1, h2, h3, h4⟩ := hu ((o.field .unsigned).exec x y) o.unsigned.1 (by cases o <;> rfl)
    refine ⟨congrArg some h1, ?_, ?_, ?_⟩
    · rw [← h2]; cases o <;> rfl
    · rw [← h3]; cases o <;> rfl
    · rw [← h4]; cases o <;> rfl
  | signed =>
    obtain ⟨h1, h2, h3, h4⟩ := hs ((o.field .signed).exec x y) o.signed.1 (by cases o <;> rfl)
    refine ⟨congrArg some h1, ?_, ?_, ?_⟩
    · rw [← h2]; cases o <;> rfl
    · rw [← h3]; cases o <;> rfl
    · rw [← h4]; cases o <;> rfl

theorem tbin_kinds (o : TBin) {a c : WInt} (h : a.kind ≠ c.kind) :
    o.exec a c = none ∧ o.execInto a c = none ∧ o.execOp a c = none ∧ o.execOpAssign a c = none := by
  cases a <;> cases c <;> first | exact absurd rfl h | exact ⟨rfl, rfl, rfl, rfl⟩

theorem tshl_fields (o : TUnOp) (ho : o ≠ .not ∧ o ≠ .neg) (k : Kind) (x : ApInt) :
    o.exec (k.wrap x) = (do
      let z ← settle ((o.field k).exec x)
      pure (.ok (k.wrap z))) := by
  have hu : ∀ r : Run (Res Unit × ApInt), putNew .u (unwrapRes (UInt.liftRes (do
        let (e, a) ← r
        match e with
        | .error e => .ok (.error e)
        | .ok () => .ok (.ok a)))) = (do
        let z ← settle r
        pure (.ok (Kind.wrap .unsigned z))) := by
    intro r
    cases r with
    | error e => rfl
    | ok p => obtain ⟨e, _⟩ := p; cases e <;> rfl
  have hs : ∀ r : Run (Res Unit × ApInt), putNew .s (unwrapRes (SInt.liftRes (do
        let (e, a) ← r
        match e with
        | .error e => .ok (.error e)
        | .ok () => .ok (.ok a)))) = (do
        let z ← settle r
        pure (.ok (Kind.wrap .signed z))) := by
    intro r
    cases r with
    | error e => rfl
    | ok p => obtain ⟨e, _⟩ := p; cases e <;> rfl
  cases o with
  | not => exact absurd rfl ho.1
  | neg => exact absurd rfl ho.2
  | shl s => cases k; exacts [hu _, hs _]
  | shr s => cases k; exacts [hu _, hs _]

theorem tshift_fields (o : TShift) (k : Kind) (x : ApInt) :
    o.exec (k.wrap x) = (do
      let z ← settle ((o.field k).exec x)
      pure (.ok (), k.wrap z)) := by
  have hu : ∀ r : Run (Res Unit × ApInt), putDone .u (unwrapMut (UInt.liftMut r)) = (do
        let z ← settle r
        pure (.ok (), Kind.wrap .unsigned z)) := by
    intro r
    cases r with
    | error e => rfl
    | ok p => obtain ⟨e, _⟩ := p; cases e <;> rfl
  have hs : ∀ r : Run (Res Unit × ApInt), putDone .s (unwrapMut (SInt.liftMut r)) = (do
        let z ← settle r
        pure (.ok (), Kind.wrap .signed z)) := by
    intro r
    cases r with
    | error e => rfl
    | ok p => obtain ⟨e, _⟩ := p; cases e <;> rfl
  cases o with
  | shl s => cases k; exacts [hu _, hs _]
  | shr s => cases k; exacts [hu _, hs _]

end

theorem wrap_value (a : WInt) : a.kind.wrap a.value = a := by cases a <;> rfl

/-- The messages are all that the two machines on `UInt`s and `Int`s differ in. -/
theorem quiet_tloud (q : Quoting) (i : TInstr) (b : TBank) : quiet (i.loud q b) = i.exec b := by
  cases i with
  | bin o x y =>
    simp only [TInstr.loud, TInstr.exec]
    cases b[x]? <;> cases b[y]? <;> try rfl
    rename_i a c
    dsimp only
    by_cases hk : a.kind = c.kind
    · have h := (tbin_fields o a.kind a.value c.value).1
      rw [wrap_value, hk, wrap_value, ← hk] at h
      rw [if_pos hk, h]
      simp only [quiet_bind, quiet_bin, quiet_pure, TBank.storeRes, bind_assoc]
      rfl
    · rw [if_neg hk, (tbin_kinds o hk).1]
      rfl
  | intoBin o x y =>
    simp only [TInstr.loud, TInstr.exec]
    cases b[x]? <;> cases b[y]? <;> try rfl
    rename_i a c
    dsimp only
    by_cases hk : a.kind = c.kind
    · have h := (tbin_fields o a.kind a.value c.value).2.1
      rw [wrap_value, hk, wrap_value, ← hk] at h
      rw [if_pos hk, h]
      simp only [quiet_bind, quiet_into, TBank.moveRes, bind_assoc]
      rw [show (o.field a.kind).execInto a.value c.value =
        tryForwardBinMutImpl a.value c.value (o.field a.kind).exec by
          cases o.field a.kind <;> rfl]
      unfold tryForwardBinMutImpl
      cases (o.field a.kind).exec a.value c.value with
      | error e => rfl
      | ok p => obtain ⟨e, _⟩ := p; cases e <;> rfl
    · rw [if_neg hk, (tbin_kinds o hk).2.1]
      rfl
  | op o x y =>
    simp only [TInstr.loud, TInstr.exec]
    cases b[x]? <;> cases b[y]? <;> try rfl
    rename_i a c
    dsimp only
    by_cases hk : a.kind = c.kind
    · have h := (tbin_fields o a.kind a.value c.value).2.2.1
      rw [wrap_value, hk, wrap_value, ← hk] at h
      rw [if_pos hk, h]
      simp only [quiet_bind, quiet_op', quiet_pure, TBank.moveRes, bind_assoc]
      rfl
    · rw [if_neg hk, (tbin_kinds o hk).2.2.1]
      rfl
  | opAssign o x y =>
    simp only [TInstr.loud, TInstr.exec]
    cases b[x]? <;> cases b[y]? <;> try rfl
    rename_i a c
    dsimp only
    by_cases hk : a.kind = c.kind
    · have h := (tbin_fields o a.kind a.value c.value).2.2.2
      rw [wrap_value, hk, wrap_value, ← hk] at h
      rw [if_pos hk, h]
      simp only [quiet_bind, quiet_assign', quiet_pure, TBank.storeRes, bind_assoc]
      rfl
    · rw [if_neg hk, (tbin_kinds o hk).2.2.2]
      rfl
  | opUn o x =>
    cases o with
    | shl s =>
      simp only [TInstr.loud, TInstr.exec]
      cases b[x]? <;> try rfl
      rename_i a
      have h := tshl_fields (.shl s) ⟨nofun, nofun⟩ a.kind a.value
      rw [wrap_value] at h
      dsimp only
      rw [h]
      simp only [quiet_bind, quiet_unOp, quiet_pure, TBank.moveRes, bind_assoc, settle]
      rfl
    | shr s =>
      simp only [TInstr.loud, TInstr.exec]
      cases b[x]? <;> try rfl
      rename_i a
      have h := tshl_fields (.shr s) ⟨nofun, nofun⟩ a.kind a.value
      rw [wrap_value] at h
      dsimp only
      rw [h]
      simp only [quiet_bind, quiet_unOp, quiet_pure, TBank.moveRes, bind_assoc, settle]
      rfl
    | _ => exact quiet_lift _
  | opShift o x =>
    simp only [TInstr.loud, TInstr.exec]
    cases b[x]? <;> try rfl
    rename_i a
    have h := tshift_fields o a.kind a.value
    rw [wrap_value] at h
    dsimp only
    rw [h]
    simp only [quiet_bind, quiet_unAssign, quiet_pure, TBank.storeRes, bind_assoc, settle]
    rfl
  | ask o x =>
    cases o with
    | octal =>
      simp only [TInstr.loud, TInstr.exec]
      cases b[x]? <;> try rfl
      rename_i a
      dsimp only
      simp only [quiet_bind, quiet_octal, quiet_pure]
      cases a <;> simp only [TAsk.exec, TBank.answer, say, bind_assoc] <;> rfl
    | _ => exact quiet_lift _
  | drop x => rfl
  | _ => exact quiet_lift _

end Verif
