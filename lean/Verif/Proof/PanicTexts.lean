import Verif.Proof.Panics

/-!
# What the messages of panics say
-/

namespace Verif

open ApInt Props Loud

/-- If the computation faults, then with the message `t`. -/
def Tells {α : Type} (r : Loud α) (t : Text) : Prop := ∀ p, r = .error p → p.2 = t

section
variable {α β : Type} {r : Loud α} {t : Text}

theorem Tells.ok {a : α} : Tells (.ok a : Loud α) t := nofun

theorem Tells.of_quiet {a : α} (h : quiet r = .ok a) : Tells r t := by
  rw [eq_ok h]; exact .ok

theorem Tells.bind {f : α → Loud β} (h : Tells r t) (hf : ∀ a, r = .ok a → Tells (f a) t) :
    Tells (r >>= f) t := by
  cases r with
  | ok a => exact hf a rfl
  | error p => intro p' h'; cases h'; exact h p rfl

theorem Tells.of_eq {f : Fault} (h : r = .error (f, t)) : Tells r t := by
  intro p h'
  rw [h] at h'
  cases h'
  rfl
end

theorem kind_debug (q : Quoting) {e : Err} (hw : e.WF) (hp : e.abs.Plain) :
    e.debug q = .ok e.abs.kindText := by
  cases e with
  | invalidRadix => cases hp
  | invalidStringRepr => cases hp
  | invalidBitWidth => cases hp
  | invalidBitAccess p t => simp only [Err.debug, BitWidth.debug, named_eq]; rfl
  | invalidShiftAmount p t => simp only [Err.debug, BitWidth.debug, named_eq]; rfl
  | unmatchingBitwidth l r => simp only [Err.debug, BitWidth.debug, named_eq]; rfl
  | truncationBitWidthTooLarge l r => simp only [Err.debug, BitWidth.debug, named_eq]; rfl
  | extensionBitWidthTooSmall l r => simp only [Err.debug, BitWidth.debug, named_eq]; rfl
  | expectedNonEmptyDigits => rfl
  | valueUnrepresentable v ty =>
    simp only [Err.debug, debug_ok hw, run_bind_ok, PrimitiveTy.debug_eq]; rfl
  | divisionByZero op l => simp only [Err.debug, debug_ok hw, run_bind_ok, DivOp.debug_eq]; rfl

theorem unwrap_text (q : Quoting) {α : Type} {e : Err} (hw : e.WF) (hp : e.abs.Plain) :
    unwrap q (.error e : Res α) = .error (.panic, e.abs.unwrapped q.text) := by
  obtain ⟨E, h1, h2, h3, h4⟩ := ofKind_ok hw hp
  unfold unwrap
  dsimp only
  unfold Error.textOf AErr.unwrapped
  simp only [h1, run_bind_ok, Error.debug, h2, kind_debug q hw hp, h3, h4]
  rfl

theorem unwrap_tells (q : Quoting) {α : Type} {r : Res α} {t : Text}
    (h : ∀ e, r = .error e → e.WF ∧ e.abs.Plain ∧ t = e.abs.unwrapped q.text) :
    Tells (unwrap q r) t := by
  cases r with
  | ok a => exact .ok
  | error e =>
    obtain ⟨h1, h2, rfl⟩ := h e rfl
    exact .of_eq (unwrap_text q h1 h2)

/-- The message about two widths. -/
abbrev widthsText (q : Quoting) (a c : ApInt) : Text := (AErr.widths a.w c.w).unwrapped q.text

section
variable {a b : ApInt} (q : Quoting)

theorem widths_text : unwrap q (.error (.unmatchingBitwidth a.len b.len) : Res Unit) =
    .error (.panic, widthsText q a b) := unwrap_text q trivial trivial

/-- On unmatched widths and a nonzero divisor the signed family panics with the widths. -/
theorem loud_mismatch (ha : a.WF) (hb : b.WF) (h : a.len ≠ b.len) (hz : b.uval ≠ 0) :
    loudSdivrem q a b = .error (.panic, widthsText q a b) ∧
    loudSremdiv q a b = .error (.panic, widthsText q a b) ∧
    loudSdiv q a b = .error (.panic, widthsText q a b) ∧
    loudSrem q a b = .error (.panic, widthsText q a b) := by
  have lifted : ∀ {α : Type} (x : α), (liftM (.ok x : Run α) : Loud α) = .ok x := fun _ => rfl
  have bound : ∀ {α β : Type} (x : α) (f : α → Loud β), ((.ok x : Loud α) >>= f) = f x :=
    fun _ _ => rfl
  have bound' : ∀ {α β : Type} (x) (f : α → Loud β), ((.error x : Loud α) >>= f) = .error x :=
    fun _ _ => rfl
  have hi := isZero_ok hb.1
  have hc := clone_ok hb.1
  have hm : ∃ lm rm c d, magnitudes a b = .ok (lm, rm, c, d) ∧ c.len = a.len ∧ d.len = b.len := by
    obtain ⟨lm, m1⟩ : ∃ lm, a.msb = .ok lm := by
      rcases msb_sval ha with ⟨m1, -⟩ | ⟨m1, -, -⟩ <;> exact ⟨_, m1⟩
    obtain ⟨rm, m2⟩ : ∃ rm, b.msb = .ok rm := by
      rcases msb_sval hb with ⟨m2, -⟩ | ⟨m2, -, -⟩ <;> exact ⟨_, m2⟩
    obtain ⟨c, e1, -, l1, -⟩ := negIf_ok ha lm
    obtain ⟨d, e2, -, l2, -⟩ := negIf_ok hb rm
    exact ⟨lm, rm, c, d, by simp only [magnitudes, m1, m2, run_bind_ok, e1, e2], l1, l2⟩
  obtain ⟨lm, rm, c, d, hm, l1, l2⟩ := hm
  have x := udiv_mismatch (a := c) (b := d) (by rw [l1, l2]; exact h)
  have hw : widthsText q c d = widthsText q a b := by unfold widthsText w; rw [l1, l2]
  refine ⟨?_, ?_, ?_, ?_⟩
  · simp only [loudSdivrem, hi, hz, decide_false, lifted, bound, Bool.false_eq_true, if_false, hm, x.1,
      widths_text, bound', hw]
  · simp only [loudSremdiv, hi, hz, decide_false, lifted, bound, Bool.false_eq_true, if_false, hm, x.2.1,
      widths_text, bound', hw]
  · simp only [loudSdiv, hi, hz, decide_false, lifted, bound, Bool.false_eq_true, if_false, hc, hm, x.1,
      widths_text, bound', hw]
  · simp only [loudSrem, hi, hz, decide_false, lifted, bound, Bool.false_eq_true, if_false, hc, hm, x.2.1,
      widths_text, bound', hw]

theorem bin_tells (ha : a.WF) (hb : b.WF) (o : Bin) : Tells (o.loud q a b) (widthsText q a b) := by
  have hs := bin_stored o ha hb
  match hsp : o.spec a.abs b.abs with
  | some (.ok z) =>
    rw [hsp] at hs
    obtain ⟨_, hs, -⟩ := hs
    exact .of_quiet ((quiet_bin q o).trans hs)
  | some (.error z) =>
    rw [hsp] at hs
    obtain ⟨_, hs, -⟩ := hs
    exact .of_quiet ((quiet_bin q o).trans hs)
  | none =>
    have key : a.abs.width ≠ b.abs.width → b.abs.bits ≠ 0 → a.len ≠ b.len ∧ b.uval ≠ 0 :=
      fun h h' => ⟨fun e => h (congrArg BitWidth.toUsize e), h'⟩
    cases o <;> first | (cases hsp; done) | skip
    · obtain ⟨h1, h2⟩ := (sdiv_none a.abs b.abs).1 hsp
      obtain ⟨h1, h2⟩ := key h1 h2
      exact .of_eq (loud_mismatch q ha hb h1 h2).2.2.1
    · obtain ⟨h1, h2⟩ := (sdiv_none a.abs b.abs).1 hsp
      obtain ⟨h1, h2⟩ := key h1 h2
      exact .of_eq (loud_mismatch q ha hb h1 h2).2.2.2

theorem pair_tells (ha : a.WF) (hb : b.WF) (o : Pair) :
    Tells (o.loud q a b) (widthsText q a b) := by
  have hs := pair_stored o ha hb
  match hsp : o.spec a.abs b.abs with
  | some (.ok (z, z')) =>
    rw [hsp] at hs
    obtain ⟨_, _, hs, -⟩ := hs
    exact .of_quiet ((quiet_pair q o).trans hs)
  | some (.error z) =>
    rw [hsp] at hs
    obtain ⟨_, hs, -⟩ := hs
    exact .of_quiet ((quiet_pair q o).trans hs)
  | none =>
    have key : a.abs.width ≠ b.abs.width → b.abs.bits ≠ 0 → a.len ≠ b.len ∧ b.uval ≠ 0 :=
      fun h h' => ⟨fun e => h (congrArg BitWidth.toUsize e), h'⟩
    cases o <;> first | (cases hsp; done) | skip
    · obtain ⟨h1, h2⟩ := (sdiv_none a.abs b.abs).1 hsp
      obtain ⟨h1, h2⟩ := key h1 h2
      exact .of_eq (loud_mismatch q ha hb h1 h2).1
    · obtain ⟨h1, h2⟩ := (sdiv_none a.abs b.abs).1 hsp
      obtain ⟨h1, h2⟩ := key h1 h2
      exact .of_eq (loud_mismatch q ha hb h1 h2).2.1

theorem forward_tells {r : Loud (Res Unit × ApInt)} {t : Text} (h : Tells r t) :
    Tells (forward r) t := by
  refine h.bind fun p _ => ?_
  obtain ⟨e, _⟩ := p
  cases e <;> exact .ok

/-- What the operator for a method blames. -/
def Bin.blame (o : Bin) (x y : AInt) : AErr :=
  match o.spec x y with
  | some (.error e) => e
  | _ => .widths x.width y.width

/-- An error that a method reports is the one its operator blames. -/
theorem bin_blame (ha : a.WF) (hb : b.WF) {o : Bin} {e : Err} {c : ApInt}
    (h : o.loud q a b = .ok (.error e, c)) : e.WF ∧ e.abs.Plain ∧
      (o.blame a.abs b.abs).unwrapped q.text = e.abs.unwrapped q.text := by
  have h' : o.exec a b = .ok (.error e, c) := by rw [← quiet_bin q, h]; rfl
  have hs := bin_stored o ha hb
  match hsp : o.spec a.abs b.abs with
  | some (.ok z) => rw [hsp] at hs; obtain ⟨_, hs, -⟩ := hs; rw [hs] at h'; cases h'
  | none => rw [hsp] at hs; rw [show o.exec a b = _ from hs] at h'; cases h'
  | some (.error f) =>
    rw [hsp] at hs
    obtain ⟨f', hs, hf⟩ := hs
    rw [hs] at h'
    cases h'
    refine ⟨bin_error_wf ha hb hs, hf ▸ bin_plain hsp, ?_⟩
    unfold Bin.blame
    rw [hsp, hf]

/-- A method that panics blames the widths, and so does its operator. -/
theorem bin_tells' (ha : a.WF) (hb : b.WF) (o : Bin) :
    Tells (o.loud q a b) ((o.blame a.abs b.abs).unwrapped q.text) := by
  intro p h
  have h' := bin_tells q ha hb o p h
  have hs := bin_stored o ha hb
  have he : o.exec a b = .error p.1 := by rw [← quiet_bin q, h]; rfl
  match hsp : o.spec a.abs b.abs with
  | some (.ok z) => rw [hsp] at hs; obtain ⟨_, hs, -⟩ := hs; rw [hs] at he; cases he
  | some (.error z) => rw [hsp] at hs; obtain ⟨_, hs, -⟩ := hs; rw [hs] at he; cases he
  | none =>
    unfold Bin.blame
    rw [hsp]
    exact h'

theorem op_tells (ha : a.WF) (hb : b.WF) (o : Bin) :
    Tells (o.loudOp q a b) ((o.blame a.abs b.abs).unwrapped q.text) := by
  refine (forward_tells (bin_tells' q ha hb o)).bind fun r hr => ?_
  refine unwrap_tells q fun e he => ?_
  subst he
  unfold forward at hr
  cases hx : o.loud q a b with
  | error p => rw [hx] at hr; cases hr
  | ok p =>
    obtain ⟨f, c⟩ := p
    rw [hx] at hr
    cases f with
    | ok u => cases hr
    | error f => cases hr; exact bin_blame q ha hb hx

theorem assign_tells (ha : a.WF) (hb : b.WF) (o : Bin) :
    Tells (o.loudAssign q a b) ((o.blame a.abs b.abs).unwrapped q.text) := by
  refine (bin_tells' q ha hb o).bind fun p hp => ?_
  obtain ⟨f, c⟩ := p
  refine Tells.bind (unwrap_tells q fun e he => ?_) fun _ _ => .ok
  subst he
  exact bin_blame q ha hb hp

/-- The shifts. -/
inductive Un.Shift (s : Nat) : Un → Prop
  | shl : Un.Shift s (.shl s)
  | lshr : Un.Shift s (.lshr s)
  | ashr : Un.Shift s (.ashr s)

theorem shift_blame (ha : a.WF) {s : Nat} {o : Un} (ho : o.Shift s) {e : Err} {c : ApInt}
    (h : o.exec a = .ok (.error e, c)) : e.WF ∧ e.abs.Plain ∧
      (AErr.shift s a.w).unwrapped q.text = e.abs.unwrapped q.text := by
  have hs := un_stored o ha
  have hsp : o.spec a.abs = .error e.abs := by
    match hsp : o.spec a.abs with
    | .ok z => rw [hsp] at hs; obtain ⟨_, hs, -⟩ := hs; rw [hs] at h; cases h
    | .error f =>
      rw [hsp] at hs; obtain ⟨_, hs, hf⟩ := hs; rw [hs] at h; cases h; rw [hf]
  have he : e.abs = .shift s a.w := by
    cases ho <;>
    · simp only [Un.spec] at hsp
      split at hsp
      · cases hsp
      · exact (Except.error.inj hsp).symm
  rw [he]
  exact ⟨Err.wf_of_owned (by rw [he]; rfl), trivial, rfl⟩

theorem un_tells (ha : a.WF) (o : Un) {t : Text} : Tells (Loud.lift (o.exec a)) t := by
  have hs := un_stored o ha
  match hsp : o.spec a.abs with
  | .ok z => rw [hsp] at hs; obtain ⟨_, hs, -⟩ := hs; rw [hs]; exact .ok
  | .error f => rw [hsp] at hs; obtain ⟨_, hs, -⟩ := hs; rw [hs]; exact .ok

theorem lift_ok {α : Type} {r : Run α} {x : α} (h : Loud.lift r = .ok x) : r = .ok x := by
  rw [← quiet_lift r, h]; rfl

theorem shiftOp_tells (ha : a.WF) {s : Nat} {o : Un} (ho : o.Shift s) :
    Tells (o.loudOp q a) ((AErr.shift s a.w).unwrapped q.text) := by
  refine (forward_tells (un_tells ha o)).bind fun r hr => ?_
  refine unwrap_tells q fun e he => ?_
  subst he
  unfold forward at hr
  cases hx : Loud.lift (o.exec a) with
  | error p => rw [hx] at hr; cases hr
  | ok p =>
    obtain ⟨f, c⟩ := p
    rw [hx] at hr
    cases f with
    | ok u => cases hr
    | error f => cases hr; exact shift_blame q ha ho (lift_ok hx)

theorem shiftAssign_tells (ha : a.WF) {s : Nat} {o : Un} (ho : o.Shift s) :
    Tells (o.loudAssign q a) ((AErr.shift s a.w).unwrapped q.text) := by
  refine (un_tells ha o).bind fun p hp => ?_
  obtain ⟨f, c⟩ := p
  refine Tells.bind (unwrap_tells q fun e he => ?_) fun _ _ => .ok
  subst he
  exact shift_blame q ha ho (lift_ok hp)

theorem clone_tells (ha : a.WF) {t : Text} : Tells (Loud.lift a.clone) t := by
  rw [clone_ok ha.1]; exact .ok

theorem octal_tells (ha : a.WF) : Tells a.loudOctal "not implemented".toList := by
  refine Tells.bind ?_ fun z _ => ?_
  · change Tells (Loud.lift a.isZero) _
    rw [isZero_ok ha.1]
    exact .ok
  · cases z
    · exact .of_eq rfl
    · exact .ok

end

theorem tag_of_tells {α : Type} {r : Loud α} {t : Text} (h : Tells r t) : r = tag (quiet r) t := by
  cases r with
  | ok a => rfl
  | error p => obtain ⟨f, u⟩ := p; cases h _ rfl; rfl

/-- Calls that cannot panic. -/
theorem calm_tells {i : Instr} {b : Bank} (hb : ∀ a ∈ b, a.WF) (h : ¬ MayPanic b i) {t : Text} :
    Tells (Loud.lift (i.exec b)) t := by
  match hs : i.spec (b.map ApInt.abs) with
  | none => exact absurd ((spec_none_iff i).1 hs) h
  | some (x, s) =>
    obtain ⟨y, b', h, -⟩ := (C02_call i hb).1 x s hs
    rw [h]
    exact .ok

theorem op_blame (o : Op) (x y : AInt) : o.loudBin.blame x y = .widths x.width y.width := by
  cases o <;>
  · simp only [Bin.blame, Op.loudBin, Bin.spec]
    split
    · rename_i h
      simp only [Option.some.injEq] at h
      split at h
      · cases h
      · exact (Except.error.inj h).symm
    · rfl

theorem loud_tells (q : Quoting) (i : Instr) {b : Bank} (hb : ∀ a ∈ b, a.WF) :
    Tells (i.loud q b) (i.says q.text (b.map ApInt.abs)) := by
  have wf : ∀ {x : Nat} {a : ApInt}, b[x]? = some a → a.WF := fun h => hb _ (List.mem_of_getElem? h)
  cases i with
  | bin o x y =>
    simp only [Instr.loud, Instr.says, Instr.blames, List.getElem?_map]
    rcases hx : b[x]? with _ | a
    · exact .ok
    rcases hy : b[y]? with _ | c
    · exact .ok
    exact (bin_tells q (wf hx) (wf hy) o).bind fun _ _ => .ok
  | intoBin o x y =>
    simp only [Instr.loud, Instr.says, Instr.blames, List.getElem?_map]
    rcases hx : b[x]? with _ | a
    · exact .ok
    rcases hy : b[y]? with _ | c
    · exact .ok
    refine Tells.bind (clone_tells (wf hx)) fun a' ha => ?_
    obtain rfl : a = a' := by
      have := lift_ok ha
      rw [clone_ok (wf hx).1] at this
      exact Except.ok.inj this
    refine Tells.bind (forward_tells (bin_tells q (wf hx) (wf hy) o)) fun r _ => ?_
    cases r <;> exact .ok
  | opAssign o x y =>
    simp only [Instr.loud, Instr.says, Instr.blames, List.getElem?_map]
    rcases hx : b[x]? with _ | a
    · exact .ok
    rcases hy : b[y]? with _ | c
    · exact .ok
    have h := assign_tells q (wf hx) (wf hy) o.loudBin
    rw [op_blame] at h
    exact h.bind fun _ _ => .ok
  | op o x y =>
    simp only [Instr.loud, Instr.says, Instr.blames, List.getElem?_map]
    rcases hx : b[x]? with _ | a
    · exact .ok
    rcases hy : b[y]? with _ | c
    · exact .ok
    refine Tells.bind (clone_tells (wf hx)) fun a' ha => ?_
    obtain rfl : a = a' := by
      have := lift_ok ha
      rw [clone_ok (wf hx).1] at this
      exact Except.ok.inj this
    have h := op_tells q (wf hx) (wf hy) o.loudBin
    rw [op_blame] at h
    exact h.bind fun _ _ => .ok
  | opShlAssign s x =>
    simp only [Instr.loud, Instr.says, Instr.blames, List.getElem?_map]
    rcases hx : b[x]? with _ | a
    · exact .ok
    exact (shiftAssign_tells q (wf hx) (.shl (s := s))).bind fun _ _ => .ok
  | opShl s x =>
    simp only [Instr.loud, Instr.says, Instr.blames, List.getElem?_map]
    rcases hx : b[x]? with _ | a
    · exact .ok
    refine Tells.bind (clone_tells (wf hx)) fun a' ha => ?_
    obtain rfl : a = a' := by
      have := lift_ok ha
      rw [clone_ok (wf hx).1] at this
      exact Except.ok.inj this
    exact (shiftOp_tells q (wf hx) (.shl (s := s))).bind fun _ _ => .ok
  | pair o x y =>
    simp only [Instr.loud, Instr.says, Instr.blames, List.getElem?_map]
    rcases hx : b[x]? with _ | a
    · exact .ok
    rcases hy : b[y]? with _ | c
    · exact .ok
    exact (pair_tells q (wf hx) (wf hy) o).bind fun _ _ => .ok
  | ask o x =>
    cases o with
    | octal =>
      simp only [Instr.loud]
      rcases hx : b[x]? with _ | a
      · exact .ok
      exact (octal_tells (wf hx)).bind fun _ _ => .ok
    | _ => exact calm_tells hb id
  | drop x => exact .ok
  | _ => exact calm_tells hb id

/-- A call with messages is the call, with the message of the specification at its panic. -/
theorem loud_eq (q : Quoting) (i : Instr) {b : Bank} (hb : ∀ a ∈ b, a.WF) :
    i.loud q b = tag (i.exec b) (i.says q.text (b.map ApInt.abs)) := by
  rw [← quiet_loud q]
  exact tag_of_tells (loud_tells q i hb)

/-! ## `UInt` and `Int` -/

theorem calm_ttells {i : TInstr} {b : TBank} (hb : ∀ a ∈ b, a.WF)
    (h : ¬ TMayPanic (b.map WInt.num) i) {t : Text} : Tells (Loud.lift (i.exec b)) t := by
  match hs : i.spec (b.map WInt.num) with
  | none => exact absurd ((tspec_none_iff i _).1 hs) h
  | some (x, s) =>
    obtain ⟨y, b', h, -⟩ := (C69_call i hb).1 x s hs
    rw [h]
    exact .ok

theorem num_width (a : WInt) : a.num.width = a.value.w := by cases a <;> rfl

theorem wint_num (a : WInt) : a.num = a.value.abs.num a.kind := by cases a <;> rfl

theorem tbase_field (o : TBin) (k : Kind) : o.base k = o.field k := by cases o <;> cases k <;> rfl

theorem did_blames (o : TBin) {a c : WInt} (ha : a.value.WF) (hc : c.value.WF) (hk : a.kind = c.kind) :
    (o.spec a.num c.num).blames a.num c.num = (o.field a.kind).blame a.value.abs c.value.abs := by
  rw [wint_num a, wint_num c, ← hk, tbin_spec a.kind (ok_abs ha) (ok_abs hc), tbase_field]
  unfold Bin.blame
  match (o.field a.kind).spec a.value.abs c.value.abs with
  | none => cases a.kind <;> rfl
  | some (.ok z) => cases a.kind <;> rfl
  | some (.error e) => rfl

theorem tshift_are (s : Nat) (k : Kind) : Un.Shift s (TUnOp.field (.shl s) k) ∧
    Un.Shift s (TUnOp.field (.shr s) k) ∧ Un.Shift s (TShift.field (.shl s) k) ∧
    Un.Shift s (TShift.field (.shr s) k) := by
  cases k
  · exact ⟨.shl, .lshr, .shl, .lshr⟩
  · exact ⟨.shl, .ashr, .shl, .ashr⟩

theorem tloud_tells (q : Quoting) (i : TInstr) {b : TBank} (hb : ∀ a ∈ b, a.WF) :
    Tells (i.loud q b) (i.says q.text (b.map WInt.num)) := by
  have wf : ∀ {x : Nat} {a : WInt}, b[x]? = some a → a.value.WF := fun {x a} h => by
    have := hb _ (List.mem_of_getElem? h)
    cases a <;> exact this
  cases i with
  | bin o x y =>
    simp only [TInstr.loud, TInstr.says, TInstr.blames, List.getElem?_map]
    rcases hx : b[x]? with _ | a
    · exact .ok
    rcases hy : b[y]? with _ | c
    · exact .ok
    dsimp only [Option.map_some]
    rw [num_width, num_width]
    split
    · exact (bin_tells q (wf hx) (wf hy) _).bind fun _ _ => .ok
    · exact .ok
  | intoBin o x y =>
    simp only [TInstr.loud, TInstr.says, TInstr.blames, List.getElem?_map]
    rcases hx : b[x]? with _ | a
    · exact .ok
    rcases hy : b[y]? with _ | c
    · exact .ok
    dsimp only [Option.map_some]
    rw [num_width, num_width]
    split
    · refine Tells.bind (forward_tells (bin_tells q (wf hx) (wf hy) _)) fun r _ => ?_
      cases r <;> exact .ok
    · exact .ok
  | op o x y =>
    simp only [TInstr.loud, TInstr.says, TInstr.blames, List.getElem?_map]
    rcases hx : b[x]? with _ | a
    · exact .ok
    rcases hy : b[y]? with _ | c
    · exact .ok
    dsimp only [Option.map_some]
    split
    · rename_i hk
      rw [did_blames o (wf hx) (wf hy) hk]
      exact (op_tells q (wf hx) (wf hy) _).bind fun _ _ => .ok
    · exact .ok
  | opAssign o x y =>
    simp only [TInstr.loud, TInstr.says, TInstr.blames, List.getElem?_map]
    rcases hx : b[x]? with _ | a
    · exact .ok
    rcases hy : b[y]? with _ | c
    · exact .ok
    dsimp only [Option.map_some]
    split
    · rename_i hk
      rw [did_blames o (wf hx) (wf hy) hk]
      exact (assign_tells q (wf hx) (wf hy) _).bind fun _ _ => .ok
    · exact .ok
  | opUn o x =>
    cases o with
    | shl s =>
      simp only [TInstr.loud, TInstr.says, TInstr.blames, List.getElem?_map]
      rcases hx : b[x]? with _ | a
      · exact .ok
      dsimp only [Option.map_some]
      rw [num_width]
      exact (shiftOp_tells q (wf hx) (tshift_are s a.kind).1).bind fun _ _ => .ok
    | shr s =>
      simp only [TInstr.loud, TInstr.says, TInstr.blames, List.getElem?_map]
      rcases hx : b[x]? with _ | a
      · exact .ok
      dsimp only [Option.map_some]
      rw [num_width]
      exact (shiftOp_tells q (wf hx) (tshift_are s a.kind).2.1).bind fun _ _ => .ok
    | _ => exact calm_ttells hb id
  | opShift o x =>
    cases o with
    | shl s =>
      simp only [TInstr.loud, TInstr.says, TInstr.blames, List.getElem?_map]
      rcases hx : b[x]? with _ | a
      · exact .ok
      dsimp only [Option.map_some]
      rw [num_width]
      exact (shiftAssign_tells q (wf hx) (tshift_are s a.kind).2.2.1).bind fun _ _ => .ok
    | shr s =>
      simp only [TInstr.loud, TInstr.says, TInstr.blames, List.getElem?_map]
      rcases hx : b[x]? with _ | a
      · exact .ok
      dsimp only [Option.map_some]
      rw [num_width]
      exact (shiftAssign_tells q (wf hx) (tshift_are s a.kind).2.2.2).bind fun _ _ => .ok
  | ask o x =>
    cases o with
    | octal =>
      simp only [TInstr.loud]
      rcases hx : b[x]? with _ | a
      · exact .ok
      exact (octal_tells (wf hx)).bind fun _ _ => .ok
    | _ => exact calm_ttells hb id
  | drop x => exact .ok
  | _ => exact calm_ttells hb id

theorem tloud_eq (q : Quoting) (i : TInstr) {b : TBank} (hb : ∀ a ∈ b, a.WF) :
    i.loud q b = tag (i.exec b) (i.says q.text (b.map WInt.num)) := by
  rw [← quiet_tloud q]
  exact tag_of_tells (tloud_tells q i hb)

/-! ## Messages tell what is to blame -/

/-- The first ten characters of the texts of the kinds. -/
def kindHeads : List String :=
  ["", "InvalidBit", "InvalidShi", "ValueUnrep", "Unmatching", "Truncation", "ExtensionB", "DivisionBy",
    "ExpectedNo", ""]

theorem head_kind {e : AErr} (he : e.Plain) (r : List Char) :
    (e.kindText ++ r).take 10 = (kindHeads.getD e.tag "").toList := by
  have key : ∀ (s : String) (r : List Char), 10 ≤ s.toList.length →
      (s.toList ++ r).take 10 = s.toList.take 10 := fun s r h => List.take_append_of_le_length h
  cases e with
  | text => cases he
  | other => cases he
  | _ =>
    unfold AErr.kindText
    simp only [List.append_assoc]
    rw [key _ _ (by decide)]
    simp only [AErr.tag]
    decide

theorem kindHeads_inj : ∀ i < 8, ∀ j < 8,
    (kindHeads.getD (i + 1) "").toList = (kindHeads.getD (j + 1) "").toList → i = j := by decide

theorem plain_tag {e : AErr} (he : e.Plain) : 0 < e.tag ∧ e.tag < 9 := by
  cases e <;> first | (cases he; done) | simp [AErr.tag]

theorem kind_tag {e f : AErr} (he : e.Plain) (hf : f.Plain) {r s : List Char}
    (h : e.kindText ++ r = f.kindText ++ s) : e.tag = f.tag := by
  have h := congrArg (List.take 10) h
  rw [head_kind he, head_kind hf] at h
  have he := plain_tag he
  have hf := plain_tag hf
  have := kindHeads_inj (e.tag - 1) (by omega) (f.tag - 1) (by omega) (by
    rw [Nat.sub_add_cancel he.1, Nat.sub_add_cancel hf.1]; exact h)
  omega

/-- The name of a division, what follows it beginning with a comma. -/
theorem DivOp.name_comma {a b : DivOp} {r s : List Char}
    (h : a.name.toList ++ ',' :: r = b.name.toList ++ ',' :: s) : a = b ∧ r = s := by
  have hn : ∀ op : DivOp, ∀ c ∈ op.name.toList, (c != ',') = true := by
    intro op; cases op <;> decide
  obtain ⟨h1, -, h2⟩ := split_at (p := fun c => c != ',') (hn a) (hn b) (by decide) (by decide) h
  refine ⟨?_, h2⟩
  revert h1
  cases a <;> cases b <;> decide

/-- The name of a type, what follows it beginning with a space. -/
theorem PrimitiveTy.name_space {a b : PrimitiveTy} {r s : List Char}
    (h : a.name.toList ++ ' ' :: r = b.name.toList ++ ' ' :: s) : a = b ∧ r = s := by
  have hn : ∀ op : PrimitiveTy, ∀ c ∈ op.name.toList, (c != ' ') = true := by
    intro op; cases op <;> decide
  obtain ⟨h1, -, h2⟩ := split_at (p := fun c => c != ' ') (hn a) (hn b) (by decide) (by decide) h
  refine ⟨?_, h2⟩
  revert h1
  cases a <;> cases b <;> decide

theorem two_named {A B C r s : List Char} {name name' : String} {m m' n n' : Nat}
    (h : A ++ named name m ++ B ++ named name' n ++ C ++ r =
      A ++ named name m' ++ B ++ named name' n' ++ C ++ s) : m = m' ∧ n = n' := by
  simp only [List.append_assoc] at h
  obtain ⟨h1, h2⟩ := named_split (List.append_cancel_left h)
  exact ⟨h1, (named_split (List.append_cancel_left h2)).1⟩

theorem kind_inj {e f : AErr} (he : e.Plain) (hf : f.Plain) (he' : e.Fine) (hf' : f.Fine)
    {r s : List Char} (h : e.kindText ++ r = f.kindText ++ s) : e = f := by
  have ht := kind_tag he hf h
  cases e <;> cases f <;> first
    | (cases he; done)
    | (clear h; exfalso; simp [AErr.tag] at ht; done)
    | skip
  · obtain ⟨rfl, rfl⟩ := two_named h; rfl
  · obtain ⟨rfl, rfl⟩ := two_named h; rfl
  · rename_i x a y b
    unfold AErr.kindText at h
    simp only [List.append_assoc] at h
    obtain ⟨h1, h2⟩ := AInt.text_split he' hf' (List.append_cancel_left h)
    obtain ⟨h3, -⟩ := PrimitiveTy.name_space (r := "}".toList ++ r) (s := "}".toList ++ s)
      (List.append_cancel_left h2)
    rw [h1, h3]
  · obtain ⟨rfl, rfl⟩ := two_named h; rfl
  · obtain ⟨rfl, rfl⟩ := two_named h; rfl
  · obtain ⟨rfl, rfl⟩ := two_named h; rfl
  · rename_i a x b y
    unfold AErr.kindText at h
    simp only [List.append_assoc] at h
    obtain ⟨h1, h2⟩ := DivOp.name_comma
      (r := " lhs: ".toList ++ (x.text ++ (" }".toList ++ r)))
      (s := " lhs: ".toList ++ (y.text ++ (" }".toList ++ s))) (List.append_cancel_left h)
    obtain ⟨h3, -⟩ := AInt.text_split he' hf' (List.append_cancel_left h2)
    rw [h1, h3]
  · rfl

theorem unwrapped_inj {quoted : List Char → List Char} {e f : AErr} (he : e.Plain) (hf : f.Plain)
    (he' : e.Fine) (hf' : f.Fine) (h : e.unwrapped quoted = f.unwrapped quoted) : e = f := by
  unfold AErr.unwrapped at h
  have h := List.append_cancel_left h
  simp only [List.append_assoc] at h
  exact kind_inj he hf he' hf' (List.append_cancel_left h)

theorem unwrapped_ne {quoted : List Char → List Char} (e : AErr) :
    e.unwrapped quoted ≠ "not implemented".toList := by
  intro h
  have h := congrArg List.head? h
  unfold AErr.unwrapped at h
  rw [List.head?_append] at h
  have h1 : "called `Result::unwrap()` on an `Err` value: ".toList.head? = some 'c' := by decide
  have h2 : "not implemented".toList.head? = some 'n' := by decide
  rw [h1, h2] at h
  exact absurd (Option.some.inj h) (by decide)

/-- What a message tells. -/
theorem blamed_inj {quoted : List Char → List Char} {x y : Option AErr}
    (h : (match x with | some e => e.unwrapped quoted | none => "not implemented".toList) =
      (match y with | some e => e.unwrapped quoted | none => "not implemented".toList))
    (hx : ∀ e, x = some e → e.Plain ∧ e.Fine) (hy : ∀ e, y = some e → e.Plain ∧ e.Fine) : x = y := by
  cases x with
  | none =>
    cases y with
    | none => rfl
    | some f => exact absurd h.symm (unwrapped_ne f)
  | some e =>
    cases y with
    | none => exact absurd h (unwrapped_ne e)
    | some f => rw [unwrapped_inj (hx e rfl).1 (hy f rfl).1 (hx e rfl).2 (hy f rfl).2 h]

theorem blames_fine {i : Instr} {b : ABank} {e : AErr} (h : i.blames b = some e) :
    e.Plain ∧ e.Fine := by
  have two : ∀ (x y : Nat), (match b[x]?, b[y]? with
      | some a, some c => some (AErr.widths a.width c.width)
      | _, _ => none) = some e → e.Plain ∧ e.Fine := by
    intro x y h
    split at h
    · cases h; exact ⟨trivial, trivial⟩
    · cases h
  have one : ∀ (s x : Nat), (b[x]?.map fun a => AErr.shift s a.width) = some e →
      e.Plain ∧ e.Fine := by
    intro s x h
    cases hx : b[x]? with
    | none => rw [hx] at h; cases h
    | some a => rw [hx] at h; cases h; exact ⟨trivial, trivial⟩
  cases i <;> first | cases h | exact two _ _ h | exact one _ _ h

theorem blame_fine {o : Bin} {x y : AInt} (hx : x.bits < 2 ^ x.width) :
    (o.blame x y).Plain ∧ (o.blame x y).Fine := by
  unfold Bin.blame
  match hs : o.spec x y with
  | none => exact ⟨trivial, trivial⟩
  | some (.ok z) => exact ⟨trivial, trivial⟩
  | some (.error e) =>
    refine ⟨bin_plain hs, ?_⟩
    by_cases hw : x.width = y.width <;> by_cases hz : y.bits = 0 <;> cases o <;>
      simp [Bin.spec, hw, hz] at hs <;> subst hs <;> first | exact hx | trivial

theorem tblames_fine {i : TInstr} {b : TBank} (hb : ∀ a ∈ b, a.WF) {e : AErr}
    (hp : TMayPanic (b.map WInt.num) i) (h : i.blames (b.map WInt.num) = some e) :
    e.Plain ∧ e.Fine := by
  have wf : ∀ {x : Nat} {a : WInt}, b[x]? = some a → a.value.WF := fun {x a} h => by
    have := hb _ (List.mem_of_getElem? h)
    cases a <;> exact this
  have two : ∀ (x y : Nat), (match (b.map WInt.num)[x]?, (b.map WInt.num)[y]? with
      | some a, some c => some (AErr.widths a.width c.width)
      | _, _ => none) = some e → e.Plain ∧ e.Fine := by
    intro x y h
    split at h
    · cases h; exact ⟨trivial, trivial⟩
    · cases h
  have one : ∀ (s x : Nat), ((b.map WInt.num)[x]?.map fun a => AErr.shift s a.width) = some e →
      e.Plain ∧ e.Fine := by
    intro s x h
    cases hx : (b.map WInt.num)[x]? with
    | none => rw [hx] at h; cases h
    | some a => rw [hx] at h; cases h; exact ⟨trivial, trivial⟩
  have op : ∀ (o : TBin) (x y : Nat), (∃ a c, (b.map WInt.num)[x]? = some a ∧
      (b.map WInt.num)[y]? = some c ∧ a.kind = c.kind ∧
      (a.width ≠ c.width ∨ (o = .div ∨ o = .rem) ∧ c.val = 0)) →
      (match (b.map WInt.num)[x]?, (b.map WInt.num)[y]? with
      | some a, some c => some ((o.spec a c).blames a c)
      | _, _ => none) = some e → e.Plain ∧ e.Fine := by
    rintro o x y ⟨a, c, hx, hy, hk, -⟩ h
    rw [hx, hy] at h
    rw [List.getElem?_map] at hx hy
    rcases hx' : b[x]? with _ | a'
    · rw [hx'] at hx; cases hx
    rcases hy' : b[y]? with _ | c'
    · rw [hy'] at hy; cases hy
    rw [hx'] at hx; rw [hy'] at hy
    cases hx; cases hy
    have hk' : a'.kind = c'.kind := by cases a' <;> cases c' <;> first | rfl | cases hk
    have h := Option.some.inj h
    rw [did_blames o (wf hx') (wf hy') hk'] at h
    rw [← h]
    exact blame_fine (wf hx').2
  cases i with
  | opUn o x => cases o <;> first | cases h | exact one _ _ h
  | opShift o x => cases o <;> exact one _ _ h
  | bin o x y => exact two _ _ h
  | intoBin o x y => exact two _ _ h
  | op o x y => exact op o x y hp h
  | opAssign o x y => exact op o x y hp h
  | _ => cases h

end Verif
