import Verif.Client
import Verif.Proof.Program

/-!
# What a panic leaves behind
-/

namespace Verif

open ApInt

section

variable {σ τ α β : Type}

@[simp] theorem forget_keep (s : σ) (r : Run α) : forget (keep s r) = r := by cases r <;> rfl

@[simp] theorem forget_within (g : σ → τ) (r : Traced σ α) : forget (within g r) = forget r := by
  cases r <;> rfl

@[simp] theorem forget_ok (a : α) : forget (.ok a : Traced σ α) = .ok a := rfl

@[simp] theorem forget_pure (a : α) : forget (pure a : Traced σ α) = .ok a := rfl

theorem forget_bind (r : Traced σ α) (f : α → Traced σ β) :
    forget (r >>= f) = forget r >>= fun a => forget (f a) := by cases r <;> rfl

@[simp] theorem keep_ok (s : σ) (a : α) : keep s (.ok a) = .ok a := rfl

@[simp] theorem keep_error (s : σ) (f : Fault) : keep s (.error f : Run α) = .error (f, s) := rfl

@[simp] theorem within_ok (g : σ → τ) (a : α) : within g (.ok a) = .ok a := rfl

@[simp] theorem within_error (g : σ → τ) (f : Fault) (s : σ) :
    within g (.error (f, s) : Traced σ α) = .error (f, g s) := rfl

@[simp] theorem traced_bind_ok (a : α) (f : α → Traced σ β) : (Except.ok a >>= f) = f a := rfl

@[simp] theorem traced_bind_error (e : Fault × σ) (f : α → Traced σ β) :
    ((Except.error e : Traced σ α) >>= f) = .error e := rfl

theorem ok_of_forget {r : Traced σ α} {a : α} (h : forget r = .ok a) : r = .ok a := by
  cases r with
  | ok b => cases h; rfl
  | error e => cases h

end

/-! ## The traced calls are the calls -/

theorem forget_sdivrem (a c : ApInt) :
    forget (wrappingSdivremAssignT a c) = wrappingSdivremAssign a c := by
  unfold wrappingSdivremAssignT wrappingSdivremAssign
  simp only [forget_bind, forget_keep]
  congr; funext z
  cases z
  · simp only [Bool.false_eq_true, if_false, forget_bind, forget_keep]
    congr; funext lm; congr; funext rm
    cases lm <;> cases rm <;> simp only [forget_bind, forget_keep, forget_ok]
  · simp only [if_true, forget_bind, forget_keep]; rfl

theorem forget_sremdiv (a c : ApInt) :
    forget (wrappingSremdivAssignT a c) = wrappingSremdivAssign a c := by
  unfold wrappingSremdivAssignT wrappingSremdivAssign
  simp only [forget_bind, forget_keep]
  congr; funext z
  cases z
  · simp only [Bool.false_eq_true, if_false, forget_bind, forget_keep]
    congr; funext lm; congr; funext rm
    cases lm <;> cases rm <;> simp only [forget_bind, forget_keep, forget_ok]
  · simp only [if_true, forget_bind, forget_keep]; rfl

theorem forget_sdiv (a c : ApInt) : forget (wrappingSdivAssignT a c) = wrappingSdivAssign a c := by
  unfold wrappingSdivAssignT wrappingSdivAssign
  simp only [forget_bind, forget_keep]
  congr; funext z
  cases z
  · simp only [Bool.false_eq_true, if_false, forget_bind, forget_keep]
    congr; funext rc; congr; funext lm; congr; funext rm
    cases lm <;> cases rm <;> simp only [forget_bind, forget_keep, forget_ok]
  · simp only [if_true, forget_bind, forget_keep]; rfl

theorem forget_srem (a c : ApInt) : forget (wrappingSremAssignT a c) = wrappingSremAssign a c := by
  unfold wrappingSremAssignT wrappingSremAssign
  simp only [forget_bind, forget_keep]
  congr; funext z
  cases z
  · simp only [Bool.false_eq_true, if_false, forget_bind, forget_keep]
    congr; funext rc; congr; funext lm; congr; funext rm
    cases lm <;> cases rm <;> simp only [forget_bind, forget_keep, forget_ok]
  · simp only [if_true, forget_bind, forget_keep]; rfl

theorem forget_unwrapMut (a : ApInt) (r : Run (Res Unit × ApInt)) :
    forget (unwrapMutT a r) = unwrapMut r := by
  unfold unwrapMutT unwrapMut
  simp only [forget_bind, forget_keep, forget_pure]
  rfl

theorem forget_bin (o : Bin) (a c : ApInt) : forget (o.execT a c) = o.exec a c := by
  cases o <;> first | exact forget_sdiv a c | exact forget_srem a c | exact forget_keep _ _

theorem forget_op (o : Op) (a c : ApInt) : forget (o.execAssignT a c) = o.execAssign a c := by
  cases o <;> exact forget_unwrapMut _ _

theorem forget_pair (o : Pair) (a c : ApInt) : forget (o.execT a c) = o.exec a c := by
  cases o <;> first | exact forget_sdivrem a c | exact forget_sremdiv a c | exact forget_keep _ _

/-- Without the state at the fault, a traced call is the call. -/
theorem forget_execT (i : Instr) (b : Bank) : forget (i.execT b) = i.exec b := by
  cases i with
  | bin o x y =>
    simp only [Instr.execT, Instr.exec]
    cases b[x]? <;> cases b[y]? <;> try rfl
    simp only [forget_bind, forget_within, forget_bin]
    rfl
  | opAssign o x y =>
    simp only [Instr.execT, Instr.exec]
    cases b[x]? <;> cases b[y]? <;> try rfl
    simp only [forget_bind, forget_within, forget_op, storeRes, done, bind_assoc, pure_bind]
    rfl
  | opShlAssign s x =>
    simp only [Instr.execT, Instr.exec]
    cases b[x]? <;> try rfl
    simp only [forget_bind, forget_within, forget_unwrapMut, storeRes, done, bind_assoc, pure_bind]
    rfl
  | pair o x y =>
    simp only [Instr.execT, Instr.exec]
    cases b[x]? <;> cases b[y]? <;> try rfl
    simp only [forget_bind, forget_within, forget_pair]
    rfl
  | drop x => rfl
  | _ => exact forget_keep _ _

/-! ## The state at a panic -/

theorem abs_magnitude {a c : ApInt} (hl : c.len = a.len) (hv : c.uval = a.sval.natAbs) :
    c.abs = a.abs.magnitude := by
  unfold ApInt.abs AInt.magnitude
  show (⟨c.len.toUsize, c.uval⟩ : AInt) = ⟨a.len.toUsize, a.sval.natAbs⟩
  rw [hl, hv]

/-- The operands when a signed division on different widths panics. -/
theorem sdiv_left {a b : ApInt} (ha : a.WF) (hb : b.WF) (h : a.len ≠ b.len) (hz : b.uval ≠ 0) :
    ∃ a' b' : ApInt, a'.WF ∧ b'.WF ∧ a'.abs = a.abs.magnitude ∧ b'.abs = b.abs.magnitude ∧
      wrappingSdivremAssignT a b = .error (.panic, a', b') ∧
      wrappingSremdivAssignT a b = .error (.panic, a', b') ∧
      wrappingSdivAssignT a b = .error (.panic, a') ∧
      wrappingSremAssignT a b = .error (.panic, a') := by
  have hi := isZero_ok hb.1
  have hc := clone_ok hb.1
  rcases msb_sval ha with ⟨m1, v1⟩ | ⟨m1, v1, p1⟩ <;> rcases msb_sval hb with ⟨m2, v2⟩ | ⟨m2, v2, p2⟩
  · have x := udiv_mismatch (a := a) (b := b) h
    refine ⟨a, b, ha, hb, abs_magnitude rfl (by omega),
      abs_magnitude rfl (by omega), ?_, ?_, ?_, ?_⟩ <;>
    simp [wrappingSdivremAssignT, wrappingSremdivAssignT, wrappingSdivAssignT, wrappingSremAssignT,
      hi, hz, hc, m1, m2, x]
  · obtain ⟨d, e2, w2, l2, s2⟩ := neg_abs hb v2 p2
    have x := udiv_mismatch (a := a) (b := d) (by rwa [l2])
    refine ⟨a, d, ha, w2, abs_magnitude rfl (by omega),
      abs_magnitude l2 (by omega), ?_, ?_, ?_, ?_⟩ <;>
    simp [wrappingSdivremAssignT, wrappingSremdivAssignT, wrappingSdivAssignT, wrappingSremAssignT,
      hi, hz, hc, m1, m2, e2, x]
  · obtain ⟨c, e1, w1, l1, s1⟩ := neg_abs ha v1 p1
    have x := udiv_mismatch (a := c) (b := b) (by rwa [l1])
    refine ⟨c, b, w1, hb, abs_magnitude l1 (by omega),
      abs_magnitude rfl (by omega), ?_, ?_, ?_, ?_⟩ <;>
    simp [wrappingSdivremAssignT, wrappingSremdivAssignT, wrappingSdivAssignT, wrappingSremAssignT,
      hi, hz, hc, m1, m2, e1, x]
  · obtain ⟨c, e1, w1, l1, s1⟩ := neg_abs ha v1 p1
    obtain ⟨d, e2, w2, l2, s2⟩ := neg_abs hb v2 p2
    have x := udiv_mismatch (a := c) (b := d) (by rwa [l1, l2])
    refine ⟨c, d, w1, w2, abs_magnitude l1 (by omega),
      abs_magnitude l2 (by omega), ?_, ?_, ?_, ?_⟩ <;>
    simp [wrappingSdivremAssignT, wrappingSremdivAssignT, wrappingSdivAssignT, wrappingSremAssignT,
      hi, hz, hc, m1, m2, e1, e2, x]

/-- A traced call agrees with the abstract machine, also in what a panic leaves behind. -/
def AgreesT (i : Instr) (b : Bank) : Prop :=
  match i.spec (b.map ApInt.abs) with
  | some (x, s) => ∃ y b', i.execT b = .ok (y, b') ∧ absRes y = x ∧ (∀ a ∈ b', a.WF) ∧
      b'.map ApInt.abs = s
  | none => ∃ b', i.execT b = .error (.panic, b') ∧ (∀ a ∈ b', a.WF) ∧
      b'.map ApInt.abs = i.specLeft (b.map ApInt.abs)

theorem modify_eq_set {α : Type} {l : List α} {x : Nat} {a : α} (h : l[x]? = some a) (f : α → α) :
    l.modify x f = l.set x (f a) := by
  apply List.ext_getElem?
  intro j
  rw [List.getElem?_modify, List.getElem?_set]
  by_cases hj : x = j
  · subst hj
    rw [h]
    simp [(List.getElem?_eq_some_iff.mp h).1]
  · simp [hj]

theorem keep_left {b : Bank} {r : Run (Res Out × Bank)} (h : r = .error .panic) :
    keep b r = .error (.panic, b) := by rw [h]; rfl

/-- One traced call agrees with the abstract machine. -/
theorem execT_agrees (i : Instr) {b : Bank} (hb : ∀ a ∈ b, a.WF) : AgreesT i b := by
  have hf := forget_execT i b
  have h := exec_agrees i hb
  unfold AgreesT
  match hs : i.spec (b.map ApInt.abs), h with
  | some (x, s), ⟨y, c, h, hy, hc, hm⟩ =>
    exact ⟨y, c, ok_of_forget (hf.trans h), hy, hc, hm⟩
  | none, h =>
    have h : i.exec b = .error .panic := h
    have wf : ∀ {x : Nat} {a : ApInt}, b[x]? = some a → a.WF := fun h =>
      hb _ (List.mem_of_getElem? h)
    have abs : ∀ {x : Nat} {a : ApInt}, b[x]? = some a → (b.map ApInt.abs)[x]? = some a.abs := by
      intro x a h; rw [List.getElem?_map, h]; rfl
    have set : ∀ {x : Nat} {a c : ApInt}, b[x]? = some a → c.abs = a.abs.magnitude →
        (b.set x c).map ApInt.abs = (b.map ApInt.abs).modify x AInt.magnitude := by
      intro x a c h hc
      rw [modify_eq_set (abs h), List.map_set, hc]
    show ∃ b', i.execT b = .error (.panic, b') ∧ (∀ a ∈ b', a.WF) ∧
      b'.map ApInt.abs = i.specLeft (b.map ApInt.abs)
    cases i with
    | bin o x y =>
      simp only [Instr.spec, List.getElem?_map] at hs
      cases hx : b[x]? with
      | none => rw [hx] at hs; cases hs
      | some a =>
        cases hy : b[y]? with
        | none => rw [hx, hy] at hs; cases hs
        | some c =>
          simp only [hx, hy, Option.map_some, Option.map_eq_none_iff] at hs
          have key : o = .sdiv ∨ o = .srem := by
            cases o <;> first | (cases hs; done) | exact .inl rfl | exact .inr rfl
          have hne : a.len ≠ c.len ∧ c.uval ≠ 0 := by
            rcases key with rfl | rfl <;> simp only [Bin.spec] at hs <;> split at hs <;>
              first | (cases hs; done) | skip
            all_goals
              rename_i hz
              split at hs <;> first | (cases hs; done) | skip
              rename_i hw
              exact ⟨widths_ne hw, hz⟩
          obtain ⟨a', _, w1, _, m1, _, _, _, e1, e2⟩ := sdiv_left (wf hx) (wf hy) hne.1 hne.2
          refine ⟨b.set x a', ?_, wf_set hb w1, ?_⟩
          · rcases key with rfl | rfl
            · simp [Instr.execT, hx, hy, Bin.execT, e1]
            · simp [Instr.execT, hx, hy, Bin.execT, e2]
          · rw [set hx m1]
            rcases key with rfl | rfl <;> rfl
    | opAssign o x y =>
      simp only [Instr.spec, List.getElem?_map] at hs
      cases hx : b[x]? with
      | none => rw [hx] at hs; cases hs
      | some a =>
        cases hy : b[y]? with
        | none => rw [hx, hy] at hs; cases hs
        | some c =>
          simp only [hx, hy, Option.map_some, Option.map_eq_none_iff] at hs
          have hst := bin_stored o.bin (wf hx) (wf hy)
          refine ⟨b, ?_, hb, rfl⟩
          have e : o.execAssignT a c = .error (.panic, a) := by
            have : o.execAssignT a c = unwrapMutT a (o.bin.exec a c) := by cases o <;> rfl
            rw [this]
            unfold Op.spec at hs
            match hq : o.bin.spec a.abs c.abs, hst with
            | none, hst =>
              have hst : o.bin.exec a c = .error .panic := hst
              rw [hst]; rfl
            | some (.error e), ⟨e', hst, _⟩ => rw [hst]; rfl
            | some (.ok z), _ => rw [hq] at hs; cases hs
          simp [Instr.execT, hx, hy, e, set_self hx]
    | opShlAssign s x =>
      simp only [Instr.spec, List.getElem?_map] at hs
      cases hx : b[x]? with
      | none => rw [hx] at hs; cases hs
      | some a =>
        simp only [hx, Option.map_some, Option.map_eq_none_iff] at hs
        have hst := un_stored (.shl s) (wf hx)
        refine ⟨b, ?_, hb, rfl⟩
        have e : unwrapMutT a (a.wrappingShlAssign s) = .error (.panic, a) := by
          match hq : (Un.shl s).spec a.abs, hst with
          | .error e, ⟨e', hst, _⟩ =>
            have hst : a.wrappingShlAssign s = _ := hst
            rw [hst]; rfl
          | .ok z, _ => rw [hq] at hs; cases hs
        simp [Instr.execT, hx, e, set_self hx]
    | pair o x y =>
      simp only [Instr.spec, List.getElem?_map] at hs
      cases hx : b[x]? with
      | none => rw [hx] at hs; cases hs
      | some a =>
        cases hy : b[y]? with
        | none => rw [hx, hy] at hs; cases hs
        | some c =>
          simp only [hx, hy, Option.map_some, Option.map_eq_none_iff] at hs
          have key : o = .sdivrem ∨ o = .sremdiv := by
            cases o <;> first | (cases hs; done) | exact .inl rfl | exact .inr rfl
          have hne : a.len ≠ c.len ∧ c.uval ≠ 0 := by
            rcases key with rfl | rfl <;> simp only [Pair.spec] at hs <;> split at hs <;>
              first | (cases hs; done) | skip
            all_goals
              rename_i hz
              split at hs <;> first | (cases hs; done) | skip
              rename_i hw
              exact ⟨widths_ne hw, hz⟩
          obtain ⟨a', c', w1, w2, m1, m2, e1, e2, _, _⟩ :=
            sdiv_left (wf hx) (wf hy) hne.1 hne.2
          have hxy : x ≠ y := by
            rintro rfl
            rw [hx] at hy
            cases hy
            exact hne.1 rfl
          refine ⟨(b.set x a').set y c', ?_, wf_set (wf_set hb w1) w2, ?_⟩
          · rcases key with rfl | rfl
            · simp [Instr.execT, hx, hy, Pair.execT, e1]
            · simp [Instr.execT, hx, hy, Pair.execT, e2]
          · have hy' : ((b.map ApInt.abs).modify x AInt.magnitude)[y]? = some c.abs := by
              rw [List.getElem?_modify, abs hy]
              simp [hxy]
            rw [List.map_set, set hx m1, m2, ← modify_eq_set hy']
            rcases key with rfl | rfl <;> rfl
    | _ => exact ⟨b, keep_left h, hb, rfl⟩

/-- A call whose panic is caught agrees with the abstract machine. -/
theorem caught_agrees (i : Instr) {b : Bank} (hb : ∀ a ∈ b, a.WF) :
    ∃ s b', i.caught b = .ok (s, b') ∧ (∀ a ∈ b', a.WF) ∧
      (s.abs, b'.map ApInt.abs) = i.specCaught (b.map ApInt.abs) := by
  have h := execT_agrees i hb
  unfold AgreesT at h
  unfold Instr.caught Instr.specCaught
  match i.spec (b.map ApInt.abs), h with
  | some (x, s), ⟨y, b', h, hy, hc, hm⟩ =>
    refine ⟨.returned y, b', by rw [h], hc, ?_⟩
    rw [hm]
    simp only [Seen.abs, hy]
  | none, ⟨b', h, hc, hm⟩ =>
    refine ⟨.panicked, b', by rw [h], hc, ?_⟩
    rw [hm]; rfl

/-- A client agrees with the abstract machine. -/
theorem play_agrees (c : Client) (n : Nat) (seen : List ASeen) {b : Bank} (hb : ∀ a ∈ b, a.WF) :
    ∃ b', play c n seen b = .ok ((specPlay c n seen (b.map ApInt.abs)).1, b') ∧
      (∀ a ∈ b', a.WF) ∧ b'.map ApInt.abs = (specPlay c n seen (b.map ApInt.abs)).2 := by
  induction n generalizing seen b with
  | zero => exact ⟨b, rfl, hb, rfl⟩
  | succ n ih =>
    unfold play specPlay
    cases c seen with
    | none => exact ⟨b, rfl, hb, rfl⟩
    | some i =>
      obtain ⟨s, b1, e, hb1, h1⟩ := caught_agrees i hb
      obtain ⟨b2, e2, hb2, h2⟩ := ih (seen ++ [s.abs]) hb1
      have h3 : (i.specCaught (b.map ApInt.abs)).1 = s.abs := by rw [← h1]
      have h4 : (i.specCaught (b.map ApInt.abs)).2 = b1.map ApInt.abs := by rw [← h1]
      simp only [e, run_bind_ok, h3, h4]
      exact ⟨b2, e2, hb2, h2⟩

end Verif
