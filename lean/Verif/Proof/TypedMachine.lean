import Verif.Proof.TypedHeap
import Verif.Proof.Machine
import Verif.Model.TypedMachine
import Verif.SpecTypedMachine

/-! Lemmas about `UInt` and `Int` on machine words. -/

namespace Verif

open ApInt

/-- Calls that leave no new integer. -/
def Instr.Quiet : Instr → Prop
  | .ask .. | .ask2 .. | .drop .. => True
  | _ => False

/-- Calls that a script makes after its first one. -/
def Instr.Late : Instr → Prop
  | .ask .. | .ask2 .. | .drop .. | .un .. => True
  | _ => False

theorem Instr.Quiet.sub {i : Instr} (h : i.Quiet) {s s' : ABank} {x : Except AErr Out}
    (e : i.spec s = some (x, s')) : ∀ z ∈ s', z ∈ s := by
  cases i <;> try cases h
  case drop x =>
    cases e
    exact fun z hz => List.mem_of_mem_eraseIdx hz
  case ask q x =>
    simp only [Instr.spec] at e
    split at e
    · cases hq : q.spec ‹AInt› <;> rw [hq] at e <;> cases e
      exact fun z hz => hz
    · cases e; exact fun z hz => hz
  case ask2 q x y =>
    simp only [Instr.spec] at e
    split at e <;> (cases e; exact fun z hz => hz)

theorem spec_error_same {i : Instr} {s s' : ABank} {e : AErr}
    (h : i.spec s = some (.error e, s')) : s' = s := by
  have push : ∀ {r : Except AErr AInt}, ABank.push s r = (.error e, s') → s' = s := by
    intro r h
    cases r <;> cases h
    rfl
  have store : ∀ {x : Nat} {r : Except AErr AInt}, ABank.store s x r = (.error e, s') → s' = s := by
    intro x r h
    cases r <;> cases h
    rfl
  cases i <;> simp only [Instr.spec] at h
  case make => exact push (Option.some.inj h)
  case drop => cases h
  all_goals split at h
  all_goals first
    | (cases h; done)
    | exact push (Option.some.inj h)
    | exact store (Option.some.inj h)
    | (cases h; rfl)
    | (have h := congrArg Prod.snd (Option.some.inj h); exact h.symm)
    | (obtain ⟨_, _, h⟩ := Option.map_eq_some_iff.1 h
       first
         | exact push h
         | exact store h
         | (cases h; rfl)
         | (split at h <;> cases h; rfl))

/-- After a call that leaves new integers and succeeds the script is at its end. -/
def Script.Shape (i : Instr) (k : Res Out → Script) : Prop :=
  i.Quiet ∨ ∀ o, ∃ r ks, k (.ok o) = .done r ks

/-- The rest of a script. -/
def Script.Rest : Script → Prop
  | .done .. | .panic => True
  | .call i k => i.Late ∧ Shape i k ∧ ∀ r, (k r).Rest

/-- A script that makes one call that leaves new integers. -/
def Script.Tidy : Script → Prop
  | .done .. | .panic => True
  | .call i k => Shape i k ∧ ∀ r, (k r).Rest

/-- The first call of a script is strained. -/
def Script.Strains (u : Nat) (s : ABank) : Script → Prop
  | .call i _ => i.Strains u s
  | _ => False

namespace Machine

variable {m : Machine}

theorem late_strains {i : Instr} (h : i.Late) (u : Nat) (s : ABank) : ¬ i.Strains u s := by
  cases i <;> first | exact id | exact h.elim

/-- What a script does on a machine, compared with what it does without limits. -/
def ScriptSound (m : Machine) (r r0 : Run ((Res TOut × List Kind) × Bank)) : Prop :=
  (r = r0 ∧ ∀ x b', r0 = .ok (x, b') → ∀ z ∈ b'.map ApInt.abs, z.Fits m.bits) ∨
  (r = .error m.stop ∧ ∃ x b', r0 = .ok (x, b') ∧ ¬ ∀ z ∈ b'.map ApInt.abs, z.Fits m.bits)

theorem call_sound (hb : 7 ≤ m.bits) {i : Instr} {k : Res Out → Script} {b : Bank}
    (hw : ∀ a ∈ b, a.WF) (hf : ∀ z ∈ b.map ApInt.abs, z.Fits m.bits)
    (hs : ¬ (m.checks = true ∧ i.Strains m.bits (b.map ApInt.abs))) (h : Script.Shape i k)
    (next : ∀ (r : Res Out) {b' : Bank}, (∀ a ∈ b', a.WF) →
      (∀ z ∈ b'.map ApInt.abs, z.Fits m.bits) →
      m.ScriptSound (m.runScript (k r) b') ((k r).run b')) :
    m.ScriptSound (m.runScript (.call i k) b) ((Script.call i k).run b) := by
  have h1 := exec_sound hb i hw hf hs
  have h0 := exec_agrees i hw
  unfold runScript Script.run
  rcases h1 with ⟨e, h1⟩ | ⟨e, x, s, h1, hn⟩
  · rw [e]
    match hi : i.spec (b.map ApInt.abs), h0 with
    | none, h0 =>
      have h0 : i.exec b = .error .panic := h0
      rw [h0]
      exact .inl ⟨rfl, nofun⟩
    | some (x, s), ⟨y, c, e1, _, e3, e4⟩ =>
      rw [e1]
      exact next y e3 (by rw [e4]; exact h1 x s hi)
  · rw [e]
    rw [h1] at h0
    obtain ⟨y, c, e1, e2, e3, e4⟩ := h0
    rcases h with hq | hd
    · exact absurd (fun z hz => hf z (hq.sub h1 z hz)) hn
    · cases y with
      | error err =>
        have : x = .error err.abs := e2.symm
        subst this
        rw [spec_error_same h1] at hn
        exact absurd hf hn
      | ok o =>
        obtain ⟨r, ks, hd⟩ := hd o
        refine .inr ⟨rfl, (r, ks), c, ?_, by rw [e4]; exact hn⟩
        rw [e1]
        show (k (.ok o)).run c = _
        rw [hd]
        rfl

theorem rest_sound (hb : 7 ≤ m.bits) (s : Script) (h : s.Rest) {b : Bank} (hw : ∀ a ∈ b, a.WF)
    (hf : ∀ z ∈ b.map ApInt.abs, z.Fits m.bits) :
    m.ScriptSound (m.runScript s b) (s.run b) := by
  induction s generalizing b with
  | done r ks => exact .inl ⟨rfl, by rintro x b' ⟨⟩; exact hf⟩
  | panic => exact .inl ⟨rfl, nofun⟩
  | call i k ih =>
    obtain ⟨h1, h2, h3⟩ := h
    exact call_sound hb hw hf (fun h => late_strains h1 _ _ h.2) h2
      fun r b' hw hf => ih r (h3 r) hw hf

theorem tidy_sound (hb : 7 ≤ m.bits) (s : Script) (h : s.Tidy) {b : Bank} (hw : ∀ a ∈ b, a.WF)
    (hf : ∀ z ∈ b.map ApInt.abs, z.Fits m.bits)
    (hs : ¬ (m.checks = true ∧ s.Strains m.bits (b.map ApInt.abs))) :
    m.ScriptSound (m.runScript s b) (s.run b) := by
  cases s with
  | done r ks => exact .inl ⟨rfl, by rintro x b' ⟨⟩; exact hf⟩
  | panic => exact .inl ⟨rfl, nofun⟩
  | call i k =>
    exact call_sound hb hw hf hs h.1 fun r b' hw hf => rest_sound hb (k r) (h.2 r) hw hf

theorem script_strained (hb : 7 ≤ m.bits) (s : Script) {b : Bank} (hw : ∀ a ∈ b, a.WF)
    (hf : ∀ z ∈ b.map ApInt.abs, z.Fits m.bits) (hc : m.checks = true)
    (hs : s.Strains m.bits (b.map ApInt.abs)) : m.runScript s b = .error .overflow := by
  cases s with
  | done r ks => cases hs
  | panic => cases hs
  | call i k =>
    unfold runScript
    rw [exec_strained hb i hw hf hc hs]
    rfl

end Machine

/-! ## The scripts of the methods -/

section

open Script

variable {ks : List Kind} {x y : Nat}

theorem tidy_unit : (Script.unit ks).Tidy := trivial

theorem rest_tidy {s : Script} (h : s.Rest) : s.Tidy := by
  cases s with
  | call i k => exact h.2
  | _ => trivial

theorem tidy_pass (i : Instr) : (pass ks i).Tidy := by
  refine ⟨.inr fun o => ⟨_, _, rfl⟩, ?_⟩
  rintro (_ | _) <;> exact trivial

theorem rest_pass {i : Instr} (h : i.Late) : (pass ks i).Rest := ⟨h, tidy_pass i⟩

theorem tidy_push (k : Kind) (i : Instr) : (Script.push ks k i).Tidy := by
  refine ⟨.inr fun o => ⟨_, _, rfl⟩, ?_⟩
  rintro (_ | _) <;> exact trivial

theorem tidy_consume (i : Instr) : (Script.consume ks x i).Tidy := by
  refine ⟨.inr fun o => ⟨_, _, rfl⟩, ?_⟩
  rintro (_ | _)
  · exact ⟨trivial, .inl trivial, fun _ => trivial⟩
  · exact trivial

theorem tidy_unwrap (i : Instr) : (unwrap ks i).Tidy := by
  refine ⟨.inr fun o => ⟨_, _, rfl⟩, ?_⟩
  rintro (_ | _) <;> exact trivial

theorem rest_test {i : Instr} (hq : i.Quiet := by exact trivial)
    (hl : i.Late := by exact trivial) {k : Bool → Script}
    (h : ∀ b, (k b).Rest) : (test i k).Rest := by
  refine ⟨hl, .inl hq, fun r => ?_⟩
  dsimp only
  split
  · exact h _
  · exact trivial

theorem rest_count {i : Instr} (hq : i.Quiet := by exact trivial)
    (hl : i.Late := by exact trivial) {k : Nat → Script}
    (h : ∀ n, (k n).Rest) : (Script.count i k).Rest := by
  refine ⟨hl, .inl hq, fun r => ?_⟩
  dsimp only
  split
  · exact h _
  · exact trivial

theorem rest_orFalse {i : Instr} (h : i.Late) : (orFalse ks i).Rest := by
  refine ⟨h, .inr fun o => ⟨_, _, rfl⟩, ?_⟩
  rintro (_ | _) <;> exact trivial

theorem rest_abs : (absScript ks x).Rest := by
  refine rest_test (h := fun b => ?_)
  cases b
  · exact trivial
  · exact rest_pass trivial

theorem tidy_un (o : TUn) (k : Kind) : (o.script ks x k).Tidy := by
  unfold TUn.script
  split
  · exact tidy_pass _
  · exact rest_tidy rest_abs
  · exact trivial

theorem tidy_into (o : TUn) (k : Kind) : (o.scriptInto ks x k).Tidy := by
  unfold TUn.scriptInto
  split
  · exact tidy_consume _
  · exact rest_tidy rest_abs
  · exact trivial

theorem rest_ask (q : TAsk) (k : Kind) : (q.script ks x k).Rest := by
  cases q <;> cases k <;> simp only [TAsk.script]
  all_goals first
    | exact trivial
    | exact rest_pass trivial
    | exact rest_test (h := fun _ => trivial)
    | (split <;> first | exact trivial | exact rest_pass trivial)
    | skip
  refine rest_test (h := fun b => ?_)
  split
  · exact trivial
  · refine rest_test (h := fun b => ?_)
    split <;> exact trivial

theorem rest_ask2 (q : TAsk2) (k : Kind) : (q.script ks x y k).Rest := by
  cases q <;> cases k <;> simp only [TAsk2.script]
  all_goals first
    | exact rest_pass trivial
    | exact rest_orFalse trivial
    | skip
  all_goals
    refine rest_count (h := fun m => rest_count (h := fun n => ?_))
    split
    · exact trivial
    · refine rest_test (h := fun b => ?_)
      split
      · exact trivial
      · exact rest_test (h := fun _ => trivial)

theorem tidy_script (i : TInstr) (ks : List Kind) : (i.script ks).Tidy := by
  have one : ∀ {x : Nat} {f : Kind → Script}, (∀ k, (f k).Tidy) →
      Script.Tidy (match ks[x]? with
        | some k => f k
        | none => Script.unit ks) := by
    intro x f h
    split
    · exact h _
    · exact trivial
  have two : ∀ {x y : Nat} {f : Kind → Script}, (∀ k, (f k).Tidy) →
      Script.Tidy (match ks[x]?, ks[y]? with
        | some .unsigned, some .unsigned => f .unsigned
        | some .signed, some .signed => f .signed
        | _, _ => Script.unit ks) := by
    intro x y f h
    split
    · exact h _
    · exact h _
    · exact trivial
  cases i <;> simp only [TInstr.script]
  case make => exact tidy_push _ _
  case intOne t =>
    split
    · exact trivial
    · refine ⟨.inr fun o => ⟨_, _, rfl⟩, ?_⟩
      rintro (_ | _) <;> exact trivial
  case clone => exact one fun _ => tidy_push _ _
  case drop => exact ⟨.inl trivial, fun _ => trivial⟩
  case assign => exact two fun _ => tidy_pass _
  case strictAssign => exact two fun _ => tidy_pass _
  case intoUnsigned => exact one fun _ => trivial
  case intoSigned => exact one fun _ => trivial
  case un => exact one fun _ => tidy_un _ _
  case intoUn => exact one fun _ => tidy_into _ _
  case opUn => exact one fun _ => tidy_unwrap _
  case opShift => exact one fun _ => tidy_unwrap _
  case alter =>
    refine one fun k => ?_
    split
    · exact tidy_pass _
    · exact trivial
  case bin => split <;> first | exact tidy_pass _ | exact trivial
  case intoBin => split <;> first | exact tidy_consume _ | exact trivial
  case op => split <;> first | exact tidy_unwrap _ | exact trivial
  case opAssign => split <;> first | exact tidy_unwrap _ | exact trivial
  case ask => exact one fun _ => rest_tidy (rest_ask _ _)
  case ask2 => exact two fun _ => rest_tidy (rest_ask2 _ _)

end

/-! ## Calls -/

theorem num_width (a : WInt) : a.num.width = a.value.w := by cases a <;> rfl

theorem fits_num {u : Nat} {b : TBank} :
    (∀ z ∈ b.map WInt.num, z.Fits u) ↔ ∀ z ∈ (b.map WInt.value).map ApInt.abs, z.Fits u := by
  simp only [List.mem_map, forall_exists_index, and_imp, forall_apply_eq_imp_iff₂, List.map_map]
  refine forall₂_congr fun a _ => ?_
  show a.num.width + 64 ≤ _ ↔ a.value.w + 64 ≤ _
  rw [num_width]

theorem pattern_num {a : WInt} (ha : a.WF) : a.num.pattern = a.value.abs.bits := by
  cases a with
  | u a => exact num_pattern (k := .unsigned) (ok_abs (a := a.value) ha)
  | s a => exact num_pattern (k := .signed) (ok_abs (a := a.value) ha)

theorem strains_num {u : Nat} {a c : WInt} (ha : a.WF) (hc : c.WF) (hk : a.kind = c.kind) :
    a.num.Strains u c.num ↔ a.value.abs.Strains u c.value.abs := by
  have h1 : a.num.kind = a.kind := by cases a <;> rfl
  have h2 : c.num.kind = c.kind := by cases c <;> rfl
  unfold Num.Strains AInt.Strains
  rw [pattern_num ha, pattern_num hc, num_width, num_width, h1, h2]
  exact and_iff_right hk

theorem strains_script {u : Nat} {b : TBank} (hw : ∀ a ∈ b, a.WF) (i : TInstr) :
    i.Strains u (b.map WInt.num) ↔
      (i.script (b.map WInt.kind)).Strains u ((b.map WInt.value).map ApInt.abs) := by
  have one : ∀ {x : Nat} {f : Kind → Script}, (∀ k, ¬ (f k).Strains u ((b.map WInt.value).map ApInt.abs)) →
      (False ↔ Script.Strains u ((b.map WInt.value).map ApInt.abs)
        (match (b.map WInt.kind)[x]? with
        | some k => f k
        | none => Script.unit (b.map WInt.kind))) := by
    intro x f h
    refine ⟨False.elim, ?_⟩
    split
    · exact h _
    · exact id
  have mul : ∀ {x y : Nat} {f : Kind → Script},
      (∀ k, (f k).Strains u ((b.map WInt.value).map ApInt.abs) ↔
        (Instr.bin .mul x y).Strains u ((b.map WInt.value).map ApInt.abs)) →
      ((match (b.map WInt.num)[x]?, (b.map WInt.num)[y]? with
        | some a, some c => a.Strains u c
        | _, _ => False) ↔ Script.Strains u ((b.map WInt.value).map ApInt.abs)
        (match (b.map WInt.kind)[x]?, (b.map WInt.kind)[y]? with
        | some .unsigned, some .unsigned => f .unsigned
        | some .signed, some .signed => f .signed
        | _, _ => Script.unit (b.map WInt.kind))) := by
    intro x y f h
    have hh : (Instr.bin .mul x y).Strains u ((b.map WInt.value).map ApInt.abs) ↔
        (match ((b.map WInt.value).map ApInt.abs)[x]?, ((b.map WInt.value).map ApInt.abs)[y]? with
        | some a, some c => a.Strains u c
        | _, _ => False) := Iff.rfl
    simp only [List.getElem?_map] at hh ⊢
    cases hx : b[x]? with
    | none => exact Iff.rfl
    | some a =>
      cases hy : b[y]? with
      | none => cases a <;> exact Iff.rfl
      | some c =>
        have ha := hw a (List.mem_of_getElem? hx)
        have hc := hw c (List.mem_of_getElem? hy)
        rw [hx, hy] at hh
        cases a <;> cases c
        · exact (strains_num ha hc rfl).trans (hh.symm.trans (h .unsigned).symm)
        · exact ⟨fun h => (by cases h.1), False.elim⟩
        · exact ⟨fun h => (by cases h.1), False.elim⟩
        · exact (strains_num ha hc rfl).trans (hh.symm.trans (h .signed).symm)
  have two : ∀ {s t : Script} {x y : Nat}, ¬ s.Strains u ((b.map WInt.value).map ApInt.abs) →
      ¬ t.Strains u ((b.map WInt.value).map ApInt.abs) →
      (False ↔ Script.Strains u ((b.map WInt.value).map ApInt.abs)
        (match (b.map WInt.kind)[x]?, (b.map WInt.kind)[y]? with
        | some .unsigned, some .unsigned => s
        | some .signed, some .signed => t
        | _, _ => Script.unit (b.map WInt.kind))) := by
    intro s t x y h1 h2
    refine ⟨False.elim, ?_⟩
    split
    · exact h1
    · exact h2
    · exact id
  cases i <;> simp only [TInstr.script, TInstr.Strains]
  case make m =>
    cases m with
    | min k t => cases k <;> exact Iff.rfl
    | max k t => cases k <;> exact Iff.rfl
    | _ => exact Iff.rfl
  case intOne t =>
    split
    · exact Iff.rfl
    · exact Iff.rfl
  case drop => exact Iff.rfl
  case clone => exact one fun _ => id
  case intoUnsigned => exact one fun _ => id
  case intoSigned => exact one fun _ => id
  case assign => exact two id id
  case strictAssign => exact two id id
  case un o x =>
    refine one fun k => ?_
    unfold TUn.script
    split <;> exact id
  case intoUn o x =>
    refine one fun k => ?_
    unfold TUn.scriptInto
    split <;> exact id
  case opUn => exact one fun _ => id
  case opShift => exact one fun _ => id
  case alter =>
    refine one fun k => ?_
    split <;> exact id
  case ask q x =>
    refine one fun k => ?_
    cases q <;> cases k <;> simp only [TAsk.script] <;> first | exact id | (split <;> exact id)
  case ask2 q x y =>
    refine two ?_ ?_ <;> (cases q <;> exact id)
  case bin o x y =>
    cases o with
    | mul => exact mul (f := fun _ => Script.pass _ (.bin .mul x y)) fun _ => Iff.rfl
    | _ => exact two id id
  case intoBin o x y =>
    cases o with
    | mul => exact mul (f := fun _ => Script.consume _ x (.bin .mul x y)) fun _ => Iff.rfl
    | _ => exact two id id
  case op o x y =>
    cases o with
    | mul => exact mul (f := fun _ => Script.unwrap _ (.bin .mul x y)) fun _ => Iff.rfl
    | _ => exact two id id
  case opAssign o x y =>
    cases o with
    | mul => exact mul (f := fun _ => Script.unwrap _ (.bin .mul x y)) fun _ => Iff.rfl
    | _ => exact two id id

theorem zip_wrap (b : TBank) :
    List.zipWith Kind.wrap (b.map WInt.kind) (b.map WInt.value) = b := by
  induction b with
  | nil => rfl
  | cons a b ih => simp [ih]

namespace Machine

variable {m : Machine}

/-- One call does what it does without limits if all numbers it should leave fit, and stops
otherwise. -/
def TSound (m : Machine) (r r0 : Run (Res TOut × TBank))
    (o : Option (Except AErr TOut × NBank)) : Prop :=
  (r = r0 ∧ ∀ x s, o = some (x, s) → ∀ z ∈ s, z.Fits m.bits) ∨
  (r = .error m.stop ∧ ∃ x s, o = some (x, s) ∧ ¬ ∀ z ∈ s, z.Fits m.bits)

theorem values_wf {b : TBank} (hw : ∀ a ∈ b, a.WF) : ∀ a ∈ b.map WInt.value, a.WF := by
  intro a ha
  obtain ⟨c, hc, rfl⟩ := List.mem_map.1 ha
  have := hw c hc
  cases c <;> exact this

theorem texec_sound (hb : 7 ≤ m.bits) (i : TInstr) {b : TBank} (hw : ∀ a ∈ b, a.WF)
    (hf : ∀ z ∈ b.map WInt.num, z.Fits m.bits)
    (hs : ¬ (m.checks = true ∧ i.Strains m.bits (b.map WInt.num))) :
    m.TSound (m.texec i b) (i.exec b) (i.spec (b.map WInt.num)) := by
  rw [strains_script hw] at hs
  have h := tidy_sound hb (i.script (b.map WInt.kind)) (tidy_script i _) (values_wf hw)
    (fits_num.1 hf) hs
  have hl : (i.script (b.map WInt.kind)).run (b.map WInt.value) = (i.exec b).map splitBank :=
    lower_call b i
  have ha := texec_agrees hw i
  unfold texec
  rw [hl] at h
  rcases h with ⟨h1, h2⟩ | ⟨h1, x, v, h2, hn⟩
  · rw [h1]
    match hi : i.spec (b.map WInt.num), ha with
    | none, ha =>
      have ha : i.exec b = .error .panic := ha
      rw [ha]
      exact .inl ⟨rfl, nofun⟩
    | some (x, s), ⟨y, c, e1, e2, e3, e4⟩ =>
      rw [e1] at h2 ⊢
      refine .inl ⟨?_, ?_⟩
      · show Except.ok (y, List.zipWith Kind.wrap (c.map WInt.kind) (c.map WInt.value)) = _
        rw [zip_wrap]
      · rintro x s ⟨⟩
        rw [← e4]
        exact fits_num.2 (h2 _ _ rfl)
  · rw [h1]
    refine .inr ⟨rfl, ?_⟩
    match hi : i.spec (b.map WInt.num), ha with
    | none, ha =>
      have ha : i.exec b = .error .panic := ha
      rw [ha] at h2
      cases h2
    | some (x, s), ⟨y, c, e1, e2, e3, e4⟩ =>
      rw [e1] at h2
      cases h2
      refine ⟨x, s, rfl, fun hall => hn ?_⟩
      rw [← e4] at hall
      exact fits_num.1 hall

theorem texec_strained (hb : 7 ≤ m.bits) (i : TInstr) {b : TBank} (hw : ∀ a ∈ b, a.WF)
    (hf : ∀ z ∈ b.map WInt.num, z.Fits m.bits) (hc : m.checks = true)
    (hs : i.Strains m.bits (b.map WInt.num)) : m.texec i b = .error .overflow := by
  unfold texec
  rw [script_strained hb _ (values_wf hw) (fits_num.1 hf) hc ((strains_script hw i).1 hs)]
  rfl

end Machine

end Verif
