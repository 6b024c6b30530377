import Verif.Model.TypedErrors
import Verif.SpecTypedErrors
import Verif.Proof.TypedHeap
import Verif.Proof.ErrorText

/-! Lemmas about the errors of `UInt` and `Int`. -/

namespace Verif

open ApInt

/-- A script that ends with an error ends with the one of the last call that failed. -/
def Script.Honest : Script → Option Err → Prop
  | .done (.ok _) _, _ => True
  | .done (.error e) _, last => last = some e
  | .panic, _ => True
  | .call i k, last => (∀ o, (k (.ok o)).Honest last) ∧
      ∀ e b b', i.exec b = .ok (.error e, b') → (k (.error e)).Honest (some e)

section
variable {ks : List Kind} {last : Option Err}

theorem honest_unit : (Script.unit ks).Honest last := trivial

theorem honest_pass (i : Instr) : (Script.pass ks i).Honest last := ⟨fun _ => trivial, fun _ _ _ _ => rfl⟩

theorem honest_push (k : Kind) (i : Instr) : (Script.push ks k i).Honest last :=
  ⟨fun _ => trivial, fun _ _ _ _ => rfl⟩

theorem honest_consume (x : Nat) (i : Instr) : (Script.consume ks x i).Honest last := by
  refine ⟨fun _ => trivial, fun e _ _ _ => ⟨fun _ => rfl, fun e' b b' h => ?_⟩⟩
  -- dropping reports no error
  cases h

theorem honest_unwrap (i : Instr) : (Script.unwrap ks i).Honest last :=
  ⟨fun _ => trivial, fun _ _ _ _ => trivial⟩

theorem honest_orFalse (i : Instr) : (Script.orFalse ks i).Honest last :=
  ⟨fun _ => trivial, fun _ _ _ _ => trivial⟩

theorem honest_test (i : Instr) {k : Bool → Script} (h : ∀ b, (k b).Honest last) :
    (Script.test i k).Honest last := by
  refine ⟨fun o => ?_, fun _ _ _ _ => trivial⟩
  cases o <;> first | exact h _ | trivial

theorem honest_count (i : Instr) {k : Nat → Script} (h : ∀ n, (k n).Honest last) :
    (Script.count i k).Honest last := by
  refine ⟨fun o => ?_, fun _ _ _ _ => trivial⟩
  cases o <;> first | exact h _ | trivial

theorem honest_script (i : TInstr) : (i.script ks).Honest last := by
  have one : ∀ (x : Nat) (f : Kind → Script), (∀ k, (f k).Honest last) →
      (match ks[x]? with | some k => f k | none => Script.unit ks).Honest last := by
    intro x f h
    cases ks[x]? with
    | none => trivial
    | some k => exact h k
  have two : ∀ (x y : Nat) (f : Kind → Script), (∀ k, (f k).Honest last) →
      (match ks[x]?, ks[y]? with
        | some .unsigned, some .unsigned => f .unsigned
        | some .signed, some .signed => f .signed
        | _, _ => Script.unit ks).Honest last := by
    intro x y f h
    split
    · exact h _
    · exact h _
    · trivial
  have abs : ∀ x, (absScript ks x).Honest last := fun x => honest_test _ fun b => by
    cases b
    · trivial
    · exact honest_pass _
  cases i with
  | make m => exact honest_push _ _
  | intOne t =>
    unfold TInstr.script
    dsimp only
    split
    · trivial
    · exact ⟨fun _ => trivial, fun _ _ _ _ => rfl⟩
  | clone x => exact one x _ fun k => honest_push _ _
  | drop x => exact ⟨fun _ => trivial, fun _ _ _ _ => trivial⟩
  | assign x y => exact two x y _ fun _ => honest_pass _
  | strictAssign x y => exact two x y _ fun _ => honest_pass _
  | intoUnsigned x => exact one x _ fun _ => trivial
  | intoSigned x => exact one x _ fun _ => trivial
  | un o x =>
    refine one x _ fun k => ?_
    unfold TUn.script
    split
    · exact honest_pass _
    · exact abs x
    · trivial
  | intoUn o x =>
    refine one x _ fun k => ?_
    unfold TUn.scriptInto
    split
    · exact honest_consume _ _
    · exact abs x
    · trivial
  | opUn o x => exact one x _ fun _ => honest_unwrap _
  | opShift o x => exact one x _ fun _ => honest_unwrap _
  | alter o x =>
    refine one x _ fun k => ?_
    split
    · exact honest_pass _
    · trivial
  | bin o x y =>
    refine two x y (fun k => .pass ks (.bin (o.field k) x y)) fun k => ?_
    exact honest_pass _
  | intoBin o x y =>
    refine two x y (fun k => .consume ks x (.bin (o.field k) x y)) fun k => ?_
    exact honest_consume _ _
  | op o x y =>
    refine two x y (fun k => .unwrap ks (.bin (o.field k) x y)) fun k => ?_
    exact honest_unwrap _
  | opAssign o x y =>
    refine two x y (fun k => .unwrap ks (.bin (o.field k) x y)) fun k => ?_
    exact honest_unwrap _
  | ask q x =>
    refine one x _ fun k => ?_
    cases q
    case signum =>
      cases k
      · trivial
      · refine honest_test _ fun z => ?_
        cases z
        · exact honest_test _ fun b => by cases b <;> trivial
        · trivial
    case resize ty =>
      show Script.Honest (if k.casts ty then _ else _) last
      split
      · exact honest_pass _
      · trivial
    case tryTo ty =>
      cases k
      · show Script.Honest (if Kind.unsigned.casts ty then _ else _) last
        split
        · exact honest_pass _
        · trivial
      · trivial
    all_goals
      cases k <;> first | exact honest_pass _ | trivial | exact honest_test _ fun _ => trivial
  | ask2 q x y =>
    refine two x y _ fun k => ?_
    cases q
    case partialCmp =>
      refine honest_count _ fun m => honest_count _ fun n => ?_
      split
      · trivial
      · refine honest_test _ fun lt => ?_
        split
        · trivial
        · exact honest_test _ fun _ => trivial
    all_goals
      cases k <;> first | exact honest_pass _ | exact honest_orFalse _

end

/-- Every call keeps the integers well-formed. -/
theorem exec_keeps_wf {i : Instr} {b b' : Bank} {r : Res Out} (hb : ∀ a ∈ b, a.WF)
    (h : i.exec b = .ok (r, b')) : ∀ a ∈ b', a.WF := by
  have ha := exec_agrees i hb
  cases hs : i.spec (b.map ApInt.abs) with
  | none => rw [hs] at ha; rw [show i.exec b = _ from ha] at h; cases h
  | some p =>
    rw [hs] at ha
    obtain ⟨y, c, h1, -, h3, -⟩ := ha
    rw [h] at h1
    cases h1
    exact h3

/-- A script with whole errors is the script, apart from the texts. -/
theorem runE_eq (q : Quoting) (s : Script) (last : Option Error) {b : Bank} (hb : ∀ a ∈ b, a.WF)
    (hs : s.Honest (last.map Error.kind)) :
    (s.runE q last b).map (fun p => ((p.1.1.mapError Error.kind, p.1.2), p.2)) = s.run b := by
  induction s generalizing last b with
  | done r ks =>
    cases r with
    | ok o => rfl
    | error e =>
      cases last with
      | none => cases hs
      | some E =>
        cases hs
        rfl
  | panic => rfl
  | call i k ih =>
    have key := execE_eq q i hb
    unfold Script.runE Script.run
    rw [← key]
    cases hx : i.execE q b with
    | error f => rfl
    | ok p =>
      obtain ⟨r, c⟩ := p
      rw [hx] at key
      have hc := exec_keeps_wf hb key.symm
      cases r with
      | ok o => exact ih (.ok o) last hc (hs.1 o)
      | error E => exact ih (.error E.kind) (some E) hc (hs.2 _ _ _ key.symm)

theorem zip_bank (b : TBank) :
    List.zipWith Kind.wrap (b.map WInt.kind) (b.map WInt.value) = b := by
  induction b with
  | nil => rfl
  | cons a b ih =>
    show Kind.wrap a.kind a.value :: _ = _
    rw [WInt.wrap_self]
    exact congrArg _ ih

theorem texecE_eq (q : Quoting) (i : TInstr) {b : TBank} (hb : ∀ a ∈ b, a.WF) :
    (i.execE q b).map (fun p => (p.1.mapError Error.kind, p.2)) = i.exec b := by
  have h := runE_eq q (i.script (b.map WInt.kind)) none (values_wf hb) (honest_script i)
  rw [show (i.script (b.map WInt.kind)).run (b.map WInt.value) = _ from lower_call b i] at h
  unfold TInstr.execE
  cases hx : (i.script (b.map WInt.kind)).runE q none (b.map WInt.value) with
  | error f =>
    rw [hx] at h
    cases hy : i.exec b with
    | error g => rw [hy] at h; cases h; rfl
    | ok p => rw [hy] at h; cases h
  | ok p =>
    obtain ⟨⟨r, ks⟩, v⟩ := p
    rw [hx] at h
    cases hy : i.exec b with
    | error g => rw [hy] at h; cases h
    | ok p =>
      obtain ⟨r', b'⟩ := p
      rw [hy] at h
      have h := Except.ok.inj h
      have h1 : r.mapError Error.kind = r' := congrArg (fun p => p.1.1) h
      have h2 : ks = b'.map WInt.kind := congrArg (fun p => p.1.2) h
      have h3 : v = b'.map WInt.value := congrArg (fun p => p.2) h
      subst h1 h2 h3
      show Except.ok (_, List.zipWith Kind.wrap _ _) = _
      rw [zip_bank]

/-! ## Where the error comes from -/

section

variable {q : Quoting} {ks ks' : List Kind} {v v' : Bank} {E : Error} {last : Option Error} {j : Instr}

theorem unit_fine (h : (Script.unit ks).runE q last v = .ok ((.error E, ks'), v')) : False := by
  cases h

theorem pass_from (h : (Script.pass ks j).runE q last v = .ok ((.error E, ks'), v')) :
    ∃ d, j.execE q v = .ok (.error E, d) := by
  unfold Script.pass Script.runE at h
  cases hx : j.execE q v with
  | error f => rw [hx] at h; cases h
  | ok p =>
    obtain ⟨r, c⟩ := p
    rw [hx] at h
    cases r with
    | ok o => cases h
    | error e => cases h; exact ⟨_, rfl⟩

theorem push_from {k : Kind} (h : (Script.push ks k j).runE q last v = .ok ((.error E, ks'), v')) :
    ∃ d, j.execE q v = .ok (.error E, d) := by
  unfold Script.push Script.runE at h
  cases hx : j.execE q v with
  | error f => rw [hx] at h; cases h
  | ok p =>
    obtain ⟨r, c⟩ := p
    rw [hx] at h
    cases r with
    | ok o => cases h
    | error e => cases h; exact ⟨_, rfl⟩

theorem runE_drop (x : Nat) (k : Res Out → Script) : (Script.call (.drop x) k).runE q last v =
    (k (.ok .unit)).runE q last (v.eraseIdx x) := by
  simp only [Script.runE]
  rfl

theorem consume_from {x : Nat}
    (h : (Script.consume ks x j).runE q last v = .ok ((.error E, ks'), v')) :
    ∃ d, j.execE q v = .ok (.error E, d) := by
  unfold Script.consume Script.runE at h
  cases hx : j.execE q v with
  | error f => rw [hx] at h; cases h
  | ok p =>
    obtain ⟨r, c⟩ := p
    rw [hx] at h
    cases r with
    | ok o => cases h
    | error e =>
      change (Script.call (.drop x) _).runE q _ _ = _ at h
      rw [runE_drop] at h
      cases h
      exact ⟨_, rfl⟩

theorem unwrap_fine (h : (Script.unwrap ks j).runE q last v = .ok ((.error E, ks'), v')) : False := by
  unfold Script.unwrap Script.runE at h
  cases hx : j.execE q v with
  | error f => rw [hx] at h; cases h
  | ok p =>
    obtain ⟨r, c⟩ := p
    rw [hx] at h
    cases r with
    | ok o => cases h
    | error e => cases h

theorem orFalse_fine (h : (Script.orFalse ks j).runE q last v = .ok ((.error E, ks'), v')) :
    False := by
  unfold Script.orFalse Script.runE at h
  cases hx : j.execE q v with
  | error f => rw [hx] at h; cases h
  | ok p =>
    obtain ⟨r, c⟩ := p
    rw [hx] at h
    cases r with
    | ok o => cases h
    | error e => cases h

theorem test_from {k : Bool → Script} (hv : ∀ a ∈ v, a.WF)
    (h : (Script.test j k).runE q last v = .ok ((.error E, ks'), v')) :
    ∃ b d, (∀ a ∈ d, a.WF) ∧ (k b).runE q last d = .ok ((.error E, ks'), v') := by
  have key := execE_eq q j hv
  unfold Script.test Script.runE at h
  cases hx : j.execE q v with
  | error f => rw [hx] at h; cases h
  | ok p =>
    obtain ⟨r, c⟩ := p
    rw [hx] at h key
    cases r with
    | ok o =>
      cases o with
      | bool b => exact ⟨b, c, exec_keeps_wf hv key.symm, h⟩
      | _ => cases h
    | error e => cases h

theorem count_from {k : Nat → Script} (hv : ∀ a ∈ v, a.WF)
    (h : (Script.count j k).runE q last v = .ok ((.error E, ks'), v')) :
    ∃ b d, (∀ a ∈ d, a.WF) ∧ (k b).runE q last d = .ok ((.error E, ks'), v') := by
  have key := execE_eq q j hv
  unfold Script.count Script.runE at h
  cases hx : j.execE q v with
  | error f => rw [hx] at h; cases h
  | ok p =>
    obtain ⟨r, c⟩ := p
    rw [hx] at h key
    cases r with
    | ok o =>
      cases o with
      | nat b => exact ⟨b, c, exec_keeps_wf hv key.symm, h⟩
      | _ => cases h
    | error e => cases h

theorem abs_fine {x : Nat} (hv : ∀ a ∈ v, a.WF)
    (h : (absScript ks x).runE q last v = .ok ((.error E, ks'), v')) : False := by
  obtain ⟨b, d, hd, h⟩ := test_from hv h
  cases b with
  | false => cases h
  | true =>
    obtain ⟨d', h⟩ := pass_from h
    have hs := (exec_error hd (execE_ok q hd h).1).2.1
    exact absurd hs (by
      intro hs
      simp only [Instr.spec] at hs
      cases hx : (d.map ApInt.abs)[x]? with
      | none => rw [hx] at hs; cases hs
      | some a => rw [hx] at hs; cases hs)

end

theorem un_notes {o : TUn} {k : Kind} {u : Un} (h : o.field k = some u) {n : Num} {a : AInt}
    (hk : n.kind = k) (hw : n.width = a.width) : u.note a = o.note n := by
  subst hk
  cases o <;> (try cases hk : n.kind) <;> simp only [TUn.field, hk] at h <;> cases h <;>
    simp only [Un.note, TUn.note, hw, hk]

/-- The call on the fields that a method takes its error from. -/
theorem texecE_from {q : Quoting} {i : TInstr} {b b' : TBank} (hb : ∀ a ∈ b, a.WF) {E : Error}
    (h : i.execE q b = .ok (.error E, b')) :
    ∃ (j : Instr) (d : Bank), j.execE q (b.map WInt.value) = .ok (.error E, d) ∧
      j.note ((b.map WInt.value).map ApInt.abs) = i.note (b.map WInt.num) ∧
      ∀ n s, j = .make (.parse n s) → ∃ k, i = .make (.parse k n s) := by
  have hv := values_wf hb
  have h : ∃ ks' v', (i.script (b.map WInt.kind)).runE q none (b.map WInt.value) =
      .ok ((.error E, ks'), v') := by
    unfold TInstr.execE at h
    cases hx : (i.script (b.map WInt.kind)).runE q none (b.map WInt.value) with
    | error f => rw [hx] at h; cases h
    | ok p =>
      obtain ⟨⟨r, ks⟩, v⟩ := p
      rw [hx] at h
      have h1 : r = .error E := congrArg Prod.fst (Except.ok.inj h)
      rw [h1]
      exact ⟨ks, v, rfl⟩
  obtain ⟨ks', v', h⟩ := h
  have one : ∀ (x : Nat) (f : Kind → Script),
      (match (b.map WInt.kind)[x]? with
        | some k => f k
        | none => Script.unit (b.map WInt.kind)).runE q none (b.map WInt.value) =
        .ok ((.error E, ks'), v') →
      ∃ a, b[x]? = some a ∧ (f a.kind).runE q none (b.map WInt.value) = .ok ((.error E, ks'), v') := by
    intro x f h
    rw [List.getElem?_map] at h
    cases hx : b[x]? with
    | none => rw [hx] at h; cases h
    | some a => rw [hx] at h; exact ⟨a, rfl, h⟩
  have two : ∀ (x y : Nat) (f : Kind → Script),
      (match (b.map WInt.kind)[x]?, (b.map WInt.kind)[y]? with
        | some .unsigned, some .unsigned => f .unsigned
        | some .signed, some .signed => f .signed
        | _, _ => Script.unit (b.map WInt.kind)).runE q none (b.map WInt.value) =
        .ok ((.error E, ks'), v') →
      ∃ a c, b[x]? = some a ∧ b[y]? = some c ∧ a.kind = c.kind ∧
        (f a.kind).runE q none (b.map WInt.value) = .ok ((.error E, ks'), v') := by
    intro x y f h
    rw [List.getElem?_map, List.getElem?_map] at h
    cases hx : b[x]? with
    | none => rw [hx] at h; cases h
    | some a =>
      cases hy : b[y]? with
      | none => rw [hx, hy] at h; cases a <;> cases h
      | some c =>
        rw [hx, hy] at h
        refine ⟨a, c, rfl, rfl, ?_⟩
        cases a <;> cases c
        · exact ⟨rfl, h⟩
        · cases h
        · cases h
        · exact ⟨rfl, h⟩
  have get : ∀ {x : Nat} {a : WInt}, b[x]? = some a →
      ((b.map WInt.value).map ApInt.abs)[x]? = some a.value.abs ∧
      (b.map WInt.num)[x]? = some a.num ∧ a.num.text = a.value.abs.text ∧ a.num.kind = a.kind ∧
      a.num.width = a.value.abs.width := by
    intro x a ha
    have hw := value_wf (hb a (List.mem_of_getElem? ha))
    refine ⟨by rw [List.getElem?_map, List.getElem?_map, ha]; rfl, by rw [List.getElem?_map, ha]; rfl,
      ?_, by cases a <;> rfl, by cases a <;> rfl⟩
    unfold Num.text
    rw [num_abs, num_inError (ok_abs hw)]
  cases i with
  | make m =>
    obtain ⟨d, h⟩ := push_from h
    refine ⟨_, d, h, ?_, ?_⟩
    · rcases m with _ | _ | _ | _ | ⟨_ | _, _⟩ | ⟨_ | _, _⟩ | _ | _ | _ | _ | _ | _ | _ | _ | _ | _ | _ |
        _ | _ | _ <;> rfl
    · intro n s e
      rcases m with _ | _ | _ | _ | ⟨_ | _, _⟩ | ⟨_ | _, _⟩ | _ | _ | _ | _ | _ | _ | _ | _ | _ | _ | _ |
        _ | _ | _ <;> cases e
      exact ⟨_, rfl⟩
  | intOne t =>
    unfold TInstr.script at h
    dsimp only at h
    split at h
    · cases h
    · obtain ⟨d, h⟩ : ∃ d, (Instr.make (.one t)).execE q (b.map WInt.value) = .ok (.error E, d) := by
        unfold Script.runE at h
        cases hx : (Instr.make (.one t)).execE q (b.map WInt.value) with
        | error f => rw [hx] at h; cases h
        | ok p =>
          obtain ⟨r, c⟩ := p
          rw [hx] at h
          cases r with
          | ok o => cases h
          | error e => cases h; exact ⟨_, rfl⟩
      exact ⟨_, d, h, rfl, fun n s e => by cases e⟩
  | clone x =>
    obtain ⟨a, ha, h⟩ := one _ _ h
    obtain ⟨d, h⟩ := push_from h
    exact ⟨_, d, h, rfl, fun n s e => by cases e⟩
  | drop x =>
    change (Script.call (.drop x) _).runE q _ _ = _ at h
    rw [runE_drop] at h
    cases h
  | assign x y =>
    obtain ⟨a, c, ha, hc, -, h⟩ := two _ _ (fun _ => .pass _ (.assign x y)) h
    obtain ⟨d, h⟩ := pass_from h
    exact ⟨_, d, h, rfl, fun n s e => by cases e⟩
  | strictAssign x y =>
    obtain ⟨a, c, ha, hc, -, h⟩ := two _ _ (fun _ => .pass _ (.strictAssign x y)) h
    obtain ⟨d, h⟩ := pass_from h
    refine ⟨_, d, h, ?_, fun n s e => by cases e⟩
    obtain ⟨a1, a2, a3, -⟩ := get ha
    obtain ⟨c1, c2, c3, -⟩ := get hc
    simp only [Instr.note, TInstr.note, a1, a2, c1, c2, a3, c3]
  | intoUnsigned x => obtain ⟨a, ha, h⟩ := one _ (fun _ => .unit _) h; cases h
  | intoSigned x => obtain ⟨a, ha, h⟩ := one _ (fun _ => .unit _) h; cases h
  | un o x =>
    obtain ⟨a, ha, h⟩ := one _ (fun k => o.script _ x k) h
    obtain ⟨a1, a2, -, a4, a5⟩ := get ha
    unfold TUn.script at h
    split at h
    · rename_i u _ hu
      obtain ⟨d, h⟩ := pass_from h
      refine ⟨_, d, h, ?_, fun n s e => by cases e⟩
      simp only [Instr.note, TInstr.note, a1, a2, Option.bind_some]
      exact un_notes hu a4 a5
    · exact (abs_fine hv h).elim
    · cases h
  | intoUn o x =>
    obtain ⟨a, ha, h⟩ := one _ (fun k => o.scriptInto _ x k) h
    obtain ⟨a1, a2, -, a4, a5⟩ := get ha
    unfold TUn.scriptInto at h
    split at h
    · rename_i u _ hu
      obtain ⟨d, h⟩ := consume_from h
      refine ⟨_, d, h, ?_, fun n s e => by cases e⟩
      simp only [Instr.note, TInstr.note, a1, a2, Option.bind_some]
      exact un_notes hu a4 a5
    · exact (abs_fine hv h).elim
    · cases h
  | opUn o x => obtain ⟨a, ha, h⟩ := one _ (fun k => .unwrap _ (.un (o.field k) x)) h; exact (unwrap_fine h).elim
  | opShift o x => obtain ⟨a, ha, h⟩ := one _ (fun k => .unwrap _ (.un (o.field k) x)) h; exact (unwrap_fine h).elim
  | alter o x =>
    obtain ⟨a, ha, h⟩ := one _ (fun k => match o.field k with
      | some o => .pass _ (.alter o x)
      | none => .unit _) h
    split at h
    · obtain ⟨d, h⟩ := pass_from h
      exact ⟨_, d, h, rfl, fun n s e => by cases e⟩
    · cases h
  | bin o x y =>
    obtain ⟨a, c, ha, hc, -, h⟩ := two _ _ (fun k => .pass _ (.bin (o.field k) x y)) h
    obtain ⟨d, h⟩ := pass_from h
    exact ⟨_, d, h, rfl, fun n s e => by cases e⟩
  | intoBin o x y =>
    obtain ⟨a, c, ha, hc, -, h⟩ := two _ _ (fun k => .consume _ x (.bin (o.field k) x y)) h
    obtain ⟨d, h⟩ := consume_from h
    exact ⟨_, d, h, rfl, fun n s e => by cases e⟩
  | op o x y =>
    obtain ⟨a, c, ha, hc, -, h⟩ := two _ _ (fun k => .unwrap _ (.bin (o.field k) x y)) h
    exact (unwrap_fine h).elim
  | opAssign o x y =>
    obtain ⟨a, c, ha, hc, -, h⟩ := two _ _ (fun k => .unwrap _ (.bin (o.field k) x y)) h
    exact (unwrap_fine h).elim
  | ask o x =>
    obtain ⟨a, ha, h⟩ := one _ (fun k => o.script _ x k) h
    have pass : ∀ {ks : List Kind} {o' : Ask},
        (Script.pass ks (.ask o' x)).runE q none (b.map WInt.value) = .ok ((.error E, ks'), v') →
        ∃ (j : Instr) (d : Bank), j.execE q (b.map WInt.value) = .ok (.error E, d) ∧
          j.note ((b.map WInt.value).map ApInt.abs) = (TInstr.ask o x).note (b.map WInt.num) ∧
          ∀ n s, j = .make (.parse n s) → ∃ k, TInstr.ask o x = .make (.parse k n s) := by
      intro ks o' h
      obtain ⟨d, h⟩ := pass_from h
      exact ⟨_, d, h, rfl, fun n s e => by cases e⟩
    have test : ∀ {o' : Ask} {k : Bool → Script},
        (∀ b v, (∀ a ∈ v, a.WF) → (k b).runE q none v ≠ .ok ((.error E, ks'), v')) →
        (Script.test (.ask o' x) k).runE q none (b.map WInt.value) ≠ .ok ((.error E, ks'), v') := by
      intro o' k hk h
      obtain ⟨b, d, hd, h⟩ := test_from hv h
      exact hk b d hd h
    clear one two get
    generalize a.kind = k at h
    rename_i hexec hscript
    clear hscript hexec
    cases o
    case signum =>
      cases k
      · cases h
      · refine absurd h (test fun z v hv => ?_)
        cases z
        · intro h
          obtain ⟨b, d, hd, h⟩ := test_from hv h
          cases b <;> cases h
        · nofun
    case isNegative => cases k; cases h; exact absurd h (test fun z v hv => nofun)
    case isPositive => cases k; cases h; exact absurd h (test fun z v hv => nofun)
    case resize ty =>
      change Script.runE q (if k.casts ty then _ else _) _ _ = _ at h
      split at h
      · exact pass h
      · cases h
    case tryTo ty =>
      cases k
      · change Script.runE q (if Kind.unsigned.casts ty then _ else _) _ _ = _ at h
        split at h
        · exact pass h
        · cases h
      · cases h
    all_goals
      cases k <;> first | exact pass h | cases h
  | ask2 o x y =>
    obtain ⟨a, c, ha, hc, hk, h⟩ := two _ _ (fun k => o.script _ x y k) h
    obtain ⟨a1, a2, a3, a4, -⟩ := get ha
    obtain ⟨c1, c2, c3, -⟩ := get hc
    have pass : ∀ {ks : List Kind} {o' : Ask2}, o'.note a.value.abs c.value.abs = o.note a.num c.num →
        (Script.pass ks (.ask2 o' x y)).runE q none (b.map WInt.value) = .ok ((.error E, ks'), v') →
        ∃ (j : Instr) (d : Bank), j.execE q (b.map WInt.value) = .ok (.error E, d) ∧
          j.note ((b.map WInt.value).map ApInt.abs) = (TInstr.ask2 o x y).note (b.map WInt.num) ∧
          ∀ n s, j = .make (.parse n s) → ∃ k, TInstr.ask2 o x y = .make (.parse k n s) := by
      intro ks o' hn h
      obtain ⟨d, h⟩ := pass_from h
      refine ⟨_, d, h, ?_, fun n s e => by cases e⟩
      simp only [Instr.note, TInstr.note, a1, a2, c1, c2]
      exact hn
    rw [← a4] at h
    cases hk' : a.num.kind <;> rw [hk'] at h <;> cases o
    case unsigned.partialCmp =>
      obtain ⟨m, d, hd, h⟩ := count_from hv h
      obtain ⟨m, d, hd, h⟩ := count_from hd h
      split at h
      · cases h
      · obtain ⟨lt, d, hd, h⟩ := test_from hd h
        split at h
        · cases h
        · obtain ⟨eq, d, hd, h⟩ := test_from hd h
          cases h
    case signed.partialCmp =>
      obtain ⟨m, d, hd, h⟩ := count_from hv h
      obtain ⟨m, d, hd, h⟩ := count_from hd h
      split at h
      · cases h
      · obtain ⟨lt, d, hd, h⟩ := test_from hd h
        split at h
        · cases h
        · obtain ⟨eq, d, hd, h⟩ := test_from hd h
          cases h
    all_goals first
      | exact (orFalse_fine h).elim
      | (refine pass ?_ h
         first
          | rfl
          | (simp only [Ask2.note, TAsk2.note, hk', a3, c3, List.append_assoc]; rfl)
          | (simp only [Ask2.note, TAsk2.note, hk', a3, c3]
             simp only [← List.append_assoc]
             rfl))

end Verif
