import Verif.Model.TypedWork
import Verif.SpecTypedWork
import Verif.Proof.TypedHeap
import Verif.Proof.WorkProgramRun

/-! The work of programs over `UInt` and `Int`. -/

namespace Verif

open ApInt Counted

/-- Calls that touch no digit. -/
def Instr.idle : Instr → Prop
  | .drop _ | .ask .width _ => True
  | _ => False

theorem idle_bnd {i : Instr} (h : i.idle) (b : Bank) : Bnd (Count.exec i b) (i.exec b) 0 := by
  cases i with
  | drop x => exact ⟨nofun, fun v hv => ⟨0, by cases hv; rfl, Nat.le_refl _⟩⟩
  | ask q x =>
    cases q <;> try cases h
    unfold Count.exec Instr.exec
    dsimp only
    cases b[x]? with
    | none => exact ⟨nofun, fun v hv => ⟨0, by cases hv; rfl, Nat.le_refl _⟩⟩
    | some a => exact ⟨nofun, fun v hv => ⟨0, by cases hv; rfl, Nat.le_refl _⟩⟩
  | _ => cases h

theorem idle_within {i : Instr} (h : i.idle) (W : Nat) : i.Within W := by
  cases i <;> first | exact trivial | cases h

/-- A script that touches at most `n` digits. -/
inductive Modest (W : Nat) : Script → Nat → Prop
  | done (r : Res TOut) (ks : List Kind) (n : Nat) : Modest W (.done r ks) n
  | panic (n : Nat) : Modest W .panic n
  | call {i : Instr} {k : Res Out → Script} {m n : Nat} (hi : i.Within W)
      (hm : i.mayTouch ((W + 63) / 64) ≤ m) (hk : ∀ r, Modest W (k r) n) : Modest W (.call i k) (m + n)
  | idle {i : Instr} {k : Res Out → Script} {n : Nat} (hi : i.idle) (hk : ∀ r, Modest W (k r) n) :
      Modest W (.call i k) n

section

variable {W : Nat}

theorem modest_bnd {s : Script} {n : Nat} (h : Modest W s n) {b : Bank}
    (hb : ∀ a ∈ b, a.WF ∧ a.w ≤ W) :
    Bnd (s.work b) (s.run b) n ∧ ∀ x c, s.run b = .ok (x, c) → ∀ a ∈ c, a.WF ∧ a.w ≤ W := by
  induction h generalizing b with
  | done r ks n =>
    exact ⟨⟨nofun, fun v hv => ⟨0, by cases hv; rfl, Nat.zero_le _⟩⟩, fun x c e => by cases e; exact hb⟩
  | panic n => exact ⟨⟨fun e he => by cases he; rfl, nofun⟩, nofun⟩
  | @call i k m n hi hm hk ih =>
    have h1 := (exec_bnd i hi hb).mono hm
    rcases hc : i.exec b with e | ⟨r, c⟩
    · have h2 := h1.1 e hc
      unfold Script.work Script.run
      rw [hc]
      refine ⟨⟨fun e' he => ?_, nofun⟩, nofun⟩
      cases he
      show Counted.bind _ _ = _
      rw [h2]
      rfl
    · obtain ⟨q, h2, h3⟩ := h1.2 _ hc
      obtain ⟨h4, h5⟩ := ih r (exec_within i hi hb hc)
      unfold Script.work Script.run
      rw [hc]
      refine ⟨⟨fun e he => ?_, fun v hv => ?_⟩, h5⟩
      · show Counted.bind _ _ = _
        rw [h2]
        show Counted.bind (Except.ok ((r, c), q)) _ = _
        unfold Counted.bind
        dsimp only
        rw [h4.1 e he]
      · obtain ⟨j, h6, h7⟩ := h4.2 v hv
        refine ⟨q + j, ?_, Nat.add_le_add h3 h7⟩
        show Counted.bind _ _ = _
        rw [h2]
        unfold Counted.bind
        dsimp only
        rw [h6]
  | @idle i k n hi hk ih =>
    have h1 := idle_bnd hi b
    rcases hc : i.exec b with e | ⟨r, c⟩
    · have h2 := h1.1 e hc
      unfold Script.work Script.run
      rw [hc]
      refine ⟨⟨fun e' he => ?_, nofun⟩, nofun⟩
      cases he
      show Counted.bind _ _ = _
      rw [h2]
      rfl
    · obtain ⟨q, h2, h3⟩ := h1.2 _ hc
      obtain ⟨h4, h5⟩ := ih r (exec_within i (idle_within hi W) hb hc)
      unfold Script.work Script.run
      rw [hc]
      refine ⟨⟨fun e he => ?_, fun v hv => ?_⟩, h5⟩
      · show Counted.bind _ _ = _
        rw [h2]
        unfold Counted.bind
        dsimp only
        rw [h4.1 e he]
      · obtain ⟨j, h6, h7⟩ := h4.2 v hv
        refine ⟨q + j, ?_, by omega⟩
        show Counted.bind _ _ = _
        rw [h2]
        unfold Counted.bind
        dsimp only
        rw [h6]

/-- Linearly many digits. -/
theorem light {i : Instr} (h : i.heavy = false) (ht : i.textBytes = 0) (D : Nat) :
    i.mayTouch D ≤ 66 * D + 12 := by
  unfold Instr.mayTouch
  rw [h, ht]
  exact Nat.le_refl _

theorem modest_unit (ks : List Kind) (n : Nat) : Modest W (.unit ks) n := .done _ _ n

/-- One call and nothing after it. -/
theorem modest_last {i : Instr} {k : Res Out → Script} {n : Nat} (hi : i.Within W)
    (hm : i.mayTouch ((W + 63) / 64) ≤ n) (hk : ∀ r, Modest W (k r) 0) : Modest W (.call i k) n :=
  .call (n := 0) hi hm hk

theorem modest_pass {i : Instr} {n : Nat} (ks : List Kind) (hi : i.Within W)
    (hm : i.mayTouch ((W + 63) / 64) ≤ n) : Modest W (.pass ks i) n :=
  modest_last hi hm fun r => by cases r <;> exact .done _ _ 0

theorem modest_push {i : Instr} {n : Nat} (ks : List Kind) (k : Kind) (hi : i.Within W)
    (hm : i.mayTouch ((W + 63) / 64) ≤ n) : Modest W (.push ks k i) n :=
  modest_last hi hm fun r => by cases r <;> exact .done _ _ 0

theorem modest_unwrap {i : Instr} {n : Nat} (ks : List Kind) (hi : i.Within W)
    (hm : i.mayTouch ((W + 63) / 64) ≤ n) : Modest W (.unwrap ks i) n :=
  modest_last hi hm fun r => by
    cases r
    · exact .panic 0
    · exact .done _ _ 0

theorem modest_orFalse {i : Instr} {n : Nat} (ks : List Kind) (hi : i.Within W)
    (hm : i.mayTouch ((W + 63) / 64) ≤ n) : Modest W (.orFalse ks i) n :=
  modest_last hi hm fun r => by cases r <;> exact .done _ _ 0

theorem modest_consume {i : Instr} {n x : Nat} (ks : List Kind) (hi : i.Within W)
    (hm : i.mayTouch ((W + 63) / 64) ≤ n) : Modest W (.consume ks x i) n :=
  modest_last hi hm fun r => by
    cases r
    · exact .idle trivial fun _ => .done _ _ 0
    · exact .done _ _ 0

theorem modest_test {i : Instr} {k : Bool → Script} {m n : Nat} (hi : i.Within W)
    (hm : i.mayTouch ((W + 63) / 64) ≤ m) (hk : ∀ b, Modest W (k b) n) :
    Modest W (.test i k) (m + n) :=
  .call hi hm fun r => by
    match r with
    | .ok (.bool b) => exact hk b
    | .ok (.nat _) | .ok (.int _) | .ok (.text _) | .ok .unit | .error _ => exact .panic n

theorem modest_testLast {i : Instr} {k : Bool → Script} {n : Nat} (hi : i.Within W)
    (hm : i.mayTouch ((W + 63) / 64) ≤ n) (hk : ∀ b, Modest W (k b) 0) : Modest W (.test i k) n :=
  modest_test (n := 0) hi hm hk

theorem modest_width {x : Nat} {k : Nat → Script} {n : Nat} (hk : ∀ m, Modest W (k m) n) :
    Modest W (.count (.ask .width x) k) n :=
  .idle trivial fun r => by
    match r with
    | .ok (.nat m) => exact hk m
    | .ok (.bool _) | .ok (.int _) | .ok (.text _) | .ok .unit | .error _ => exact .panic n

theorem un_field_within {o : TUn} {k : Kind} {u : Un} (ho : o.Within W) (h : o.field k = some u) :
    u.Within W := by
  cases o <;> cases k <;> cases h <;> first | exact trivial | exact ho

theorem modest_abs (ks : List Kind) (x : Nat) :
    Modest W (absScript ks x) ((66 * ((W + 63) / 64) + 12) + (66 * ((W + 63) / 64) + 12)) :=
  modest_test trivial (light rfl rfl _) fun b => by
    split
    · exact modest_pass ks trivial (light rfl rfl _)
    · exact modest_unit ks _

theorem modest_ask (q : TAsk) (ks : List Kind) (x : Nat) (k : Kind) :
    Modest W (q.script ks x k) ((66 * ((W + 63) / 64) + 12) + (66 * ((W + 63) / 64) + 12)) := by
  have one : ∀ a : Ask, Modest W (.pass ks (.ask a x))
      ((66 * ((W + 63) / 64) + 12) + (66 * ((W + 63) / 64) + 12)) := fun a =>
    modest_pass ks trivial (Nat.le_trans (light rfl rfl _) (Nat.le_add_left _ _))
  have tst : ∀ (a : Ask) (k : Bool → Script),
      (∀ b, Modest W (k b) (66 * ((W + 63) / 64) + 12)) → Modest W (.test (.ask a x) k)
      ((66 * ((W + 63) / 64) + 12) + (66 * ((W + 63) / 64) + 12)) := fun a k h =>
    modest_test trivial (light rfl rfl _) h
  cases q <;> cases k <;> unfold TAsk.script <;> dsimp only <;>
    first
      | exact one _
      | exact modest_unit ks _
      | (refine tst _ _ fun b => ?_; exact .done _ _ _)
      | (split
         · exact one _
         · exact modest_unit ks _)
      | (refine tst _ _ fun b => ?_
         split
         · exact .done _ _ _
         · refine modest_testLast trivial (light rfl rfl _) fun b => ?_
           split <;> exact .done _ _ _)

theorem modest_ask2 (q : TAsk2) (ks : List Kind) (x y : Nat) (k : Kind) :
    Modest W (q.script ks x y k) ((66 * ((W + 63) / 64) + 12) + (66 * ((W + 63) / 64) + 12)) := by
  have one : ∀ a : Ask2, Modest W (.pass ks (.ask2 a x y))
      ((66 * ((W + 63) / 64) + 12) + (66 * ((W + 63) / 64) + 12)) := fun a =>
    modest_pass ks trivial (Nat.le_trans (light rfl rfl _) (Nat.le_add_left _ _))
  have oth : ∀ a : Ask2, Modest W (.orFalse ks (.ask2 a x y))
      ((66 * ((W + 63) / 64) + 12) + (66 * ((W + 63) / 64) + 12)) := fun a =>
    modest_orFalse ks trivial (Nat.le_trans (light rfl rfl _) (Nat.le_add_left _ _))
  cases q <;> cases k <;>
    first
      | exact one _
      | exact oth _
      | (unfold TAsk2.script
         refine modest_width fun m => modest_width fun n => ?_
         split
         · exact .done _ _ _
         · refine modest_test trivial (light rfl rfl _) fun b => ?_
           split
           · exact .done _ _ _
           · exact modest_testLast trivial (light rfl rfl _) fun b => .done _ _ _)

theorem make_field_within {m : TMake} (h : m.Within W) : m.field.1.Within W := by
  intro z hz
  have key : ∀ w : Nat, (∃ z, m.spec = .gives z ∧ z.width = w) → w ≤ W := by
    rintro w ⟨z, e, rfl⟩
    exact h z e
  cases m with
  | parse k n s =>
    apply key
    simp only [TMake.field, Make.spec] at hz
    simp only [TMake.spec]
    split at hz
    · rename_i hs
      cases hz
      exact ⟨_, if_pos hs, rfl⟩
    · cases hz
  | min k t => cases k <;> cases hz <;> exact key _ ⟨_, rfl, rfl⟩
  | max k t => cases k <;> cases hz <;> exact key _ ⟨_, rfl, rfl⟩
  | _ => cases hz; exact key _ ⟨_, rfl, rfl⟩

theorem make_bytes (m : TMake) : (Instr.make m.field.1).textBytes = (TInstr.make m).textBytes := by
  cases m with
  | min k t => cases k <;> rfl
  | max k t => cases k <;> rfl
  | _ => rfl

theorem bin_field_heavy (o : TBin) (k : Kind) : (o.field k).heavy = o.heavy := by
  cases o <;> cases k <;> rfl

theorem modest_script (i : TInstr) (hi : i.Within W) (ks : List Kind) :
    Modest W (i.script ks) (i.mayTouch ((W + 63) / 64)) := by
  have e2 : 132 * ((W + 63) / 64) + 24 =
      (66 * ((W + 63) / 64) + 12) + (66 * ((W + 63) / 64) + 12) := by omega
  have l2 : 66 * ((W + 63) / 64) + 12 ≤ 132 * ((W + 63) / 64) + 24 := by omega
  have one : ∀ (x : Nat) (f : Kind → Script) (n : Nat), (∀ k, Modest W (f k) n) →
      Modest W (match ks[x]? with
        | some k => f k
        | none => .unit ks) n := by
    intro x f n h
    cases ks[x]? with
    | none => exact modest_unit ks n
    | some k => exact h k
  have two : ∀ (x y : Nat) (f : Kind → Script) (n : Nat), (∀ k, Modest W (f k) n) →
      Modest W (match ks[x]?, ks[y]? with
        | some .unsigned, some .unsigned => f .unsigned
        | some .signed, some .signed => f .signed
        | _, _ => .unit ks) n := by
    intro x y f n h
    split
    · exact h _
    · exact h _
    · exact modest_unit ks n
  have bin : ∀ (o : TBin) (k : Kind) (x y : Nat),
      (Instr.bin (o.field k) x y).mayTouch ((W + 63) / 64) ≤
        (TInstr.bin o x y).mayTouch ((W + 63) / 64) := by
    intro o k x y
    unfold Instr.mayTouch TInstr.mayTouch
    show (if (o.field k).heavy then _ else _) + _ ≤ (if o.heavy then _ else _) + _
    rw [bin_field_heavy]
    split
    · exact Nat.le_refl _
    · exact Nat.add_le_add_right l2 _
  cases i with
  | make m =>
    refine modest_push ks _ (make_field_within hi) ?_
    unfold Instr.mayTouch TInstr.mayTouch
    rw [make_bytes]
    exact Nat.add_le_add_right l2 _
  | intOne t =>
    show Modest W (if t = BitWidth.w1 then _ else _) _
    split
    · exact .done _ _ _
    · refine modest_last (fun z hz => ?_) (Nat.le_trans (light rfl rfl _) l2) fun r => ?_
      · cases hz
        exact hi
      · cases r <;> exact .done _ _ _
  | clone x => exact one x _ _ fun k => modest_push ks k trivial (Nat.le_trans (light rfl rfl _) l2)
  | drop x => exact .idle trivial fun _ => modest_unit _ _
  | assign x y =>
    exact two x y (fun _ => .pass ks (.assign x y)) _ fun k => modest_pass ks trivial (Nat.le_trans (light rfl rfl _) l2)
  | strictAssign x y =>
    exact two x y (fun _ => .pass ks (.strictAssign x y)) _ fun k => modest_pass ks trivial (Nat.le_trans (light rfl rfl _) l2)
  | intoUnsigned x => exact one x _ _ fun k => modest_unit _ _
  | intoSigned x => exact one x _ _ fun k => modest_unit _ _
  | un o x =>
    refine one x _ _ fun k => ?_
    show Modest W (TUn.script ks x o k) (132 * ((W + 63) / 64) + 24)
    unfold TUn.script
    split
    · rename_i u hu
      exact modest_pass ks (un_field_within hi hu) (Nat.le_trans (light rfl rfl _) l2)
    · rw [e2]; exact modest_abs ks x
    · exact modest_unit ks _
  | intoUn o x =>
    refine one x _ _ fun k => ?_
    show Modest W (TUn.scriptInto ks x o k) (132 * ((W + 63) / 64) + 24)
    unfold TUn.scriptInto
    split
    · rename_i u hu
      exact modest_consume ks (un_field_within hi hu) (Nat.le_trans (light rfl rfl _) l2)
    · rw [e2]; exact modest_abs ks x
    · exact modest_unit ks _
  | opUn o x =>
    refine one x _ _ fun k => modest_unwrap ks ?_ (Nat.le_trans (light rfl rfl _) l2)
    cases o <;> cases k <;> exact trivial
  | opShift o x =>
    refine one x _ _ fun k => modest_unwrap ks ?_ (Nat.le_trans (light rfl rfl _) l2)
    cases o <;> cases k <;> exact trivial
  | alter o x =>
    refine one x _ _ fun k => ?_
    split
    · exact modest_pass ks trivial (Nat.le_trans (light rfl rfl _) l2)
    · exact modest_unit ks _
  | bin o x y =>
    exact two x y (fun k => .pass ks (.bin (o.field k) x y)) _ fun k =>
      modest_pass ks trivial (bin o k x y)
  | intoBin o x y =>
    exact two x y (fun k => .consume ks x (.bin (o.field k) x y)) _ fun k =>
      modest_consume ks trivial (bin o k x y)
  | op o x y =>
    exact two x y (fun k => .unwrap ks (.bin (o.field k) x y)) _ fun k =>
      modest_unwrap ks trivial (bin o k x y)
  | opAssign o x y =>
    exact two x y (fun k => .unwrap ks (.bin (o.field k) x y)) _ fun k =>
      modest_unwrap ks trivial (bin o k x y)
  | ask q x =>
    refine one x _ _ fun k => ?_
    show Modest W _ (132 * ((W + 63) / 64) + 24)
    rw [e2]
    exact modest_ask q ks x k
  | ask2 q x y =>
    refine two x y _ _ fun k => ?_
    show Modest W _ (132 * ((W + 63) / 64) + 24)
    rw [e2]
    exact modest_ask2 q ks x y k

/-! ## Programs -/

theorem rejoin_split (p : Res TOut × TBank) : Count.rejoin (splitBank p) = p := by
  obtain ⟨r, b⟩ := p
  unfold Count.rejoin splitBank
  dsimp only
  congr 1
  induction b with
  | nil => rfl
  | cons a b ih =>
    rw [List.map_cons, List.map_cons, List.zipWith_cons_cons, WInt.wrap_self, ih]

/-- No integer of more than `W` bits. -/
def TLow (W : Nat) (b : TBank) : Prop := ∀ a ∈ b, a.value.WF ∧ a.value.w ≤ W

theorem texec_bnd (i : TInstr) (hi : i.Within W) {b : TBank} (hb : TLow W b) :
    Bnd (Count.texec i b) (i.exec b) (i.mayTouch ((W + 63) / 64)) ∧
      ∀ r c, i.exec b = .ok (r, c) → TLow W c := by
  have hv : ∀ a ∈ b.map WInt.value, a.WF ∧ a.w ≤ W := by
    intro a ha
    obtain ⟨x, hx, rfl⟩ := List.mem_map.1 ha
    exact hb x hx
  obtain ⟨h1, h2⟩ := modest_bnd (modest_script i hi (b.map WInt.kind)) hv
  have h3 : (i.script (b.map WInt.kind)).run (b.map WInt.value) = (i.exec b).map splitBank :=
    lower_call b i
  rw [h3] at h1 h2
  rcases he : i.exec b with e | p
  · rw [he] at h1
    refine ⟨⟨fun e' h => ?_, nofun⟩, nofun⟩
    cases h
    unfold Count.texec
    show Counted.bind _ _ = _
    rw [h1.1 e rfl]
    rfl
  · rw [he] at h1 h2
    refine ⟨⟨nofun, fun v h => ?_⟩, fun r c h => ?_⟩
    · cases h
      obtain ⟨k, h4, h5⟩ := h1.2 _ rfl
      refine ⟨k, ?_, h5⟩
      unfold Count.texec
      show Counted.bind _ _ = _
      rw [h4]
      show Except.ok (Count.rejoin (splitBank p), k + 0) = _
      rw [rejoin_split]
      rfl
    · cases h
      intro a ha
      exact h2 _ _ rfl _ (List.mem_map.2 ⟨a, ha, rfl⟩)

theorem trun_bnd (p : List TInstr) (hp : ∀ i ∈ p, i.Within W) {b : TBank} (hb : TLow W b) :
    (Count.trun p b).1 = (trun p b).1 ∧ (Count.trun p b).2.1 = (trun p b).2 ∧
    (Count.trun p b).2.2 ≤ (p.map (TInstr.mayTouch ((W + 63) / 64))).sum := by
  induction p generalizing b with
  | nil => exact ⟨rfl, rfl, Nat.le_refl _⟩
  | cons i p ih =>
    obtain ⟨hs, hl⟩ := texec_bnd i (hp i (by simp)) hb
    unfold Count.trun trun
    rcases hc : i.exec b with e | ⟨r, c⟩
    · rw [hs.1 e hc]
      exact ⟨rfl, rfl, Nat.zero_le _⟩
    · obtain ⟨k, h1, h2⟩ := hs.2 _ hc
      rw [h1]
      obtain ⟨q1, q2, q3⟩ := ih (fun j hj => hp j (by simp [hj])) (hl _ _ hc)
      refine ⟨congrArg (r :: ·) q1, q2, ?_⟩
      rw [List.map_cons, List.sum_cons]
      exact Nat.add_le_add h2 q3

end

end Verif
