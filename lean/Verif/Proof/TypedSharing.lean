import Verif.Proof.Sharing
import Verif.Proof.TypedHeap
import Verif.SpecTypedSharing

/-!
# Threads that share `UInt`s and `Int`s

The invariant of `Proof/Sharing.lean` with the types of the integers.
-/

namespace Verif

open HM

/-! ## One call -/

/-- All calls of the script are allowed, and it ends with the types of the first `n` integers
unchanged. -/
def Script.Within (n : Nat) (ks : List Kind) : Script → Prop
  | .done _ ks' => ks'.take n = ks.take n
  | .panic => True
  | .call i k => i.Allowed n ∧ ∀ r, (k r).Within n ks

section

variable {n : Nat} {ks : List Kind} {i : Instr}

theorem unit_within : (Script.unit ks).Within n ks := rfl

theorem pass_within (hi : i.Allowed n) : (Script.pass ks i).Within n ks :=
  ⟨hi, fun r => by cases r <;> rfl⟩

theorem push_within (hn : n ≤ ks.length) {k : Kind} (hi : i.Allowed n) :
    (Script.push ks k i).Within n ks :=
  ⟨hi, fun r => by
    cases r with
    | ok o => exact List.take_append_of_le_length hn
    | error e => rfl⟩

theorem consume_within {x : Nat} (hx : n ≤ x) (hi : i.Allowed n) :
    (Script.consume ks x i).Within n ks :=
  ⟨hi, fun r => by
    cases r with
    | ok o => rfl
    | error e => exact ⟨by simpa [Instr.Allowed, Instr.mutates] using hx, fun _ => take_eraseIdx hx⟩⟩

theorem unwrap_within (hi : i.Allowed n) : (Script.unwrap ks i).Within n ks :=
  ⟨hi, fun r => by cases r <;> trivial⟩

theorem orFalse_within (hi : i.Allowed n) : (Script.orFalse ks i).Within n ks :=
  ⟨hi, fun r => by cases r <;> rfl⟩

theorem test_within {k : Bool → Script} (hi : i.Allowed n) (hk : ∀ b, (k b).Within n ks) :
    (Script.test i k).Within n ks :=
  ⟨hi, fun r => by
    match r with
    | .ok (.bool b) => exact hk b
    | .error _ => trivial
    | .ok .unit | .ok (.nat _) | .ok (.int _) | .ok (.text _) => trivial⟩

theorem count_within {k : Nat → Script} (hi : i.Allowed n) (hk : ∀ b, (k b).Within n ks) :
    (Script.count i k).Within n ks :=
  ⟨hi, fun r => by
    match r with
    | .ok (.nat b) => exact hk b
    | .error _ => trivial
    | .ok .unit | .ok (.bool _) | .ok (.int _) | .ok (.text _) => trivial⟩

theorem allowed_of (h : i.mutates = []) : i.Allowed n := by
  intro x hx; rw [h] at hx; cases hx

theorem allowed_one {x : Nat} (hx : n ≤ x) (h : i.mutates = [x]) : i.Allowed n := by
  intro y hy; rw [h] at hy; rw [List.mem_singleton.mp hy]; exact hx

theorem abs_within {x : Nat} (hx : n ≤ x) : (absScript ks x).Within n ks := by
  refine test_within (allowed_of rfl) fun b => ?_
  cases b
  · exact unit_within
  · exact pass_within (allowed_one hx rfl)

theorem ask_within (q : TAsk) (k : Kind) {x : Nat} : (q.script ks x k).Within n ks := by
  have p : ∀ {q : Ask}, (Script.pass ks (.ask q x)).Within n ks := pass_within (allowed_of rfl)
  cases q <;> cases k <;> first
    | exact p
    | exact unit_within
    | (simp only [TAsk.script]; split <;> first | exact p | exact unit_within)
    | exact test_within (allowed_of rfl) fun b => rfl
    | (refine test_within (allowed_of rfl) fun b => ?_
       split
       · exact rfl
       · refine test_within (allowed_of rfl) fun b => ?_
         split <;> exact rfl)

theorem ask2_within (q : TAsk2) (k : Kind) {x y : Nat} : (q.script ks x y k).Within n ks := by
  have p : ∀ {q : Ask2}, (Script.pass ks (.ask2 q x y)).Within n ks := pass_within (allowed_of rfl)
  have f : ∀ {q : Ask2}, (Script.orFalse ks (.ask2 q x y)).Within n ks :=
    orFalse_within (allowed_of rfl)
  have c : ((TAsk2.partialCmp).script ks x y k).Within n ks := by
    refine count_within (allowed_of rfl) fun a => count_within (allowed_of rfl) fun b => ?_
    split
    · exact rfl
    refine test_within (allowed_of rfl) fun b => ?_
    split
    · exact rfl
    exact test_within (allowed_of rfl) fun b => rfl
  cases q <;> first
    | exact p
    | exact f
    | exact c
    | (cases k <;> first | exact p | exact f)

/-- A method that may be called on a shared integer makes only calls that may be made on it. -/
theorem script_within (hn : n ≤ ks.length) {i : TInstr} (hi : i.Allowed n) :
    (i.script ks).Within n ks := by
  have one : ∀ {x : Nat} {f : Kind → Script}, (∀ k, (f k).Within n ks) →
      (match ks[x]? with
        | some k => f k
        | none => Script.unit ks : Script).Within n ks := by
    intro x f hf
    split
    · exact hf _
    · exact unit_within
  have two : ∀ {x y : Nat} {f : Kind → Script}, (∀ k, (f k).Within n ks) →
      (match ks[x]?, ks[y]? with
        | some .unsigned, some .unsigned => f .unsigned
        | some .signed, some .signed => f .signed
        | _, _ => Script.unit ks : Script).Within n ks := by
    intro x y f hf
    split
    · exact hf _
    · exact hf _
    · exact unit_within
  have set : ∀ {x : Nat} {k : Kind}, n ≤ x → (Script.unit (ks.set x k)).Within n ks := by
    intro x k hx
    show (ks.set x k).take n = ks.take n
    rw [List.take_set_of_le hx]
  have un : ∀ {o : Un} {x : Nat}, n ≤ x → (Instr.un o x).Allowed n := fun h => allowed_one h rfl
  have bin : ∀ {o : Bin} {x y : Nat}, n ≤ x → (Instr.bin o x y).Allowed n :=
    fun h => allowed_one h rfl
  cases i with
  | make m => exact push_within hn (allowed_of rfl)
  | intOne t =>
    simp only [TInstr.script]
    split
    · exact rfl
    · exact ⟨allowed_of rfl, fun r => by
        cases r with
        | ok o => exact List.take_append_of_le_length hn
        | error e => rfl⟩
  | clone x => exact one fun k => push_within hn (allowed_of rfl)
  | drop x =>
    have hx : n ≤ x := hi x (by simp [TInstr.mutates])
    exact ⟨allowed_one hx rfl, fun _ => take_eraseIdx hx⟩
  | assign x y => exact two fun _ => pass_within (allowed_one (hi x (by simp [TInstr.mutates])) rfl)
  | strictAssign x y =>
    exact two fun _ => pass_within (allowed_one (hi x (by simp [TInstr.mutates])) rfl)
  | intoUnsigned x => exact one fun _ => set (hi x (by simp [TInstr.mutates]))
  | intoSigned x => exact one fun _ => set (hi x (by simp [TInstr.mutates]))
  | un o x =>
    have hx : n ≤ x := hi x (by simp [TInstr.mutates])
    refine one fun k => ?_
    unfold TUn.script
    split
    · exact pass_within (un hx)
    · exact abs_within hx
    · exact unit_within
  | intoUn o x =>
    have hx : n ≤ x := hi x (by simp [TInstr.mutates])
    refine one fun k => ?_
    unfold TUn.scriptInto
    split
    · exact consume_within hx (un hx)
    · exact abs_within hx
    · exact unit_within
  | opUn o x => exact one fun k => unwrap_within (un (hi x (by simp [TInstr.mutates])))
  | opShift o x => exact one fun k => unwrap_within (un (hi x (by simp [TInstr.mutates])))
  | alter o x =>
    refine one fun k => ?_
    split
    · exact pass_within (allowed_one (hi x (by simp [TInstr.mutates])) rfl)
    · exact unit_within
  | bin o x y => exact two fun k => pass_within (bin (hi x (by simp [TInstr.mutates])))
  | intoBin o x y =>
    have hx : n ≤ x := hi x (by simp [TInstr.mutates])
    exact two fun k => consume_within hx (bin hx)
  | op o x y => exact two fun k => unwrap_within (bin (hi x (by simp [TInstr.mutates])))
  | opAssign o x y => exact two fun k => unwrap_within (bin (hi x (by simp [TInstr.mutates])))
  | ask q x => exact one fun k => ask_within q k
  | ask2 q x y => exact two fun k => ask2_within q k

end

section

variable {S : Nat → Prop}

/-- What a script leaves of the types. -/
def KeepsKinds (n : Nat) (ks : List Kind) (o : Option (Res TOut × List Kind)) : Prop :=
  ∀ r ks', o = some (r, ks') → ks'.take n = ks.take n

theorem scriptAttempt_foot (A : Growth) (s : Script) {ks : List Kind} {shared b : HBank}
    (hs : s.Within shared.length ks) (hb : Lends shared b S) :
    (s.attempt A b).Foot S (fun v S' => KeepsKinds shared.length ks v.1 ∧ Lends shared v.2 S') := by
  induction s generalizing S b with
  | done r ks' => exact ⟨fun _ _ e => by cases e; exact hs, hb⟩
  | panic => exact ⟨nofun, hb⟩
  | call i k ih =>
    obtain ⟨own, rfl, ho⟩ := hb
    unfold Script.attempt
    refine (attempt_foot A i shared own hs.1 ho).bind fun v S' _ hv => ?_
    obtain ⟨r, b⟩ := v
    cases r with
    | returned r => exact ih r (hs.2 r) hv
    | panicked => exact .pure ⟨nofun, hv⟩

/-- Nothing shared is moved or gets another type. -/
def KeepsTyped (ks : List Kind) (shared : HBank) (v : TSeen × List Kind × HBank) (S : Nat → Prop) :
    Prop := v.2.1.take shared.length = ks.take shared.length ∧ Lends shared v.2.2 S

theorem tattempt_foot (A : Growth) (i : TInstr) {ks : List Kind} {shared own : HBank}
    (hn : shared.length ≤ ks.length) (hi : i.Allowed shared.length) (hown : ∀ x ∈ own, x.In S) :
    (i.attempt A ks (shared ++ own)).Foot S (KeepsTyped ks shared) := by
  unfold TInstr.attempt
  refine (scriptAttempt_foot A (i.script ks) (script_within hn hi) ⟨own, rfl, hown⟩).bind
    fun v S1 _ hv => ?_
  obtain ⟨o, b⟩ := v
  obtain ⟨h1, h2⟩ := hv
  cases o with
  | some p => exact .pure ⟨h1 _ _ rfl, h2⟩
  | none =>
    dsimp only
    cases hc : i.consumes with
    | none => exact .pure ⟨rfl, h2⟩
    | some x =>
      have hx : shared.length ≤ x := by
        refine hi x ?_
        cases i <;> cases hc <;> simp [TInstr.mutates]
      obtain ⟨own', rfl, ho⟩ := h2
      refine (attempt_foot A (.drop x) shared own' (allowed_one hx rfl) ho).bind fun v S2 _ hv => ?_
      exact .pure ⟨take_eraseIdx hx, hv⟩

end

section

variable [Allocator] {h : Heap} {xs : HBank} {bs : Bank}

theorem scriptAttempt_sim (A : Growth) (s : Script) (hr : Rep h xs bs) (hb : ∀ a ∈ bs, a.WF) :
    ∃ o xs' h' bs', s.attempt A xs h = .ok ((o, xs'), h') ∧ s.play (pointerCall A) (xs, h) =
      .ok (o, xs', h') ∧ s.play Instr.caught bs = .ok (o, bs') ∧
      Rep h' xs' bs' ∧ ∀ a ∈ bs', a.WF := by
  induction s generalizing xs h bs with
  | done r ks => exact ⟨_, xs, h, bs, rfl, rfl, rfl, hr, hb⟩
  | panic => exact ⟨_, xs, h, bs, rfl, rfl, rfl, hr, hb⟩
  | call i k ih =>
    obtain ⟨s, xs', h', v', e1, e2, hr', hv'⟩ := hcaught_sim A i hr hb
    have e0 := attempt_alone A i hr hb
    unfold Script.play Script.attempt
    rw [hm_bind_ok (e0.trans e1)]
    simp only [pointerCall, e1, e2, run_bind_ok]
    cases s with
    | panicked => exact ⟨none, xs', h', v', rfl, rfl, rfl, hr', hv'⟩
    | returned r => exact ih r hr' hv'

/-- Alone, the call of a thread is the caught call of `Model/TypedHeap.lean`. -/
theorem tattempt_sim (A : Growth) (i : TInstr) (ks : List Kind) (hr : Rep h xs bs)
    (hb : ∀ a ∈ bs, a.WF) :
    ∃ s ks' xs' h' bs', i.attempt A ks xs h = .ok ((s, ks', xs'), h') ∧
      i.caught (pointerCall A) ks (xs, h) = .ok (s, ks', xs', h') ∧
      i.caught Instr.caught ks bs = .ok (s, ks', bs') ∧ Rep h' xs' bs' ∧ ∀ a ∈ bs', a.WF := by
  obtain ⟨o, xs', h', v', e0, e1, e2, hr', hv'⟩ := scriptAttempt_sim A (i.script ks) hr hb
  unfold TInstr.caught TInstr.attempt
  rw [hm_bind_ok e0]
  simp only [e1, e2, run_bind_ok]
  cases o with
  | some p => exact ⟨_, _, xs', h', v', rfl, rfl, rfl, hr', hv'⟩
  | none =>
    dsimp only
    cases i.consumes with
    | none => exact ⟨_, _, xs', h', v', rfl, rfl, rfl, hr', hv'⟩
    | some x =>
      obtain ⟨s, xs'', h'', v'', e3, e4, hr'', hv''⟩ := hcaught_sim A (.drop x) hr' hv'
      refine ⟨.panicked, ks.eraseIdx x, xs'', h'', v'', ?_, ?_, ?_, hr'', hv''⟩
      · dsimp only
        rw [hm_bind_ok ((attempt_alone A (.drop x) hr' hv').trans e3)]; rfl
      · simp only [pointerCall, e3, run_bind_ok]
      · simp only [e4, run_bind_ok]

end

/-- What a finished call leaves on the part of the heap of its thread. -/
def TLeaves (i : TInstr) (bs : TBank) (v : TSeen × List Kind × HBank) (h : Heap) : Prop :=
  ∃ bs' : TBank, i.caught Instr.caught (bs.map WInt.kind) (bs.map WInt.value) =
      .ok (v.1, bs'.map WInt.kind, bs'.map WInt.value) ∧ v.2.1 = bs'.map WInt.kind ∧
    Rep h v.2.2 (bs'.map WInt.value)

theorem tattempt_running (A : Growth) (i : TInstr) {shared own : HBank} {vs bs : TBank}
    {F : List (Nat × Block)} (hi : i.Allowed shared.length)
    (hl : List.Forall₂ Match shared (vs.map WInt.value)) (hv : ∀ a ∈ vs, a.WF)
    (ho : List.Forall₂ Match own (bs.map WInt.value)) (hb : ∀ a ∈ bs, a.WF)
    (hF : F.Perm (cellsOf own (bs.map WInt.value)))
    (hn : ((F ++ cellsOf shared (vs.map WInt.value)).map Prod.fst).Nodup) :
    Running (cellsOf shared (vs.map WInt.value)) F
      (i.attempt A (vs.map WInt.kind ++ bs.map WInt.kind) (shared ++ own)) (TLeaves i (vs ++ bs)) False
      (KeepsTyped (vs.map WInt.kind ++ bs.map WInt.kind) shared) := by
  have hwf : ∀ a ∈ vs ++ bs, a.WF := fun a ha => (List.mem_append.mp ha).elim (hv a) (hb a)
  have hsep := canon_sep hn
  have hrep : Rep (canon (F ++ cellsOf shared (vs.map WInt.value))) (shared ++ own)
      ((vs ++ bs).map WInt.value) := by
    rw [List.map_append]
    refine ⟨forall₂_append hl ho, hsep.reorder ?_⟩
    rw [cellsOf_append hl]
    exact (List.perm_append_comm).trans (hF.append_left _)
  have hlen : shared.length ≤ (vs.map WInt.kind ++ bs.map WInt.kind).length := by
    rw [hl.length_eq]; simp
  refine ⟨_, fun p => ∃ x ∈ own, x.data = .ext p, hsep, ?_, ?_, ?_⟩
  · intro I
    obtain ⟨s, ks', xs', h', v', e0, _, e2, r, _⟩ :=
      tattempt_sim A i (vs.map WInt.kind ++ bs.map WInt.kind) hrep (values_wf hwf)
    obtain ⟨s2, b', e3, w, _⟩ := tcaught_agrees hwf i
    rw [← List.map_append] at e2
    cases e2.symm.trans e3
    rw [e0]
    exact ⟨b', e3, rfl, r⟩
  · exact tattempt_foot A i hlen hi fun x hx p hp => ⟨x, hx, hp⟩
  · rintro c hc ⟨x, hx, hp⟩
    obtain ⟨b, hb⟩ := ptr_cell ho hx hp
    rw [List.map_append, List.nodup_append] at hn
    exact hn.2.2 c.1 (List.mem_map.mpr ⟨_, hF.mem_iff.mpr hb, rfl⟩) c.1
      (List.mem_map.mpr ⟨_, hc, rfl⟩) rfl

theorem bank_ext {b b' : TBank} (hk : b.map WInt.kind = b'.map WInt.kind)
    (hv : b.map WInt.value = b'.map WInt.value) : b = b' := by
  induction b generalizing b' with
  | nil => cases b' with
    | nil => rfl
    | cons => cases hk
  | cons a b ih =>
    cases b' with
    | nil => cases hk
    | cons a' b' =>
      simp only [List.map_cons, List.cons.injEq] at hk hv
      rw [ih hk.2 hv.2]
      congr 1
      obtain ⟨hk, _⟩ := hk
      obtain ⟨hv, _⟩ := hv
      cases a with
      | u x => cases a' with
        | u y => cases x; cases y; cases hv; rfl
        | s y => cases hk
      | s x => cases a' with
        | s y => cases x; cases y; cases hv; rfl
        | u y => cases hk

theorem tattempt_ends {i : TInstr} {shared : HBank} {vs bs : TBank} {F : List (Nat × Block)}
    {r : TSeen} {ks : List Kind} {b : HBank} (hl : List.Forall₂ Match shared (vs.map WInt.value))
    (hr : Running (cellsOf shared (vs.map WInt.value)) F (.ret (r, ks, b)) (TLeaves i (vs ++ bs)) False
      (KeepsTyped (vs.map WInt.kind ++ bs.map WInt.kind) shared)) :
    ∃ own, ∃ bs' : TBank, b = shared ++ own ∧ ks = vs.map WInt.kind ++ bs'.map WInt.kind ∧
      i.caught Instr.caught ((vs ++ bs).map WInt.kind) ((vs ++ bs).map WInt.value) =
        .ok (r, (vs ++ bs').map WInt.kind, (vs ++ bs').map WInt.value) ∧
      List.Forall₂ Match own (bs'.map WInt.value) ∧ F.Perm (cellsOf own (bs'.map WInt.value)) := by
  obtain ⟨h, S, hs, hg, ⟨hk, own, hb, _⟩, _⟩ := hr
  obtain ⟨bs', e, hks, hrep⟩ := hg.ret
  simp only at hb hrep hks hk e
  subst hb
  have hlen : shared.length = vs.length := by rw [hl.length_eq, List.length_map]
  obtain ⟨b1, b2, hbs, m1, m2⟩ := match_append hrep.mat
  have hc := hrep.sep.perm
  rw [hbs, cellsOf_append m1] at hc
  have : vs.map WInt.value = b1 := by
    refine cells_inj hl m1 hs.nodup (fun c hc' => hs.perm.mem_iff.mpr (List.mem_append_right _ hc'))
      fun c hc' => hc.mem_iff.mpr (List.mem_append_left _ hc')
  subst this
  have hv1 : (bs'.take vs.length).map WInt.value = vs.map WInt.value := by
    rw [List.map_take, hbs, List.take_left' (by simp)]
  have hk1 : (bs'.take vs.length).map WInt.kind = vs.map WInt.kind := by
    rw [List.map_take, ← hks, ← hlen, hk, hlen, List.take_left' (by simp)]
  have ht := bank_ext hk1 hv1
  have hsplit : vs ++ bs'.drop vs.length = bs' := by
    conv_rhs => rw [← List.take_append_drop vs.length bs', ht]
  have hv2 : (bs'.drop vs.length).map WInt.value = b2 := by
    rw [List.map_drop, hbs, List.drop_left' (by simp)]
  refine ⟨own, bs'.drop vs.length, rfl, ?_, ?_, ?_, ?_⟩
  · rw [hks, ← List.map_append, hsplit]
  · rw [hsplit]; exact e
  · rw [hv2]; exact m2
  · rw [hv2]
    have := (hs.perm.symm.trans hc).trans List.perm_append_comm
    exact (List.perm_append_right_iff _).mp this

/-! ## All threads -/

/-- One thread: its buffers, and the pure integers it has or had when its call began. -/
def TWInv (shared : HBank) (vs : TBank) : TWorker → List (Nat × Block) × TBank → Prop
  | .idle ks own, (F, bs) => ks = bs.map WInt.kind ∧
    List.Forall₂ Match own (bs.map WInt.value) ∧ (∀ a ∈ bs, a.WF) ∧
      F.Perm (cellsOf own (bs.map WInt.value))
  | .busy n i m, (F, bs) =>
    n ≤ shared.length ∧ (∀ a ∈ bs, a.WF) ∧
      Running (cellsOf (shared.take n) ((vs.take n).map WInt.value)) F m
        (TLeaves i (vs.take n ++ bs)) False
        (KeepsTyped ((vs.take n).map WInt.kind ++ bs.map WInt.kind) (shared.take n))

structure TCInv (s : TCrew) (vs : TBank) (parts : List (List (Nat × Block) × TBank)) : Prop where
  kinds : s.kinds = vs.map WInt.kind
  mat : List.Forall₂ Match s.shared (vs.map WInt.value)
  wf : ∀ a ∈ vs, a.WF
  workers : List.Forall₂ (TWInv s.shared vs) s.workers parts
  sep : Sep s.heap (cellsOf s.shared (vs.map WInt.value) ++ cbuffers parts)

/-- The abstract machine that goes with it. -/
def numCrew (vs : TBank) (parts : List (List (Nat × Block) × TBank)) : NCrew :=
  ⟨vs.map WInt.num, parts.map fun p => p.2.map WInt.num⟩

theorem tcrew_get {vs : TBank} {parts : List (List (Nat × Block) × TBank)} {t : Nat}
    {F : List (Nat × Block)} {bs : TBank} (hq : parts[t]? = some (F, bs)) :
    (numCrew vs parts).own[t]? = some (bs.map WInt.num) := by
  simp only [numCrew, List.getElem?_map, hq, Option.map_some]

theorem tmatch_take {xs : HBank} {bs : TBank} (hm : List.Forall₂ Match xs (bs.map WInt.value))
    (n : Nat) : List.Forall₂ Match (xs.take n) ((bs.take n).map WInt.value) := by
  rw [List.map_take]; exact match_take hm n

theorem tcellsOf_take {xs : HBank} {bs : TBank} (hm : List.Forall₂ Match xs (bs.map WInt.value))
    (n : Nat) : cellsOf xs (bs.map WInt.value) = cellsOf (xs.take n) ((bs.take n).map WInt.value) ++
      cellsOf (xs.drop n) ((bs.drop n).map WInt.value) := by
  rw [List.map_take, List.map_drop]; exact cellsOf_take hm n

/-- A call in progress only depends on what was shared when it began. -/
theorem TWInv.change {shared shared' : HBank} {vs vs' : TBank} {w : TWorker}
    {q : List (Nat × Block) × TBank} (h : TWInv shared vs w q)
    (hk : ∀ n i m, w = .busy n i m → n ≤ shared.length → n ≤ shared'.length ∧
      shared'.take n = shared.take n ∧ vs'.take n = vs.take n) : TWInv shared' vs' w q := by
  cases w with
  | idle ks own => exact h
  | busy n i m =>
    obtain ⟨h1, h2, h3⟩ := h
    obtain ⟨k1, k2, k3⟩ := hk n i m rfl h1
    refine ⟨k1, h2, ?_⟩
    rw [k2, k3]
    exact h3

theorem trel_change {shared shared' : HBank} {vs vs' : TBank} {ws : List TWorker}
    {parts : List (List (Nat × Block) × TBank)} (h : List.Forall₂ (TWInv shared vs) ws parts)
    (hk : ∀ n i m, .busy n i m ∈ ws → n ≤ shared.length → n ≤ shared'.length ∧
      shared'.take n = shared.take n ∧ vs'.take n = vs.take n) :
    List.Forall₂ (TWInv shared' vs') ws parts := by
  induction h with
  | nil => exact .nil
  | cons h _ ih =>
    refine .cons (h.change fun n i m e => hk n i m (e ▸ List.mem_cons_self)) (ih ?_)
    exact fun n i m hm => hk n i m (List.mem_cons_of_mem _ hm)

/-- The part of one thread and of the rest. -/
theorem tcrew_part {s : TCrew} {vs : TBank} {parts : List (List (Nat × Block) × TBank)}
    (hi : TCInv s vs parts) {t : Nat} {w : TWorker} (ht : s.workers[t]? = some w) :
    ∃ F bs R, parts[t]? = some (F, bs) ∧ TWInv s.shared vs w (F, bs) ∧
      Sep s.heap (F ++ (cellsOf s.shared (vs.map WInt.value) ++ R)) ∧
      (∀ q', (cbuffers (parts.set t q')).Perm (q'.1 ++ R)) ∧
      ∀ u q, u ≠ t → parts[u]? = some q → ∀ c ∈ q.1, c ∈ R := by
  obtain ⟨⟨F, bs⟩, hq, hinv⟩ := rel_get hi.workers ht
  obtain ⟨R, hR, hR'⟩ := cbuffers_focus hq
  have hb := hR (F, bs)
  rw [set_get hq] at hb
  exact ⟨F, bs, R, hq, hinv, hi.sep.reorder ((hb.append_left _).trans (perm_mid _ _ _)), hR, hR'⟩

/-- The end of a call. -/
theorem tcrew_end {s : TCrew} {vs : TBank} {parts : List (List (Nat × Block) × TBank)}
    (hi : TCInv s vs parts) {t n : Nat} {i : TInstr} {r : TSeen} {ks : List Kind} {b : HBank}
    (ht : s.workers[t]? = some (.busy n i (.ret (r, ks, b)))) :
    ∃ F bs bs', parts[t]? = some (F, bs) ∧ n ≤ s.shared.length ∧
      TCInv { s with workers := s.workers.set t (.idle (ks.drop n) (b.drop n)) } vs
        (parts.set t (F, bs')) ∧
      i.specCaught ((vs.map WInt.num).take n ++ bs.map WInt.num) =
        (r.abs, (vs.map WInt.num).take n ++ bs'.map WInt.num) := by
  obtain ⟨F, bs, R, hq, ⟨hn, h1, h2⟩, hsep, _⟩ := tcrew_part hi ht
  obtain ⟨own, bs', rfl, rfl, h3, h4, h5⟩ := tattempt_ends (tmatch_take hi.mat n) h2
  have hwf' : ∀ a ∈ vs.take n ++ bs, a.WF := fun a ha =>
    (List.mem_append.mp ha).elim (fun ha => hi.wf a (List.mem_of_mem_take ha)) (h1 a)
  obtain ⟨s', c, e, hc, hsp⟩ := tcaught_agrees hwf' i
  have e' := e.symm.trans h3
  simp only [Except.ok.injEq, Prod.mk.injEq] at e'
  obtain ⟨rfl, ek, ev⟩ := e'
  have := bank_ext ek ev
  subst this
  have hlen : (s.shared.take n).length = n := by rw [List.length_take]; omega
  have hlenv : (vs.take n).length = n := by
    have := hi.mat.length_eq
    rw [List.length_map] at this
    rw [List.length_take]; omega
  refine ⟨F, bs, bs', hq, hn, ⟨hi.kinds, hi.mat, hi.wf, ?_, ?_⟩, ?_⟩
  · refine rel_set hi.workers t ?_
    have e1 : (s.shared.take n ++ own).drop n = own := List.drop_left' hlen
    have e2 : ((vs.take n).map WInt.kind ++ bs'.map WInt.kind).drop n = bs'.map WInt.kind :=
      List.drop_left' (by rw [List.length_map]; exact hlenv)
    rw [e1, e2]
    exact ⟨rfl, h4, fun a ha => hc a (List.mem_append_right _ ha), h5⟩
  · refine hi.sep.reorder (List.Perm.append_left _ (.of_eq ?_))
    simp only [cbuffers, List.map_set]
    rw [set_get]
    rw [List.getElem?_map, hq]; rfl
  · rw [List.map_append, List.map_append, List.map_take] at hsp
    exact hsp.symm

/-- One step of one thread. -/
theorem tcrew_step (A : Growth) {s s' : TCrew} {tr : List TCEvent} {vs : TBank}
    {parts : List (List (Nat × Block) × TBank)} (hi : TCInv s vs parts)
    (hs : TCrew.Step A s tr s') :
    ∃ vs' parts', TCInv s' vs' parts' ∧
      (∀ c ∈ cellsOf s.shared (vs.map WInt.value),
        c ∈ cellsOf s'.shared (vs'.map WInt.value) ++ cbuffers parts') ∧
      ∀ a tr0, NCrew.Steps a tr0 (numCrew vs parts) →
        NCrew.Steps a (tr0 ++ tr) (numCrew vs' parts') := by
  cases hs with
  | spawn =>
    refine ⟨vs, parts ++ [([], [])], ⟨hi.kinds, hi.mat, hi.wf,
      rel_push hi.workers ⟨rfl, .nil, by simp, .refl _⟩, ?_⟩,
      fun c hc => List.mem_append_left _ hc, ?_⟩
    · refine hi.sep.reorder (List.Perm.append_left _ (.of_eq ?_))
      simp [cbuffers]
    · intro a tr0 h
      refine .more h ?_
      have : numCrew vs (parts ++ [([], [])]) =
          { numCrew vs parts with own := (numCrew vs parts).own ++ [[]] } := by simp [numCrew]
      rw [this, hi.workers.length_eq]
      have hl : parts.length = (numCrew vs parts).own.length := by simp [numCrew]
      rw [hl]
      exact .spawned
  | @call t ks own i ht hal =>
    obtain ⟨F, bs, R, hq, ⟨rfl, h1, h2, h3⟩, hsep, _⟩ := tcrew_part hi ht
    have hn := hsep.nodup'
    rw [← List.append_assoc, List.map_append, List.nodup_append] at hn
    refine ⟨vs, parts, ⟨hi.kinds, hi.mat, hi.wf, ?_, hi.sep⟩,
      fun c hc => List.mem_append_left _ hc, ?_⟩
    · have hv : vs.take s.shared.length = vs := by
        rw [hi.mat.length_eq, List.length_map, List.take_length]
      have := rel_set hi.workers t
        (a := .busy s.shared.length i (i.attempt A (s.kinds ++ bs.map WInt.kind) (s.shared ++ own)))
        (b := (F, bs))
        ⟨le_refl _, h2, by
          rw [List.take_length, hv, hi.kinds]
          exact tattempt_running A i hal hi.mat hi.wf h1 h2 h3 hn.1⟩
      rwa [set_get hq] at this
    · intro a tr0 h
      rw [List.append_nil]
      exact h
  | @access t n i m m' h ht hm =>
    obtain ⟨F, bs, R, hq, ⟨h0, h1, h2⟩, hsep, hR, _⟩ := tcrew_part hi ht
    rw [tcellsOf_take hi.mat n, List.append_assoc] at hsep
    obtain ⟨F', h3, h4⟩ := h2.step hsep hm
    rw [← List.append_assoc (cellsOf (s.shared.take n) ((vs.take n).map WInt.value)),
      ← tcellsOf_take hi.mat n] at h4
    refine ⟨vs, parts.set t (F', bs), ⟨hi.kinds, hi.mat, hi.wf, rel_set hi.workers t ⟨h0, h1, h3⟩, ?_⟩,
      fun c hc => List.mem_append_left _ hc, ?_⟩
    · exact h4.reorder ((perm_mid _ _ _).symm.trans ((hR (F', bs)).symm.append_left _))
    · intro a tr0 h
      rw [List.append_nil]
      have : numCrew vs (parts.set t (F', bs)) = numCrew vs parts := by
        simp only [numCrew, List.map_set]
        rw [set_get]
        rw [List.getElem?_map, hq]; rfl
      rw [this]
      exact h
  | @finish t n i r ks b ht =>
    obtain ⟨F, bs, bs', hq, hn, hinv, hsp⟩ := tcrew_end hi ht
    refine ⟨vs, parts.set t (F, bs'), hinv, fun c hc => List.mem_append_left _ hc, ?_⟩
    intro a tr0 h
    refine .more h ?_
    have : numCrew vs (parts.set t (F, bs')) = { numCrew vs parts with
        own := (numCrew vs parts).own.set t (bs'.map WInt.num) } := by
      simp [numCrew, List.map_set]
    rw [this]
    have hn' : n ≤ (numCrew vs parts).shared.length := by
      have := hi.mat.length_eq
      rw [List.length_map] at this
      simp only [numCrew, List.length_map]; omega
    unfold TInstr.specCaught at hsp
    cases r with
    | returned r =>
      split at hsp
      · rename_i r' b' e
        have e1 := congrArg Prod.fst hsp
        have e2 := congrArg Prod.snd hsp
        simp only [TSeen.abs, ATSeen.returned.injEq] at e1 e2
        subst e1 e2
        exact .returned hn' (tcrew_get hq) e
      · cases congrArg Prod.fst hsp
    | panicked =>
      split at hsp
      · cases congrArg Prod.fst hsp
      · rename_i e
        exact .panicked hn' (tcrew_get hq) e (congrArg Prod.snd hsp)
  | @move t u x ks ks' own own' k a ne ht hu hk hx =>
    obtain ⟨F, bs, R1, hq, ⟨rfl, h1, h2, h3⟩, _, r1, _⟩ := tcrew_part hi ht
    obtain ⟨F', bs', _, hq', ⟨rfl, h1', h2', h3'⟩, _, _, _⟩ := tcrew_part hi hu
    obtain ⟨v, hv, rfl⟩ : ∃ v, bs[x]? = some v ∧ v.kind = k := by
      rw [List.getElem?_map] at hk
      cases hb : bs[x]? with
      | none => rw [hb] at hk; cases hk
      | some v => rw [hb] at hk; exact ⟨v, rfl, Option.some.inj hk⟩
    have hv' : (bs.map WInt.value)[x]? = some v.value := by rw [List.getElem?_map, hv]; rfl
    have hav : Match a v.value := by
      obtain ⟨v', e, hm⟩ := rel_get h1 hx
      cases hv'.symm.trans e
      exact hm
    obtain ⟨K, k1, _, k3, _⟩ := focus h1 hx hv'
    have hq'' : (parts.set t (K, bs.eraseIdx x))[u]? = some (F', bs') := by
      rw [List.getElem?_set_ne ne]; exact hq'
    obtain ⟨R2, r2, _⟩ := cbuffers_focus hq''
    refine ⟨vs, (parts.set t (K, bs.eraseIdx x)).set u (cell a v.value ++ F', bs' ++ [v]),
      ⟨hi.kinds, hi.mat, hi.wf, ?_, ?_⟩, fun c hc => List.mem_append_left _ hc, ?_⟩
    · refine rel_set (rel_set hi.workers t
        (a := .idle ((bs.map WInt.kind).eraseIdx x) (own.eraseIdx x)) (b := (K, bs.eraseIdx x))
        ⟨by rw [List.eraseIdx_map], ?_, ?_, ?_⟩) u
        (a := .idle (bs'.map WInt.kind ++ [v.kind]) (own' ++ [a]))
        (b := (cell a v.value ++ F', bs' ++ [v])) ⟨by simp, ?_, ?_, ?_⟩
      · rw [← List.eraseIdx_map]; exact forall₂_erase h1 x
      · intro c hc; exact h2 c (List.mem_of_mem_eraseIdx hc)
      · rw [← List.eraseIdx_map]; exact k3
      · rw [List.map_append]; exact forall₂_push h1' hav
      · intro c hc
        rcases List.mem_append.mp hc with hc | hc
        · exact h2' c hc
        · rw [List.mem_singleton.mp hc]; exact h2 v (List.mem_of_getElem? hv)
      · rw [List.map_append]
        exact (h3'.append_left _).trans (cellsOf_push h1' a v.value).symm
    · refine hi.sep.reorder (List.Perm.append_left _ ?_)
      have e1 := r1 (F, bs)
      rw [set_get hq] at e1
      have e2 := r1 (K, bs.eraseIdx x)
      have e3 := r2 (F', bs')
      rw [set_get hq''] at e3
      refine e1.trans (.trans ?_ (r2 _).symm)
      refine (((h3.trans k1)).append_right _).trans ?_
      simp only [List.append_assoc]
      exact (e2.symm.trans e3).append_left _
    · intro a0 tr0 h
      refine .more h ?_
      have : numCrew vs ((parts.set t (K, bs.eraseIdx x)).set u (cell a v.value ++ F', bs' ++ [v])) =
          { numCrew vs parts with
            own := ((numCrew vs parts).own.set t ((bs.map WInt.num).eraseIdx x)).set u
              (bs'.map WInt.num ++ [v.num]) } := by
        simp [numCrew, List.map_set, List.eraseIdx_map]
      rw [this]
      refine .moved ne (tcrew_get hq) (tcrew_get hq') ?_
      rw [List.getElem?_map, hv]; rfl
  | @share t x ks own k a ht hk hx =>
    obtain ⟨F, bs, R, hq, ⟨rfl, h1, h2, h3⟩, hsep, r1, _⟩ := tcrew_part hi ht
    obtain ⟨v, hv, rfl⟩ : ∃ v, bs[x]? = some v ∧ v.kind = k := by
      rw [List.getElem?_map] at hk
      cases hb : bs[x]? with
      | none => rw [hb] at hk; cases hk
      | some v => rw [hb] at hk; exact ⟨v, rfl, Option.some.inj hk⟩
    have hv' : (bs.map WInt.value)[x]? = some v.value := by rw [List.getElem?_map, hv]; rfl
    have hav : Match a v.value := by
      obtain ⟨v', e, hm⟩ := rel_get h1 hx
      cases hv'.symm.trans e
      exact hm
    obtain ⟨K, k1, _, k3, _⟩ := focus h1 hx hv'
    have hc := cellsOf_push hi.mat a v.value
    refine ⟨vs ++ [v], parts.set t (K, bs.eraseIdx x), ⟨?_, ?_, ?_, ?_, ?_⟩, ?_, ?_⟩
    · simp [hi.kinds]
    · rw [List.map_append]; exact forall₂_push hi.mat hav
    · intro c hc
      rcases List.mem_append.mp hc with hc | hc
      · exact hi.wf c hc
      · rw [List.mem_singleton.mp hc]; exact h2 v (List.mem_of_getElem? hv)
    · refine rel_set (trel_change hi.workers ?_) t ⟨by rw [List.eraseIdx_map], ?_, ?_, ?_⟩
      · intro n i m _ hn
        have hn' : n ≤ vs.length := by
          have := hi.mat.length_eq
          rw [List.length_map] at this; omega
        exact ⟨by rw [List.length_append]; omega, List.take_append_of_le_length hn,
          List.take_append_of_le_length hn'⟩
      · rw [← List.eraseIdx_map]; exact forall₂_erase h1 x
      · intro c hc; exact h2 c (List.mem_of_mem_eraseIdx hc)
      · rw [← List.eraseIdx_map]; exact k3
    · refine hsep.reorder ?_
      rw [List.map_append]
      refine ((h3.trans k1).append_right _).trans ?_
      refine .trans ?_ (hc.symm.append_right _)
      rw [List.append_assoc, List.append_assoc]
      refine List.Perm.append_left _ ?_
      exact (perm_mid _ _ _).symm.trans ((r1 (K, bs.eraseIdx x)).symm.append_left _)
    · intro c hc'
      rw [List.map_append]
      exact List.mem_append_left _ (hc.mem_iff.mpr (List.mem_append_right _ hc'))
    · intro a0 tr0 h
      refine .more h ?_
      have : numCrew (vs ++ [v]) (parts.set t (K, bs.eraseIdx x)) =
          ⟨(numCrew vs parts).shared ++ [v.num],
            (numCrew vs parts).own.set t ((bs.map WInt.num).eraseIdx x)⟩ := by
        simp [numCrew, List.map_set, List.eraseIdx_map]
      rw [this]
      refine .shared (tcrew_get hq) ?_
      rw [List.getElem?_map, hv]; rfl
  | @reclaim t x ks own k a ht hk hx hun =>
    obtain ⟨F, bs, R, hq, ⟨rfl, h1, h2, h3⟩, hsep, r1, _⟩ := tcrew_part hi ht
    rw [hi.kinds] at hk
    obtain ⟨v, hv, rfl⟩ : ∃ v, vs[x]? = some v ∧ v.kind = k := by
      rw [List.getElem?_map] at hk
      cases hb : vs[x]? with
      | none => rw [hb] at hk; cases hk
      | some v => rw [hb] at hk; exact ⟨v, rfl, Option.some.inj hk⟩
    have hv' : (vs.map WInt.value)[x]? = some v.value := by rw [List.getElem?_map, hv]; rfl
    have hav : Match a v.value := by
      obtain ⟨v', e, hm⟩ := rel_get hi.mat hx
      cases hv'.symm.trans e
      exact hm
    obtain ⟨K, k1, _, k3, _⟩ := focus hi.mat hx hv'
    have hc := cellsOf_push h1 a v.value
    have hp : (F ++ (cellsOf s.shared (vs.map WInt.value) ++ R)).Perm
        (cellsOf (s.shared.eraseIdx x) ((vs.eraseIdx x).map WInt.value) ++
        cbuffers (parts.set t (cell a v.value ++ F, bs ++ [v]))) := by
      rw [← List.eraseIdx_map]
      refine .trans ?_ ((r1 (cell a v.value ++ F, bs ++ [v])).symm.append_left _)
      refine .trans ?_ (k3.append_right _)
      refine (perm_mid _ _ _).symm.trans ?_
      refine (k1.append_right _).trans ?_
      rw [List.append_assoc, List.append_assoc]
      exact perm_mid _ _ _
    refine ⟨vs.eraseIdx x, parts.set t (cell a v.value ++ F, bs ++ [v]),
      ⟨?_, ?_, ?_, ?_, ?_⟩, ?_, ?_⟩
    · show s.kinds.eraseIdx x = _
      rw [hi.kinds, List.eraseIdx_map]
    · rw [← List.eraseIdx_map]; exact forall₂_erase hi.mat x
    · intro c hc; exact hi.wf c (List.mem_of_mem_eraseIdx hc)
    · refine rel_set (trel_change hi.workers ?_) t ⟨by simp, ?_, ?_, ?_⟩
      · intro n i m hm hn
        have hnx := hun n i m hm
        have hlt : x < s.shared.length := (List.getElem?_eq_some_iff.mp hx).1
        refine ⟨?_, take_eraseIdx hnx, take_eraseIdx hnx⟩
        rw [List.length_eraseIdx_of_lt hlt]; omega
      · rw [List.map_append]; exact forall₂_push h1 hav
      · intro c hc
        rcases List.mem_append.mp hc with hc | hc
        · exact h2 c hc
        · rw [List.mem_singleton.mp hc]; exact hi.wf v (List.mem_of_getElem? hv)
      · rw [List.map_append]; exact (h3.append_left _).trans hc.symm
    · exact hsep.reorder hp
    · intro c hc'
      exact hp.mem_iff.mp (List.mem_append_right _ (List.mem_append_left _ hc'))
    · intro a0 tr0 h
      refine .more h ?_
      have : numCrew (vs.eraseIdx x) (parts.set t (cell a v.value ++ F, bs ++ [v])) =
          ⟨(numCrew vs parts).shared.eraseIdx x,
            (numCrew vs parts).own.set t (bs.map WInt.num ++ [v.num])⟩ := by
        simp [numCrew, List.map_set, List.eraseIdx_map]
      rw [this]
      refine .reclaimed (tcrew_get hq) ?_
      show (vs.map WInt.num)[x]? = _
      rw [List.getElem?_map, hv]; rfl

theorem tcrew_inv (A : Growth) {s : TCrew} {tr : List TCEvent} (hs : TCrew.Steps A .start tr s) :
    ∃ vs parts, TCInv s vs parts ∧ NCrew.Steps .start tr (numCrew vs parts) := by
  generalize h0 : TCrew.start = s0 at hs
  induction hs with
  | none =>
    subst h0
    refine ⟨[], [([], [])], ⟨rfl, .nil, by simp, .cons ⟨rfl, .nil, by simp, .refl _⟩ .nil, ?_⟩, .none⟩
    exact canon_sep (F := []) (by simp)
  | more _ h ih =>
    obtain ⟨vs, parts, h1, h2⟩ := ih
    obtain ⟨vs', parts', h3, _, h4⟩ := tcrew_step A h1 h
    exact ⟨vs', parts', h3, h4 _ _ h2⟩

end Verif
