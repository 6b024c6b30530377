import Verif.Proof.TraceLen
import Verif.Proof.TraceRun

/-!
# How long the traces of programs are
-/

namespace Verif

open ApInt Watched

/-- The width asked for, if the call asks for one, is at most `W`. -/
def Trace.QUn.Within (W : Nat) : Trace.QUn → Prop
  | .truncate t => t.toUsize ≤ W
  | .zeroExtend t => t.toUsize ≤ W
  | .zeroResize t => t.toUsize ≤ W
  | _ => True

/-- The width asked for, if the call asks for one, is at most `W`. -/
def Trace.Quiet.Within (W : Nat) : Trace.Quiet → Prop
  | .un o _ => o.Within W
  | .intoUn o _ => o.Within W
  | _ => True

section
variable {a b : ApInt} {W : Nat}

theorem digits_le {t : BitWidth} (h : t.toUsize ≤ W) : t.requiredDigits ≤ (W + 63) / 64 := by
  rw [BitWidth.requiredDigits_eq]
  omega

theorem wrappingNeg_sees (h : a.WF) : Spans (Trace.wrappingNeg a) (5 * a.lenDigits + 4) := by
  unfold Trace.wrappingNeg
  refine (Spans.bind (M := 3 * a.lenDigits + 2) (mapClear_sees _) fun c hc => ?_).mono (by omega)
  change result (Trace.bitnot a) = _ at hc
  rw [result_bitnot] at hc
  obtain ⟨d, hd, _, hl, _⟩ := bitnot_ok h
  cases hc.symm.trans hd
  rw [show a.lenDigits = c.lenDigits by unfold lenDigits; rw [hl]]
  exact wrappingInc_sees

theorem done_sees {c : Watched ApInt} {N : Nat} (h : Spans c N) : Spans (Trace.done c) N :=
  Spans.bind (M := 0) h fun _ _ => Spans.pure

theorem fine_sees {c : Watched ApInt} {N : Nat} (h : Spans c N) : Spans (Trace.fine c) N :=
  Spans.bind (M := 0) h fun _ _ => Spans.pure

theorem into_sees {c : Watched (Res Unit × ApInt)} {N : Nat} (h : Spans c N) :
    Spans (Trace.into c) N := by
  refine Spans.bind (M := 0) h fun p _ => ?_
  rcases p with ⟨_ | _, _⟩ <;> exact Spans.ok

theorem unwrap_sees {c : Watched (Res ApInt)} {N : Nat} (h : Spans c N) : Spans (Trace.unwrap c) N :=
  Spans.bind (M := 0) h fun _ _ => Spans.lift

theorem unwrapMut_sees {c : Watched (Res Unit × ApInt)} {N : Nat} (h : Spans c N) :
    Spans (Trace.unwrapMut c) N :=
  Spans.bind (M := 0) h fun _ _ => Spans.bind (N := 0) (M := 0) Spans.lift fun _ _ => Spans.pure

theorem storeRes_sees {b : Bank} {x : Nat} {c : Watched (Res Unit × ApInt)} {N : Nat}
    (h : Spans c N) : Spans (Trace.storeRes b x c) N :=
  Spans.bind (M := 0) h fun _ _ => Spans.pure

theorem pushRes_sees {b : Bank} {c : Watched (Res ApInt)} {N : Nat} (h : Spans c N) :
    Spans (Trace.pushRes b c) N := by
  refine Spans.bind (M := 0) h fun r _ => ?_
  cases r <;> exact Spans.pure

theorem cloned_sees {α : Type} {f : ApInt → Watched α} {N M : Nat} (h : a.WF) (ha : a.w ≤ W)
    (hN : 2 * ((W + 63) / 64) + 1 + N ≤ M) (k : ∀ c, c.w ≤ W → Spans (f c) N) :
    Spans (Trace.clone a >>= f) M := by
  have hd : a.lenDigits ≤ (W + 63) / 64 := digits_le ha
  refine (Spans.bind clone_sees fun c hc => k c ?_).mono (by omega)
  rw [result_clone] at hc
  rw [clone_ok h.1] at hc
  cases hc
  exact ha

theorem un_sees (o : Trace.QUn) (ho : o.Within W) (ha : a.w ≤ W) :
    Spans (o.exec a) (6 * ((W + 63) / 64) + 5) := by
  have hd : a.lenDigits ≤ (W + 63) / 64 := digits_le ha
  cases o with
  | bitnot => exact done_sees ((mapClear_sees _).mono (by omega))
  | shl s => exact (wrappingShlAssign_sees s).mono (by omega)
  | lshr s => exact (wrappingLshrAssign_sees s).mono (by omega)
  | truncate t => exact (truncate_sees t).mono (by have := digits_le ho; omega)
  | zeroExtend t => exact (zeroExtend_sees t).mono (by have := digits_le ho; omega)
  | zeroResize t => exact done_sees ((zeroResize_sees t).mono (by have := digits_le ho; omega))

theorem alter_sees (o : Trace.QAlter) (ha : a.w ≤ W) :
    Spans (o.exec a) (2 * ((W + 63) / 64) + 2) := by
  have hd : a.lenDigits ≤ (W + 63) / 64 := digits_le ha
  cases o with
  | setAll => exact done_sees ((mapClear_sees _).mono (by omega))
  | unsetAll => exact done_sees ((modifyDigits_sees _).mono (by omega))
  | flipAll => exact done_sees ((mapClear_sees _).mono (by omega))
  | setMsb => exact done_sees ((modifyMsb_sees _).mono (by omega))
  | unsetMsb => exact done_sees ((modifyMsb_sees _).mono (by omega))
  | flipMsb => exact done_sees ((modifyMsb_sees _).mono (by omega))
  | setBit p => exact (modifyBitAt_sees _ _).mono (by omega)
  | unsetBit p => exact (modifyBitAt_sees _ _).mono (by omega)
  | flipBit p => exact (modifyBitAt_sees _ _).mono (by omega)

theorem bin_sees (o : Trace.QBin) (ha : a.w ≤ W) :
    Spans (o.exec a b) (3 * ((W + 63) / 64) + 2) := by
  have hd : a.lenDigits ≤ (W + 63) / 64 := digits_le ha
  cases o with
  | add => exact wrappingAddAssign_sees.mono (by omega)
  | sub => exact wrappingSubAssign_sees.mono (by omega)
  | and => exact (modifyZippedDigits_sees _).mono (by omega)
  | or => exact (modifyZippedDigits_sees _).mono (by omega)
  | xor => exact (modifyZippedDigits_sees _).mono (by omega)

theorem tell_sees {α : Type} {f : α → Out} {c : Watched α} {N : Nat} (h : Spans c N) :
    Spans (Trace.tell f c) N := Spans.bind (M := 0) h fun _ _ => Spans.pure

theorem ask_sees (q : Trace.QAsk) (ha : a.w ≤ W) : Spans (q.exec a) ((W + 63) / 64 + 1) := by
  have hd : a.lenDigits ≤ (W + 63) / 64 := digits_le ha
  cases q with
  | width => exact Spans.pure
  | isEven =>
    exact tell_sees ((Spans.bind (N := 1) (M := 0) (Spans.shown (by simp)) fun _ _ => Spans.pure).mono
      (by omega))
  | isOdd => exact tell_sees (Spans.shown (by simp))
  | msb => exact tell_sees (Spans.shown (by simp))
  | lsb => exact tell_sees (Spans.shown (by simp))
  | bit p =>
    refine (Spans.bind (M := 0) (getBitAt_sees p) fun r _ => ?_).mono (by omega)
    cases r <;> exact Spans.pure
  | countOnes => exact tell_sees (countOnes_sees.mono (by omega))
  | countZeros => exact tell_sees (countZeros_sees.mono (by omega))

theorem exec_sees (i : Trace.Quiet) (hi : i.Within W) {b : Bank} (hb : ∀ a ∈ b, a.WF ∧ a.w ≤ W) :
    Spans (i.exec b) (8 * ((W + 63) / 64) + 6) := by
  have one : ∀ (x : Nat) {f : ApInt → Watched (Res Out × Bank)},
      (∀ a, a.WF → a.w ≤ W → Spans (f a) (8 * ((W + 63) / 64) + 6)) →
      Spans (match b[x]? with | some a => f a | none => pure (.ok .unit, b))
        (8 * ((W + 63) / 64) + 6) := by
    intro x f h
    cases hx : b[x]? with
    | none => exact Spans.pure
    | some a =>
      have := hb a (List.mem_of_getElem? hx)
      exact h a this.1 this.2
  have two : ∀ (x y : Nat) {f : ApInt → ApInt → Watched (Res Out × Bank)},
      (∀ a c, a.WF → a.w ≤ W → c.w ≤ W → Spans (f a c) (8 * ((W + 63) / 64) + 6)) →
      Spans (match b[x]?, b[y]? with | some a, some c => f a c | _, _ => pure (.ok .unit, b))
        (8 * ((W + 63) / 64) + 6) := by
    intro x y f h
    cases hx : b[x]? with
    | none => exact Spans.pure
    | some a =>
      cases hy : b[y]? with
      | none => exact Spans.pure
      | some c =>
        have h1 := hb a (List.mem_of_getElem? hx)
        have h2 := hb c (List.mem_of_getElem? hy)
        exact h a c h1.1 h1.2 h2.2
  cases i with
  | clone x =>
    exact one x fun a _ ha => pushRes_sees (fine_sees (clone_sees.mono (by
      have : a.lenDigits ≤ (W + 63) / 64 := digits_le ha
      omega)))
  | drop x => exact Spans.pure
  | assign x y =>
    exact two x y fun a c _ ha hc => storeRes_sees (done_sees
      ((assign_sees (n := (W + 63) / 64) (digits_le ha) (digits_le hc)).mono (by omega)))
  | strictAssign x y =>
    exact two x y fun a c _ ha _ => storeRes_sees (strictAssign_sees.mono (by
      have : a.lenDigits ≤ (W + 63) / 64 := digits_le ha
      omega))
  | un o x => exact one x fun a _ ha => storeRes_sees ((un_sees o hi ha).mono (by omega))
  | intoUn o x =>
    exact one x fun a wa ha => pushRes_sees (cloned_sees wa ha (by omega) fun c hc =>
      into_sees (un_sees o hi hc))
  | alter o x => exact one x fun a _ ha => storeRes_sees ((alter_sees o ha).mono (by omega))
  | bin o x y => exact two x y fun a c _ ha _ => storeRes_sees ((bin_sees o ha).mono (by omega))
  | intoBin o x y =>
    exact two x y fun a c wa ha _ => pushRes_sees
      (cloned_sees (N := 3 * ((W + 63) / 64) + 2) wa ha (by omega) fun c hc =>
        into_sees (bin_sees o hc))
  | opAssign o x y =>
    exact two x y fun a c _ ha _ => storeRes_sees (done_sees (unwrapMut_sees
      ((bin_sees o ha).mono (by omega))))
  | op o x y =>
    exact two x y fun a c wa ha _ => pushRes_sees
      (cloned_sees (N := 3 * ((W + 63) / 64) + 2) wa ha (by omega) fun c hc =>
        fine_sees (unwrap_sees (into_sees (bin_sees o hc))))
  | opShlAssign s x =>
    exact one x fun a _ ha => storeRes_sees (done_sees (unwrapMut_sees
      ((wrappingShlAssign_sees s).mono (by
        have : a.lenDigits ≤ (W + 63) / 64 := digits_le ha
        omega))))
  | opShl s x =>
    exact one x fun a wa ha => pushRes_sees
      (cloned_sees (N := 4 * ((W + 63) / 64) + 2) wa ha (by omega) fun c hc =>
        fine_sees (unwrap_sees (into_sees ((wrappingShlAssign_sees s).mono (by
          have : c.lenDigits ≤ (W + 63) / 64 := digits_le hc
          omega)))))
  | ask q x =>
    exact one x fun a _ ha => (Spans.bind (M := 0) (ask_sees q ha) fun _ _ => Spans.pure).mono
      (by omega)

/-! ## Widths stay bounded -/

/-- All widths are at most `W`. -/
def Low (W : Nat) (s : ABank) : Prop := ∀ z ∈ s, z.width ≤ W

theorem Low.set {s : ABank} (h : Low W s) {z : AInt} (hz : z.width ≤ W) (x : Nat) :
    Low W (s.set x z) := by
  intro y hy
  rcases List.mem_or_eq_of_mem_set hy with hy | rfl
  · exact h y hy
  · exact hz

theorem Low.push {s : ABank} (h : Low W s) {r : Except AErr AInt}
    (hr : ∀ z, r = .ok z → z.width ≤ W) : Low W (ABank.push s r).2 := by
  cases r with
  | error e => exact h
  | ok z =>
    intro y hy
    change y ∈ s ++ [z] at hy
    rcases List.mem_append.1 hy with hy | hy
    · exact h y hy
    · rw [List.mem_singleton.1 hy]
      exact hr z rfl

theorem Low.store {s : ABank} (h : Low W s) {r : Except AErr AInt} (x : Nat)
    (hr : ∀ z, r = .ok z → z.width ≤ W) : Low W (ABank.store s x r).2 := by
  cases r with
  | error e => exact h
  | ok z => exact h.set (hr z rfl) x

theorem un_low (o : Trace.QUn) (ho : o.Within W) {a z : AInt} (ha : a.width ≤ W)
    (h : o.un.spec a = .ok z) : z.width ≤ W := by
  cases o with
  | bitnot => cases h; exact ha
  | shl s =>
    simp only [Trace.QUn.un, Un.spec] at h
    split at h <;> cases h
    exact ha
  | lshr s =>
    simp only [Trace.QUn.un, Un.spec] at h
    split at h <;> cases h
    exact ha
  | truncate t =>
    simp only [Trace.QUn.un, Un.spec] at h
    split at h <;> cases h
    exact ho
  | zeroExtend t =>
    simp only [Trace.QUn.un, Un.spec] at h
    split at h <;> cases h
    exact ho
  | zeroResize t => cases h; exact ho

theorem alter_low (o : Trace.QAlter) {a z : AInt} (ha : a.width ≤ W)
    (h : o.alter.spec a = .ok z) : z.width ≤ W := by
  cases o <;> simp only [Trace.QAlter.alter, Alter.spec] at h <;>
    first
      | (cases h; exact ha)
      | (split at h <;> cases h; exact ha)

theorem bin_low (o : Trace.QBin) {a c z : AInt} (ha : a.width ≤ W)
    (h : o.bin.spec a c = some (.ok z)) : z.width ≤ W := by
  cases o <;> simp only [Trace.QBin.bin, Bin.spec] at h <;> injection h with h <;>
    (split at h <;> cases h; exact ha)

theorem op_low (o : Trace.QBin) {a c z : AInt} (ha : a.width ≤ W)
    (h : o.op.spec a c = some z) : z.width ≤ W := by
  unfold Op.spec at h
  rw [show o.op.bin = o.bin by cases o <;> rfl] at h
  rcases hs : o.bin.spec a c with _ | (_ | y)
  · rw [hs] at h; cases h
  · rw [hs] at h; cases h
  · rw [hs] at h
    cases h
    exact bin_low o ha hs

theorem shl_low {s : Nat} {a z : AInt} (ha : a.width ≤ W)
    (h : okOnly (some ((Un.shl s).spec a)) = some z) : z.width ≤ W := by
  rcases hs : (Un.shl s).spec a with _ | y
  · rw [hs] at h; cases h
  · rw [hs] at h
    cases h
    exact un_low (.shl s) trivial ha hs

theorem spec_low (i : Trace.Quiet) (hi : i.Within W) {s s' : ABank} {r : Except AErr Out}
    (hs : Low W s) (h : i.instr.spec s = some (r, s')) : Low W s' := by
  have one : ∀ (x : Nat) {f : AInt → Option (Except AErr Out × ABank)},
      (∀ a, a.width ≤ W → ∀ r s', f a = some (r, s') → Low W s') →
      (match s[x]? with | some a => f a | none => some (.ok .unit, s)) = some (r, s') →
      Low W s' := by
    intro x f k h
    cases hx : s[x]? with
    | none => rw [hx] at h; cases h; exact hs
    | some a => rw [hx] at h; exact k a (hs a (List.mem_of_getElem? hx)) r s' h
  have two : ∀ (x y : Nat) {f : AInt → AInt → Option (Except AErr Out × ABank)},
      (∀ a c, a.width ≤ W → c.width ≤ W → ∀ r s', f a c = some (r, s') → Low W s') →
      (match s[x]?, s[y]? with | some a, some c => f a c | _, _ => some (.ok .unit, s)) =
        some (r, s') → Low W s' := by
    intro x y f k h
    cases hx : s[x]? with
    | none => rw [hx] at h; cases h; exact hs
    | some a =>
      cases hy : s[y]? with
      | none => rw [hx, hy] at h; cases h; exact hs
      | some c =>
        rw [hx, hy] at h
        exact k a c (hs a (List.mem_of_getElem? hx)) (hs c (List.mem_of_getElem? hy)) r s' h
  have map : ∀ {α : Type} {m : Option α} {f : α → Except AErr Out × ABank} {r : Except AErr Out}
      {s' : ABank}, (∀ v, m = some v → Low W (f v).2) → m.map f = some (r, s') → Low W s' := by
    intro α m f r s' k e
    cases m with
    | none => cases e
    | some v =>
      have := k v rfl
      injection e with e
      rw [e] at this
      exact this
  cases i with
  | clone x =>
    refine one x (fun a ha r s' e => ?_) h
    cases e
    exact Low.push (r := .ok a) hs fun z hz => by cases hz; exact ha
  | drop x =>
    cases h
    exact fun y hy => hs y (List.mem_of_mem_eraseIdx hy)
  | assign x y =>
    refine two x y (fun a c ha hc r s' e => ?_) h
    cases e
    exact Low.store (r := .ok c) hs x fun z hz => by cases hz; exact hc
  | strictAssign x y =>
    refine two x y (fun a c ha hc r s' e => ?_) h
    injection e with e
    rw [← show _ = s' from congrArg Prod.snd e]
    refine Low.store hs x fun z hz => ?_
    split at hz <;> cases hz
    exact hc
  | un o x =>
    refine one x (fun a ha r s' e => ?_) h
    injection e with e
    rw [← show _ = s' from congrArg Prod.snd e]
    exact Low.store hs x fun z hz => un_low o hi ha hz
  | intoUn o x =>
    refine one x (fun a ha r s' e => ?_) h
    injection e with e
    rw [← show _ = s' from congrArg Prod.snd e]
    exact Low.push hs fun z hz => un_low o hi ha hz
  | alter o x =>
    refine one x (fun a ha r s' e => ?_) h
    injection e with e
    rw [← show _ = s' from congrArg Prod.snd e]
    exact Low.store hs x fun z hz => alter_low o ha hz
  | bin o x y =>
    refine two x y (fun a c ha hc r s' e => map (fun v hv => ?_) e) h
    exact Low.store hs x fun z hz => bin_low o ha (by rw [hv, hz])
  | intoBin o x y =>
    refine two x y (fun a c ha hc r s' e => map (fun v hv => ?_) e) h
    exact Low.push hs fun z hz => bin_low o ha (by rw [hv, hz])
  | opAssign o x y =>
    refine two x y (fun a c ha hc r s' e => map (fun v hv => ?_) e) h
    exact Low.store hs x fun z hz => by cases hz; exact op_low o ha hv
  | op o x y =>
    refine two x y (fun a c ha hc r s' e => map (fun v hv => ?_) e) h
    exact Low.push hs fun z hz => by cases hz; exact op_low o ha hv
  | opShlAssign n x =>
    refine one x (fun a ha r s' e => map (fun v hv => ?_) e) h
    exact Low.store hs x fun z hz => by cases hz; exact shl_low ha hv
  | opShl n x =>
    refine one x (fun a ha r s' e => map (fun v hv => ?_) e) h
    exact Low.push hs fun z hz => by cases hz; exact shl_low ha hv
  | ask q x =>
    refine one x (fun a ha r s' e => map (fun v hv => ?_) e) h
    exact hs

theorem run_sees (p : List Trace.Quiet) (hp : ∀ i ∈ p, i.Within W) {b : Bank}
    (hb : ∀ a ∈ b, a.WF ∧ a.w ≤ W) :
    (Trace.run p b).2.2.length ≤ p.length * (8 * ((W + 63) / 64) + 6) := by
  induction p generalizing b with
  | nil => exact Nat.zero_le _
  | cons i p ih =>
    have hs := exec_sees i (hp i (by simp)) hb
    have h1 := result_exec i b
    unfold Trace.run
    rcases hc : i.exec b with e | ⟨⟨r, c⟩, s⟩
    · exact Nat.zero_le _
    · rw [hc] at h1
      have k := hs _ _ hc
      obtain ⟨g1, g2⟩ := exec_spec _ (fun a ha => (hb a ha).1) h1.symm
      have low : Low W (b.map ApInt.abs) := by
        intro z hz
        obtain ⟨a, ha, rfl⟩ := List.mem_map.1 hz
        exact (hb a ha).2
      have low' := spec_low i (hp i (by simp)) low g2
      have q := ih (fun j hj => hp j (by simp [hj])) (b := c) fun a ha =>
        ⟨g1 a ha, low' _ (List.mem_map.2 ⟨a, ha, rfl⟩)⟩
      change (s ++ (Trace.run p c).2.2).length ≤ _
      rw [List.length_append, List.length_cons, Nat.add_mul, Nat.one_mul]
      exact (Nat.add_le_add k q).trans (Nat.le_of_eq (Nat.add_comm _ _))

end

end Verif
