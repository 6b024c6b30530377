import Verif.Proof.WorkProgram

/-!
# The work of whole programs
-/

namespace Verif

open ApInt Counted

section
variable {W : Nat}

theorem un_within (o : Un) (ho : o.Within W) {a z : AInt} (ha : a.width ≤ W)
    (h : o.spec a = .ok z) : z.width ≤ W := by
  cases o <;> simp only [Un.spec] at h <;>
    first
      | (cases h; exact ha)
      | (cases h; exact ho)
      | (split at h <;> cases h; exact ha)
      | (split at h <;> cases h; exact ho)

theorem alter_within (o : Alter) {a z : AInt} (ha : a.width ≤ W)
    (h : o.spec a = .ok z) : z.width ≤ W := by
  cases o <;> simp only [Alter.spec] at h <;>
    first
      | (cases h; exact ha)
      | (split at h <;> cases h; exact ha)

theorem bin_within (o : Bin) {a c z : AInt} (ha : a.width ≤ W)
    (h : o.spec a c = some (.ok z)) : z.width ≤ W := by
  cases o <;> simp only [Bin.spec] at h <;> (repeat' split at h) <;> cases h <;> exact ha

theorem pair_within (o : Pair) {a c z z' : AInt} (ha : a.width ≤ W)
    (h : o.spec a c = some (.ok (z, z'))) : z.width ≤ W ∧ z'.width ≤ W := by
  cases o <;> simp only [Pair.spec] at h <;> (repeat' split at h) <;> cases h <;> exact ⟨ha, ha⟩

theorem op_within (o : Op) {a c z : AInt} (ha : a.width ≤ W) (h : o.spec a c = some z) :
    z.width ≤ W := by
  unfold Op.spec at h
  rcases hs : o.bin.spec a c with _ | (_ | y)
  · rw [hs] at h; cases h
  · rw [hs] at h; cases h
  · rw [hs] at h
    cases h
    exact bin_within o.bin ha hs

theorem spec_within (i : Instr) (hi : i.Within W) {s s' : ABank} {r : Except AErr Out}
    (hs : Low W s) (h : i.spec s = some (r, s')) : Low W s' := by
  have one : ∀ (x : Nat) {f : AInt → Option (Except AErr Out × ABank)},
      (∀ a, a.width ≤ W → ∀ r s', f a = some (r, s') → Low W s') →
      (match s[x]? with | some a => f a | none => some (.ok .unit, s)) = some (r, s') →
      Low W s' := by
    intro x f k h
    cases hx : s[x]? with
    | none => rw [hx] at h; cases h; exact hs
    | some a => rw [hx] at h; exact k a (hs a (List.mem_of_getElem? hx)) r s' h
  have two : ∀ (x y : Nat) {f : AInt → AInt → Option (Except AErr Out × ABank)},
      (∀ a c, a.width ≤ W → c.width ≤ W → ∀ r s', f a c = some (r, s') → Low W s') →
      (match s[x]?, s[y]? with | some a, some c => f a c | _, _ => some (.ok .unit, s)) =
        some (r, s') → Low W s' := by
    intro x y f k h
    cases hx : s[x]? with
    | none => rw [hx] at h; cases h; exact hs
    | some a =>
      cases hy : s[y]? with
      | none => rw [hx, hy] at h; cases h; exact hs
      | some c =>
        rw [hx, hy] at h
        exact k a c (hs a (List.mem_of_getElem? hx)) (hs c (List.mem_of_getElem? hy)) r s' h
  have map : ∀ {α : Type} {m : Option α} {f : α → Except AErr Out × ABank} {r : Except AErr Out}
      {s' : ABank}, (∀ v, m = some v → Low W (f v).2) → m.map f = some (r, s') → Low W s' := by
    intro α m f r s' k e
    cases m with
    | none => cases e
    | some v =>
      have := k v rfl
      injection e with e
      rw [e] at this
      exact this
  cases i with
  | make m =>
    injection h with h
    rw [← show _ = s' from congrArg Prod.snd h]
    exact Low.push hs hi
  | clone x =>
    refine one x (fun a ha r s' e => ?_) h
    cases e
    exact Low.push (r := .ok a) hs fun z hz => by cases hz; exact ha
  | drop x =>
    cases h
    exact fun y hy => hs y (List.mem_of_mem_eraseIdx hy)
  | assign x y =>
    refine two x y (fun a c ha hc r s' e => ?_) h
    cases e
    exact Low.store (r := .ok c) hs x fun z hz => by cases hz; exact hc
  | strictAssign x y =>
    refine two x y (fun a c ha hc r s' e => ?_) h
    injection e with e
    rw [← show _ = s' from congrArg Prod.snd e]
    refine Low.store hs x fun z hz => ?_
    split at hz <;> cases hz
    exact hc
  | un o x =>
    refine one x (fun a ha r s' e => ?_) h
    injection e with e
    rw [← show _ = s' from congrArg Prod.snd e]
    exact Low.store hs x fun z hz => un_within o hi ha hz
  | intoUn o x =>
    refine one x (fun a ha r s' e => ?_) h
    injection e with e
    rw [← show _ = s' from congrArg Prod.snd e]
    exact Low.push hs fun z hz => un_within o hi ha hz
  | alter o x =>
    refine one x (fun a ha r s' e => ?_) h
    injection e with e
    rw [← show _ = s' from congrArg Prod.snd e]
    exact Low.store hs x fun z hz => alter_within o ha hz
  | bin o x y =>
    refine two x y (fun a c ha hc r s' e => map (fun v hv => ?_) e) h
    exact Low.store hs x fun z hz => bin_within o ha (by rw [hv, hz])
  | intoBin o x y =>
    refine two x y (fun a c ha hc r s' e => map (fun v hv => ?_) e) h
    exact Low.push hs fun z hz => bin_within o ha (by rw [hv, hz])
  | opAssign o x y =>
    refine two x y (fun a c ha hc r s' e => map (fun v hv => ?_) e) h
    exact Low.store hs x fun z hz => by cases hz; exact op_within o ha hv
  | op o x y =>
    refine two x y (fun a c ha hc r s' e => map (fun v hv => ?_) e) h
    exact Low.push hs fun z hz => by cases hz; exact op_within o ha hv
  | opShlAssign n x =>
    refine one x (fun a ha r s' e => map (fun v hv => ?_) e) h
    exact Low.store hs x fun z hz => by cases hz; exact shl_low ha hv
  | opShl n x =>
    refine one x (fun a ha r s' e => map (fun v hv => ?_) e) h
    exact Low.push hs fun z hz => by cases hz; exact shl_low ha hv
  | pair o x y =>
    refine two x y (fun a c ha hc r s' e => map (fun v hv => ?_) e) h
    rcases v with e | ⟨z, z'⟩
    · exact hs
    · obtain ⟨h1, h2⟩ := pair_within o ha hv
      exact (Low.set hs h1 x).set h2 y
  | ask q x =>
    refine one x (fun a ha r s' e => map (fun v hv => ?_) e) h
    exact hs
  | ask2 q x y =>
    refine two x y (fun a c ha hc r s' e => ?_) h
    cases e
    exact hs

theorem exec_within (i : Instr) (hi : i.Within W) {b c : Bank} {r : Res Out}
    (hb : ∀ a ∈ b, a.WF ∧ a.w ≤ W) (h : i.exec b = .ok (r, c)) : ∀ a ∈ c, a.WF ∧ a.w ≤ W := by
  obtain ⟨g1, g2⟩ := exec_spec i (fun a ha => (hb a ha).1) h
  have low : Low W (b.map ApInt.abs) := by
    intro z hz
    obtain ⟨a, ha, rfl⟩ := List.mem_map.1 hz
    exact (hb a ha).2
  have low' := spec_within i hi low g2
  exact fun a ha => ⟨g1 a ha, low' _ (List.mem_map.2 ⟨a, ha, rfl⟩)⟩

theorem run_bnd (p : List Instr) (hp : ∀ i ∈ p, i.Within W) {b : Bank}
    (hb : ∀ a ∈ b, a.WF ∧ a.w ≤ W) :
    (Count.run p b).1 = (run p b).1 ∧ (Count.run p b).2.1 = (run p b).2 ∧
    (Count.run p b).2.2 ≤ (p.map (Instr.mayTouch ((W + 63) / 64))).sum := by
  induction p generalizing b with
  | nil => exact ⟨rfl, rfl, Nat.le_refl _⟩
  | cons i p ih =>
    have hs := exec_bnd i (hp i (by simp)) hb
    unfold Count.run run
    rcases hc : i.exec b with e | ⟨r, c⟩
    · rw [hs.1 e hc]
      exact ⟨rfl, rfl, Nat.zero_le _⟩
    · obtain ⟨k, h1, h2⟩ := hs.2 _ hc
      rw [h1]
      obtain ⟨q1, q2, q3⟩ := ih (fun j hj => hp j (by simp [hj]))
        (exec_within i (hp i (by simp)) hb hc)
      refine ⟨congrArg (r :: ·) q1, q2, ?_⟩
      rw [List.map_cons, List.sum_cons]
      exact Nat.add_le_add h2 q3

end

end Verif
