import Verif.Proof.TraceErase
import Verif.Proof.Access

/-!
# How long the traces are
-/

namespace Verif

open ApInt Watched

variable {α β σ : Type}

/-- At most `N` accesses and branches are seen. -/
def Spans (c : Watched α) (N : Nat) : Prop := ∀ x s, c = Except.ok (x, s) → s.length ≤ N

namespace Spans

theorem ok {x : α} {N : Nat} : Spans (Watched.ok x) N := by
  intro y s h
  cases h
  exact Nat.zero_le _

theorem pure {x : α} {N : Nat} : Spans (pure x : Watched α) N := ok

theorem error {e : Fault} {N : Nat} : Spans (Except.error e : Watched α) N := by
  intro y s h
  cases h

theorem mono {c : Watched α} {N M : Nat} (h : Spans c N) (hle : N ≤ M) : Spans c M :=
  fun x s e => Nat.le_trans (h x s e) hle

theorem shown {s : List Sight} {r : Run α} {N : Nat} (h : s.length ≤ N) : Spans (show' s r) N := by
  intro x t e
  cases r
  · cases e
  · cases e
    exact h

theorem note {s : List Sight} {N : Nat} (h : s.length ≤ N) : Spans (Watched.note s) N := by
  intro x t e
  cases e
  exact h

theorem lift {r : Run α} {N : Nat} : Spans (liftM r : Watched α) N := shown (Nat.zero_le _)

theorem bind {c : Watched α} {f : α → Watched β} {N M : Nat} (h : Spans c N)
    (k : ∀ x, result c = Except.ok x → Spans (f x) M) : Spans (c >>= f) (N + M) := by
  intro y u e
  rcases c with e' | ⟨x, s⟩
  · cases e
  · change Watched.bind _ _ = _ at e
    unfold Watched.bind at e
    dsimp only at e
    have hk := k x rfl
    rcases hf : f x with e' | ⟨z, t⟩
    · rw [hf] at e
      cases e
    · rw [hf] at e
      have h1 := h x s rfl
      have h2 := hk z t hf
      cases e
      rw [List.length_append]
      omega

theorem ite {p : Prop} [Decidable p] {c d : Watched α} {N : Nat} (h : p → Spans c N)
    (k : ¬p → Spans d N) : Spans (if p then c else d) N := by
  by_cases hp : p
  · rw [if_pos hp]
    exact h hp
  · rw [if_neg hp]
    exact k hp

theorem rd {o : Side} {l : List Digit} {i : Nat} : Spans (Trace.rd o l i) 1 := shown (Nat.le_refl _)

theorem wr {o : Side} {l : List Digit} {i : Nat} {v : Digit} : Spans (Trace.wr o l i v) 1 :=
  shown (Nat.le_refl _)

theorem loopUp {b : Nat → σ → Watched σ} {k : Nat} (h : ∀ i s, Spans (b i s) k) (n i : Nat) (s : σ) :
    Spans (Trace.loopUp b n i s) (k * n) := by
  induction n generalizing i s with
  | zero => exact ok
  | succ n ih =>
    unfold Trace.loopUp
    exact (bind (h i s) fun x _ => ih (i + 1) x).mono (by rw [Nat.mul_add]; omega)

theorem forRange {b : Nat → σ → Watched σ} {k : Nat} (h : ∀ i s, Spans (b i s) k) {lo hi : Nat}
    {s : σ} : Spans (Trace.forRange lo hi s b) (k * (hi - lo)) := loopUp h _ _ _

end Spans

section
variable {a b : ApInt} {n : Nat}

theorem lenDigits_pos (a : ApInt) : 0 < a.lenDigits := by
  unfold lenDigits
  rw [BitWidth.requiredDigits_eq]
  have := a.len.pos
  omega

theorem access_sees {f : Data → Watched α} {N : Nat} (h1 : ∀ d, Spans (f (.inl d)) N)
    (h2 : ∀ l, l.length = a.lenDigits → Spans (f (.ext l)) N) :
    Spans ((liftM a.accessData : Watched Data) >>= f) N := by
  refine (Spans.bind (N := 0) (M := N) Spans.lift fun d hd => ?_).mono (by omega)
  rw [result_lift] at hd
  cases d with
  | inl d => exact h1 d
  | ext l =>
    refine h2 l ?_
    unfold accessData at hd
    cases hs : a.storage with
    | inl =>
      rw [hs] at hd
      cases hr : a.readInl <;> rw [hr] at hd <;> cases hd
    | ext =>
      rw [hs] at hd
      unfold readExt at hd
      cases hdat : a.data with
      | inl d => rw [hdat] at hd; cases hd
      | ext m =>
        rw [hdat] at hd
        dsimp only at hd
        by_cases hm : m.length = a.lenDigits
        · rw [if_pos hm] at hd
          cases hd
          exact hm
        · rw [if_neg hm] at hd
          cases hd

theorem zip_sees {f : Res Zip → Watched α} {N : Nat} (h0 : ∀ e, Spans (f (.error e)) N)
    (h1 : ∀ x y, Spans (f (.ok (.inl x y))) N)
    (h2 : ∀ l r, l.length = a.lenDigits → Spans (f (.ok (.ext l r))) N) :
    Spans ((liftM (a.zipAccessData b) : Watched (Res Zip)) >>= f) N := by
  refine (Spans.bind (N := 0) (M := N) Spans.lift fun z hz => ?_).mono (by omega)
  rw [result_lift] at hz
  rcases z with e | (⟨x, y⟩ | ⟨l, r⟩)
  · exact h0 e
  · exact h1 x y
  · refine h2 l r ?_
    unfold zipAccessData at hz
    split at hz
    · cases hz
    · cases hs : a.storage with
      | inl =>
        rw [hs] at hz
        cases hr : a.readInl <;> rw [hr] at hz <;> try cases hz
        cases hr : b.readInl <;> rw [hr] at hz <;> cases hz
      | ext =>
        rw [hs] at hz
        cases hr : a.readExt with
        | error e => rw [hr] at hz; cases hz
        | ok m =>
          rw [hr] at hz
          have hm : m.length = a.lenDigits := by
            unfold readExt at hr
            cases hdat : a.data with
            | inl d => rw [hdat] at hr; cases hr
            | ext k =>
              rw [hdat] at hr
              dsimp only at hr
              by_cases hk : k.length = a.lenDigits
              · rw [if_pos hk] at hr
                cases hr
                exact hk
              · rw [if_neg hk] at hr
                cases hr
          cases hr' : b.readExt <;> rw [hr'] at hz <;> cases hz
          exact hm

theorem mapLoop_sees (f : Digit → Digit) (l : List Digit) (i : Nat) :
    Spans (Trace.mapLoop f i l) (2 * l.length) := by
  induction l generalizing i with
  | nil => exact Spans.ok
  | cons d l ih =>
    unfold Trace.mapLoop
    exact (Spans.bind (Spans.note (Nat.le_refl 2)) fun _ _ =>
      Spans.bind (ih (i + 1)) fun _ _ => Spans.ok (N := 0)).mono (by simp; omega)

theorem modifyDigits_sees (f : Digit → Digit) : Spans (Trace.modifyDigits a f) (2 * a.lenDigits) := by
  have := lenDigits_pos a
  unfold Trace.modifyDigits
  refine access_sees (fun d => ?_) fun l hl => ?_
  · exact (Spans.bind (Spans.note (Nat.le_refl 2)) fun _ _ => Spans.ok (N := 0)).mono (by omega)
  · exact (Spans.bind (mapLoop_sees f l 0) fun _ _ => Spans.ok (N := 0)).mono (by omega)

theorem zipLoop_sees (f : Digit → Digit → Digit) (l r : List Digit) (i : Nat) :
    Spans (Trace.zipLoop f i l r) (3 * l.length) := by
  induction l generalizing r i with
  | nil =>
    unfold Trace.zipLoop
    exact Spans.ok
  | cons d l ih =>
    cases r with
    | nil => exact Spans.ok
    | cons x r =>
      unfold Trace.zipLoop
      exact (Spans.bind (Spans.note (Nat.le_refl 3)) fun _ _ =>
        Spans.bind (ih r (i + 1)) fun _ _ => Spans.ok (N := 0)).mono (by simp; omega)

theorem modifyZippedDigits_sees (f : Digit → Digit → Digit) :
    Spans (Trace.modifyZippedDigits a b f) (3 * a.lenDigits) := by
  have := lenDigits_pos a
  unfold Trace.modifyZippedDigits
  refine zip_sees (fun _ => Spans.ok) (fun x y => ?_) fun l r hl => ?_
  · exact (Spans.bind (Spans.note (Nat.le_refl 3)) fun _ _ => Spans.ok (N := 0)).mono (by omega)
  · exact (Spans.bind (zipLoop_sees f l r 0) fun _ _ => Spans.ok (N := 0)).mono (by omega)

theorem clearUnusedBits_sees : Spans (Trace.clearUnusedBits a) 2 := by
  unfold Trace.clearUnusedBits
  cases a.width.excessBits with
  | none => exact Spans.ok
  | some x =>
    exact Spans.bind (N := 1) (M := 1) (Spans.shown (Nat.le_refl 1)) fun _ _ =>
      (Spans.bind (N := 0) (M := 1) Spans.lift fun _ _ =>
        Spans.bind (N := 1) (M := 0) (Spans.shown (Nat.le_refl 1)) fun _ _ =>
          Spans.bind (N := 0) (M := 0) Spans.lift fun _ _ => Spans.pure)

theorem mapClear_sees (f : Digit → Digit) :
    Spans (Trace.modifyDigits a f >>= Trace.clearUnusedBits) (2 * a.lenDigits + 2) :=
  Spans.bind (modifyDigits_sees f) fun _ _ => clearUnusedBits_sees

theorem getBitAt_sees (p : Nat) : Spans (Trace.getBitAt a p) 1 := by
  unfold Trace.getBitAt
  cases verifyBitAccess a.width p with
  | error e => exact Spans.ok
  | ok _ =>
    refine access_sees (fun d => ?_) fun l hl => ?_
    · exact Spans.bind (N := 1) (M := 0) (Spans.note (Nat.le_refl _)) fun _ _ => Spans.lift
    · exact Spans.bind (N := 1) (M := 0) Spans.rd fun _ _ => Spans.lift

theorem modifyBitAt_sees (p : Nat) (op : Digit → Nat → Run (Res Unit × Digit)) :
    Spans (Trace.modifyBitAt a p op) 2 := by
  unfold Trace.modifyBitAt
  cases verifyBitAccess a.width p with
  | error e => exact Spans.ok
  | ok _ =>
    refine access_sees (fun d => ?_) fun l hl => ?_
    · exact Spans.bind (N := 2) (M := 0) (Spans.shown (Nat.le_refl _)) fun _ _ => Spans.ok
    · exact Spans.bind (N := 1) (M := 1) Spans.rd fun _ _ =>
        Spans.bind (N := 0) (M := 1) Spans.lift fun _ _ =>
          Spans.bind (N := 1) (M := 0) Spans.wr fun _ _ => Spans.ok

theorem modifyMsb_sees (op : Digit → Nat → Run (Res Unit × Digit)) :
    Spans (Trace.modifyMsb a op) 2 := by
  unfold Trace.modifyMsb
  exact Spans.bind (N := 2) (M := 0) (modifyBitAt_sees _ _) fun _ _ =>
    Spans.bind (N := 0) (M := 0) Spans.lift fun _ _ => Spans.pure

theorem countOnes_sees : Spans (Trace.countOnes a) a.lenDigits := Spans.shown (by simp)

theorem countZeros_sees : Spans (Trace.countZeros a) a.lenDigits := Spans.shown (by simp)

theorem addDigits_sees (l r : List Digit) (hi : Nat) (h : 0 < hi) :
    Spans (Trace.addDigits l r hi) (3 * hi) := by
  unfold Trace.addDigits
  exact (Spans.bind (N := 1) Spans.rd fun _ _ => Spans.bind (N := 1) Spans.rd fun _ _ =>
    Spans.bind (N := 1) Spans.wr fun _ _ => Spans.forRange (k := 3) fun _ _ =>
      Spans.bind (N := 1) (M := 2) Spans.rd fun _ _ => Spans.bind (N := 1) (M := 1) Spans.rd fun _ _ =>
        Spans.bind (N := 1) (M := 0) Spans.wr fun _ _ => Spans.ok).mono (by omega)

theorem wrappingAddAssign_sees : Spans (Trace.wrappingAddAssign a b) (3 * a.lenDigits + 2) := by
  have := lenDigits_pos a
  have tail : ∀ x : ApInt, Spans (Trace.clearUnusedBits x >>= fun c =>
      (Watched.ok (.ok (), c) : Watched (Res Unit × ApInt))) 2 := fun x =>
    Spans.bind (M := 0) clearUnusedBits_sees fun _ _ => Spans.ok
  unfold Trace.wrappingAddAssign
  refine zip_sees (fun _ => Spans.ok) (fun x y => ?_) fun l r hl => ?_
  · exact (Spans.bind (Spans.note (Nat.le_refl 3)) fun _ _ => Spans.bind (N := 0) Spans.ok fun _ _ =>
      tail _).mono (by omega)
  · exact (Spans.bind (addDigits_sees l r l.length (by omega)) fun _ _ =>
      Spans.bind (N := 0) Spans.ok fun _ _ => tail _).mono (by omega)

theorem subDigits_sees (l r : List Digit) (h : 0 < l.length) :
    Spans (Trace.subDigits l r) (3 * l.length) := by
  unfold Trace.subDigits
  refine (Spans.bind (N := 1) (M := 2 + 3 * (l.length - 1)) Spans.rd fun _ _ =>
    (Spans.bind (N := 1) (M := 1 + 3 * (l.length - 1)) Spans.rd fun _ _ =>
    Spans.bind (N := 1) (M := 3 * (l.length - 1)) Spans.wr fun m hm => ?_).mono (by omega)).mono
      (by omega)
  rw [result_wr] at hm
  have hlen : m.length = l.length := by
    unfold upd at hm
    rw [if_pos h] at hm
    cases hm
    simp
  rw [← hlen]
  exact Spans.bind (M := 0) (Spans.forRange (k := 3) fun _ _ =>
      Spans.bind (N := 1) (M := 2) Spans.rd fun _ _ => Spans.bind (N := 1) (M := 1) Spans.rd fun _ _ =>
        Spans.bind (N := 1) (M := 0) Spans.wr fun _ _ => Spans.ok) fun _ _ => Spans.ok

theorem wrappingSubAssign_sees : Spans (Trace.wrappingSubAssign a b) (3 * a.lenDigits + 2) := by
  have := lenDigits_pos a
  have tail : ∀ x : ApInt, Spans (Trace.clearUnusedBits x >>= fun c =>
      (Watched.ok (.ok (), c) : Watched (Res Unit × ApInt))) 2 := fun x =>
    Spans.bind (M := 0) clearUnusedBits_sees fun _ _ => Spans.ok
  unfold Trace.wrappingSubAssign
  refine zip_sees (fun _ => Spans.ok) (fun x y => ?_) fun l r hl => ?_
  · exact (Spans.bind (Spans.note (Nat.le_refl 3)) fun _ _ => Spans.bind (N := 0) Spans.ok fun _ _ =>
      tail _).mono (by omega)
  · exact (Spans.bind (subDigits_sees l r (by omega)) fun _ _ =>
      Spans.bind (N := 0) Spans.ok fun _ _ => tail _).mono (by omega)

/-! ## Shifts -/

theorem copies_length (o p : Side) (i j n : Nat) : (Trace.copies o i p j n).length = 2 * n := by
  unfold Trace.copies
  induction n with
  | zero => rfl
  | succ n ih =>
    rw [List.range_succ, List.flatMap_append, List.length_append, ih]
    simp
    omega

theorem fills_length (o : Side) (i n : Nat) : (Trace.fills o i n).length = n := by
  unfold Trace.fills
  simp

theorem shlLoop_sees (s : Nat) (l : List Digit) (i : Nat) (c : Digit) :
    Spans (Trace.shlLoop s i l c) (2 * l.length) := by
  induction l generalizing i c with
  | nil => exact Spans.ok
  | cons d l ih =>
    unfold Trace.shlLoop
    exact (Spans.bind (Spans.note (Nat.le_refl 2)) fun _ _ => Spans.bind (N := 0) Spans.lift fun _ _ =>
      Spans.bind (N := 0) Spans.lift fun _ _ => Spans.bind (N := 0) Spans.lift fun _ _ =>
      Spans.bind (ih _ _) fun _ _ => Spans.ok (N := 0)).mono (by simp; omega)

theorem lshrLoop_sees (s : Nat) (l : List Digit) (c : Digit) :
    Spans (Trace.lshrLoop s l c) (2 * l.length) := by
  induction l generalizing c with
  | nil => exact Spans.ok
  | cons d l ih =>
    unfold Trace.lshrLoop
    exact (Spans.bind (Spans.note (Nat.le_refl 2)) fun _ _ => Spans.bind (N := 0) Spans.lift fun _ _ =>
      Spans.bind (N := 0) Spans.lift fun _ _ => Spans.bind (N := 0) Spans.lift fun _ _ =>
      Spans.bind (ih _) fun _ _ => Spans.ok (N := 0)).mono (by simp; omega)

theorem csub_le {x y z : Nat} (h : csub x y = .ok z) : z = x - y ∧ y ≤ x := by
  unfold csub at h
  split at h <;> cases h
  constructor <;> omega

theorem shlDigits_sees (l : List Digit) (s : Nat) : Spans (Trace.shlDigits l s) (4 * l.length) := by
  have tail : ∀ m : List Digit, m.length = l.length →
      Spans (if bitSteps s ≠ 0 then
        if m.length < digitSteps s then (liftM (Except.error .panic : Run (List Digit)) :
          Watched (List Digit))
        else do
          let hi ← Trace.shlLoop (bitSteps s) (digitSteps s) (m.drop (digitSteps s)) 0#64
          .ok (m.take (digitSteps s) ++ hi)
      else Watched.ok m) (2 * l.length) := by
    intro m hm
    refine Spans.ite (fun _ => Spans.ite (fun _ => Spans.lift) fun _ => ?_) fun _ => Spans.ok
    exact (Spans.bind (M := 0) (shlLoop_sees _ _ _ _) fun _ _ => Spans.ok).mono (by
      simp only [List.length_drop]
      omega)
  unfold Trace.shlDigits
  dsimp only
  refine Spans.ite (fun _ => ?_) fun _ => ?_
  · refine (Spans.bind (N := 0) (M := 4 * l.length) Spans.lift fun n hn => ?_).mono (by omega)
    rw [result_lift] at hn
    obtain ⟨hn, hle⟩ := csub_le hn
    refine (Spans.bind (N := 2 * l.length) (M := 2 * l.length)
      (Spans.note ?_) fun _ _ => ?_).mono (by omega)
    · rw [List.length_append, copies_length, fills_length]
      omega
    · refine (Spans.bind (N := 0) (M := 2 * l.length) Spans.ok fun m hm => tail m ?_).mono (by omega)
      cases hm
      simp
      omega
  · refine (Spans.bind (N := 0) (M := 2 * l.length) Spans.ok fun m hm => tail m ?_).mono (by omega)
    cases hm
    rfl

theorem wrappingShlAssign_sees (s : Nat) : Spans (Trace.wrappingShlAssign a s) (4 * a.lenDigits + 2) := by
  have := lenDigits_pos a
  have tail : ∀ x : ApInt, Spans (Trace.clearUnusedBits x >>= fun c =>
      (Watched.ok (.ok (), c) : Watched (Res Unit × ApInt))) 2 := fun x =>
    Spans.bind (M := 0) clearUnusedBits_sees fun _ _ => Spans.ok
  unfold Trace.wrappingShlAssign
  cases verifyShiftAmount a.width s with
  | error e => exact Spans.ok
  | ok _ =>
    refine access_sees (fun d => ?_) fun l hl => ?_
    · exact (Spans.bind (N := 2) (Spans.shown (by simp)) fun _ _ =>
        Spans.bind (N := 0) Spans.ok fun _ _ => tail _).mono (by omega)
    · exact (Spans.bind (shlDigits_sees l s) fun _ _ =>
        Spans.bind (N := 0) Spans.ok fun _ _ => tail _).mono (by omega)

theorem lshrDigits_sees (l : List Digit) (s : Nat) : Spans (Trace.lshrDigits l s) (4 * l.length) := by
  have tail : ∀ m : List Digit, m.length = l.length →
      Spans (if bitSteps s > 0 then do
          let r ← Trace.lshrLoop (bitSteps s) m.reverse 0#64
          .ok r.reverse
        else Watched.ok m) (2 * l.length) := by
    intro m hm
    refine Spans.ite (fun _ => ?_) fun _ => Spans.ok
    exact (Spans.bind (M := 0) (lshrLoop_sees _ _ _) fun _ _ => Spans.ok).mono (by
      simp only [List.length_reverse]
      omega)
  unfold Trace.lshrDigits
  dsimp only
  refine Spans.ite (fun _ => Spans.ite (fun _ => ?_) fun hle => ?_) fun _ => ?_
  · exact (Spans.bind (N := 0) (M := 0) Spans.lift fun n hn => by
      rw [result_lift] at hn; cases hn).mono (by omega)
  · refine (Spans.bind (N := 2 * l.length) (M := 2 * l.length)
      (Spans.note ?_) fun _ _ => ?_).mono (by omega)
    · rw [List.length_append, copies_length, fills_length]
      omega
    · refine (Spans.bind (N := 0) (M := 2 * l.length) Spans.ok fun m hm => tail m ?_).mono (by omega)
      cases hm
      simp
      omega
  · refine (Spans.bind (N := 0) (M := 2 * l.length) Spans.ok fun m hm => tail m ?_).mono (by omega)
    cases hm
    rfl

theorem wrappingLshrAssign_sees (s : Nat) : Spans (Trace.wrappingLshrAssign a s) (4 * a.lenDigits) := by
  have := lenDigits_pos a
  unfold Trace.wrappingLshrAssign
  cases verifyShiftAmount a.width s with
  | error e => exact Spans.ok
  | ok _ =>
    refine access_sees (fun d => ?_) fun l hl => ?_
    · exact (Spans.bind (N := 2) (Spans.shown (by simp)) fun _ _ =>
        Spans.bind (N := 0) (M := 0) Spans.ok fun _ _ => Spans.ok).mono (by omega)
    · exact (Spans.bind (lshrDigits_sees l s) fun _ _ =>
        Spans.bind (N := 0) (M := 0) Spans.ok fun _ _ => Spans.ok).mono (by omega)

theorem ashrDigits_sees (l : List Digit) (w ds bs : Nat) :
    Spans (Trace.ashrDigits l w ds bs) (5 * l.length + 4) := by
  have copy : ∀ (diff : Nat) (m : List Digit),
      Spans (Trace.forRange 0 ds m fun i x => do
          let a ← Trace.rd .self x (i + diff)
          Trace.wr .self x (i + diff) (Digit.setAll a)) (2 * (ds - 0)) := fun diff m =>
    Spans.forRange fun _ _ => Spans.bind (N := 1) (M := 1) Spans.rd fun _ _ => Spans.wr
  have upd_len : ∀ {x y : List Digit} {i : Nat} {v : Digit} {o : Side},
      result (Trace.wr o x i v) = Except.ok y → y.length = x.length := by
    intro x y i v o h
    rw [result_wr] at h
    unfold upd at h
    split at h
    · cases h
      simp
    · cases h
  have rest : ∀ (uns last : Nat) (x : List Digit), x.length = l.length → last = l.length - 1 →
      Spans (do
        let diff ← csub x.length ds
        if ds = 0 then do
          let x ← Trace.forRange 0 last x fun i x => do
            let a ← Trace.rd .self x i
            let b ← Trace.rd .self x (i + 1)
            Trace.wr .self x i (Digit.bitor (Digit.shr a bs) (Digit.shl b uns))
          let a ← Trace.rd .self x last
          Trace.wr .self x last (Digit.bitor (Digit.shr a bs) (Digit.shl Digit.ONES uns))
        else if bs = 0 then do
          let x ← Trace.forRange ds x.length x fun i x => do
            let a ← Trace.rd .self x i
            let j ← csub i ds
            Trace.wr .self x j a
          Trace.forRange 0 ds x fun i x => do
            let a ← Trace.rd .self x (i + diff)
            Trace.wr .self x (i + diff) (Digit.setAll a)
        else do
          let x ← Trace.forRange ds last x fun i x => do
            let a ← Trace.rd .self x i
            let b ← Trace.rd .self x (i + 1)
            let j ← csub i ds
            Trace.wr .self x j (Digit.bitor (Digit.shr a bs) (Digit.shl b uns))
          let a ← Trace.rd .self x last
          let j ← csub diff 1
          let x ← Trace.wr .self x j (Digit.bitor (Digit.shr a bs) (Digit.shl Digit.ONES uns))
          Trace.forRange 0 ds x fun i x => do
            let a ← Trace.rd .self x (i + diff)
            Trace.wr .self x (i + diff) (Digit.setAll a) : Watched (List Digit))
        (5 * l.length + 2) := by
    intro uns last x hx hlast
    refine (Spans.bind (N := 0) (M := 5 * l.length + 2) Spans.lift fun diff hd => ?_).mono (by omega)
    rw [result_lift] at hd
    obtain ⟨_, hle⟩ := csub_le hd
    refine Spans.ite (fun _ => ?_) fun _ => Spans.ite (fun _ => ?_) fun _ => ?_
    · exact (Spans.bind (M := 2) (Spans.forRange (k := 3) fun _ _ =>
        Spans.bind (N := 1) (M := 2) Spans.rd fun _ _ =>
          Spans.bind (N := 1) (M := 1) Spans.rd fun _ _ => Spans.wr) fun _ _ =>
        Spans.bind (N := 1) (M := 1) Spans.rd fun _ _ => Spans.wr).mono (by omega)
    · exact (Spans.bind (Spans.forRange (k := 2) fun _ _ =>
        Spans.bind (N := 1) (M := 1) Spans.rd fun _ _ =>
          Spans.bind (N := 0) (M := 1) Spans.lift fun _ _ => Spans.wr) fun x _ =>
        copy diff x).mono (by omega)
    · exact (Spans.bind (Spans.forRange (k := 3) fun _ _ =>
        Spans.bind (N := 1) (M := 2) Spans.rd fun _ _ =>
          Spans.bind (N := 1) (M := 1) Spans.rd fun _ _ =>
          Spans.bind (N := 0) (M := 1) Spans.lift fun _ _ => Spans.wr) fun x _ =>
        Spans.bind (N := 1) Spans.rd fun _ _ => Spans.bind (N := 0) Spans.lift fun _ _ =>
        Spans.bind (N := 1) Spans.wr fun x _ => copy diff x).mono (by omega)
  unfold Trace.ashrDigits
  refine (Spans.bind (N := 0) (M := 5 * l.length + 4) Spans.lift fun uns _ => ?_).mono (by omega)
  refine (Spans.bind (N := 0) (M := 5 * l.length + 4) Spans.lift fun last hl => ?_).mono (by omega)
  rw [result_lift] at hl
  obtain ⟨hl, _⟩ := csub_le hl
  refine Spans.ite (fun _ => ?_) fun _ => ?_
  · refine (Spans.bind (N := 1) (M := 5 * l.length + 3) Spans.rd fun _ _ => ?_).mono (by omega)
    refine (Spans.bind (N := 0) (M := 5 * l.length + 3) Spans.lift fun _ _ => ?_).mono (by omega)
    refine (Spans.bind (N := 0) (M := 5 * l.length + 3) Spans.lift fun _ _ => ?_).mono (by omega)
    refine (Spans.bind (N := 0) (M := 5 * l.length + 3) Spans.lift fun _ _ => ?_).mono (by omega)
    exact (Spans.bind (N := 1) Spans.wr fun x hx => rest uns last x (upd_len hx) hl).mono (by omega)
  · refine (Spans.bind (N := 0) Spans.ok fun x hx => rest uns last x ?_ hl).mono (by omega)
    cases hx
    rfl

theorem wrappingAshrAssign_sees (s : Nat) :
    Spans (Trace.wrappingAshrAssign a s) (5 * a.lenDigits + 8) := by
  have := lenDigits_pos a
  have tail : ∀ x : ApInt, Spans (Trace.clearUnusedBits x >>= fun c =>
      (Watched.ok (.ok (), c) : Watched (Res Unit × ApInt))) 2 := fun x =>
    Spans.bind (M := 0) clearUnusedBits_sees fun _ _ => Spans.ok
  unfold Trace.wrappingAshrAssign
  refine (Spans.bind (N := 1) (M := 5 * a.lenDigits + 7) (Spans.shown (by simp)) fun m _ => ?_).mono
    (by omega)
  refine (Spans.bind (N := 1) (M := 5 * a.lenDigits + 6) (Spans.note (by simp)) fun _ _ => ?_).mono
    (by omega)
  refine Spans.ite (fun _ => (wrappingLshrAssign_sees s).mono (by omega)) fun _ => ?_
  cases verifyShiftAmount a.width s with
  | error e => exact Spans.ok
  | ok _ =>
    refine Spans.ite (fun _ => Spans.ok) fun _ => ?_
    refine access_sees (fun d => ?_) fun l hl => ?_
    · exact (Spans.bind (N := 2) (Spans.note (by simp)) fun _ _ =>
        Spans.bind (N := 0) Spans.lift fun _ _ =>
        Spans.bind (N := 0) Spans.ok fun _ _ => tail _).mono (by omega)
    · exact (Spans.bind (ashrDigits_sees l _ _ _) fun _ _ =>
        Spans.bind (N := 0) Spans.ok fun _ _ => tail _).mono (by omega)

/-! ## Copies and changes of the width -/

theorem clone_sees : Spans (Trace.clone a) (2 * a.lenDigits + 1) := by
  unfold Trace.clone
  cases a.storage
  · exact Spans.shown (by simp)
  · exact Spans.shown (by simp [copies_length])

theorem assign_sees (ha : a.lenDigits ≤ n) (hb : b.lenDigits ≤ n) :
    Spans (Trace.assign a b) (2 * n + 1) := by
  unfold Trace.assign
  refine Spans.ite (fun _ => Spans.shown (by rw [copies_length]; omega)) fun _ => ?_
  cases b.storage
  · exact Spans.shown (by simp)
  · exact Spans.shown (by rw [List.length_cons, copies_length]; omega)

theorem strictAssign_sees : Spans (Trace.strictAssign a b) (2 * a.lenDigits) := by
  unfold Trace.strictAssign
  exact Spans.ite (fun _ => Spans.ok) fun _ => Spans.shown (by rw [copies_length])

theorem collect_sees (m k : Nat) (l : List Digit) : Spans (Trace.collect m k l) (2 * m + k + 1) :=
  Spans.shown (by rw [List.length_cons, List.length_append, copies_length, fills_length])

theorem truncateAux_sees (t : BitWidth) (f : Nat) (a : ApInt) :
    Spans (Trace.truncateAux f a t) (f * (2 * t.requiredDigits + 1) + 2) := by
  induction f generalizing a with
  | zero => exact Spans.lift
  | succ f ih =>
    unfold Trace.truncateAux
    dsimp only
    refine Spans.ite (fun _ => Spans.ok) fun _ => Spans.ite (fun _ => Spans.ok) fun _ =>
      Spans.ite (fun _ => (Spans.shown (by simp) : Spans (Trace.truncateSameDigits a t) 2).mono
        (by omega)) fun _ => ?_
    refine (Spans.bind (N := 0) Spans.lift fun ds _ => Spans.bind (collect_sees _ _ _) fun r _ =>
      Spans.bind (N := 0) (M := f * (2 * t.requiredDigits + 1) + 2) Spans.lift fun c _ => ?_).mono (by
        rw [Nat.add_mul]; omega)
    refine Spans.ite (fun _ => ?_) fun _ => Spans.ok
    refine (Spans.bind (M := 0) (ih c) fun p _ => ?_).mono (by omega)
    rcases p with ⟨_ | _, _⟩ <;> exact Spans.ok

theorem truncate_sees (t : BitWidth) : Spans (Trace.truncate a t) (4 * t.requiredDigits + 4) :=
  (truncateAux_sees t 2 a).mono (by omega)

theorem intoTruncate_sees (t : BitWidth) : Spans (Trace.intoTruncate a t) (4 * t.requiredDigits + 4) := by
  unfold Trace.intoTruncate
  refine Spans.bind (M := 0) (truncate_sees t) fun p _ => ?_
  rcases p with ⟨_ | _, _⟩ <;> exact Spans.ok

theorem zeroExtend_sees (t : BitWidth) : Spans (Trace.zeroExtend a t) (6 * t.requiredDigits + 5) := by
  unfold Trace.zeroExtend
  dsimp only
  refine Spans.ite (fun _ => Spans.ok) fun _ => Spans.ite (fun _ => Spans.ok) fun _ =>
    Spans.ite (fun _ => Spans.ok) fun _ => Spans.ite (fun _ => Spans.lift) fun _ => ?_
  refine (Spans.bind (N := 0) (M := 6 * t.requiredDigits + 5) Spans.lift fun m hm => ?_).mono (by omega)
  rw [result_lift] at hm
  obtain ⟨hm, _⟩ := csub_le hm
  refine (Spans.bind (N := 0) (M := 6 * t.requiredDigits + 5) Spans.lift fun ds _ => ?_).mono (by omega)
  refine (Spans.bind (M := 4 * t.requiredDigits + 4) (collect_sees _ _ _) fun r _ => ?_).mono (by omega)
  cases r with
  | error e => exact Spans.ok
  | ok c =>
    refine Spans.bind (M := 0) (intoTruncate_sees t) fun r _ => ?_
    cases r <;> exact Spans.ok

theorem zeroResize_sees (t : BitWidth) : Spans (Trace.zeroResize a t) (6 * t.requiredDigits + 5) := by
  unfold Trace.zeroResize
  refine Spans.ite (fun _ => ?_) fun _ => ?_
  · exact (Spans.bind (truncate_sees t) fun _ _ =>
      Spans.bind (N := 0) (M := 0) Spans.lift fun _ _ => Spans.pure).mono (by omega)
  · exact (Spans.bind (zeroExtend_sees t) fun _ _ =>
      Spans.bind (N := 0) (M := 0) Spans.lift fun _ _ => Spans.pure).mono (by omega)

theorem signExtendMsd_sees (w : BitWidth) : Spans (Trace.signExtendMsd a w) 2 := by
  unfold Trace.signExtendMsd
  cases w.excessWidth with
  | none => exact Spans.ok
  | some x =>
    exact Spans.bind (N := 1) (M := 1) (Spans.shown (by simp)) fun _ _ =>
      Spans.bind (N := 0) (M := 1) Spans.lift fun _ _ =>
        Spans.bind (N := 1) (M := 0) (Spans.shown (by simp)) fun _ _ => Spans.ok

theorem signExtend_sees (t : BitWidth) : Spans (Trace.signExtend a t) (6 * t.requiredDigits + 11) := by
  unfold Trace.signExtend
  dsimp only
  refine Spans.ite (fun _ => Spans.ok) fun _ => Spans.ite (fun _ => Spans.ok) fun _ => ?_
  refine (Spans.bind (N := 1) (M := 6 * t.requiredDigits + 10) (Spans.shown (by simp))
    fun m _ => ?_).mono (by omega)
  refine (Spans.bind (N := 1) (M := 6 * t.requiredDigits + 9) (Spans.note (by simp))
    fun _ _ => ?_).mono (by omega)
  refine Spans.ite (fun _ => (zeroExtend_sees t).mono (by omega)) fun _ => ?_
  refine Spans.ite (fun _ => ?_) fun _ => Spans.ite (fun _ => Spans.lift) fun _ => ?_
  · refine (Spans.bind (M := 2) (signExtendMsd_sees _) fun p _ => ?_).mono (by omega)
    rcases p with ⟨_ | _, c⟩
    · exact Spans.ok
    · exact Spans.bind (M := 0) clearUnusedBits_sees fun _ _ => Spans.ok
  · refine (Spans.bind (N := 0) (M := 6 * t.requiredDigits + 9) Spans.lift fun m hm => ?_).mono
      (by omega)
    rw [result_lift] at hm
    obtain ⟨hm, _⟩ := csub_le hm
    refine (Spans.bind (M := 6 * t.requiredDigits + 7) (signExtendMsd_sees _) fun p _ => ?_).mono
      (by omega)
    rcases p with ⟨_ | _, c⟩
    · exact Spans.ok
    · refine (Spans.bind (N := 0) (M := 6 * t.requiredDigits + 7) Spans.lift fun ds _ => ?_).mono
        (by omega)
      refine (Spans.bind (M := 4 * t.requiredDigits + 6) (collect_sees _ _ _) fun r _ => ?_).mono
        (by omega)
      cases r with
      | error e => exact Spans.ok
      | ok c =>
        refine Spans.bind (M := 2) (intoTruncate_sees t) fun r _ => ?_
        cases r with
        | error e => exact Spans.ok
        | ok c => exact Spans.bind (M := 0) clearUnusedBits_sees fun _ _ => Spans.ok

/-! ## Calls that show something -/

theorem incLoop_sees (l : List Digit) (i : Nat) : Spans (Trace.incLoop i l) (3 * l.length) := by
  induction l generalizing i with
  | nil => exact Spans.ok
  | cons d l ih =>
    unfold Trace.incLoop
    refine (Spans.bind (N := 3) (M := 3 * l.length) (Spans.note (by simp)) fun _ _ => ?_).mono (by
      simp; omega)
    rcases Digit.overflowingAdd d Digit.ONE with ⟨v, _ | _⟩
    · exact Spans.ok
    · exact Spans.bind (M := 0) (ih _) fun _ _ => Spans.ok

theorem decLoop_sees (l : List Digit) (i : Nat) : Spans (Trace.decLoop i l) (3 * l.length) := by
  induction l generalizing i with
  | nil => exact Spans.ok
  | cons d l ih =>
    unfold Trace.decLoop
    refine (Spans.bind (N := 3) (M := 3 * l.length) (Spans.note (by simp)) fun _ _ => ?_).mono (by
      simp; omega)
    rcases Digit.overflowingSub d Digit.ONE with ⟨v, _ | _⟩
    · exact Spans.ok
    · exact Spans.bind (M := 0) (ih _) fun _ _ => Spans.ok

theorem wrappingInc_sees : Spans (Trace.wrappingInc a) (3 * a.lenDigits + 2) := by
  have := lenDigits_pos a
  unfold Trace.wrappingInc
  refine access_sees (fun d => ?_) fun l hl => ?_
  · exact (Spans.bind (N := 2) (Spans.note (by simp)) fun _ _ => Spans.bind (N := 0) Spans.ok fun _ _ =>
      clearUnusedBits_sees).mono (by omega)
  · exact (Spans.bind (incLoop_sees l 0) fun _ _ => Spans.bind (N := 0) Spans.ok fun _ _ =>
      clearUnusedBits_sees).mono (by omega)

theorem wrappingDec_sees : Spans (Trace.wrappingDec a) (3 * a.lenDigits + 2) := by
  have := lenDigits_pos a
  unfold Trace.wrappingDec
  refine access_sees (fun d => ?_) fun l hl => ?_
  · exact (Spans.bind (N := 2) (Spans.note (by simp)) fun _ _ => Spans.bind (N := 0) Spans.ok fun _ _ =>
      clearUnusedBits_sees).mono (by omega)
  · exact (Spans.bind (decLoop_sees l 0) fun _ _ => Spans.bind (N := 0) Spans.ok fun _ _ =>
      clearUnusedBits_sees).mono (by omega)

theorem zeroLoop_sees (l : List Digit) (i : Nat) : Spans (Trace.zeroLoop i l) (2 * l.length) := by
  induction l generalizing i with
  | nil => exact Spans.ok
  | cons d l ih =>
    unfold Trace.zeroLoop
    exact (Spans.bind (N := 2) (M := 2 * l.length) (Spans.note (by simp)) fun _ _ =>
      Spans.ite (fun _ => ih _) fun _ => Spans.ok).mono (by simp; omega)

theorem isZero_sees : Spans (Trace.isZero a) (2 * a.lenDigits) := by
  have := lenDigits_pos a
  unfold Trace.isZero
  refine access_sees (fun d => ?_) fun l hl => ?_
  · exact (Spans.bind (N := 1) (M := 0) (Spans.note (by simp)) fun _ _ => Spans.ok).mono (by omega)
  · exact (zeroLoop_sees l 0).mono (by omega)

theorem ultLoop_sees (z : List (Digit × Digit)) : Spans (Trace.ultLoop z) (4 * z.length) := by
  induction z with
  | nil => exact Spans.ok
  | cons p z ih =>
    obtain ⟨l, r⟩ := p
    unfold Trace.ultLoop
    exact (Spans.bind (N := 3) (M := 4 * z.length + 1) (Spans.note (by simp)) fun _ _ =>
      Spans.ite (fun _ => Spans.ok) fun _ =>
        (Spans.bind (N := 1) (M := 4 * z.length) (Spans.note (by simp)) fun _ _ =>
          Spans.ite (fun _ => Spans.ok) fun _ => ih).mono (by omega)).mono (by simp; omega)

theorem checkedUlt_sees : Spans (Trace.checkedUlt a b) (4 * a.lenDigits) := by
  have := lenDigits_pos a
  unfold Trace.checkedUlt
  refine zip_sees (fun _ => Spans.ok) (fun x y => ?_) fun l r hl => ?_
  · exact (Spans.bind (N := 2) (M := 0) (Spans.note (by simp)) fun _ _ => Spans.ok).mono (by omega)
  · exact (Spans.bind (M := 0) (ultLoop_sees _) fun _ _ => Spans.ok).mono (by
      simp only [List.length_zip, List.length_reverse]
      omega)

end

end Verif
