import Verif.Proof.Trace
import Verif.Proof.Counts

/-!
# Integers of the same width: the same trace
-/

namespace Verif

open ApInt Watched

/-- The same kind of storage, with the same number of digits. -/
def SameData : Data → Data → Prop
  | .inl _, .inl _ => True
  | .ext l, .ext l' => l.length = l'.length
  | _, _ => False

/-- The same width and the same storage; the digits may differ. -/
def Alike (a a' : ApInt) : Prop := a.len = a'.len ∧ SameData a.data a'.data

/-- Both are errors, the same, or both are answers, perhaps different ones. -/
def SameKind {α β : Type} (R : α → β → Prop) : Res α → Res β → Prop
  | .ok a, .ok b => R a b
  | .error e, .error e' => e = e'
  | _, _ => False

/-- The pairs of digits have the same shape. -/
def SameZip : Zip → Zip → Prop
  | .inl _ _, .inl _ _ => True
  | .ext l r, .ext l' r' => l.length = l'.length ∧ r.length = r'.length
  | _, _ => False

/-- The same answer, and integers alike left behind. -/
def LeftAlike (p p' : Res Unit × ApInt) : Prop := p.1 = p'.1 ∧ Alike p.2 p'.2

namespace Alike

variable {a a' b b' : ApInt}

theorem withInl (h : Alike a a') (d d' : Digit) :
    Alike { a with data := .inl d } { a' with data := .inl d' } := ⟨h.1, trivial⟩

theorem withExt (h : Alike a a') {l l' : List Digit} (hl : l.length = l'.length) :
    Alike { a with data := .ext l } { a' with data := .ext l' } := ⟨h.1, hl⟩

theorem withLen (h : Alike a a') (w : BitWidth) : Alike { a with len := w } { a' with len := w } :=
  ⟨rfl, h.2⟩

theorem lenDigits (h : Alike a a') : a.lenDigits = a'.lenDigits := by
  unfold ApInt.lenDigits
  rw [h.1]

theorem storage (h : Alike a a') : a.storage = a'.storage := by
  unfold ApInt.storage
  rw [h.1]

theorem width (h : Alike a a') : a.width = a'.width := h.1

theorem top (h : Alike a a') : Trace.top a = Trace.top a' := by
  unfold Trace.top
  rw [h.lenDigits]

theorem readInl (h : Alike a a') : Both a.readInl a'.readInl fun _ _ => True := by
  obtain ⟨w, d⟩ := a
  obtain ⟨w', d'⟩ := a'
  obtain ⟨_, h⟩ := h
  cases d <;> cases d' <;> first | exact trivial | exact rfl | exact h.elim

theorem readExt (h : Alike a a') :
    Both a.readExt a'.readExt fun l l' => l.length = l'.length := by
  have hl := h.lenDigits
  obtain ⟨w, d⟩ := a
  obtain ⟨w', d'⟩ := a'
  obtain ⟨_, h⟩ := h
  cases d <;> cases d'
  · exact rfl
  · exact h.elim
  · exact h.elim
  · unfold ApInt.readExt
    dsimp only
    change _ = _ at h
    rw [hl, h]
    exact Both.ite (fun _ => Both.ok h) fun _ => Both.error

theorem asDigitSlice (h : Alike a a') :
    Both a.asDigitSlice a'.asDigitSlice fun l l' => l.length = l'.length := by
  unfold ApInt.asDigitSlice
  rw [h.storage]
  cases a'.storage
  · exact Both.bind h.readInl fun _ _ _ => Both.ok rfl
  · exact h.readExt

theorem writeDigitSlice (h : Alike a a') {l l' : List Digit} (hl : l.length = l'.length) :
    Both (a.writeDigitSlice l) (a'.writeDigitSlice l') Alike := by
  unfold ApInt.writeDigitSlice
  rw [h.storage]
  cases a'.storage
  · rcases l with _ | ⟨d, _ | ⟨_, _⟩⟩ <;> rcases l' with _ | ⟨d', _ | ⟨_, _⟩⟩ <;>
      first
        | exact rfl
        | exact h.withInl _ _
        | (simp only [List.length_cons, List.length_nil] at hl; omega)
  · exact h.withExt hl

theorem accessData (h : Alike a a') : Both a.accessData a'.accessData SameData := by
  unfold ApInt.accessData
  rw [h.storage]
  cases a'.storage
  · exact Both.bind h.readInl fun _ _ _ => Both.ok trivial
  · exact Both.bind h.readExt fun _ _ h => Both.ok h

theorem zipAccessData (h : Alike a a') (k : Alike b b') :
    Both (a.zipAccessData b) (a'.zipAccessData b') (SameKind SameZip) := by
  unfold ApInt.zipAccessData
  rw [h.storage, h.width, k.width]
  refine Both.ite (fun _ => Both.ok rfl) fun _ => ?_
  cases a'.storage
  · exact Both.bind h.readInl fun _ _ _ => Both.bind k.readInl fun _ _ _ => Both.ok trivial
  · exact Both.bind h.readExt fun _ _ h => Both.bind k.readExt fun _ _ k => Both.ok ⟨h, k⟩

theorem mostSignificantDigit (h : Alike a a') :
    Both a.mostSignificantDigit a'.mostSignificantDigit fun _ _ => True := by
  unfold ApInt.mostSignificantDigit
  refine Both.bind h.accessData fun d d' hd => ?_
  cases d <;> cases d'
  · exact trivial
  · exact hd.elim
  · exact hd.elim
  · rename_i l l'
    change _ = _ at hd
    rcases List.eq_nil_or_concat l with rfl | ⟨m, x, rfl⟩ <;>
      rcases List.eq_nil_or_concat l' with rfl | ⟨m', x', rfl⟩
    · exact rfl
    · simp at hd
    · simp at hd
    · simp only [List.concat_eq_append, List.getLast?_append, List.getLast?_singleton,
        Option.some_or]
      exact trivial

theorem setMostSignificantDigit (h : Alike a a') (x x' : Digit) :
    Both (a.setMostSignificantDigit x) (a'.setMostSignificantDigit x') Alike := by
  unfold ApInt.setMostSignificantDigit
  refine Both.bind h.accessData fun d d' hd => ?_
  cases d <;> cases d'
  · exact h.withInl _ _
  · exact hd.elim
  · exact hd.elim
  · rename_i l l'
    change _ = _ at hd
    rcases l with _ | ⟨y, l⟩ <;> rcases l' with _ | ⟨y', l'⟩
    · exact rfl
    · cases hd
    · cases hd
    · refine h.withExt ?_
      rw [List.length_set, List.length_set]
      exact hd

theorem leastSignificantDigit (h : Alike a a') :
    Both a.leastSignificantDigit a'.leastSignificantDigit fun _ _ => True := by
  unfold ApInt.leastSignificantDigit
  refine Both.bind h.accessData fun d d' hd => ?_
  cases d <;> cases d'
  · exact trivial
  · exact hd.elim
  · exact hd.elim
  · exact Both.idx hd 0

theorem expectBoth {α β : Type} {r : Res α} {r' : Res β} {R : α → β → Prop} (h : SameKind R r r') :
    Both (expect r) (expect r') R := by
  cases r <;> cases r'
  · exact rfl
  · exact h.elim
  · exact h.elim
  · exact h

theorem getKind (d d' : Digit) (n : Nat) :
    Both (Digit.get d n) (Digit.get d' n) (SameKind fun _ _ => True) := by
  unfold Digit.get
  cases verifyBitAccess BitWidth.w64 n with
  | error e => exact (rfl : e = e)
  | ok _ => exact Both.bind (Both.rawShr d d' n) fun _ _ _ => trivial

theorem msb (h : Alike a a') : Both a.msb a'.msb fun _ _ => True := by
  unfold ApInt.msb
  rw [h.width]
  refine Both.bind h.mostSignificantDigit fun d d' _ => ?_
  exact Both.bind (getKind _ _ _) fun _ _ h => expectBoth h

theorem lsb (h : Alike a a') : Both a.lsb a'.lsb fun _ _ => True := by
  unfold ApInt.lsb
  exact Both.bind h.leastSignificantDigit fun d d' _ => trivial

end Alike

/-! ## Calls -/

section

variable {a a' b b' : ApInt}

theorem Twin.access {α β : Type} {R : α → β → Prop} {f : Data → Watched α} {f' : Data → Watched β}
    (h : Alike a a') (k1 : ∀ d d', Twin (f (.inl d)) (f' (.inl d')) R)
    (k2 : ∀ l l', l.length = l'.length → Twin (f (.ext l)) (f' (.ext l')) R) :
    Twin (liftM a.accessData >>= f) (liftM a'.accessData >>= f') R := by
  refine Twin.bind (Twin.lift h.accessData) fun d d' hd => ?_
  cases d <;> cases d'
  · exact k1 _ _
  · exact hd.elim
  · exact hd.elim
  · exact k2 _ _ hd

theorem Twin.zipped {α β : Type} {R : α → β → Prop} {f : Res Zip → Watched α}
    {f' : Res Zip → Watched β} (h : Alike a a') (k : Alike b b')
    (k0 : ∀ e, Twin (f (.error e)) (f' (.error e)) R)
    (k1 : ∀ d e d' e', Twin (f (.ok (.inl d e))) (f' (.ok (.inl d' e'))) R)
    (k2 : ∀ l r l' r', l.length = l'.length → r.length = r'.length →
      Twin (f (.ok (.ext l r))) (f' (.ok (.ext l' r'))) R) :
    Twin (liftM (a.zipAccessData b) >>= f) (liftM (a'.zipAccessData b') >>= f') R := by
  refine Twin.bind (Twin.lift (h.zipAccessData k)) fun z z' hz => ?_
  rcases z with e | (_ | _) <;> rcases z' with e' | (_ | _)
  all_goals first
    | exact hz.elim
    | skip
  · cases hz
    exact k0 _
  · exact k1 _ _ _ _
  · exact k2 _ _ _ _ hz.1 hz.2

theorem mapLoop_twin (f f' : Digit → Digit) :
    ∀ (l l' : List Digit) (i : Nat), l.length = l'.length →
      Twin (Trace.mapLoop f i l) (Trace.mapLoop f' i l') fun m m' => m.length = m'.length
  | [], [], _, _ => Twin.ok rfl
  | [], _ :: _, _, h => by cases h
  | _ :: _, [], _, h => by cases h
  | d :: l, d' :: l', i, h => by
    simp only [Trace.mapLoop]
    refine Twin.bind Twin.note fun _ _ _ => ?_
    exact Twin.bind (mapLoop_twin f f' l l' (i + 1) (by simpa using h)) fun m m' hm =>
      Twin.ok (by simp [hm])

theorem modifyDigits_twin (h : Alike a a') (f f' : Digit → Digit) :
    Twin (Trace.modifyDigits a f) (Trace.modifyDigits a' f') Alike := by
  unfold Trace.modifyDigits
  refine Twin.access h (fun d d' => ?_) fun l l' hl => ?_
  · exact Twin.bind Twin.note fun _ _ _ => Twin.ok (h.withInl _ _)
  · exact Twin.bind (mapLoop_twin f f' l l' 0 hl) fun m m' hm => Twin.ok (h.withExt hm)

theorem zipLoop_twin (f f' : Digit → Digit → Digit) :
    ∀ (l r l' r' : List Digit) (i : Nat), l.length = l'.length → r.length = r'.length →
      Twin (Trace.zipLoop f i l r) (Trace.zipLoop f' i l' r') fun m m' => m.length = m'.length
  | [], r, [], r', _, _, _ => by
    simp only [Trace.zipLoop]
    exact Twin.ok rfl
  | [], _, _ :: _, _, _, h, _ => by cases h
  | _ :: _, _, [], _, _, h, _ => by cases h
  | d :: l, [], d' :: l', [], i, h, _ => by
    simp only [Trace.zipLoop]
    exact Twin.ok rfl
  | d :: l, [], d' :: l', _ :: _, i, _, h => by cases h
  | d :: l, _ :: _, d' :: l', [], i, _, h => by cases h
  | d :: l, e :: r, d' :: l', e' :: r', i, h, k => by
    simp only [Trace.zipLoop]
    refine Twin.bind Twin.note fun _ _ _ => ?_
    exact Twin.bind (zipLoop_twin f f' l r l' r' (i + 1) (by simpa using h) (by simpa using k))
      fun m m' hm => Twin.ok (by simp [hm])

theorem modifyZippedDigits_twin (h : Alike a a') (k : Alike b b') (f f' : Digit → Digit → Digit) :
    Twin (Trace.modifyZippedDigits a b f) (Trace.modifyZippedDigits a' b' f') LeftAlike := by
  unfold Trace.modifyZippedDigits
  refine Twin.zipped h k (fun e => ?_) (fun _ _ _ _ => ?_) fun l r l' r' hl hr => ?_
  · exact Twin.ok ⟨rfl, h⟩
  · exact Twin.bind Twin.note fun _ _ _ => Twin.ok ⟨rfl, h.withInl _ _⟩
  · exact Twin.bind (zipLoop_twin f f' l r l' r' 0 hl hr) fun m m' hm =>
      Twin.ok ⟨rfl, h.withExt hm⟩

theorem expect_twin {r r' : Res Unit} (h : r = r') :
    Twin (liftM (expect r : Run Unit)) (liftM (expect r' : Run Unit)) fun _ _ => True := by
  subst h
  exact Twin.lift ((Both.refl _).mono fun _ _ _ => trivial)

theorem clearUnusedBits_twin (h : Alike a a') :
    Twin (Trace.clearUnusedBits a) (Trace.clearUnusedBits a') Alike := by
  unfold Trace.clearUnusedBits
  rw [h.width]
  cases a'.width.excessBits with
  | none => exact Twin.ok h
  | some n =>
    refine Twin.bind (Twin.shown (by rw [h.top]) h.mostSignificantDigit) fun d d' _ => ?_
    refine Twin.bind (Twin.lift (Both.retainLastN _ _ _)) ?_
    rintro ⟨r, d⟩ ⟨r', d'⟩ hr
    refine Twin.bind (Twin.shown (by rw [h.top]) (h.setMostSignificantDigit _ _)) fun c c' hc => ?_
    exact Twin.bind (expect_twin hr) fun _ _ _ => Twin.pure hc

theorem bitnot_twin (h : Alike a a') : Twin (Trace.bitnot a) (Trace.bitnot a') Alike :=
  Twin.bind (modifyDigits_twin h _ _) fun _ _ h => clearUnusedBits_twin h

theorem setAll_twin (h : Alike a a') : Twin (Trace.setAll a) (Trace.setAll a') Alike :=
  Twin.bind (modifyDigits_twin h _ _) fun _ _ h => clearUnusedBits_twin h

theorem unsetAll_twin (h : Alike a a') : Twin (Trace.unsetAll a) (Trace.unsetAll a') Alike :=
  modifyDigits_twin h _ _

theorem flipAll_twin (h : Alike a a') : Twin (Trace.flipAll a) (Trace.flipAll a') Alike :=
  Twin.bind (modifyDigits_twin h _ _) fun _ _ h => clearUnusedBits_twin h

theorem getBitAt_twin (h : Alike a a') (p : Nat) :
    Twin (Trace.getBitAt a p) (Trace.getBitAt a' p) (SameKind fun _ _ => True) := by
  unfold Trace.getBitAt
  rw [h.width]
  cases verifyBitAccess a'.width p with
  | error e => exact Twin.ok (rfl : e = e)
  | ok _ =>
    refine Twin.access h (fun d d' => ?_) fun l l' hl => ?_
    · exact Twin.bind Twin.note fun _ _ _ => Twin.lift (Alike.getKind _ _ _)
    · exact Twin.bind (Twin.rd hl _) fun _ _ _ => Twin.lift (Alike.getKind _ _ _)

theorem modifyBitAt_twin (h : Alike a a') (p : Nat) {op : Digit → Nat → Run (Res Unit × Digit)}
    (hop : ∀ d d' n, Both (op d n) (op d' n) fun p p' => p.1 = p'.1) :
    Twin (Trace.modifyBitAt a p op) (Trace.modifyBitAt a' p op) LeftAlike := by
  unfold Trace.modifyBitAt
  rw [h.width]
  cases verifyBitAccess a'.width p with
  | error e => exact Twin.ok ⟨rfl, h⟩
  | ok _ =>
    refine Twin.access h (fun d d' => ?_) fun l l' hl => ?_
    · refine Twin.bind (Twin.shown rfl (hop _ _ _)) ?_
      rintro ⟨r, d⟩ ⟨r', d'⟩ hr
      exact Twin.ok ⟨hr, h.withInl _ _⟩
    · refine Twin.bind (Twin.rd hl _) fun _ _ _ => ?_
      refine Twin.bind (Twin.lift (hop _ _ _)) ?_
      rintro ⟨r, d⟩ ⟨r', d'⟩ hr
      exact Twin.bind (Twin.wr hl _ _ _) fun m m' hm => Twin.ok ⟨hr, h.withExt hm⟩

theorem modifyMsb_twin (h : Alike a a') {op : Digit → Nat → Run (Res Unit × Digit)}
    (hop : ∀ d d' n, Both (op d n) (op d' n) fun p p' => p.1 = p'.1) :
    Twin (Trace.modifyMsb a op) (Trace.modifyMsb a' op) Alike := by
  unfold Trace.modifyMsb
  rw [h.width]
  refine Twin.bind (modifyBitAt_twin h _ hop) ?_
  rintro ⟨r, c⟩ ⟨r', c'⟩ ⟨hr, hc⟩
  exact Twin.bind (expect_twin hr) fun _ _ _ => Twin.pure hc

theorem msb_twin (h : Alike a a') : Twin (Trace.msb a) (Trace.msb a') fun _ _ => True :=
  Twin.shown (by rw [h.top]) h.msb

theorem lsb_twin (h : Alike a a') : Twin (Trace.lsb a) (Trace.lsb a') fun _ _ => True :=
  Twin.shown rfl h.lsb

theorem isEven_twin (h : Alike a a') : Twin (Trace.isEven a) (Trace.isEven a') fun _ _ => True :=
  Twin.bind (lsb_twin h) fun _ _ _ => Twin.pure trivial

theorem countOnes_twin (h : Alike a a') :
    Twin (Trace.countOnes a) (Trace.countOnes a') fun _ _ => True := by
  refine Twin.shown (by rw [h.lenDigits]) ?_
  exact Both.bind h.asDigitSlice fun _ _ _ => trivial

/-! ## Addition, subtraction -/

theorem addDigits_twin {l r l' r' : List Digit} (hl : l.length = l'.length)
    (hr : r.length = r'.length) (n : Nat) :
    Twin (Trace.addDigits l r n) (Trace.addDigits l' r' n) fun p p' =>
      p.1.length = p'.1.length := by
  unfold Trace.addDigits
  refine Twin.bind (Twin.rd hl _) fun x x' _ => ?_
  refine Twin.bind (Twin.rd hr _) fun y y' _ => ?_
  rcases Digit.carryingAdd x y with ⟨t, c⟩
  rcases Digit.carryingAdd x' y' with ⟨t', c'⟩
  refine Twin.bind (Twin.wr hl _ _ _) fun m m' hm => ?_
  refine Twin.forRange (R := fun p p' : List Digit × Digit => p.1.length = p'.1.length) _ _ hm ?_
  rintro i ⟨l, c⟩ ⟨l', c'⟩ hl
  refine Twin.bind (Twin.rd hl _) fun x x' _ => ?_
  refine Twin.bind (Twin.rd hr _) fun y y' _ => ?_
  exact Twin.bind (Twin.wr hl _ _ _) fun m m' hm => Twin.ok hm

theorem wrappingAddAssign_twin (h : Alike a a') (k : Alike b b') :
    Twin (Trace.wrappingAddAssign a b) (Trace.wrappingAddAssign a' b') LeftAlike := by
  unfold Trace.wrappingAddAssign
  refine Twin.zipped h k (fun e => ?_) (fun _ _ _ _ => ?_) fun l r l' r' hl hr => ?_
  · exact Twin.ok ⟨rfl, h⟩
  · refine Twin.bind Twin.note fun _ _ _ => ?_
    refine Twin.bind (Twin.ok (h.withInl _ _)) fun c c' hc => ?_
    exact Twin.bind (clearUnusedBits_twin hc) fun c c' hc => Twin.ok ⟨rfl, hc⟩
  · dsimp only
    rw [hl]
    refine Twin.bind (addDigits_twin hl hr _) ?_
    rintro ⟨m, c⟩ ⟨m', c'⟩ hm
    refine Twin.bind (Twin.ok (h.withExt hm)) fun c c' hc => ?_
    exact Twin.bind (clearUnusedBits_twin hc) fun c c' hc => Twin.ok ⟨rfl, hc⟩

theorem subDigits_twin {l r l' r' : List Digit} (hl : l.length = l'.length)
    (hr : r.length = r'.length) :
    Twin (Trace.subDigits l r) (Trace.subDigits l' r') fun m m' => m.length = m'.length := by
  unfold Trace.subDigits
  refine Twin.bind (Twin.rd hl _) fun x x' _ => ?_
  refine Twin.bind (Twin.rd hr _) fun y y' _ => ?_
  refine Twin.bind (Twin.wr hl _ _ _) fun m m' hm => ?_
  rw [hm]
  refine Twin.bind (Twin.forRange
    (R := fun p p' : List Digit × Digit => p.1.length = p'.1.length) _ _ hm ?_) ?_
  · rintro i ⟨l, c⟩ ⟨l', c'⟩ hl
    refine Twin.bind (Twin.rd hl _) fun x x' _ => ?_
    refine Twin.bind (Twin.rd hr _) fun y y' _ => ?_
    exact Twin.bind (Twin.wr hl _ _ _) fun m m' hm => Twin.ok hm
  · rintro ⟨m, c⟩ ⟨m', c'⟩ hm
    exact Twin.ok hm

theorem wrappingSubAssign_twin (h : Alike a a') (k : Alike b b') :
    Twin (Trace.wrappingSubAssign a b) (Trace.wrappingSubAssign a' b') LeftAlike := by
  unfold Trace.wrappingSubAssign
  refine Twin.zipped h k (fun e => ?_) (fun _ _ _ _ => ?_) fun l r l' r' hl hr => ?_
  · exact Twin.ok ⟨rfl, h⟩
  · refine Twin.bind Twin.note fun _ _ _ => ?_
    refine Twin.bind (Twin.ok (h.withInl _ _)) fun c c' hc => ?_
    exact Twin.bind (clearUnusedBits_twin hc) fun c c' hc => Twin.ok ⟨rfl, hc⟩
  · refine Twin.bind (subDigits_twin hl hr) fun m m' hm => ?_
    refine Twin.bind (Twin.ok (h.withExt hm)) fun c c' hc => ?_
    exact Twin.bind (clearUnusedBits_twin hc) fun c c' hc => Twin.ok ⟨rfl, hc⟩

/-! ## Shifts -/

theorem csub_twin (m n : Nat) : Twin (liftM (csub m n) : Watched Nat) (liftM (csub m n)) Eq :=
  Twin.lift (Both.refl _)

theorem shlLoop_twin (s : Nat) :
    ∀ (l l' : List Digit) (i : Nat) (c c' : Digit), l.length = l'.length →
      Twin (Trace.shlLoop s i l c) (Trace.shlLoop s i l' c') fun m m' => m.length = m'.length
  | [], [], _, _, _, _ => Twin.ok rfl
  | [], _ :: _, _, _, _, h => by cases h
  | _ :: _, [], _, _, _, h => by cases h
  | d :: l, d' :: l', i, c, c', h => by
    simp only [Trace.shlLoop]
    refine Twin.bind Twin.note fun _ _ _ => ?_
    refine Twin.bind (csub_twin _ _) fun n _ e => ?_
    subst e
    refine Twin.bind (Twin.lift (Both.rawShr _ _ _)) fun _ _ _ => ?_
    refine Twin.bind (Twin.lift (Both.rawShl _ _ _)) fun _ _ _ => ?_
    exact Twin.bind (shlLoop_twin s l l' (i + 1) _ _ (by simpa using h)) fun m m' hm =>
      Twin.ok (by simp [hm])

theorem shlDigits_twin {l l' : List Digit} (h : l.length = l'.length) (s : Nat) :
    Twin (Trace.shlDigits l s) (Trace.shlDigits l' s) fun m m' => m.length = m'.length := by
  unfold Trace.shlDigits
  dsimp only
  have rest : ∀ m m' : List Digit, m.length = m'.length →
      Twin (if bitSteps s ≠ 0 then
          if m.length < digitSteps s then liftM (Except.error .panic : Run (List Digit))
          else do
            let hi ← Trace.shlLoop (bitSteps s) (digitSteps s) (m.drop (digitSteps s)) 0#64
            Watched.ok (m.take (digitSteps s) ++ hi)
        else Watched.ok m)
        (if bitSteps s ≠ 0 then
          if m'.length < digitSteps s then liftM (Except.error .panic : Run (List Digit))
          else do
            let hi ← Trace.shlLoop (bitSteps s) (digitSteps s) (m'.drop (digitSteps s)) 0#64
            Watched.ok (m'.take (digitSteps s) ++ hi)
        else Watched.ok m') fun m m' => m.length = m'.length := by
    intro m m' hm
    rw [hm]
    refine Twin.ite (fun _ => ?_) fun _ => Twin.ok hm
    refine Twin.ite (fun _ => Twin.error) fun _ => ?_
    refine Twin.bind (shlLoop_twin _ _ _ _ _ _ (by simp [hm])) fun k k' hk => ?_
    exact Twin.ok (by simp [hm, hk])
  refine Twin.ite (fun _ => ?_) fun _ => Twin.bind (Twin.ok h) rest
  rw [h]
  refine Twin.bind (csub_twin _ _) fun n _ e => ?_
  subst e
  refine Twin.bind Twin.note fun _ _ _ => ?_
  exact Twin.bind (Twin.ok (by simp [h])) rest

theorem wrappingShlAssign_twin (h : Alike a a') (s : Nat) :
    Twin (Trace.wrappingShlAssign a s) (Trace.wrappingShlAssign a' s) LeftAlike := by
  unfold Trace.wrappingShlAssign
  rw [h.width]
  cases verifyShiftAmount a'.width s with
  | error e => exact Twin.ok ⟨rfl, h⟩
  | ok _ =>
    refine Twin.access h (fun d d' => ?_) fun l l' hl => ?_
    · refine Twin.bind (Twin.shown rfl (Both.rawShl _ _ _)) fun _ _ _ => ?_
      refine Twin.bind (Twin.ok (h.withInl _ _)) fun c c' hc => ?_
      exact Twin.bind (clearUnusedBits_twin hc) fun c c' hc => Twin.ok ⟨rfl, hc⟩
    · refine Twin.bind (shlDigits_twin hl s) fun m m' hm => ?_
      refine Twin.bind (Twin.ok (h.withExt hm)) fun c c' hc => ?_
      exact Twin.bind (clearUnusedBits_twin hc) fun c c' hc => Twin.ok ⟨rfl, hc⟩

theorem lshrLoop_twin (s : Nat) :
    ∀ (l l' : List Digit) (c c' : Digit), l.length = l'.length →
      Twin (Trace.lshrLoop s l c) (Trace.lshrLoop s l' c') fun m m' => m.length = m'.length
  | [], [], _, _, _ => Twin.ok rfl
  | [], _ :: _, _, _, h => by cases h
  | _ :: _, [], _, _, h => by cases h
  | d :: l, d' :: l', c, c', h => by
    have h : l.length = l'.length := by simpa using h
    simp only [Trace.lshrLoop]
    rw [h]
    refine Twin.bind Twin.note fun _ _ _ => ?_
    refine Twin.bind (csub_twin _ _) fun n _ e => ?_
    subst e
    refine Twin.bind (Twin.lift (Both.rawShl _ _ _)) fun _ _ _ => ?_
    refine Twin.bind (Twin.lift (Both.rawShr _ _ _)) fun _ _ _ => ?_
    exact Twin.bind (lshrLoop_twin s l l' _ _ h) fun m m' hm => Twin.ok (by simp [hm])

theorem lshrDigits_twin {l l' : List Digit} (h : l.length = l'.length) (s : Nat) :
    Twin (Trace.lshrDigits l s) (Trace.lshrDigits l' s) fun m m' => m.length = m'.length := by
  unfold Trace.lshrDigits
  dsimp only
  have rest : ∀ m m' : List Digit, m.length = m'.length →
      Twin (if bitSteps s > 0 then do
          let r ← Trace.lshrLoop (bitSteps s) m.reverse 0#64
          Watched.ok r.reverse
        else Watched.ok m)
        (if bitSteps s > 0 then do
          let r ← Trace.lshrLoop (bitSteps s) m'.reverse 0#64
          Watched.ok r.reverse
        else Watched.ok m') fun m m' => m.length = m'.length := by
    intro m m' hm
    refine Twin.ite (fun _ => ?_) fun _ => Twin.ok hm
    refine Twin.bind (lshrLoop_twin _ _ _ _ _ (by simp [hm])) fun k k' hk => ?_
    exact Twin.ok (by simp [hk])
  refine Twin.ite (fun _ => ?_) fun _ => Twin.bind (Twin.ok h) rest
  rw [h]
  refine Twin.ite (fun _ => ?_) fun _ => ?_
  · exact Twin.bind (R := fun _ _ => False) Twin.error fun _ _ h => h.elim
  refine Twin.bind Twin.note fun _ _ _ => ?_
  exact Twin.bind (Twin.ok (by simp [h])) rest

theorem wrappingLshrAssign_twin (h : Alike a a') (s : Nat) :
    Twin (Trace.wrappingLshrAssign a s) (Trace.wrappingLshrAssign a' s) LeftAlike := by
  unfold Trace.wrappingLshrAssign
  rw [h.width]
  cases verifyShiftAmount a'.width s with
  | error e => exact Twin.ok ⟨rfl, h⟩
  | ok _ =>
    refine Twin.access h (fun d d' => ?_) fun l l' hl => ?_
    · refine Twin.bind (Twin.shown rfl (Both.rawShr _ _ _)) fun _ _ _ => ?_
      exact Twin.bind (Twin.ok (h.withInl _ _)) fun c c' hc => Twin.ok ⟨rfl, hc⟩
    · refine Twin.bind (lshrDigits_twin hl s) fun m m' hm => ?_
      exact Twin.bind (Twin.ok (h.withExt hm)) fun c c' hc => Twin.ok ⟨rfl, hc⟩

/-! ## Copies and changes of the width -/

theorem countZeros_twin (h : Alike a a') (ha : a.WF) (ha' : a'.WF) :
    Twin (Trace.countZeros a) (Trace.countZeros a') fun _ _ => True := by
  refine Twin.shown (by rw [h.lenDigits]) ?_
  rw [countZeros_ok ha, countZeros_ok ha']
  exact trivial

theorem Both.newInl (w : BitWidth) (d d' : Digit) :
    Both (newInl w d) (newInl w d') Alike :=
  Both.ite (fun _ => ⟨rfl, trivial⟩) fun _ => rfl

theorem Both.newExt (w : BitWidth) {l l' : List Digit} (h : l.length = l'.length) :
    Both (newExt w l) (newExt w l') Alike :=
  Both.ite (fun _ => ⟨rfl, h⟩) fun _ => rfl

theorem clone_both (h : Alike a a') : Both a.clone a'.clone Alike := by
  unfold ApInt.clone
  rw [h.storage, h.lenDigits, h.1]
  cases a'.storage
  · exact Both.bind h.readInl fun _ _ _ => Both.newInl _ _ _
  · refine Both.bind h.asDigitSlice fun l l' hl => ?_
    rw [hl]
    exact Both.ite (fun _ => rfl) fun _ => Both.newExt _ hl

theorem clone_twin (h : Alike a a') : Twin (Trace.clone a) (Trace.clone a') Alike := by
  unfold Trace.clone
  rw [h.storage, h.lenDigits]
  cases a'.storage
  · exact Twin.shown rfl (clone_both h)
  · exact Twin.shown rfl (clone_both h)

theorem copyFromSlice_both {l r l' r' : List Digit} (hl : l.length = l'.length)
    (hr : r.length = r'.length) :
    Both (copyFromSlice l r) (copyFromSlice l' r') fun m m' => m.length = m'.length := by
  unfold copyFromSlice
  rw [hl, hr]
  exact Both.ite (fun _ => hr) fun _ => rfl

theorem assign_both (h : Alike a a') (k : Alike b b') :
    Both (a.assign b) (a'.assign b') Alike := by
  unfold ApInt.assign
  rw [h.lenDigits, k.lenDigits, k.storage, k.1]
  refine Both.ite (fun _ => ?_) fun _ => ?_
  · refine Both.bind h.asDigitSlice fun l l' hl => ?_
    refine Both.bind k.asDigitSlice fun r r' hr => ?_
    refine Both.bind (copyFromSlice_both hl hr) fun m m' hm => ?_
    exact Both.bind (h.writeDigitSlice hm) fun c c' hc => hc.withLen _
  · cases b'.storage
    · exact Both.bind k.readInl fun _ _ _ => ⟨rfl, trivial⟩
    · exact Both.bind (clone_both k) fun c c' hc => ⟨rfl, hc.2⟩

theorem assign_twin (h : Alike a a') (k : Alike b b') :
    Twin (Trace.assign a b) (Trace.assign a' b') Alike := by
  unfold Trace.assign
  rw [h.lenDigits, k.lenDigits, k.storage]
  refine Twin.ite (fun _ => Twin.shown rfl (assign_both h k)) fun _ => ?_
  cases b'.storage
  · exact Twin.shown rfl (assign_both h k)
  · exact Twin.shown rfl (assign_both h k)

theorem strictAssign_both (h : Alike a a') (k : Alike b b') :
    Both (a.strictAssign b) (a'.strictAssign b') LeftAlike := by
  unfold ApInt.strictAssign
  rw [h.width, k.width]
  refine Both.ite (fun _ => ⟨rfl, h⟩) fun _ => ?_
  refine Both.bind h.asDigitSlice fun l l' hl => ?_
  refine Both.bind k.asDigitSlice fun r r' hr => ?_
  refine Both.bind (copyFromSlice_both hl hr) fun m m' hm => ?_
  exact Both.bind (h.writeDigitSlice hm) fun c c' hc => ⟨rfl, hc⟩

theorem strictAssign_twin (h : Alike a a') (k : Alike b b') :
    Twin (Trace.strictAssign a b) (Trace.strictAssign a' b') LeftAlike := by
  unfold Trace.strictAssign
  rw [h.width, k.width, h.lenDigits]
  exact Twin.ite (fun _ => Twin.ok ⟨rfl, h⟩) fun _ => Twin.shown rfl (strictAssign_both h k)

theorem fromIter_both {l l' : List Digit} (h : l.length = l'.length) :
    Both (fromIter l) (fromIter l') (SameKind Alike) := by
  rcases l with _ | ⟨d, _ | ⟨e, l⟩⟩ <;> rcases l' with _ | ⟨d', _ | ⟨e', l'⟩⟩
  all_goals try (simp only [List.length_cons, List.length_nil] at h; omega)
  · exact (rfl : (Err.expectedNonEmptyDigits) = _)
  · exact Both.bind (Both.newInl _ _ _) fun _ _ h => Both.ok h
  · unfold fromIter
    dsimp only
    rw [h]
    refine Both.bind (Both.refl _) fun w _ e => ?_
    subst e
    exact Both.ite (fun _ => rfl) fun _ => Both.bind (Both.newExt _ h) fun _ _ h => Both.ok h

theorem collect_twin {l l' : List Digit} (h : l.length = l'.length) (m n : Nat) :
    Twin (Trace.collect m n l) (Trace.collect m n l') (SameKind Alike) :=
  Twin.shown rfl (fromIter_both h)

theorem truncateSameDigits_both (h : Alike a a') (t : BitWidth) :
    Both (a.truncateSameDigits t) (a'.truncateSameDigits t) LeftAlike := by
  unfold ApInt.truncateSameDigits
  cases t.excessBits with
  | none => exact rfl
  | some n =>
    refine Both.bind h.mostSignificantDigit fun d d' _ => ?_
    refine Both.bind (Both.refl _) fun w _ e => ?_
    subst e
    refine Both.bind (Both.truncateTo _ _ _) ?_
    rintro ⟨r, d⟩ ⟨r', d'⟩ hr
    change r = r' at hr
    subst hr
    refine Both.bind (h.setMostSignificantDigit _ _) fun c c' hc => ?_
    exact Both.bind (Both.refl _) fun _ _ _ => ⟨rfl, hc.withLen _⟩

theorem truncateAux_twin : ∀ (n : Nat) {a a' : ApInt} (t : BitWidth), Alike a a' →
    Twin (Trace.truncateAux n a t) (Trace.truncateAux n a' t) LeftAlike
  | 0, _, _, _, _ => Twin.error
  | n + 1, a, a', t, h => by
    unfold Trace.truncateAux
    dsimp only
    rw [h.width]
    refine Twin.ite (fun _ => Twin.ok ⟨rfl, h⟩) fun _ => ?_
    refine Twin.ite (fun _ => Twin.ok ⟨rfl, h⟩) fun _ => ?_
    refine Twin.ite (fun _ => ?_) fun _ => ?_
    · exact Twin.shown (by rw [h.top]) (truncateSameDigits_both h t)
    · refine Twin.bind (Twin.lift h.asDigitSlice) fun l l' hl => ?_
      refine Twin.bind (collect_twin (by simp [hl]) _ _) fun r r' hr => ?_
      refine Twin.bind (Twin.lift (Alike.expectBoth hr)) fun c c' hc => ?_
      rw [hc.width]
      refine Twin.ite (fun _ => ?_) fun _ => Twin.ok ⟨rfl, hc⟩
      refine Twin.bind (truncateAux_twin n t hc) ?_
      rintro ⟨r, c⟩ ⟨r', c'⟩ ⟨hr, hc⟩
      change r = r' at hr
      subst hr
      cases r
      · exact Twin.ok ⟨rfl, h⟩
      · exact Twin.ok ⟨rfl, hc⟩

theorem truncate_twin (h : Alike a a') (t : BitWidth) :
    Twin (Trace.truncate a t) (Trace.truncate a' t) LeftAlike := truncateAux_twin 2 t h

theorem intoTruncate_twin (h : Alike a a') (t : BitWidth) :
    Twin (Trace.intoTruncate a t) (Trace.intoTruncate a' t) (SameKind Alike) := by
  unfold Trace.intoTruncate
  refine Twin.bind (truncate_twin h t) ?_
  rintro ⟨r, c⟩ ⟨r', c'⟩ ⟨hr, hc⟩
  change r = r' at hr
  subst hr
  cases r
  · exact Twin.ok (rfl : (_ : Err) = _)
  · exact Twin.ok hc

theorem zeroExtend_twin (h : Alike a a') (t : BitWidth) :
    Twin (Trace.zeroExtend a t) (Trace.zeroExtend a' t) LeftAlike := by
  unfold Trace.zeroExtend
  dsimp only
  rw [h.width]
  refine Twin.ite (fun _ => Twin.ok ⟨rfl, h⟩) fun _ => ?_
  refine Twin.ite (fun _ => Twin.ok ⟨rfl, h⟩) fun _ => ?_
  refine Twin.ite (fun _ => Twin.ok ⟨rfl, h.withLen _⟩) fun _ => ?_
  refine Twin.ite (fun _ => Twin.error) fun _ => ?_
  refine Twin.bind (csub_twin _ _) fun n _ e => ?_
  subst e
  refine Twin.bind (Twin.lift h.asDigitSlice) fun l l' hl => ?_
  refine Twin.bind (collect_twin (by simp [hl]) _ _) fun r r' hr => ?_
  rcases r with e | c <;> rcases r' with e' | c'
  · cases hr
    exact Twin.ok ⟨rfl, h⟩
  · exact hr.elim
  · exact hr.elim
  · refine Twin.bind (intoTruncate_twin hr t) fun r r' hr => ?_
    rcases r with e | c <;> rcases r' with e' | c'
    · cases hr
      exact Twin.ok ⟨rfl, h⟩
    · exact hr.elim
    · exact hr.elim
    · exact Twin.ok ⟨rfl, hr⟩

theorem zeroResize_twin (h : Alike a a') (t : BitWidth) :
    Twin (Trace.zeroResize a t) (Trace.zeroResize a' t) Alike := by
  unfold Trace.zeroResize
  dsimp only
  rw [h.width]
  refine Twin.ite (fun _ => ?_) fun _ => ?_
  · refine Twin.bind (truncate_twin h t) ?_
    rintro ⟨r, c⟩ ⟨r', c'⟩ ⟨hr, hc⟩
    exact Twin.bind (expect_twin hr) fun _ _ _ => Twin.pure hc
  · refine Twin.bind (zeroExtend_twin h t) ?_
    rintro ⟨r, c⟩ ⟨r', c'⟩ ⟨hr, hc⟩
    exact Twin.bind (expect_twin hr) fun _ _ _ => Twin.pure hc

/-! ## Calls that show the sign -/

theorem ashrDigits_twin {l l' : List Digit} (h : l.length = l'.length) (w ds bs : Nat) :
    Twin (Trace.ashrDigits l w ds bs) (Trace.ashrDigits l' w ds bs) fun m m' =>
      m.length = m'.length := by
  have copy : ∀ (lo hi diff : Nat) (m m' : List Digit), m.length = m'.length →
      Twin (Trace.forRange lo hi m fun i x => do
          let a ← Trace.rd .self x (i + diff)
          Trace.wr .self x (i + diff) (Digit.setAll a))
        (Trace.forRange lo hi m' fun i x => do
          let a ← Trace.rd .self x (i + diff)
          Trace.wr .self x (i + diff) (Digit.setAll a)) fun m m' => m.length = m'.length := by
    intro lo hi diff m m' hm
    refine Twin.forRange _ _ hm fun i x x' hx => ?_
    exact Twin.bind (Twin.rd hx _) fun _ _ _ => Twin.wr hx _ _ _
  have rest : ∀ (uns last : Nat) (x x' : List Digit), x.length = x'.length →
      Twin (do
        let diff ← csub x.length ds
        if ds = 0 then do
          let x ← Trace.forRange 0 last x fun i x => do
            let a ← Trace.rd .self x i
            let b ← Trace.rd .self x (i + 1)
            Trace.wr .self x i (Digit.bitor (Digit.shr a bs) (Digit.shl b uns))
          let a ← Trace.rd .self x last
          Trace.wr .self x last (Digit.bitor (Digit.shr a bs) (Digit.shl Digit.ONES uns))
        else if bs = 0 then do
          let x ← Trace.forRange ds x.length x fun i x => do
            let a ← Trace.rd .self x i
            let j ← csub i ds
            Trace.wr .self x j a
          Trace.forRange 0 ds x fun i x => do
            let a ← Trace.rd .self x (i + diff)
            Trace.wr .self x (i + diff) (Digit.setAll a)
        else do
          let x ← Trace.forRange ds last x fun i x => do
            let a ← Trace.rd .self x i
            let b ← Trace.rd .self x (i + 1)
            let j ← csub i ds
            Trace.wr .self x j (Digit.bitor (Digit.shr a bs) (Digit.shl b uns))
          let a ← Trace.rd .self x last
          let j ← csub diff 1
          let x ← Trace.wr .self x j (Digit.bitor (Digit.shr a bs) (Digit.shl Digit.ONES uns))
          Trace.forRange 0 ds x fun i x => do
            let a ← Trace.rd .self x (i + diff)
            Trace.wr .self x (i + diff) (Digit.setAll a))
      (do
        let diff ← csub x'.length ds
        if ds = 0 then do
          let x ← Trace.forRange 0 last x' fun i x => do
            let a ← Trace.rd .self x i
            let b ← Trace.rd .self x (i + 1)
            Trace.wr .self x i (Digit.bitor (Digit.shr a bs) (Digit.shl b uns))
          let a ← Trace.rd .self x last
          Trace.wr .self x last (Digit.bitor (Digit.shr a bs) (Digit.shl Digit.ONES uns))
        else if bs = 0 then do
          let x ← Trace.forRange ds x'.length x' fun i x => do
            let a ← Trace.rd .self x i
            let j ← csub i ds
            Trace.wr .self x j a
          Trace.forRange 0 ds x fun i x => do
            let a ← Trace.rd .self x (i + diff)
            Trace.wr .self x (i + diff) (Digit.setAll a)
        else do
          let x ← Trace.forRange ds last x' fun i x => do
            let a ← Trace.rd .self x i
            let b ← Trace.rd .self x (i + 1)
            let j ← csub i ds
            Trace.wr .self x j (Digit.bitor (Digit.shr a bs) (Digit.shl b uns))
          let a ← Trace.rd .self x last
          let j ← csub diff 1
          let x ← Trace.wr .self x j (Digit.bitor (Digit.shr a bs) (Digit.shl Digit.ONES uns))
          Trace.forRange 0 ds x fun i x => do
            let a ← Trace.rd .self x (i + diff)
            Trace.wr .self x (i + diff) (Digit.setAll a) : Watched (List Digit))
      fun m m' => m.length = m'.length := by
    intro uns last x x' hx
    rw [hx]
    refine Twin.bind (csub_twin _ _) fun diff _ e => ?_
    subst e
    refine Twin.ite (fun _ => ?_) fun _ => Twin.ite (fun _ => ?_) fun _ => ?_
    · refine Twin.bind (Twin.forRange (R := fun x x' : List Digit => x.length = x'.length) _ _ hx
        fun i x x' hx => ?_) fun x x' hx => ?_
      · refine Twin.bind (Twin.rd hx _) fun _ _ _ => ?_
        exact Twin.bind (Twin.rd hx _) fun _ _ _ => Twin.wr hx _ _ _
      · exact Twin.bind (Twin.rd hx _) fun _ _ _ => Twin.wr hx _ _ _
    · refine Twin.bind (Twin.forRange (R := fun x x' : List Digit => x.length = x'.length) _ _ hx
        fun i x x' hx => ?_) fun x x' hx => copy _ _ _ _ _ hx
      refine Twin.bind (Twin.rd hx _) fun _ _ _ => ?_
      refine Twin.bind (csub_twin _ _) fun j _ e => ?_
      subst e
      exact Twin.wr hx _ _ _
    · refine Twin.bind (Twin.forRange (R := fun x x' : List Digit => x.length = x'.length) _ _ hx
        fun i x x' hx => ?_) fun x x' hx => ?_
      · refine Twin.bind (Twin.rd hx _) fun _ _ _ => ?_
        refine Twin.bind (Twin.rd hx _) fun _ _ _ => ?_
        refine Twin.bind (csub_twin _ _) fun j _ e => ?_
        subst e
        exact Twin.wr hx _ _ _
      · refine Twin.bind (Twin.rd hx _) fun _ _ _ => ?_
        refine Twin.bind (csub_twin _ _) fun j _ e => ?_
        subst e
        exact Twin.bind (Twin.wr hx _ _ _) fun x x' hx => copy _ _ _ _ _ hx
  unfold Trace.ashrDigits
  refine Twin.bind (csub_twin _ _) fun uns _ e => ?_
  subst e
  rw [h]
  refine Twin.bind (csub_twin _ _) fun last _ e => ?_
  subst e
  refine Twin.ite (fun _ => ?_) fun _ => Twin.bind (Twin.ok h) (rest uns last)
  refine Twin.bind (Twin.rd h _) fun d d' _ => ?_
  refine Twin.bind (Twin.lift (Both.refl _)) fun w _ e => ?_
  subst e
  refine Twin.bind (Twin.lift (Both.signExtendFrom _ _ _)) ?_
  rintro ⟨r, d⟩ ⟨r', d'⟩ hr
  refine Twin.bind (expect_twin hr) fun _ _ _ => ?_
  exact Twin.bind (Twin.wr h _ _ _) (rest uns last)

/-- After the sign is known, nothing more is shown. -/
theorem ashr_twin (h : Alike a a') (s : Nat) {m : Bool} (hm : a.msb = .ok m) (hm' : a'.msb = .ok m) :
    Twin (Trace.wrappingAshrAssign a s) (Trace.wrappingAshrAssign a' s) LeftAlike := by
  unfold Trace.wrappingAshrAssign
  refine Twin.bind (R := Eq) (Twin.shown (by rw [h.top]) ?_) fun x _ e => ?_
  · rw [hm, hm']
    exact rfl
  subst e
  refine Twin.bind Twin.note fun _ _ _ => ?_
  refine Twin.ite (fun _ => wrappingLshrAssign_twin h s) fun _ => ?_
  rw [h.width]
  cases verifyShiftAmount a'.width s with
  | error e => exact Twin.ok ⟨rfl, h⟩
  | ok _ =>
    refine Twin.ite (fun _ => Twin.ok ⟨rfl, h⟩) fun _ => ?_
    refine Twin.access h (fun d d' => ?_) fun l l' hl => ?_
    · refine Twin.bind Twin.note fun _ _ _ => ?_
      refine Twin.bind (csub_twin _ _) fun n _ e => ?_
      refine Twin.bind (Twin.ok (h.withInl _ _)) fun c c' hc => ?_
      exact Twin.bind (clearUnusedBits_twin hc) fun c c' hc => Twin.ok ⟨rfl, hc⟩
    · refine Twin.bind (ashrDigits_twin hl _ _ _) fun m m' hm => ?_
      refine Twin.bind (Twin.ok (h.withExt hm)) fun c c' hc => ?_
      exact Twin.bind (clearUnusedBits_twin hc) fun c c' hc => Twin.ok ⟨rfl, hc⟩

theorem signExtendMsd_twin (h : Alike a a') (w : BitWidth) :
    Twin (Trace.signExtendMsd a w) (Trace.signExtendMsd a' w) LeftAlike := by
  unfold Trace.signExtendMsd
  cases w.excessWidth with
  | none => exact Twin.ok ⟨rfl, h⟩
  | some x =>
    refine Twin.bind (Twin.shown (by rw [h.top]) h.mostSignificantDigit) fun d d' _ => ?_
    refine Twin.bind (Twin.lift (Both.signExtendFrom _ _ _)) ?_
    rintro ⟨r, d⟩ ⟨r', d'⟩ hr
    exact Twin.bind (Twin.shown (by rw [h.top]) (h.setMostSignificantDigit _ _)) fun c c' hc =>
      Twin.ok ⟨hr, hc⟩

theorem signExtend_twin (h : Alike a a') (t : BitWidth) {m : Bool} (hm : a.msb = .ok m)
    (hm' : a'.msb = .ok m) : Twin (Trace.signExtend a t) (Trace.signExtend a' t) LeftAlike := by
  unfold Trace.signExtend
  dsimp only
  rw [h.width]
  refine Twin.ite (fun _ => Twin.ok ⟨rfl, h⟩) fun _ => ?_
  refine Twin.ite (fun _ => Twin.ok ⟨rfl, h⟩) fun _ => ?_
  refine Twin.bind (R := Eq) (Twin.shown (by rw [h.top]) ?_) fun x _ e => ?_
  · rw [hm, hm']
    exact rfl
  subst e
  refine Twin.bind Twin.note fun _ _ _ => ?_
  refine Twin.ite (fun _ => zeroExtend_twin h t) fun _ => ?_
  refine Twin.ite (fun _ => ?_) fun _ => Twin.ite (fun _ => Twin.error) fun _ => ?_
  · refine Twin.bind (signExtendMsd_twin (h.withLen t) _) ?_
    rintro ⟨r, c⟩ ⟨r', c'⟩ ⟨hr, hc⟩
    change r = r' at hr
    subst hr
    cases r
    · exact Twin.ok ⟨rfl, hc⟩
    · exact Twin.bind (clearUnusedBits_twin hc) fun c c' hc => Twin.ok ⟨rfl, hc⟩
  · refine Twin.bind (csub_twin _ _) fun n _ e => ?_
    subst e
    refine Twin.bind (signExtendMsd_twin h _) ?_
    rintro ⟨r, c⟩ ⟨r', c'⟩ ⟨hr, hc⟩
    change r = r' at hr
    change Alike c c' at hc
    subst hr
    cases r
    · exact Twin.ok ⟨rfl, hc⟩
    · refine Twin.bind (Twin.lift hc.asDigitSlice) fun l l' hl => ?_
      refine Twin.bind (collect_twin (by simp [hl]) _ _) fun r r' hr => ?_
      rcases r with e | x <;> rcases r' with e' | x'
      · cases hr
        exact Twin.ok ⟨rfl, hc⟩
      · exact hr.elim
      · exact hr.elim
      · refine Twin.bind (intoTruncate_twin hr t) fun r r' hr => ?_
        rcases r with e | y <;> rcases r' with e' | y'
        · cases hr
          exact Twin.ok ⟨rfl, hc⟩
        · exact hr.elim
        · exact hr.elim
        · exact Twin.bind (clearUnusedBits_twin hc) fun _ _ _ => Twin.ok ⟨rfl, hr⟩

end

end Verif
