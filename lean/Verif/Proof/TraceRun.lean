import Verif.Proof.TraceTwin
import Verif.Proof.TraceErase
import Verif.Proof.Threads

/-!
# Programs seen from outside
-/

namespace Verif

open ApInt Watched

/-! ## Without the trace -/

theorem result_done (r : Watched ApInt) : result (Trace.done r) = done (result r) := by
  unfold Trace.done done
  rw [result_bind]
  rfl

theorem result_fine (r : Watched ApInt) : result (Trace.fine r) = fine (result r) := by
  unfold Trace.fine fine
  rw [result_bind]
  rfl

theorem result_tell {α : Type} (f : α → Out) (r : Watched α) :
    result (Trace.tell f r) = tell f (result r) := by
  unfold Trace.tell tell
  rw [result_bind]
  rfl

theorem result_tellRes {α : Type} (f : α → Out) (r : Watched (Res α)) :
    result (Trace.tellRes f r) = tellRes f (result r) := by
  unfold Trace.tellRes tellRes
  rw [result_bind]
  congr 1
  funext v
  cases v <;> rfl

theorem result_storeRes (b : Bank) (x : Nat) (r : Watched (Res Unit × ApInt)) :
    result (Trace.storeRes b x r) = storeRes b x (result r) := by
  unfold Trace.storeRes storeRes
  rw [result_bind]
  rfl

theorem result_pushRes (b : Bank) (r : Watched (Res ApInt)) :
    result (Trace.pushRes b r) = pushRes b (result r) := by
  unfold Trace.pushRes pushRes
  rw [result_bind]
  congr 1
  funext v
  cases v <;> rfl

theorem result_unwrap (r : Watched (Res ApInt)) :
    result (Trace.unwrap r) = unwrapRes (result r) := by
  unfold Trace.unwrap unwrapRes
  rw [result_bind]
  congr 1
  funext v
  exact result_lift _

theorem result_unwrapMut (r : Watched (Res Unit × ApInt)) :
    result (Trace.unwrapMut r) = unwrapMut (result r) := by
  unfold Trace.unwrapMut unwrapMut
  rw [result_bind]
  congr 1
  funext v
  rw [result_bind, result_lift]
  rfl

theorem result_into (r : Watched (Res Unit × ApInt)) :
    result (Trace.into r) =
      (do let (r, this) ← result r
          match r with
          | .error e => .ok (.error e)
          | .ok () => .ok (.ok this)) := by
  unfold Trace.into
  rw [result_bind]
  congr 1
  funext v
  rcases v with ⟨_ | _, c⟩ <;> rfl

theorem result_un (o : Trace.QUn) (a : ApInt) : result (o.exec a) = o.un.exec a := by
  cases o with
  | bitnot => exact (result_done _).trans (by rw [result_bitnot]; rfl)
  | shl s => exact result_wrappingShlAssign a s
  | lshr s => exact result_wrappingLshrAssign a s
  | truncate t => exact result_truncate a t
  | zeroExtend t => exact result_zeroExtend a t
  | zeroResize t => exact (result_done _).trans (by rw [result_zeroResize]; rfl)

theorem into_done (r : Run ApInt) :
    (do let (r, this) ← done r
        match r with
        | .error e => .ok (.error e)
        | .ok () => .ok (.ok this) : Run (Res ApInt)) = fine r := by
  cases r <;> rfl

theorem result_intoUn (o : Trace.QUn) (a : ApInt) :
    result (Trace.into (o.exec a)) = o.un.execInto a := by
  rw [result_into, result_un]
  cases o with
  | bitnot => exact (into_done _).trans (by cases h : a.bitnot <;> simp [Trace.QUn.un, Un.execInto, intoBitnot, forwardMutImpl, h, fine])
  | shl s => rfl
  | lshr s => rfl
  | truncate t => rfl
  | zeroExtend t => rfl
  | zeroResize t =>
    exact (into_done _).trans (by cases h : a.zeroResize t <;> simp [Trace.QUn.un, Un.execInto, intoZeroResize, forwardBinMutImpl, h, fine])

theorem result_alter (o : Trace.QAlter) (a : ApInt) : result (o.exec a) = o.alter.exec a := by
  cases o with
  | setAll => exact (result_done _).trans (by rw [result_setAll]; rfl)
  | unsetAll => exact (result_done _).trans (by rw [result_unsetAll]; rfl)
  | flipAll => exact (result_done _).trans (by rw [result_flipAll]; rfl)
  | setMsb => exact (result_done _).trans (by rw [result_setMsb]; rfl)
  | unsetMsb => exact (result_done _).trans (by rw [result_unsetMsb]; rfl)
  | flipMsb => exact (result_done _).trans (by rw [result_flipMsb]; rfl)
  | setBit p => exact result_modifyBitAt a p _
  | unsetBit p => exact result_modifyBitAt a p _
  | flipBit p => exact result_modifyBitAt a p _

theorem result_bin (o : Trace.QBin) (a c : ApInt) : result (o.exec a c) = o.bin.exec a c := by
  cases o with
  | add => exact result_wrappingAddAssign a c
  | sub => exact result_wrappingSubAssign a c
  | and => exact result_modifyZippedDigits a c _
  | or => exact result_modifyZippedDigits a c _
  | xor => exact result_modifyZippedDigits a c _

theorem result_intoBin (o : Trace.QBin) (a c : ApInt) :
    result (Trace.into (o.exec a c)) = o.bin.execInto a c := by
  rw [result_into, result_bin]
  cases o <;> rfl

theorem result_opAssign (o : Trace.QBin) (a c : ApInt) :
    result (Trace.unwrapMut (o.exec a c)) = o.op.execAssign a c := by
  rw [result_unwrapMut, result_bin]
  cases o <;> rfl

theorem result_op (o : Trace.QBin) (a c : ApInt) :
    result (Trace.unwrap (Trace.into (o.exec a c))) = o.op.exec a c := by
  rw [result_unwrap, result_intoBin]
  cases o <;> rfl

theorem result_ask (q : Trace.QAsk) (a : ApInt) : result (q.exec a) = q.ask.exec a := by
  cases q with
  | width => rfl
  | isEven => exact (result_tell _ _).trans (by rw [result_isEven]; rfl)
  | isOdd => exact (result_tell _ _).trans (by rw [result_lsb]; rfl)
  | msb => exact (result_tell _ _).trans (by rw [result_msb]; rfl)
  | lsb => exact (result_tell _ _).trans (by rw [result_lsb]; rfl)
  | bit p => exact (result_tellRes _ _).trans (by rw [result_getBitAt]; rfl)
  | countOnes => exact (result_tell _ _).trans (by rw [result_countOnes]; rfl)
  | countZeros => exact (result_tell _ _).trans (by rw [result_countZeros]; rfl)

theorem result_exec (i : Trace.Quiet) (b : Bank) : result (i.exec b) = i.instr.exec b := by
  have one : ∀ (x : Nat) {f : ApInt → Watched (Res Out × Bank)} {g : ApInt → Run (Res Out × Bank)},
      (∀ a, result (f a) = g a) →
      result (match b[x]? with | some a => f a | none => pure (.ok .unit, b)) =
        (match b[x]? with | some a => g a | none => pure (.ok .unit, b)) := by
    intro x f g h
    cases b[x]? with
    | none => rfl
    | some a => exact h a
  have two : ∀ (x y : Nat) {f : ApInt → ApInt → Watched (Res Out × Bank)}
      {g : ApInt → ApInt → Run (Res Out × Bank)}, (∀ a c, result (f a c) = g a c) →
      result (match b[x]?, b[y]? with | some a, some c => f a c | _, _ => pure (.ok .unit, b)) =
        (match b[x]?, b[y]? with | some a, some c => g a c | _, _ => pure (.ok .unit, b)) := by
    intro x y f g h
    cases b[x]? with
    | none => rfl
    | some a =>
      cases b[y]? with
      | none => rfl
      | some c => exact h a c
  cases i with
  | clone x =>
    refine one x fun a => ?_
    rw [result_pushRes, result_fine, result_clone]
  | drop x => rfl
  | assign x y =>
    refine two x y fun a c => ?_
    rw [result_storeRes, result_done, result_assign]
  | strictAssign x y =>
    refine two x y fun a c => ?_
    rw [result_storeRes, result_strictAssign]
  | un o x =>
    refine one x fun a => ?_
    rw [result_storeRes, result_un]
  | intoUn o x =>
    refine one x fun a => ?_
    simp only [result_pushRes, result_bind, result_clone, result_intoUn]
  | alter o x =>
    refine one x fun a => ?_
    rw [result_storeRes, result_alter]
  | bin o x y =>
    refine two x y fun a c => ?_
    rw [result_storeRes, result_bin]
  | intoBin o x y =>
    refine two x y fun a c => ?_
    simp only [result_pushRes, result_bind, result_clone, result_intoBin]
  | opAssign o x y =>
    refine two x y fun a c => ?_
    rw [result_storeRes, result_done, result_opAssign]
  | op o x y =>
    refine two x y fun a c => ?_
    simp only [result_pushRes, result_bind, result_clone, result_fine, result_op]
  | opShlAssign s x =>
    refine one x fun a => ?_
    rw [result_storeRes, result_done, result_unwrapMut, result_wrappingShlAssign]
    rfl
  | opShl s x =>
    refine one x fun a => ?_
    simp only [result_pushRes, result_bind, result_clone, result_fine, result_unwrap, result_into,
      result_wrappingShlAssign]
    rfl
  | ask q x =>
    refine one x fun a => ?_
    rw [result_bind, result_ask]
    rfl

theorem result_run (p : List Trace.Quiet) (b : Bank) :
    ((Trace.run p b).1, (Trace.run p b).2.1) = run (p.map Trace.Quiet.instr) b := by
  induction p generalizing b with
  | nil => rfl
  | cons i p ih =>
    have h := result_exec i b
    unfold Trace.run
    rw [List.map_cons]
    unfold run
    rw [← h]
    rcases i.exec b with e | ⟨⟨r, c⟩, s⟩
    · rfl
    · have h2 := ih c
      dsimp only [result]
      rw [← h2]

/-! ## Two banks alike -/

/-- The banks hold integers of the same widths. -/
abbrev AlikeBank (b b' : Bank) : Prop := List.Forall₂ Alike b b'

theorem AlikeBank.set {b b' : Bank} (h : AlikeBank b b') (x : Nat) {c c' : ApInt}
    (hc : Alike c c') : AlikeBank (b.set x c) (b'.set x c') := by
  induction h generalizing x with
  | nil => exact .nil
  | cons h1 h2 ih =>
    cases x with
    | zero => exact .cons hc h2
    | succ x => exact .cons h1 (ih x)

theorem AlikeBank.eraseIdx {b b' : Bank} (h : AlikeBank b b') (x : Nat) :
    AlikeBank (b.eraseIdx x) (b'.eraseIdx x) := by
  induction h generalizing x with
  | nil => exact .nil
  | cons h1 h2 ih =>
    cases x with
    | zero => exact h2
    | succ x => exact .cons h1 (ih x)

theorem AlikeBank.push {b b' : Bank} (h : AlikeBank b b') {c c' : ApInt} (hc : Alike c c') :
    AlikeBank (b ++ [c]) (b' ++ [c']) := by
  induction h with
  | nil => exact .cons hc .nil
  | cons h1 h2 ih => exact .cons h1 ih

theorem AlikeBank.get {b b' : Bank} (h : AlikeBank b b') (x : Nat) :
    (b[x]? = none ∧ b'[x]? = none) ∨
      ∃ a a', b[x]? = some a ∧ b'[x]? = some a' ∧ Alike a a' := by
  induction h generalizing x with
  | nil => exact .inl ⟨by simp, by simp⟩
  | cons h1 h2 ih =>
    cases x with
    | zero => exact .inr ⟨_, _, rfl, rfl, h1⟩
    | succ x => simpa using ih x

/-- What two runs of one call have in common: the banks are alike. -/
def Ended (p p' : Res Out × Bank) : Prop := AlikeBank p.2 p'.2

theorem done_twin {c c' : Watched ApInt} (h : Twin c c' Alike) :
    Twin (Trace.done c) (Trace.done c') LeftAlike :=
  Twin.bind h fun _ _ h => Twin.pure ⟨rfl, h⟩

theorem fine_twin {c c' : Watched ApInt} (h : Twin c c' Alike) :
    Twin (Trace.fine c) (Trace.fine c') (SameKind Alike) :=
  Twin.bind h fun _ _ h => Twin.pure h

theorem tell_twin {α : Type} {f : α → Out} {c c' : Watched α} (h : Twin c c' fun _ _ => True) :
    Twin (Trace.tell f c) (Trace.tell f c') fun _ _ => True :=
  Twin.bind h fun _ _ _ => Twin.pure trivial

theorem tellRes_twin {α : Type} {f : α → Out} {c c' : Watched (Res α)}
    (h : Twin c c' (SameKind fun _ _ => True)) :
    Twin (Trace.tellRes f c) (Trace.tellRes f c') fun _ _ => True := by
  refine Twin.bind h fun r r' _ => ?_
  cases r <;> cases r' <;> exact Twin.pure trivial

theorem into_twin {c c' : Watched (Res Unit × ApInt)} (h : Twin c c' LeftAlike) :
    Twin (Trace.into c) (Trace.into c') (SameKind Alike) := by
  refine Twin.bind h ?_
  rintro ⟨r, c⟩ ⟨r', c'⟩ ⟨hr, hc⟩
  change r = r' at hr
  subst hr
  cases r
  · exact Twin.ok (rfl : (_ : Err) = _)
  · exact Twin.ok hc

theorem unwrap_twin {c c' : Watched (Res ApInt)} (h : Twin c c' (SameKind Alike)) :
    Twin (Trace.unwrap c) (Trace.unwrap c') Alike :=
  Twin.bind h fun _ _ h => Twin.lift (Alike.expectBoth h)

theorem unwrapMut_twin {c c' : Watched (Res Unit × ApInt)} (h : Twin c c' LeftAlike) :
    Twin (Trace.unwrapMut c) (Trace.unwrapMut c') Alike := by
  refine Twin.bind h ?_
  rintro ⟨r, c⟩ ⟨r', c'⟩ ⟨hr, hc⟩
  exact Twin.bind (expect_twin hr) fun _ _ _ => Twin.pure hc

theorem storeRes_twin {b b' : Bank} (hb : AlikeBank b b') (x : Nat)
    {c c' : Watched (Res Unit × ApInt)} (h : Twin c c' LeftAlike) :
    Twin (Trace.storeRes b x c) (Trace.storeRes b' x c') Ended := by
  refine Twin.bind h ?_
  rintro ⟨r, c⟩ ⟨r', c'⟩ ⟨hr, hc⟩
  exact Twin.pure (hb.set x hc)

theorem pushRes_twin {b b' : Bank} (hb : AlikeBank b b') {c c' : Watched (Res ApInt)}
    (h : Twin c c' (SameKind Alike)) :
    Twin (Trace.pushRes b c) (Trace.pushRes b' c') Ended := by
  refine Twin.bind h fun r r' hr => ?_
  rcases r with e | c <;> rcases r' with e' | c'
  · exact Twin.pure hb
  · exact hr.elim
  · exact hr.elim
  · exact Twin.pure (hb.push hr)

theorem un_twin (o : Trace.QUn) {a a' : ApInt} (h : Alike a a') :
    Twin (o.exec a) (o.exec a') LeftAlike := by
  cases o with
  | bitnot => exact done_twin (bitnot_twin h)
  | shl s => exact wrappingShlAssign_twin h s
  | lshr s => exact wrappingLshrAssign_twin h s
  | truncate t => exact truncate_twin h t
  | zeroExtend t => exact zeroExtend_twin h t
  | zeroResize t => exact done_twin (zeroResize_twin h t)

theorem alter_twin (o : Trace.QAlter) {a a' : ApInt} (h : Alike a a') :
    Twin (o.exec a) (o.exec a') LeftAlike := by
  cases o with
  | setAll => exact done_twin (setAll_twin h)
  | unsetAll => exact done_twin (unsetAll_twin h)
  | flipAll => exact done_twin (flipAll_twin h)
  | setMsb => exact done_twin (modifyMsb_twin h Both.set)
  | unsetMsb => exact done_twin (modifyMsb_twin h Both.unset)
  | flipMsb => exact done_twin (modifyMsb_twin h Both.flip)
  | setBit p => exact modifyBitAt_twin h p Both.set
  | unsetBit p => exact modifyBitAt_twin h p Both.unset
  | flipBit p => exact modifyBitAt_twin h p Both.flip

theorem bin_twin (o : Trace.QBin) {a a' c c' : ApInt} (h : Alike a a') (k : Alike c c') :
    Twin (o.exec a c) (o.exec a' c') LeftAlike := by
  cases o with
  | add => exact wrappingAddAssign_twin h k
  | sub => exact wrappingSubAssign_twin h k
  | and => exact modifyZippedDigits_twin h k _ _
  | or => exact modifyZippedDigits_twin h k _ _
  | xor => exact modifyZippedDigits_twin h k _ _

theorem ask_twin (q : Trace.QAsk) {a a' : ApInt} (h : Alike a a') (ha : a.WF) (ha' : a'.WF) :
    Twin (q.exec a) (q.exec a') fun _ _ => True := by
  cases q with
  | width => exact Twin.pure trivial
  | isEven => exact tell_twin (isEven_twin h)
  | isOdd => exact tell_twin (lsb_twin h)
  | msb => exact tell_twin (msb_twin h)
  | lsb => exact tell_twin (lsb_twin h)
  | bit p => exact tellRes_twin (getBitAt_twin h p)
  | countOnes => exact tell_twin (countOnes_twin h)
  | countZeros => exact tell_twin (countZeros_twin h ha ha')

theorem exec_twin (i : Trace.Quiet) {b b' : Bank} (h : AlikeBank b b') (hb : ∀ a ∈ b, a.WF)
    (hb' : ∀ a ∈ b', a.WF) : Twin (i.exec b) (i.exec b') Ended := by
  have one : ∀ (x : Nat) {f f' : ApInt → Watched (Res Out × Bank)},
      (∀ a a', Alike a a' → a.WF → a'.WF → Twin (f a) (f' a') Ended) →
      Twin (match b[x]? with | some a => f a | none => pure (.ok .unit, b))
        (match b'[x]? with | some a => f' a | none => pure (.ok .unit, b')) Ended := by
    intro x f f' k
    rcases h.get x with ⟨e, e'⟩ | ⟨a, a', e, e', ha⟩ <;> rw [e, e']
    · exact Twin.pure h
    · exact k _ _ ha (hb _ (List.mem_of_getElem? e)) (hb' _ (List.mem_of_getElem? e'))
  have two : ∀ (x y : Nat) {f f' : ApInt → ApInt → Watched (Res Out × Bank)},
      (∀ a a' c c', Alike a a' → Alike c c' → Twin (f a c) (f' a' c') Ended) →
      Twin (match b[x]?, b[y]? with | some a, some c => f a c | _, _ => pure (.ok .unit, b))
        (match b'[x]?, b'[y]? with | some a, some c => f' a c | _, _ => pure (.ok .unit, b'))
        Ended := by
    intro x y f f' k
    rcases h.get x with ⟨e, e'⟩ | ⟨a, a', e, e', ha⟩ <;> rw [e, e']
    · exact Twin.pure h
    · rcases h.get y with ⟨e, e'⟩ | ⟨c, c', e, e', hc⟩ <;> rw [e, e']
      · exact Twin.pure h
      · exact k _ _ _ _ ha hc
  cases i with
  | clone x => exact one x fun a a' ha _ _ => pushRes_twin h (fine_twin (clone_twin ha))
  | drop x => exact Twin.pure (h.eraseIdx x)
  | assign x y =>
    exact two x y fun a a' c c' ha hc => storeRes_twin h x (done_twin (assign_twin ha hc))
  | strictAssign x y =>
    exact two x y fun a a' c c' ha hc => storeRes_twin h x (strictAssign_twin ha hc)
  | un o x => exact one x fun a a' ha _ _ => storeRes_twin h x (un_twin o ha)
  | intoUn o x =>
    exact one x fun a a' ha _ _ =>
      pushRes_twin h (Twin.bind (clone_twin ha) fun _ _ ha => into_twin (un_twin o ha))
  | alter o x => exact one x fun a a' ha _ _ => storeRes_twin h x (alter_twin o ha)
  | bin o x y => exact two x y fun a a' c c' ha hc => storeRes_twin h x (bin_twin o ha hc)
  | intoBin o x y =>
    exact two x y fun a a' c c' ha hc =>
      pushRes_twin h (Twin.bind (clone_twin ha) fun _ _ ha => into_twin (bin_twin o ha hc))
  | opAssign o x y =>
    exact two x y fun a a' c c' ha hc =>
      storeRes_twin h x (done_twin (unwrapMut_twin (bin_twin o ha hc)))
  | op o x y =>
    exact two x y fun a a' c c' ha hc =>
      pushRes_twin h (Twin.bind (clone_twin ha) fun _ _ ha =>
        fine_twin (unwrap_twin (into_twin (bin_twin o ha hc))))
  | opShlAssign s x =>
    exact one x fun a a' ha _ _ =>
      storeRes_twin h x (done_twin (unwrapMut_twin (wrappingShlAssign_twin ha s)))
  | opShl s x =>
    exact one x fun a a' ha _ _ =>
      pushRes_twin h (Twin.bind (clone_twin ha) fun _ _ ha =>
        fine_twin (unwrap_twin (into_twin (wrappingShlAssign_twin ha s))))
  | ask q x =>
    exact one x fun a a' ha wa wa' => Twin.bind (ask_twin q ha wa wa') fun _ _ _ => Twin.pure h

theorem run_twin (p : List Trace.Quiet) {b b' : Bank} (h : AlikeBank b b') (hb : ∀ a ∈ b, a.WF)
    (hb' : ∀ a ∈ b', a.WF) :
    (Trace.run p b).2.2 = (Trace.run p b').2.2 ∧
      Both (Trace.run p b).2.1 (Trace.run p b').2.1 AlikeBank := by
  induction p generalizing b b' with
  | nil => exact ⟨rfl, h⟩
  | cons i p ih =>
    have ht := exec_twin i h hb hb'
    have h1 := result_exec i b
    have h2 := result_exec i b'
    unfold Trace.run
    rcases hc : i.exec b with e | ⟨⟨r, c⟩, s⟩ <;> rcases hc' : i.exec b' with e' | ⟨⟨r', c'⟩, s'⟩ <;>
      rw [hc, hc'] at ht
    · cases ht
      exact ⟨rfl, rfl⟩
    · exact ht.elim
    · exact ht.elim
    · rw [hc] at h1
      rw [hc'] at h2
      obtain ⟨hs, hd⟩ := ht
      dsimp only at hs
      subst hs
      have := ih hd (exec_spec _ hb h1.symm).1 (exec_spec _ hb' h2.symm).1
      exact ⟨by dsimp only; rw [this.1], this.2⟩

end Verif
