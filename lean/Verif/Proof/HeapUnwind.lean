import Verif.Model.HeapUnwind
import Verif.Proof.HeapProgram
import Verif.Proof.Unwind

/-!
# Nothing leaks and nothing dangles when a call panics
-/

namespace Verif

open ApInt

variable [Allocator]

omit [Allocator] in
theorem magnitude_pure {a : ApInt} (ha : a.WF) :
    ∃ c : ApInt, (do let m ← a.msb; a.negIf m) = .ok c ∧ c.WF ∧ c.len = a.len ∧
      c.abs = a.abs.magnitude := by
  rcases msb_sval ha with ⟨m, v⟩ | ⟨m, v, p⟩
  · refine ⟨a, ?_, ha, rfl, abs_magnitude rfl (by omega)⟩
    rw [m]; rfl
  · obtain ⟨c, e, h1, h2, h3⟩ := neg_abs ha v p
    refine ⟨c, ?_, h1, h2, abs_magnitude h2 (by omega)⟩
    rw [m]; exact e

section

variable {h : Heap} {xs : HBank} {bs : Bank}

theorem Rep.magnitude (hr : Rep h xs bs) (hb : ∀ a ∈ bs, a.WF) {i : Nat} {x : HInt} {a : ApInt}
    (hx : xs[i]? = some x) (ha : bs[i]? = some a) :
    ∃ x' h' a', x.magnitude h = .ok (x', h') ∧ Rep h' (xs.set i x') (bs.set i a') ∧ a'.WF ∧
      a'.abs = a.abs.magnitude := by
  obtain ⟨y, F, hy, ho, hn, _⟩ := hr.owns hb ha
  rw [hx] at hy
  cases hy
  obtain ⟨c, e, h1, h2, h3⟩ := magnitude_pure (hb a (List.mem_of_getElem? ha))
  have e' : (do
      let m ← a.msb
      let a ← a.negIf m
      pure ((), a)) = Except.ok ((), c) := by
    cases hm : a.msb with
    | error f => rw [hm] at e; cases e
    | ok m =>
      rw [hm] at e
      have e : a.negIf m = .ok c := e
      simp only [run_bind_ok, e]; rfl
  have hs := inPlace_sim ho (f := fun a => do
    let m ← a.msb
    let a ← a.negIf m
    pure ((), a)) (by
      intro r d hd
      cases hd.symm.trans e'
      exact ⟨h1.1, by rw [show c.w = a.w from congrArg BitWidth.toUsize h2]⟩)
  simp only [e'] at hs
  obtain ⟨⟨u, x'⟩, h', e2, _, ho'⟩ := hs
  refine ⟨x', h', c, ?_, hn _ _ _ ho', h1, h3⟩
  unfold HInt.magnitude
  rw [hm_bind_ok e2]; rfl

theorem Rep.pushClone (A : Growth) (hr : Rep h xs bs) (hb : ∀ a ∈ bs, a.WF) {i : Nat} {x : HInt}
    {a : ApInt} (hx : xs[i]? = some x) (ha : bs[i]? = some a) :
    ∃ y h', x.clone A h = .ok (y, h') ∧ Rep h' (xs ++ [y]) (bs ++ [a]) := by
  obtain ⟨h1, h2, h3⟩ := hr.cells hb hx ha
  obtain ⟨y, h', e, ho⟩ := hr.clone A ⟨h1, h2, _, hr.sep, h3⟩
  exact ⟨y, h', e, forall₂_push hr.mat ho.mat, ho.sep.reorder (cellsOf_push hr.mat y a).symm⟩

theorem Rep.dropLast {y : HInt} {c : ApInt} (hr : Rep h (xs ++ [y]) (bs ++ [c]))
    (hb : ∀ a ∈ bs ++ [c], a.WF) (hl : xs.length = bs.length) :
    ∃ h', y.dropDigits h = .ok ((), h') ∧ Rep h' xs bs := by
  obtain ⟨x, F, hx, ho, _, hd, _⟩ := hr.owns hb (i := bs.length) (a := c) (by simp)
  have : x = y := by
    rw [← hl] at hx
    simpa using hx.symm
  subst this
  obtain ⟨h', e, hs⟩ := drop_ok ho
  refine ⟨h', e, ?_⟩
  have := hd h' hs
  rwa [List.eraseIdx_append_of_length_le (by omega), List.eraseIdx_append_of_length_le (by omega),
    hl, Nat.sub_self, List.eraseIdx_cons_zero, List.append_nil, List.eraseIdx_cons_zero,
    List.append_nil] at this

omit [Allocator] in
theorem Rep.length (hr : Rep h xs bs) : xs.length = bs.length := hr.mat.length_eq

omit [Allocator] in
theorem Rep.at (hr : Rep h xs bs) {i : Nat} {a : ApInt} (ha : bs[i]? = some a) :
    ∃ x, xs[i]? = some x := by
  have := (List.getElem?_eq_some_iff.mp ha).1
  exact ⟨xs[i]'(by rw [hr.length]; exact this), List.getElem?_eq_getElem _⟩

omit [Allocator] in
theorem Rep.missing (hr : Rep h xs bs) {i : Nat} (ha : bs[i]? = none) : xs[i]? = none := by
  rw [List.getElem?_eq_none_iff] at ha ⊢
  rw [hr.length]; exact ha

omit [Allocator] in
theorem wf_push {bs : Bank} (hb : ∀ a ∈ bs, a.WF) {c : ApInt} (hc : c.WF) :
    ∀ a ∈ bs ++ [c], a.WF := by
  intro a ha
  rcases List.mem_append.mp ha with h | h
  · exact hb a h
  · rw [List.mem_singleton.mp h]; exact hc

omit [Allocator] in
theorem get_push {α : Type} {l : List α} {i : Nat} {a : α} (h : l[i]? = some a) (c : α) :
    (l ++ [c])[i]? = some a := by
  rw [List.getElem?_append_left (List.getElem?_eq_some_iff.mp h).1, h]

omit [Allocator] in
theorem set_push {α : Type} {l : List α} {i : Nat} {a : α} (h : l[i]? = some a) (c d : α) :
    (l ++ [c]).set i d = l.set i d ++ [c] :=
  List.set_append_left _ _ (List.getElem?_eq_some_iff.mp h).1

omit [Allocator] in
theorem get_last {α : Type} (l : List α) (c : α) : (l ++ [c])[l.length]? = some c := by simp

omit [Allocator] in
theorem set_last {α : Type} (l : List α) (c d : α) : (l ++ [c]).set l.length d = l ++ [d] := by
  simp

/-- Cloning an integer and dropping the clone. -/
theorem clone_drop_left (A : Growth) (hr : Rep h xs bs) (hb : ∀ a ∈ bs, a.WF) {i : Nat} {x : HInt}
    {a : ApInt} (hx : xs[i]? = some x) (ha : bs[i]? = some a) :
    ∃ h', (do
      let y ← x.clone A
      y.dropDigits
      pure xs : HM HBank) h = .ok (xs, h') ∧ Rep h' xs bs := by
  obtain ⟨y, h1, e1, r1⟩ := hr.pushClone A hb hx ha
  obtain ⟨h2, e2, r2⟩ := r1.dropLast (wf_push hb (hb a (List.mem_of_getElem? ha))) hr.length
  refine ⟨h2, ?_, r2⟩
  rw [hm_bind_ok e1, hm_bind_ok e2]; rfl

/-- The in-place signed divisions up to the panic. -/
theorem div_left (A : Growth) (hr : Rep h xs bs) (hb : ∀ a ∈ bs, a.WF) {i j : Nat} {x y : HInt}
    {a c : ApInt} (hx : xs[i]? = some x) (ha : bs[i]? = some a) (hy : xs[j]? = some y)
    (hc : bs[j]? = some c) :
    ∃ z h1 x' h2 z' h3 h4 a', y.clone A h = .ok (z, h1) ∧ x.magnitude h1 = .ok (x', h2) ∧
      z.magnitude h2 = .ok (z', h3) ∧ z'.dropDigits h3 = .ok ((), h4) ∧
      Rep h4 (xs.set i x') (bs.set i a') ∧ a'.WF ∧ a'.abs = a.abs.magnitude := by
  have wc := hb c (List.mem_of_getElem? hc)
  obtain ⟨z, h1, e1, r1⟩ := hr.pushClone A hb hy hc
  obtain ⟨x', h2, a', e2, r2, w2, v2⟩ := r1.magnitude (wf_push hb wc) (get_push hx z) (get_push ha c)
  rw [set_push hx, set_push ha] at r2
  have hb' := wf_set (x := i) hb w2
  have hl : xs.length = bs.length := hr.length
  obtain ⟨z', h3, c', e3, r3, w3, -⟩ := r2.magnitude (wf_push hb' wc) (i := xs.length) (x := z)
    (a := c) (by simp) (by simp [hl])
  have hr3 : Rep h3 (xs.set i x' ++ [z']) (bs.set i a' ++ [c']) := by
    have p := set_last (xs.set i x') z z'
    have q := set_last (bs.set i a') c c'
    rw [List.length_set] at p q
    rw [← hl] at q
    rwa [p, q] at r3
  obtain ⟨h4, e4, r4⟩ := hr3.dropLast (wf_push hb' w3) (by simp [hl])
  exact ⟨z, h1, x', h2, z', h3, h4, a', e1, e2, e3, e4, r4, w2, v2⟩

/-- The consuming signed divisions up to the panic. -/
theorem into_div_left (A : Growth) (hr : Rep h xs bs) (hb : ∀ a ∈ bs, a.WF) {i j : Nat}
    {x y : HInt} {a c : ApInt} (hx : xs[i]? = some x) (ha : bs[i]? = some a) (hy : xs[j]? = some y)
    (hc : bs[j]? = some c) :
    ∃ h', (do
      let x ← x.clone A
      let z ← y.clone A
      let x ← x.magnitude
      let z ← z.magnitude
      z.dropDigits
      x.dropDigits
      pure xs : HM HBank) h = .ok (xs, h') ∧ Rep h' xs bs := by
  have wa := hb a (List.mem_of_getElem? ha)
  obtain ⟨t, h1, e1, r1⟩ := hr.pushClone A hb hx ha
  have hl : xs.length = bs.length := hr.length
  obtain ⟨z, h2, t', h3, z', h4, h5, a', e2, e3, e4, e5, r2, w2, -⟩ := div_left A r1
    (wf_push hb wa) (get_last xs t) (by rw [hl]; exact get_last bs a) (get_push hy t) (get_push hc a)
  rw [set_last] at r2
  rw [hl, set_last] at r2
  obtain ⟨h6, e6, r3⟩ := r2.dropLast (wf_push hb w2) hl
  refine ⟨h6, ?_, r3⟩
  rw [hm_bind_ok e1, hm_bind_ok e2, hm_bind_ok e3, hm_bind_ok e4, hm_bind_ok e5, hm_bind_ok e6]; rfl

omit [Allocator] in
theorem modify_map_abs {bs : Bank} {i : Nat} {a a' : ApInt} (ha : bs[i]? = some a)
    (v : a'.abs = a.abs.magnitude) :
    (bs.set i a').map ApInt.abs = (bs.map ApInt.abs).modify i AInt.magnitude := by
  rw [modify_eq_set (a := a.abs) (by rw [List.getElem?_map, ha]; rfl), List.map_set, v]

/-- The buffers a panicking call leaves behind hold what the abstract machine says. -/
theorem hleft_sim (A : Growth) (i : Instr) (hr : Rep h xs bs) (hb : ∀ a ∈ bs, a.WF)
    (hs : i.spec (bs.map ApInt.abs) = none) :
    ∃ xs' h' bs', i.hleft A xs h = .ok (xs', h') ∧ Rep h' xs' bs' ∧ (∀ a ∈ bs', a.WF) ∧
      bs'.map ApInt.abs = i.specLeft (bs.map ApInt.abs) := by
  have same : i.specLeft (bs.map ApInt.abs) = bs.map ApInt.abs → i.hleft A xs = pure xs →
      ∃ xs' h' bs', i.hleft A xs h = .ok (xs', h') ∧ Rep h' xs' bs' ∧ (∀ a ∈ bs', a.WF) ∧
        bs'.map ApInt.abs = i.specLeft (bs.map ApInt.abs) := by
    intro h1 h2
    exact ⟨xs, h, bs, by rw [h2]; rfl, hr, hb, h1.symm⟩
  have step : ∀ {x y : Nat} {a c : ApInt} {o : Instr}, bs[x]? = some a → bs[y]? = some c →
      o.specLeft (bs.map ApInt.abs) = (bs.map ApInt.abs).modify x AInt.magnitude →
      (∀ u v, xs[x]? = some u → xs[y]? = some v → o.hleft A xs = do
        let z ← v.clone A
        let u ← u.magnitude
        let z ← z.magnitude
        z.dropDigits
        pure (xs.set x u)) →
      ∃ xs' h' bs', o.hleft A xs h = .ok (xs', h') ∧ Rep h' xs' bs' ∧ (∀ a ∈ bs', a.WF) ∧
        bs'.map ApInt.abs = o.specLeft (bs.map ApInt.abs) := by
    intro x y a c o ha hc hl hd
    obtain ⟨u, hu⟩ := hr.at ha
    obtain ⟨v, hv⟩ := hr.at hc
    obtain ⟨z, h1, x', h2, z', h3, h4, a', e1, e2, e3, e4, r, w, m⟩ := div_left A hr hb hu ha hv hc
    refine ⟨xs.set x x', h4, bs.set x a', ?_, r, wf_set hb w, ?_⟩
    · rw [hd u v hu hv, hm_bind_ok e1, hm_bind_ok e2, hm_bind_ok e3, hm_bind_ok e4]; rfl
    · rw [hl]; exact modify_map_abs ha m
  have into : ∀ {x y : Nat} {a c : ApInt} {o : Instr}, bs[x]? = some a → bs[y]? = some c →
      o.specLeft (bs.map ApInt.abs) = bs.map ApInt.abs →
      (∀ u v, xs[x]? = some u → xs[y]? = some v → o.hleft A xs = do
        let u ← u.clone A
        let z ← v.clone A
        let u ← u.magnitude
        let z ← z.magnitude
        z.dropDigits
        u.dropDigits
        pure xs) →
      ∃ xs' h' bs', o.hleft A xs h = .ok (xs', h') ∧ Rep h' xs' bs' ∧ (∀ a ∈ bs', a.WF) ∧
        bs'.map ApInt.abs = o.specLeft (bs.map ApInt.abs) := by
    intro x y a c o ha hc hl hd
    obtain ⟨u, hu⟩ := hr.at ha
    obtain ⟨v, hv⟩ := hr.at hc
    obtain ⟨h', e, r⟩ := into_div_left A hr hb hu ha hv hc
    exact ⟨xs, h', bs, by rw [hd u v hu hv]; exact e, r, hb, hl.symm⟩
  have both : ∀ {x y : Nat} {a c : ApInt} {o : Instr}, bs[x]? = some a → bs[y]? = some c →
      x ≠ y →
      o.specLeft (bs.map ApInt.abs) =
        ((bs.map ApInt.abs).modify x AInt.magnitude).modify y AInt.magnitude →
      (∀ u v, xs[x]? = some u → xs[y]? = some v → o.hleft A xs = do
        let u ← u.magnitude
        let v ← v.magnitude
        pure ((xs.set x u).set y v)) →
      ∃ xs' h' bs', o.hleft A xs h = .ok (xs', h') ∧ Rep h' xs' bs' ∧ (∀ a ∈ bs', a.WF) ∧
        bs'.map ApInt.abs = o.specLeft (bs.map ApInt.abs) := by
    intro x y a c o ha hc hne hl hd
    obtain ⟨u, hu⟩ := hr.at ha
    obtain ⟨v, hv⟩ := hr.at hc
    obtain ⟨u', h1, a', e1, r1, w1, m1⟩ := hr.magnitude hb hu ha
    have hc' : (bs.set x a')[y]? = some c := by rw [List.getElem?_set_ne hne]; exact hc
    have hv' : (xs.set x u')[y]? = some v := by rw [List.getElem?_set_ne hne]; exact hv
    obtain ⟨v', h2, c', e2, r2, w2, m2⟩ := r1.magnitude (wf_set hb w1) hv' hc'
    refine ⟨(xs.set x u').set y v', h2, (bs.set x a').set y c', ?_, r2, wf_set (wf_set hb w1) w2, ?_⟩
    · rw [hd u v hu hv, hm_bind_ok e1, hm_bind_ok e2]; rfl
    · rw [hl, modify_map_abs hc' m2, modify_map_abs ha m1]
  have temp : ∀ {x : Nat} {a : ApInt} {o : Instr}, bs[x]? = some a →
      o.specLeft (bs.map ApInt.abs) = bs.map ApInt.abs →
      (∀ u, xs[x]? = some u → o.hleft A xs = do
        let u ← u.clone A
        u.dropDigits
        pure xs) →
      ∃ xs' h' bs', o.hleft A xs h = .ok (xs', h') ∧ Rep h' xs' bs' ∧ (∀ a ∈ bs', a.WF) ∧
        bs'.map ApInt.abs = o.specLeft (bs.map ApInt.abs) := by
    intro x a o ha hl hd
    obtain ⟨u, hu⟩ := hr.at ha
    obtain ⟨h', e, r⟩ := clone_drop_left A hr hb hu ha
    exact ⟨xs, h', bs, by rw [hd u hu]; exact e, r, hb, hl.symm⟩
  cases i with
  | bin o x y =>
    simp only [Instr.spec, List.getElem?_map] at hs
    cases hx : bs[x]? with
    | none => rw [hx] at hs; cases hs
    | some a =>
      cases hy : bs[y]? with
      | none => rw [hx, hy] at hs; cases hs
      | some c =>
        cases o <;> first
          | exact same rfl rfl
          | exact step hx hy rfl (fun u v hu hv => by simp only [Instr.hleft, hu, hv])
  | intoBin o x y =>
    simp only [Instr.spec, List.getElem?_map] at hs
    cases hx : bs[x]? with
    | none => rw [hx] at hs; cases hs
    | some a =>
      cases hy : bs[y]? with
      | none => rw [hx, hy] at hs; cases hs
      | some c =>
        cases o <;> first
          | exact same rfl rfl
          | exact into hx hy rfl (fun u v hu hv => by simp only [Instr.hleft, hu, hv])
  | pair o x y =>
    simp only [Instr.spec, List.getElem?_map] at hs
    cases hx : bs[x]? with
    | none => rw [hx] at hs; cases hs
    | some a =>
      cases hy : bs[y]? with
      | none => rw [hx, hy] at hs; cases hs
      | some c =>
        have hne : o = .sdivrem ∨ o = .sremdiv → x ≠ y := by
          rintro ho rfl
          rw [hx] at hy
          cases hy
          simp only [hx, Option.map_some, Option.map_eq_none_iff] at hs
          rcases ho with rfl | rfl <;> simp only [Pair.spec] at hs <;> split at hs <;>
            first | (cases hs; done) | simp at hs
        cases o <;> first
          | exact same rfl rfl
          | exact both hx hy (hne (by simp)) rfl (fun u v hu hv => by simp only [Instr.hleft, hu, hv])
  | op o x y =>
    simp only [Instr.spec, List.getElem?_map] at hs
    cases hx : bs[x]? with
    | none => rw [hx] at hs; cases hs
    | some a =>
      cases hy : bs[y]? with
      | none => rw [hx, hy] at hs; cases hs
      | some c =>
        obtain ⟨v, hv⟩ := hr.at hy
        exact temp hx rfl (fun u hu => by simp only [Instr.hleft, hu, hv])
  | opShl s x =>
    simp only [Instr.spec, List.getElem?_map] at hs
    cases hx : bs[x]? with
    | none => rw [hx] at hs; cases hs
    | some a => exact temp hx rfl (fun u hu => by simp only [Instr.hleft, hu])
  | _ => exact same rfl rfl

omit [Allocator] in
theorem abs_bank_inj {b c : Bank} (hb : ∀ a ∈ b, a.WF) (hc : ∀ a ∈ c, a.WF)
    (h : b.map ApInt.abs = c.map ApInt.abs) : b = c := by
  induction b generalizing c with
  | nil => cases c with
    | nil => rfl
    | cons => cases h
  | cons x b ih =>
    cases c with
    | nil => cases h
    | cons y c =>
      rw [List.map_cons, List.map_cons, List.cons.injEq] at h
      rw [abs_inj (hb x List.mem_cons_self) (hc y List.mem_cons_self) h.1,
        ih (fun a ha => hb a (List.mem_cons_of_mem _ ha))
          (fun a ha => hc a (List.mem_cons_of_mem _ ha)) h.2]

/-- A call with pointers panics when the call of the pure model does. -/
theorem hexec_panic (A : Growth) (i : Instr) (hr : Rep h xs bs) (hb : ∀ a ∈ bs, a.WF) :
    i.hexec A xs h = .error .panic ↔ i.spec (bs.map ApInt.abs) = none := by
  have hs := hexec_sim A i hr hb
  have ha := exec_agrees i hb
  match i.spec (bs.map ApInt.abs), ha with
  | none, ha =>
    have ha : i.exec bs = .error .panic := ha
    rw [ha] at hs
    exact ⟨fun _ => rfl, fun _ => hs⟩
  | some (x, s), ⟨y, c, ha, _⟩ =>
    rw [ha] at hs
    obtain ⟨v, h', e, _⟩ := hs
    rw [e]
    exact ⟨nofun, nofun⟩

/-- Unwinding with pointers leaves what unwinding in the pure model does. -/
theorem hleft_ok (A : Growth) (i : Instr) (hr : Rep h xs bs) (hb : ∀ a ∈ bs, a.WF)
    (e : i.hexec A xs h = .error .panic) :
    ∃ xs' h' bs', i.hleft A xs h = .ok (xs', h') ∧ i.execT bs = .error (.panic, bs') ∧
      Rep h' xs' bs' ∧ ∀ a ∈ bs', a.WF := by
  have hs := (hexec_panic A i hr hb).mp e
  obtain ⟨xs', h', bs', e1, r1, w1, m1⟩ := hleft_sim A i hr hb hs
  have ha := execT_agrees i hb
  unfold AgreesT at ha
  rw [hs] at ha
  obtain ⟨b', e2, w2, m2⟩ := ha
  cases abs_bank_inj w1 w2 (m1.trans m2.symm)
  exact ⟨xs', h', bs', e1, e2, r1, w1⟩

theorem hleft_agrees (A : Growth) (i : Instr) (hr : Rep h xs bs) (hb : ∀ a ∈ bs, a.WF)
    (e : i.hexec A xs h = .error .panic) {xs' : HBank} {h' : Heap}
    (e' : i.hleft A xs h = .ok (xs', h')) :
    ∃ bs', i.execT bs = .error (.panic, bs') ∧ Rep h' xs' bs' ∧ ∀ a ∈ bs', a.WF := by
  obtain ⟨x, k, bs', e1, r⟩ := hleft_ok A i hr hb e
  cases e1.symm.trans e'
  exact ⟨bs', r⟩

/-- A caught call with pointers follows the one of the pure model. -/
theorem hcaught_sim (A : Growth) (i : Instr) (hr : Rep h xs bs) (hb : ∀ a ∈ bs, a.WF) :
    ∃ s xs' h' bs', i.hcaught A xs h = .ok ((s, xs'), h') ∧ i.caught bs = .ok (s, bs') ∧
      Rep h' xs' bs' ∧ ∀ a ∈ bs', a.WF := by
  have hs := hexec_sim A i hr hb
  have ha := execT_agrees i hb
  have hf := forget_execT i bs
  unfold AgreesT at ha
  match hq : i.spec (bs.map ApInt.abs), ha with
  | none, ⟨b', e2, w2, _⟩ =>
    have e := (hexec_panic A i hr hb).mpr hq
    obtain ⟨xs', h', bs', e1, e2, r1, w1⟩ := hleft_ok A i hr hb e
    refine ⟨.panicked, xs', h', bs', ?_, ?_, r1, w1⟩
    · unfold Instr.hcaught; rw [e]; simp only [e1]
    · unfold Instr.caught; rw [e2]
  | some (x, s), ⟨y, b', e2, _, w2, _⟩ =>
    rw [e2] at hf
    have hf : i.exec bs = .ok (y, b') := hf.symm
    rw [hf] at hs
    obtain ⟨⟨y', xs'⟩, h', e, hy, hr'⟩ := hs
    cases (show y' = y from hy)
    refine ⟨.returned y, xs', h', b', ?_, ?_, hr', w2⟩
    · unfold Instr.hcaught; rw [e]
    · unfold Instr.caught; rw [e2]

end

end Verif
