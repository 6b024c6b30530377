import Verif.Props.Heap

/-!
# Clients that decide as they go and catch panics (C63, C64)

A `Client` looks at everything it has been told so far (answers, errors, panics) and picks the next
call; it need not be computable.  `play` runs it on the modelled code, `hplay` on the modelled code
with pointers, `specPlay` on the abstract machine.
-/

namespace Verif.Props

open ApInt Ex

/-- C63: whatever a client does, it is told what the abstract machine tells it, also after panics it
has caught, and ends with integers standing for the numbers of the abstract machine. -/
theorem C63_client (c : Client) (n : Nat) {b : Bank} (hb : ∀ a ∈ b, a.WF) :
    ∃ b', play c n [] b = .ok ((specPlay c n [] (b.map ApInt.abs)).1, b') ∧
      b'.map ApInt.abs = (specPlay c n [] (b.map ApInt.abs)).2 ∧ ∀ a ∈ b', a.WF := by
  obtain ⟨b', h1, h2, h3⟩ := play_agrees c n [] hb
  exact ⟨b', h1, h3, h2⟩

/-- C63: the code run with the integers it is lent in view is the code that C02 is about. -/
theorem C63_same_code (i : Instr) (b : Bank) :
    (∀ r, i.exec b = .ok r ↔ i.execT b = .ok r) ∧
    (∀ f, i.exec b = .error f ↔ ∃ b', i.execT b = .error (f, b')) := by
  rw [← forget_execT i b]
  cases i.execT b with
  | ok x => exact ⟨fun r => ⟨fun h => by cases h; rfl, fun h => by cases h; rfl⟩,
      fun f => ⟨nofun, fun ⟨_, h⟩ => nomatch h⟩⟩
  | error x =>
    obtain ⟨f, b'⟩ := x
    exact ⟨fun r => ⟨nofun, nofun⟩, fun g => ⟨fun h => by cases h; exact ⟨b', rfl⟩,
      fun ⟨_, h⟩ => by cases h; rfl⟩⟩

/-- The signed divisions that work on the integers of the caller. -/
def SignedDivisionInPlace : Instr → Prop
  | .bin .sdiv _ _ | .bin .srem _ _ | .pair .sdivrem _ _ | .pair .sremdiv _ _ => True
  | _ => False

/-- C63: every other call that panics leaves all integers exactly as they were. -/
theorem C63_panic_unchanged (i : Instr) {b : Bank} (hb : ∀ a ∈ b, a.WF) (hp : MayPanic b i)
    (hi : ¬ SignedDivisionInPlace i) : i.execT b = .error (.panic, b) := by
  have h := execT_agrees i hb
  unfold AgreesT at h
  rw [(spec_none_iff i).mpr hp] at h
  obtain ⟨b', e, h1, h2⟩ := h
  have : i.specLeft (b.map ApInt.abs) = b.map ApInt.abs := by
    cases i with
    | bin o x y => cases o <;> first | rfl | exact absurd trivial hi
    | pair o x y => cases o <;> first | rfl | exact absurd trivial hi
    | _ => rfl
  rw [abs_bank_inj h1 hb (h2.trans this)] at e
  exact e

/-- C63: an in-place signed division of integers of different widths panics and leaves its operand
at its width with the magnitude of its value; nothing else changes. -/
theorem C63_panic_division {x y : Nat} {b : Bank} (hb : ∀ a ∈ b, a.WF) {a c : ApInt}
    (hx : b[x]? = some a) (hy : b[y]? = some c) (hw : a.w ≠ c.w) (hc : c.uval ≠ 0) (o : Bin)
    (ho : o = .sdiv ∨ o = .srem) :
    ∃ a', (Instr.bin o x y).execT b = .error (.panic, b.set x a') ∧ a'.WF ∧ a'.w = a.w ∧
      a'.uval = a.sval.natAbs := by
  obtain ⟨a', _, w1, _, m1, _, _, _, e1, e2⟩ := sdiv_left (hb _ (List.mem_of_getElem? hx))
    (hb _ (List.mem_of_getElem? hy)) (fun h => hw (congrArg BitWidth.toUsize h)) hc
  refine ⟨a', ?_, w1, congrArg AInt.width m1, ?_⟩
  · rcases ho with rfl | rfl
    · simp [Instr.execT, hx, hy, Bin.execT, e1]
    · simp [Instr.execT, hx, hy, Bin.execT, e2]
  · have := congrArg AInt.bits m1
    exact this

/-- C63: the in-place signed divisions with two results do the same to both operands. -/
theorem C63_panic_division_pair {x y : Nat} {b : Bank} (hb : ∀ a ∈ b, a.WF) {a c : ApInt}
    (hx : b[x]? = some a) (hy : b[y]? = some c) (hw : a.w ≠ c.w) (hc : c.uval ≠ 0) (o : Pair)
    (ho : o = .sdivrem ∨ o = .sremdiv) :
    ∃ a' c', (Instr.pair o x y).execT b = .error (.panic, (b.set x a').set y c') ∧ a'.WF ∧ c'.WF ∧
      a'.w = a.w ∧ a'.uval = a.sval.natAbs ∧ c'.w = c.w ∧ c'.uval = c.sval.natAbs := by
  obtain ⟨a', c', w1, w2, m1, m2, e1, e2, _, _⟩ := sdiv_left (hb _ (List.mem_of_getElem? hx))
    (hb _ (List.mem_of_getElem? hy)) (fun h => hw (congrArg BitWidth.toUsize h)) hc
  refine ⟨a', c', ?_, w1, w2, congrArg AInt.width m1, ?_, congrArg AInt.width m2, ?_⟩
  · rcases ho with rfl | rfl
    · simp [Instr.execT, hx, hy, Pair.execT, e1]
    · simp [Instr.execT, hx, hy, Pair.execT, e2]
  · exact congrArg AInt.bits m1
  · exact congrArg AInt.bits m2

/-- C63: a client never gets stuck, and every bank it sees satisfies the invariant. -/
theorem C63_reachable (c : Client) (n : Nat) (seen : List ASeen) {b : Bank} (hr : Reachable b) :
    ∃ seen' b', play c n seen b = .ok (seen', b') ∧ Reachable b' := by
  induction n generalizing seen b with
  | zero => exact ⟨seen, b, rfl, hr⟩
  | succ n ih =>
    unfold play
    cases c seen with
    | none => exact ⟨seen, b, rfl, hr⟩
    | some i =>
      obtain ⟨s, b', e, _⟩ := caught_agrees i (reachable_wf hr)
      have hr' : Reachable b' := by
        unfold Instr.caught at e
        split at e
        · rename_i r b'' h
          cases e
          exact hr.call (((C63_same_code i b).1 _).mpr h)
        · rename_i b'' h
          cases e
          exact hr.caught h
        · cases e
      obtain ⟨seen', b'', e', h⟩ := ih (seen ++ [s.abs]) hr'
      refine ⟨seen', b'', ?_, h⟩
      simp only [e, run_bind_ok]
      exact e'

/-- The greatest common divisor as a client: divide until the remainder is zero, then stop.  It
looks at the answers to decide whether to go on. -/
def gcdClient : Client := fun seen =>
  match seen.length with
  | 0 => some (.make (.u64 84))
  | 1 => some (.make (.u64 30))
  | 2 => some (.un (.zeroExtend (bw 100)) 0)
  | 3 => some (.un (.zeroExtend (bw 100)) 1)
  | k + 4 =>
    match seen.getLast? with
    | some (.returned (.ok (.bool true))) => none
    | _ =>
      match k % 6 with
      | 0 => some (.ask .isZero 1)
      | 1 => some (.bin .urem 0 1)
      | 2 => some (.clone 0)
      | 3 => some (.assign 0 1)
      | 4 => some (.assign 1 2)
      | _ => some (.drop 2)

theorem gcdClient_spec : (specPlay gcdClient 1000 [] []).2 = [⟨100, 6⟩, ⟨100, 0⟩] := by
  decide +kernel

example : ∃ seen b, play gcdClient 1000 [] [] = .ok (seen, b) ∧
    b.map ApInt.abs = [⟨100, 6⟩, ⟨100, 0⟩] := by
  obtain ⟨b', h1, h2, _⟩ := C63_client gcdClient 1000 (b := []) (by simp)
  exact ⟨_, b', h1, h2.trans gcdClient_spec⟩

/-- A client that divides 65 by 128 bits (a panic, caught) and then prints what is left. -/
def carelessClient : Client := fun seen =>
  [.make (.i64 (-7)), .make (.i64 (-2)), .un (.signExtend (bw 65)) 0, .un (.signExtend (bw 128)) 1,
    .pair .sdivrem 0 1, .ask .lowerHex 0, .ask .lowerHex 1][seen.length]?

theorem carelessClient_spec : specPlay carelessClient 10 [] [] =
    ([.returned (.ok .unit), .returned (.ok .unit), .returned (.ok .unit), .returned (.ok .unit),
      .panicked, .returned (.ok (.text ['7'])), .returned (.ok (.text ['2']))],
     [⟨65, 7⟩, ⟨128, 2⟩]) := by
  decide +kernel

example : ∃ b, play carelessClient 10 [] [] = .ok
    ([.returned (.ok .unit), .returned (.ok .unit), .returned (.ok .unit), .returned (.ok .unit),
      .panicked, .returned (.ok (.text ['7'])), .returned (.ok (.text ['2']))], b) ∧
    b.map ApInt.abs = [⟨65, 7⟩, ⟨128, 2⟩] ∧ Reachable b := by
  obtain ⟨b', h1, h2, _⟩ := C63_client carelessClient 10 (b := []) (by simp)
  have e : specPlay carelessClient 10 [] (List.map ApInt.abs []) = _ := carelessClient_spec
  rw [e] at h1 h2
  obtain ⟨_, b'', h3, h4⟩ := C63_reachable carelessClient 10 [] .start
  cases h1.symm.trans h3
  exact ⟨b', h1, h2, h4⟩

example : ∃ a', (Instr.bin .sdiv 0 1).execT [a65, b128] = .error (.panic, [a', b128]) ∧
    a'.uval = a65.sval.natAbs := by
  obtain ⟨a', h1, _, _, h2⟩ := C63_panic_division (x := 0) (y := 1) (b := [a65, b128])
    (by simp [a65_wf, b128_wf]) rfl rfl (by decide) (by decide +kernel) .sdiv (.inl rfl)
  exact ⟨a', h1, h2⟩

example : (Instr.opAssign .add 0 1).execT [a65, b128] = .error (.panic, [a65, b128]) :=
  C63_panic_unchanged _ (by simp [a65_wf, b128_wf]) ⟨a65, b128, rfl, rfl, by decide⟩ id

/-- C64: unwinding out of any call of any history follows and frees only live buffers and does not
fail itself. -/
theorem C64_unwinding [Allocator] {A : Growth} {b : HBank} {h : Heap} (hr : HReachable A b h) (i : Instr)
    (e : i.hexec A b h = .error .panic) :
    ∃ b' h', i.hleft A b h = .ok (b', h') ∧ HReachable A b' h' := by
  obtain ⟨bs, h1, h2⟩ := hreachable_rep hr
  obtain ⟨b', h', bs', e', _⟩ := hleft_ok A i h2 (reachable_wf h1) e
  exact ⟨b', h', e', hr.caught e e'⟩

/-- A caught call leads from a reachable state to a reachable one. -/
theorem hcaught_reachable [Allocator] {A : Growth} {i : Instr} {b b' : HBank} {h h' : Heap} {s : Seen}
    (hr : HReachable A b h) (e : i.hcaught A b h = .ok ((s, b'), h')) : HReachable A b' h' := by
  unfold Instr.hcaught at e
  split at e
  · rename_i e1; cases e; exact hr.call e1
  · rename_i e1
    split at e
    · rename_i e2; cases e; exact hr.caught e1 e2
    · cases e
  · cases e

/-- C64: a client with pointers, from no integer and an unused heap, is told what the abstract
machine tells it whatever the allocator does, through caught panics as well.  At any point of its
run every buffer was freed at most once and with its capacity, the live buffers are exactly those
of its integers, and dropping these frees all that was ever allocated. -/
theorem C64_client [Allocator] (A : Growth) (c : Client) (n : Nat) :
    ∃ b h, hplay A c n [] [] ⟨[], []⟩ = .ok (((specPlay c n [] []).1, b), h) ∧
      HReachable A b h ∧ NoMisuse h.log ∧
      (∀ p cap, LiveAt h.log p cap ↔ ∃ x ∈ b, x.data = .ext p ∧ cap = (x.len.toUsize + 63) / 64) ∧
      (∃ bs : Bank, List.Forall₂ (fun x a => x.load h = .ok (a, h)) b bs ∧
        bs.map ApInt.abs = (specPlay c n [] []).2) ∧
      ∃ h', dropAll b h = .ok ((), h') ∧ h'.cells = [] ∧ AllFreed h'.log := by
  have key : ∀ n seen {b : HBank} {h : Heap} {bs : Bank}, HReachable A b h → Rep h b bs →
      (∀ a ∈ bs, a.WF) → ∃ seen' b' h' bs', hplay A c n seen b h = .ok ((seen', b'), h') ∧
        play c n seen bs = .ok (seen', bs') ∧ HReachable A b' h' ∧ Rep h' b' bs' ∧
        ∀ a ∈ bs', a.WF := by
    intro n
    induction n with
    | zero => intro seen b h bs h1 h2 h3; exact ⟨seen, b, h, bs, rfl, rfl, h1, h2, h3⟩
    | succ n ih =>
      intro seen b h bs h1 h2 h3
      unfold hplay play
      cases c seen with
      | none => exact ⟨seen, b, h, bs, rfl, rfl, h1, h2, h3⟩
      | some i =>
        obtain ⟨s, b', h', bs', e1, e2, h4, h5⟩ := hcaught_sim A i h2 h3
        have h6 : HReachable A b' h' := hcaught_reachable h1 e1
        obtain ⟨seen', b'', h'', bs'', e3, e4, h7⟩ := ih (seen ++ [s.abs]) h6 h4 h5
        refine ⟨seen', b'', h'', bs'', ?_, ?_, h7⟩
        · simp only [e1, run_bind_ok]; exact e3
        · simp only [e2, run_bind_ok]; exact e4
  obtain ⟨seen', b, h, bs, e1, e2, hr, hrep, hwf⟩ := key n [] .start Rep.empty (by simp)
  obtain ⟨bs', h1, h2, _⟩ := C63_client c n (b := []) (by simp)
  cases e2.symm.trans h1
  refine ⟨b, h, e1, hr, C53_freed_once hr, C53_live hr, ⟨bs, ?_, h2⟩, C53_nothing_left hr⟩
  refine List.forall₂_iff_get.mpr ⟨hrep.mat.length_eq, ?_⟩
  intro i hi hi'
  have hx : b[i]? = some (b.get ⟨i, hi⟩) := by simp [hi]
  have ha : bs[i]? = some (bs.get ⟨i, hi'⟩) := by simp [hi']
  obtain ⟨s1, s2, s3⟩ := hrep.cells hwf hx ha
  exact Sees.load ⟨s1, s2, _, hrep.sep, s3⟩

attribute [local instance] reusing

/-- The requests of the careless client to the allocator: extending -7 to 65 and -2 to 128 bits;
the panicking division itself asks for nothing. -/
theorem carelessClient_heap :
    (hplay twice carelessClient 10 [] [] ⟨[], []⟩).map (fun r => (r.1.2, r.2.log)) =
      .ok ([⟨bw 65, .ext 0⟩, ⟨bw 128, .ext 1⟩],
        [.alloc 0 4, .free 0 4, .alloc 0 2, .alloc 1 4, .free 1 4, .alloc 1 2]) := by
  decide +kernel

-- The consuming division clones its divisor; both are dropped on the way out.
example : ((Instr.intoBin .sdiv 0 1).hcaught twice [⟨bw 65, .ext 0⟩, ⟨bw 128, .ext 1⟩]
      ⟨[(0, ⟨2, [7, 1]⟩), (1, ⟨2, [2, 0]⟩)], [.alloc 0 2, .alloc 1 2]⟩).map
        (fun r => (r.1.2, r.2.log)) =
    .ok ([⟨bw 65, .ext 0⟩, ⟨bw 128, .ext 1⟩],
      [.alloc 0 2, .alloc 1 2, .alloc 2 4, .free 2 4, .alloc 2 2, .alloc 3 4, .free 3 4, .alloc 3 2,
        .free 3 2, .free 2 2]) := by
  decide +kernel

end Verif.Props
