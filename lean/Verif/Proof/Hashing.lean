import Verif.Model.Hashing
import Verif.Props.Compare
import Verif.Proof.Errors
import Verif.Proof.ErrorText

/-! Lemmas about hashing and hash tables. -/

namespace Verif

open ApInt

/-- What a key type has to satisfy: on the keys that exist, `==` never panics and says whether the
values are the same, and hashing never panics and feeds the same for the same values. -/
structure KeyType.Lawful {K A : Type} (T : KeyType K) (good : K → Prop) (abs : K → A) : Prop where
  eq_yes : ∀ {a b}, good a → good b → abs a = abs b → T.eq a b = .ok true
  eq_no : ∀ {a b}, good a → good b → abs a ≠ abs b → T.eq a b = .ok false
  feeds : ∀ {a}, good a → ∃ x, T.feed a = .ok x
  same : ∀ {a b}, good a → good b → abs a = abs b → T.feed a = T.feed b

section

variable {A V : Type} [DecidableEq A] {a : A} {v : V} {l m : List (A × V)}

theorem found_cons (e : A × V) :
    found (e :: m) a = if e.1 = a then some e.2 else found m a := by
  unfold found
  rw [List.find?_cons]
  by_cases h : e.1 = a <;> simp [h]

theorem found_none : found m a = none ↔ a ∉ m.map Prod.fst := by
  induction m with
  | nil => simp [found]
  | cons e m ih =>
    rw [found_cons]
    by_cases h : e.1 = a
    · simp [h]
    · simp only [h, if_false, ih, List.map_cons, List.mem_cons, not_or]
      exact ⟨fun g => ⟨fun k => h k.symm, g⟩, fun g => g.2⟩

theorem without_none (h : a ∉ m.map Prod.fst) : without m a = m := by
  unfold without
  rw [List.filter_eq_self]
  intro e he
  have : e.1 ≠ a := fun k => h (k ▸ List.mem_map_of_mem he)
  simpa using this

theorem found_append : found (l ++ m) a = (found l a).or (found m a) := by
  induction l with
  | nil => simp [found]
  | cons e l ih =>
    rw [List.cons_append, found_cons, found_cons, ih]
    split <;> rfl

theorem found_iff (hn : (m.map Prod.fst).Nodup) : found m a = some v ↔ (a, v) ∈ m := by
  induction m with
  | nil => simp [found]
  | cons e m ih =>
    obtain ⟨b, w⟩ := e
    rw [List.map_cons, List.nodup_cons] at hn
    rw [found_cons, List.mem_cons, Prod.mk.injEq]
    by_cases h : b = a
    · subst h
      have : (b, v) ∉ m := fun k => hn.1 (List.mem_map.2 ⟨(b, v), k, rfl⟩)
      simp [this, eq_comm]
    · have h' : ¬ a = b := fun k => h k.symm
      simp [h, h', ih hn.2]

theorem found_perm (hp : l.Perm m) (hn : (m.map Prod.fst).Nodup) : found l a = found m a := by
  have hl : (l.map Prod.fst).Nodup := (hp.map _).nodup_iff.2 hn
  cases h : found m a with
  | none =>
    rw [found_none] at h ⊢
    exact fun k => h (((hp.map Prod.fst).mem_iff).1 k)
  | some v =>
    rw [found_iff hn] at h
    exact (found_iff hl).2 (hp.mem_iff.2 h)

theorem without_nodup (hn : (m.map Prod.fst).Nodup) : ((without m a).map Prod.fst).Nodup :=
  hn.sublist ((List.filter_sublist).map _)

theorem not_mem_without : a ∉ (without m a).map Prod.fst := by
  intro h
  obtain ⟨e, he, rfl⟩ := List.mem_map.1 h
  simp [without] at he

end

namespace Table

variable {K V A : Type} [DecidableEq A] {T : KeyType K} {good : K → Prop} {abs : K → A}
  {h : List Feed → Nat} {k : K} {v : V}

/-- The entries of a row with the values of their keys. -/
def view (abs : K → A) (r : List (K × V)) : List (A × V) := r.map fun e => (abs e.1, e.2)

omit [DecidableEq A] in
theorem view_fst (r : List (K × V)) : (view abs r).map Prod.fst = (r.map Prod.fst).map abs := by
  simp [view]

theorem look_eq (L : T.Lawful good abs) (hk : good k) {r : List (K × V)}
    (hr : ∀ e ∈ r, good e.1) : look T k r = .ok (found (view abs r) (abs k)) := by
  induction r with
  | nil => rfl
  | cons e r ih =>
    obtain ⟨k', v'⟩ := e
    have h1 : good k' := hr _ List.mem_cons_self
    have h2 := ih fun e he => hr e (List.mem_cons_of_mem _ he)
    unfold look
    show _ = Except.ok (found ((abs k', v') :: view abs r) (abs k))
    rw [found_cons]
    by_cases hq : abs k' = abs k
    · rw [L.eq_yes h1 hk hq, if_pos hq]; rfl
    · rw [L.eq_no h1 hk hq, if_neg hq, ← h2]; rfl

theorem replace_eq (L : T.Lawful good abs) (hk : good k) {r : List (K × V)}
    (hr : ∀ e ∈ r, good e.1) (hn : ((view abs r).map Prod.fst).Nodup) :
    (replace T k v r = .ok none ∧ found (view abs r) (abs k) = none) ∨
    ∃ old r', replace T k v r = .ok (some (old, r')) ∧ found (view abs r) (abs k) = some old ∧
      r'.map Prod.fst = r.map Prod.fst ∧
      (view abs r').Perm ((abs k, v) :: without (view abs r) (abs k)) := by
  induction r with
  | nil => exact .inl ⟨rfl, rfl⟩
  | cons e r ih =>
    obtain ⟨k', v'⟩ := e
    have h1 : good k' := hr _ List.mem_cons_self
    have hn' : abs k' ∉ (view abs r).map Prod.fst ∧ ((view abs r).map Prod.fst).Nodup :=
      List.nodup_cons.1 hn
    have h2 := ih (fun e he => hr e (List.mem_cons_of_mem _ he)) hn'.2
    have e0 : view abs ((k', v') :: r) = (abs k', v') :: view abs r := rfl
    rw [e0, found_cons]
    unfold replace
    by_cases hq : abs k' = abs k
    · right
      refine ⟨v', (k', v) :: r, by rw [L.eq_yes h1 hk hq]; rfl, if_pos hq, rfl, ?_⟩
      have : without ((abs k', v') :: view abs r) (abs k) = view abs r := by
        rw [← without_none (m := view abs r) (a := abs k) (hq ▸ hn'.1)]
        simp [without, hq]
      rw [this, ← hq]
      exact .refl _
    · have e1 : without ((abs k', v') :: view abs r) (abs k) =
          (abs k', v') :: without (view abs r) (abs k) := by simp [without, hq]
      rw [L.eq_no h1 hk hq, if_neg hq, e1]
      rcases h2 with ⟨g1, g2⟩ | ⟨old, r', g1, g2, g3, g4⟩
      · exact .inl ⟨by simp only [run_bind_ok, g1]; rfl, g2⟩
      · refine .inr ⟨old, (k', v') :: r', by simp only [run_bind_ok, g1]; rfl, g2, by simp [g3], ?_⟩
        exact (g4.cons _).trans (List.Perm.swap _ _ _)

theorem erase_eq (L : T.Lawful good abs) (hk : good k) {r : List (K × V)}
    (hr : ∀ e ∈ r, good e.1) (hn : ((view abs r).map Prod.fst).Nodup) :
    (erase T k r = .ok none ∧ found (view abs r) (abs k) = none) ∨
    ∃ old r', erase T k r = .ok (some (old, r')) ∧ found (view abs r) (abs k) = some old ∧
      r'.Sublist r ∧ view abs r' = without (view abs r) (abs k) := by
  induction r with
  | nil => exact .inl ⟨rfl, rfl⟩
  | cons e r ih =>
    obtain ⟨k', v'⟩ := e
    have h1 : good k' := hr _ List.mem_cons_self
    have hn' : abs k' ∉ (view abs r).map Prod.fst ∧ ((view abs r).map Prod.fst).Nodup :=
      List.nodup_cons.1 hn
    have h2 := ih (fun e he => hr e (List.mem_cons_of_mem _ he)) hn'.2
    have e0 : view abs ((k', v') :: r) = (abs k', v') :: view abs r := rfl
    rw [e0, found_cons]
    unfold erase
    by_cases hq : abs k' = abs k
    · right
      refine ⟨v', r, by rw [L.eq_yes h1 hk hq]; rfl, if_pos hq, List.sublist_cons_self _ _, ?_⟩
      have : without ((abs k', v') :: view abs r) (abs k) = without (view abs r) (abs k) := by
        simp [without, hq]
      rw [this, without_none (hq ▸ hn'.1)]
    · have e1 : without ((abs k', v') :: view abs r) (abs k) =
          (abs k', v') :: without (view abs r) (abs k) := by simp [without, hq]
      rw [L.eq_no h1 hk hq, if_neg hq, e1]
      rcases h2 with ⟨g1, g2⟩ | ⟨old, r', g1, g2, g3, g4⟩
      · exact .inl ⟨by simp only [run_bind_ok, g1]; rfl, g2⟩
      · refine .inr ⟨old, (k', v') :: r', by simp only [run_bind_ok, g1]; rfl, g2,
          g3.cons_cons _, ?_⟩
        rw [← g4]; rfl

/-- Every entry is in the row that its hash says. -/
def Placed (T : KeyType K) (h : List Feed → Nat) (good : K → Prop) (t : Table K V) : Prop :=
  ∀ i r, t[i]? = some r → ∀ e ∈ r, good e.1 ∧ ∃ f, T.feed e.1 = .ok f ∧ h f % t.length = i

/-- The table and the map it stands for. -/
structure Holds (T : KeyType K) (h : List Feed → Nat) (good : K → Prop) (abs : K → A)
    (t : Table K V) (m : List (A × V)) : Prop where
  rows : 0 < t.length
  placed : Placed T h good t
  perm : (view abs t.flatten).Perm m
  nodup : (m.map Prod.fst).Nodup

omit [DecidableEq A] in
theorem view_append (r s : List (K × V)) : view abs (r ++ s) = view abs r ++ view abs s :=
  List.map_append

/-- A table split at the row of a key: the key is in no other row. -/
theorem split_row (L : T.Lawful good abs) {t : Table K V} {m : List (A × V)}
    (H : Holds T h good abs t m) (hk : good k) :
    ∃ i p r s, row T h t k = .ok (i, r) ∧ t = p ++ r :: s ∧ p.length = i ∧
      (∀ e ∈ r, good e.1) ∧ ((view abs r).map Prod.fst).Nodup ∧
      (∃ f, T.feed k = .ok f ∧ h f % t.length = i) ∧
      abs k ∉ (view abs p.flatten).map Prod.fst ∧ abs k ∉ (view abs s.flatten).map Prod.fst := by
  obtain ⟨f, hf⟩ := L.feeds hk
  have hi : h f % t.length < t.length := Nat.mod_lt _ H.rows
  generalize hidx : h f % t.length = i at hi
  have hr := List.getElem?_eq_getElem hi
  have ht : t = t.take i ++ t[i] :: t.drop (i + 1) := by
    rw [← List.drop_eq_getElem_cons hi, List.take_append_drop]
  have hlen : (t.take i).length = i := by rw [List.length_take]; omega
  have other : ∀ (j : Nat) (q : List (K × V)), t[j]? = some q → j ≠ i → ∀ e ∈ q, abs e.1 ≠ abs k := by
    intro j q hq hj e he heq
    obtain ⟨g1, f', g2, g3⟩ := H.placed j q hq e he
    have := L.same g1 hk heq
    rw [g2, hf] at this
    cases this
    exact hj (g3.symm.trans hidx)
  refine ⟨i, t.take i, t[i], t.drop (i + 1), ?_, ht, hlen, fun e he => (H.placed i _ hr e he).1, ?_,
    ⟨f, hf, hidx⟩, ?_, ?_⟩
  · unfold row
    rw [hf, run_bind_ok, hidx, hr]; rfl
  · have hn : ((view abs t.flatten).map Prod.fst).Nodup := (H.perm.map _).nodup_iff.2 H.nodup
    have e : view abs t.flatten = view abs (t.take i).flatten ++ (view abs t[i] ++
        view abs (t.drop (i + 1)).flatten) := by
      conv => lhs; rw [ht]
      rw [List.flatten_append, List.flatten_cons, view_append, view_append]
    rw [e, List.map_append, List.map_append] at hn
    exact (List.nodup_append.1 (List.nodup_append.1 hn).2.1).1
  · intro hc
    obtain ⟨e, he, hq⟩ := List.mem_map.1 hc
    obtain ⟨x, hx, rfl⟩ := List.mem_map.1 he
    obtain ⟨q, hq1, hq2⟩ := List.mem_flatten.1 hx
    obtain ⟨j, hj, rfl⟩ := List.mem_iff_getElem.1 hq1
    rw [List.length_take] at hj
    refine other j _ ?_ (by omega) x hq2 hq
    rw [List.getElem_take, List.getElem?_eq_getElem]
  · intro hc
    obtain ⟨e, he, hq⟩ := List.mem_map.1 hc
    obtain ⟨x, hx, rfl⟩ := List.mem_map.1 he
    obtain ⟨q, hq1, hq2⟩ := List.mem_flatten.1 hx
    obtain ⟨j, hj, rfl⟩ := List.mem_iff_getElem.1 hq1
    rw [List.length_drop] at hj
    refine other (i + 1 + j) _ ?_ (by omega) x hq2 hq
    rw [List.getElem_drop, List.getElem?_eq_getElem]

theorem view_split {p s : Table K V} {r : List (K × V)} :
    view abs (p ++ r :: s).flatten = view abs p.flatten ++ (view abs r ++ view abs s.flatten) := by
  rw [List.flatten_append, List.flatten_cons, view_append, view_append]

theorem set_split {p s : Table K V} {r r' : List (K × V)} {i : Nat} (hi : p.length = i) :
    (p ++ r :: s).set i r' = p ++ r' :: s := by
  subst hi
  rw [List.set_append_right _ _ (Nat.le_refl _), Nat.sub_self]; rfl

theorem placed_set {t p s : Table K V} {r r' : List (K × V)} {i : Nat} (ht : t = p ++ r :: s)
    (hi : p.length = i) (H : Placed T h good t)
    (hr : ∀ e ∈ r', e.1 ∈ r.map Prod.fst ∨
      (good e.1 ∧ ∃ f, T.feed e.1 = .ok f ∧ h f % t.length = i)) :
    Placed T h good (p ++ r' :: s) := by
  have hlen : (p ++ r' :: s).length = t.length := by rw [ht]; simp
  intro j q hq e he
  rw [hlen]
  by_cases hj : j = i
  · subst hj
    have e0 : (p ++ r' :: s)[j]? = some r' := by rw [← hi]; simp
    rw [e0] at hq
    cases hq
    rcases hr e he with hm | hg
    · obtain ⟨e', he', hee⟩ := List.mem_map.1 hm
      have := H j r (by rw [ht, ← hi]; simp) e' he'
      rwa [hee] at this
    · exact hg
  · refine H j q ?_ e he
    rw [ht]
    rw [List.getElem?_append] at hq ⊢
    split
    · rename_i hlt; rwa [if_pos hlt] at hq
    · rename_i hlt
      rw [if_neg hlt] at hq
      obtain ⟨n, hn⟩ : ∃ n, j - p.length = n + 1 := ⟨j - p.length - 1, by omega⟩
      rw [hn] at hq ⊢
      exact hq

variable {t : Table K V} {m : List (A × V)}

theorem found_split {p s r : List (A × V)} {a : A} (hp : a ∉ p.map Prod.fst)
    (hs : a ∉ s.map Prod.fst) : found (p ++ (r ++ s)) a = found r a := by
  rw [found_append, found_append, found_none.2 hp, found_none.2 hs]
  simp

theorem without_split {p s r : List (A × V)} {a : A} (hp : a ∉ p.map Prod.fst)
    (hs : a ∉ s.map Prod.fst) : without (p ++ (r ++ s)) a = p ++ (without r a ++ s) := by
  have e : ∀ x y : List (A × V), without (x ++ y) a = without x a ++ without y a := fun x y =>
    List.filter_append ..
  rw [e, e, without_none hp, without_none hs]

theorem without_perm {l : List (A × V)} (hp : l.Perm m) (a : A) : (without l a).Perm (without m a) :=
  hp.filter _

/-- One operation does what it does on the map. -/
theorem place_ok (L : T.Lawful good abs) (H : Holds T h good abs t m) {e : K × V} (hk : good e.1)
    (hnew : abs e.1 ∉ m.map Prod.fst) :
    ∃ t', place T h t e = .ok t' ∧ t'.length = t.length ∧
      Holds T h good abs t' (m ++ [(abs e.1, e.2)]) := by
  obtain ⟨i, p, r, s, h1, h2, h3, h4, h5, h6, h7, h8⟩ := split_row L H hk
  refine ⟨p ++ (r ++ [e]) :: s, ?_, by rw [h2]; simp, ?_⟩
  · unfold place
    rw [h1, run_bind_ok]
    show Except.ok (t.set i (r ++ [e])) = _
    rw [h2, set_split h3]
  · refine ⟨by simp, placed_set h2 h3 H.placed ?_, ?_, ?_⟩
    · intro x hx
      rcases List.mem_append.1 hx with hx | hx
      · exact .inl (List.mem_map_of_mem hx)
      · rw [List.mem_singleton.1 hx]
        exact .inr ⟨hk, h6⟩
    · rw [view_split, view_append]
      have hp := H.perm
      rw [h2, view_split] at hp
      refine List.Perm.trans ?_ (hp.append_right _)
      rw [List.append_assoc, List.append_assoc, List.append_assoc]
      refine .append_left _ (.append_left _ ?_)
      exact List.perm_append_comm
    · rw [List.map_append, List.nodup_append]
      refine ⟨H.nodup, by simp, ?_⟩
      intro a ha b hb
      rw [List.map_singleton, List.mem_singleton] at hb
      rintro rfl
      have hb : a = abs e.1 := hb
      exact hnew (hb ▸ ha)

theorem placeAll_ok (L : T.Lawful good abs) (es : List (K × V)) (H : Holds T h good abs t m)
    (hg : ∀ e ∈ es, good e.1) (hn : ((m ++ view abs es).map Prod.fst).Nodup) :
    ∃ t', es.foldlM (place T h) t = .ok t' ∧ Holds T h good abs t' (m ++ view abs es) := by
  induction es generalizing t m with
  | nil => exact ⟨t, rfl, by simpa [view] using H⟩
  | cons e es ih =>
    have e1 : m ++ view abs (e :: es) = (m ++ [(abs e.1, e.2)]) ++ view abs es := by simp [view]
    rw [e1] at hn ⊢
    have hnew : abs e.1 ∉ m.map Prod.fst := by
      intro hc
      rw [List.append_assoc, List.map_append, List.nodup_append] at hn
      exact hn.2.2 _ hc _ (by simp) rfl
    obtain ⟨t', g1, -, g2⟩ := place_ok L H (hg e List.mem_cons_self) hnew
    obtain ⟨t'', g3, g4⟩ := ih g2 (fun x hx => hg x (List.mem_cons_of_mem _ hx)) hn
    refine ⟨t'', ?_, g4⟩
    rw [List.foldlM_cons, g1]
    exact g3

omit [DecidableEq A] in
theorem holds_empty (n : Nat) :
    Holds T h good abs (List.replicate (n + 1) ([] : List (K × V))) [] := by
  refine ⟨by simp, ?_, ?_, by simp⟩
  · intro i r hr e he
    have : r = [] := List.eq_of_mem_replicate (List.mem_of_getElem? hr)
    subst this
    cases he
  · have : (List.replicate (n + 1) ([] : List (K × V))).flatten = [] := by simp
    rw [this]
    exact .refl _

theorem step_ok (L : T.Lawful good abs) (H : Holds T h good abs t m) (o : MapOp K V)
    (hk : ∀ k ∈ o.keys, good k) :
    ∃ t', step T h t o = .ok ((MapOp.spec m (o.map abs)).1, t') ∧
      Holds T h good abs t' (MapOp.spec m (o.map abs)).2 := by
  have hfind : ∀ a, found m a = found (view abs t.flatten) a := fun a =>
    (found_perm H.perm H.nodup).symm
  cases o with
  | insert k v =>
    have hk : good k := hk k (by simp [MapOp.keys])
    obtain ⟨i, p, r, s, h1, h2, h3, h4, h5, h6, h7, h8⟩ := split_row L H hk
    have hp := H.perm
    rw [h2, view_split] at hp
    have hf : found m (abs k) = found (view abs r) (abs k) := by
      rw [hfind, h2, view_split, found_split h7 h8]
    have hw := without_perm hp (abs k)
    rw [without_split h7 h8] at hw
    have hnod : (((abs k, v) :: without m (abs k)).map Prod.fst).Nodup := by
      rw [List.map_cons, List.nodup_cons]
      exact ⟨not_mem_without, without_nodup H.nodup⟩
    show ∃ t', _ = Except.ok (MapOut.value (found m (abs k)), t') ∧
      Holds T h good abs t' ((abs k, v) :: without m (abs k))
    unfold step
    dsimp only
    rw [h1, run_bind_ok]
    dsimp only
    rcases replace_eq (v := v) L hk h4 h5 with ⟨g1, g2⟩ | ⟨old, r', g1, g2, g3, g4⟩
    · rw [g1, run_bind_ok, hf, g2]
      refine ⟨p ++ (r ++ [(k, v)]) :: s, ?_, by simp, placed_set h2 h3 H.placed ?_, ?_, hnod⟩
      · show Except.ok (_, t.set i _) = _
        rw [h2, set_split h3]
      · intro x hx
        rcases List.mem_append.1 hx with hx | hx
        · exact .inl (List.mem_map_of_mem hx)
        · rw [List.mem_singleton.1 hx]
          exact .inr ⟨hk, h6⟩
      · rw [view_split, view_append]
        rw [without_none (m := view abs r) (found_none.1 g2)] at hw
        refine List.Perm.trans ?_ (hw.cons _)
        rw [List.append_assoc, ← List.append_assoc (view abs p.flatten)]
        refine List.perm_middle.trans (.cons _ ?_)
        rw [List.append_assoc]; exact .refl _
    · rw [g1, run_bind_ok, hf, g2]
      refine ⟨p ++ r' :: s, ?_, by simp, placed_set h2 h3 H.placed ?_, ?_, hnod⟩
      · show Except.ok (_, t.set i _) = _
        rw [h2, set_split h3]
      · intro x hx
        exact .inl (g3 ▸ List.mem_map_of_mem hx)
      · rw [view_split]
        refine List.Perm.trans (.append_left _ (g4.append_right _)) ?_
        refine List.Perm.trans ?_ (hw.cons _)
        exact List.perm_middle
  | remove k =>
    have hk : good k := hk k (by simp [MapOp.keys])
    obtain ⟨i, p, r, s, h1, h2, h3, h4, h5, h6, h7, h8⟩ := split_row L H hk
    have hp := H.perm
    rw [h2, view_split] at hp
    have hf : found m (abs k) = found (view abs r) (abs k) := by
      rw [hfind, h2, view_split, found_split h7 h8]
    have hw := without_perm hp (abs k)
    rw [without_split h7 h8] at hw
    show ∃ t', _ = Except.ok (MapOut.value (found m (abs k)), t') ∧
      Holds T h good abs t' (without m (abs k))
    unfold step
    dsimp only
    rw [h1, run_bind_ok]
    dsimp only
    rcases erase_eq L hk h4 h5 with ⟨g1, g2⟩ | ⟨old, r', g1, g2, g3, g4⟩
    · rw [g1, run_bind_ok, hf, g2]
      refine ⟨t, rfl, H.rows, H.placed, ?_, without_nodup H.nodup⟩
      rw [without_none (found_none.1 (hf.trans g2))]
      exact H.perm
    · rw [g1, run_bind_ok, hf, g2]
      refine ⟨p ++ r' :: s, ?_, by simp, placed_set h2 h3 H.placed ?_, ?_, without_nodup H.nodup⟩
      · show Except.ok (_, t.set i _) = _
        rw [h2, set_split h3]
      · intro x hx
        exact .inl (List.mem_map_of_mem (g3.subset hx))
      · rw [view_split, g4]
        exact hw
  | get k =>
    have hk : good k := hk k (by simp [MapOp.keys])
    obtain ⟨i, p, r, s, h1, h2, h3, h4, h5, h6, h7, h8⟩ := split_row L H hk
    have hf : found m (abs k) = found (view abs r) (abs k) := by
      rw [hfind, h2, view_split, found_split h7 h8]
    show ∃ t', _ = Except.ok (MapOut.value (found m (abs k)), t') ∧ Holds T h good abs t' m
    refine ⟨t, ?_, H⟩
    unfold step
    dsimp only
    rw [h1, run_bind_ok]
    dsimp only
    rw [look_eq L hk h4, hf]; rfl
  | count =>
    refine ⟨t, ?_, H⟩
    show Except.ok (MapOut.number t.flatten.length, t) = Except.ok (MapOut.number m.length, t)
    have : t.flatten.length = m.length := by rw [← H.perm.length_eq]; exact (List.length_map _).symm
    rw [this]
  | resize n =>
    have hg : ∀ e ∈ t.flatten, good e.1 := by
      intro e he
      obtain ⟨q, hq1, hq2⟩ := List.mem_flatten.1 he
      obtain ⟨j, hj, rfl⟩ := List.mem_iff_getElem.1 hq1
      exact (H.placed j _ (List.getElem?_eq_getElem hj) e hq2).1
    obtain ⟨t', g1, g2⟩ := placeAll_ok L t.flatten
      (holds_empty (T := T) (h := h) (good := good) (abs := abs) n) hg
      (by rw [List.nil_append]; exact (H.perm.map _).nodup_iff.2 H.nodup)
    refine ⟨t', ?_, g2.rows, g2.placed, g2.perm.trans H.perm, H.nodup⟩
    unfold step
    dsimp only
    rw [g1]; rfl

theorem run_ok (L : T.Lawful good abs) (os : List (MapOp K V)) (H : Holds T h good abs t m)
    (hk : ∀ o ∈ os, ∀ k ∈ o.keys, good k) :
    run T h os t = .ok (mapSpecRun (os.map (MapOp.map abs)) m) := by
  induction os generalizing t m with
  | nil => rfl
  | cons o os ih =>
    obtain ⟨t', g1, g2⟩ := step_ok L H o (hk o List.mem_cons_self)
    have g3 := ih g2 fun x hx => hk x (List.mem_cons_of_mem _ hx)
    unfold run
    rw [g1, run_bind_ok]
    dsimp only
    rw [g3]
    rfl

end Table

/-! ## Keys -/

/-- What a well-formed integer feeds. -/
def ApInt.fed (a : ApInt) : List Feed := .usize a.w :: .usize a.digits.length :: a.digits.map .u64

theorem feed_ok {a : ApInt} (ha : a.WF) : a.feed = .ok a.fed := by
  unfold ApInt.feed hashInput
  rw [asDigitSlice_ok ha.1]
  rfl

/-- What integers feed is self-delimiting. -/
theorem fed_prefix {a b : ApInt} (ha : a.WF) (hb : b.WF) {s t : List Feed}
    (h : a.fed ++ s = b.fed ++ t) : a = b ∧ s = t := by
  unfold ApInt.fed at h
  simp only [List.cons_append, List.cons.injEq, Feed.usize.injEq] at h
  obtain ⟨h1, h2, h3⟩ := h
  obtain ⟨h4, h5⟩ := List.append_inj h3 (by simpa using h2)
  have h6 : a.digits = b.digits := List.map_injective_iff.2 (fun x y e => by cases e; rfl) h4
  exact ⟨eq_of_digits ha.1 hb.1 (BitWidth.ext h1) h6, h5⟩

theorem divOp_feed_inj {o o' : DivOp} (h : o.feed = o'.feed) : o = o' := by
  cases o <;> cases o' <;> first | rfl | cases h

theorem primitiveTy_feed_inj {o o' : PrimitiveTy} (h : o.feed = o'.feed) : o = o' := by
  cases o <;> cases o' <;> first | rfl | cases h

/-- What a kind of error feeds. -/
def Err.fed : Err → List Feed
  | .invalidRadix r => [.discr 0, .u8 r]
  | .invalidStringRepr s r p => .discr 1 :: .str s :: .u8 r.toU8 :: feedPosChar p
  | .invalidBitAccess p w => [.discr 2, .usize p, .usize w.toUsize]
  | .invalidShiftAmount s w => [.discr 3, .usize s, .usize w.toUsize]
  | .valueUnrepresentable v ty => .discr 4 :: (v.fed ++ [ty.feed])
  | .unmatchingBitwidth l r => [.discr 5, .usize l.toUsize, .usize r.toUsize]
  | .invalidBitWidth w => [.discr 6, .usize w]
  | .truncationBitWidthTooLarge t c => [.discr 7, .usize t.toUsize, .usize c.toUsize]
  | .extensionBitWidthTooSmall t c => [.discr 8, .usize t.toUsize, .usize c.toUsize]
  | .divisionByZero op v => .discr 9 :: op.feed :: v.fed
  | .expectedNonEmptyDigits => [.discr 10]

theorem err_feed_ok {e : Err} (h : e.WF) : e.feed = .ok e.fed := by
  cases e with
  | valueUnrepresentable v ty => simp only [Err.feed, feed_ok (show v.WF from h)]; rfl
  | divisionByZero op v => simp only [Err.feed, feed_ok (show v.WF from h)]; rfl
  | _ => rfl

theorem err_fed_prefix {e e' : Err} (h : e.WF) (h' : e'.WF) {s t : List Feed}
    (hs : e.fed ++ s = e'.fed ++ t) : e = e' ∧ s = t := by
  have head : ∀ {x y : Feed} {u v : List Feed}, x :: u = y :: v → x = y ∧ u = v := by
    rintro x y u v ⟨⟩; exact ⟨rfl, rfl⟩
  cases e with
  | invalidStringRepr x r p =>
    cases e' <;> first | (cases (head hs).1; done) | skip
    rename_i x' r' p'
    obtain ⟨h1, h2⟩ := head (head hs).2
    obtain ⟨h3, h4⟩ := head h2
    obtain ⟨n⟩ := r
    obtain ⟨n'⟩ := r'
    cases h1
    have h3 : Feed.u8 n = Feed.u8 n' := h3
    cases h3
    have h4 : feedPosChar p ++ s = feedPosChar p' ++ t := h4
    rcases p with _ | ⟨i, c⟩ <;> rcases p' with _ | ⟨i', c'⟩ <;> cases h4 <;> exact ⟨rfl, rfl⟩
  | valueUnrepresentable v ty =>
    cases e' <;> first | (cases (head hs).1; done) | skip
    rename_i v' ty'
    have h1 : v.fed ++ [ty.feed] ++ s = v'.fed ++ [ty'.feed] ++ t := (head hs).2
    rw [List.append_assoc, List.append_assoc] at h1
    obtain ⟨rfl, h2⟩ := fed_prefix h h' h1
    obtain ⟨h3, h4⟩ := head h2
    rw [primitiveTy_feed_inj h3]
    exact ⟨rfl, h4⟩
  | divisionByZero op v =>
    cases e' <;> first | (cases (head hs).1; done) | skip
    rename_i op' v'
    obtain ⟨h1, h2⟩ := head (head hs).2
    obtain ⟨rfl, h3⟩ := fed_prefix h h' h2
    rw [divOp_feed_inj h1]
    exact ⟨rfl, h3⟩
  | invalidRadix r => cases e' <;> first | (cases hs; exact ⟨rfl, rfl⟩) | cases (head hs).1
  | invalidBitWidth r => cases e' <;> first | (cases hs; exact ⟨rfl, rfl⟩) | cases (head hs).1
  | expectedNonEmptyDigits => cases e' <;> first | (cases hs; exact ⟨rfl, rfl⟩) | cases (head hs).1
  | _ =>
    cases e' <;> first | (cases (head hs).1; done) | skip
    simp only [Err.fed, List.cons_append, List.nil_append, List.cons.injEq, Feed.usize.injEq,
      true_and] at hs
    obtain ⟨h1, h2, h3⟩ := hs
    first
      | exact ⟨by rw [h1, BitWidth.ext h2], h3⟩
      | exact ⟨by rw [BitWidth.ext h1, BitWidth.ext h2], h3⟩

theorem apint_eq {a b : ApInt} (ha : a.WF) (hb : b.WF) :
    a.eq b = .ok (decide (a.abs = b.abs)) := by
  rw [eq_ok ha.1 hb.1]
  congr 1
  rw [decide_eq_decide]
  constructor
  · rintro ⟨h1, h2⟩
    exact congrArg₂ AInt.mk (congrArg BitWidth.toUsize h1) h2
  · intro h
    rw [abs_inj ha hb h]
    exact ⟨rfl, rfl⟩

theorem lawful_apint : KeyType.apint.Lawful ApInt.WF ApInt.abs where
  eq_yes ha hb h := (apint_eq ha hb).trans (by simp [h])
  eq_no ha hb h := (apint_eq ha hb).trans (by simp [h])
  feeds ha := ⟨_, feed_ok ha⟩
  same ha hb h := by rw [abs_inj ha hb h]

theorem err_eq {e e' : Err} (h : e.WF) (h' : e'.WF) : e.eq e' = .ok (decide (e = e')) := by
  cases e <;> cases e' <;> try rfl
  · rename_i v ty v' ty'
    show (v.eq v' >>= fun x => if x = true then pure (decide (ty = ty')) else pure false) = _
    rw [apint_eq h h', run_bind_ok]
    by_cases hv : v.abs = v'.abs
    · rw [abs_inj h h' hv]
      simp
    · have : v ≠ v' := fun k => hv (k ▸ rfl)
      simp [hv, this]
  · rename_i op v op' v'
    show (if op = op' then v.eq v' else pure false) = _
    rw [apint_eq h h']
    by_cases hv : v.abs = v'.abs
    · rw [abs_inj h h' hv]
      by_cases ho : op = op' <;> simp [ho]
    · have : v ≠ v' := fun k => hv (k ▸ rfl)
      by_cases ho : op = op' <;> simp [ho, hv, this]

theorem error_eq {e e' : Error} (h : e.kind.WF) (h' : e'.kind.WF) :
    e.eq e' = .ok (decide (e = e')) := by
  unfold Error.eq
  rw [err_eq h h', run_bind_ok]
  obtain ⟨k, m, n⟩ := e
  obtain ⟨k', m', n'⟩ := e'
  by_cases hk : k = k' <;> by_cases hm : m = m' <;> by_cases hn : n = n' <;> simp [hk, hm, hn]

/-- What an error feeds. -/
def Error.fed (e : Error) : List Feed :=
  match e.annotation with
  | none => e.kind.fed ++ [.str e.message, .discr 0]
  | some a => e.kind.fed ++ [.str e.message, .discr 1, .str a]

theorem error_feed_ok {e : Error} (h : e.kind.WF) : e.feed = .ok e.fed := by
  unfold Error.feed Error.fed
  rw [err_feed_ok h, run_bind_ok]
  cases e.annotation <;> rfl

theorem error_fed_prefix {e e' : Error} (h : e.kind.WF) (h' : e'.kind.WF) {s t : List Feed}
    (hs : e.fed ++ s = e'.fed ++ t) : e = e' ∧ s = t := by
  obtain ⟨k, m, n⟩ := e
  obtain ⟨k', m', n'⟩ := e'
  unfold Error.fed at hs
  cases n <;> cases n' <;> dsimp only at hs <;> rw [List.append_assoc, List.append_assoc] at hs <;>
    obtain ⟨hk, hs'⟩ := err_fed_prefix h h' hs <;> clear hs <;> dsimp only at hk <;> subst hk <;>
    cases hs' <;>
    exact ⟨rfl, rfl⟩

theorem error_fed_inj {e e' : Error} (h : e.kind.WF) (h' : e'.kind.WF) (hs : e.fed = e'.fed) :
    e = e' := (error_fed_prefix h h' (s := []) (t := []) (by rw [hs])).1

end Verif
