import Verif.Lemmas.Dispatcher
import Verif.Spec.Dispatcher
/-!
# What the dispatcher's vector holds
-/

namespace Amqp.Rt

theorem swapRemove_concat_lt {l : List α} {i : Nat} (x : α) (h : i < l.length) : swapRemove (l ++ [x]) i = l.set i x := by
  unfold swapRemove
  rw [List.getLast?_concat]
  dsimp only
  rw [List.set_append_left _ _ h, List.dropLast_concat]

theorem swapRemove_concat_last (l : List α) (x : α) : swapRemove (l ++ [x]) l.length = l := by
  unfold swapRemove
  rw [List.getLast?_concat]
  dsimp only
  rw [List.set_append_right _ _ (Nat.le_refl _)]
  simp

theorem swapRemove_cases {l : List α} {i : Nat} {a : α} (h : l[i]? = some a) :
    (∃ l', l = l' ++ [a] ∧ i = l'.length ∧ swapRemove l i = l') ∨
    ∃ l' x, l = l' ++ [x] ∧ i < l'.length ∧ l'[i]? = some a ∧ swapRemove l i = l'.set i x := by
  rcases List.eq_nil_or_concat l with rfl | ⟨l', x, rfl⟩
  · simp at h
  · rw [List.concat_eq_append] at *
    by_cases hi : i < l'.length
    · rw [List.getElem?_append_left hi] at h
      exact .inr ⟨l', x, rfl, hi, h, swapRemove_concat_lt x hi⟩
    · have hlt := (List.getElem?_eq_some_iff.1 h).1
      rw [List.length_append, List.length_singleton] at hlt
      have : i = l'.length := by omega
      subst this
      simp at h
      subst h
      exact .inl ⟨l', rfl, rfl, swapRemove_concat_last l' x⟩

theorem swapRemove_perm {l : List α} {i : Nat} {a : α} (h : l[i]? = some a) : l.Perm (a :: swapRemove l i) := by
  rcases swapRemove_cases h with ⟨l', rfl, _, h'⟩ | ⟨l', x, rfl, hi, ha, h'⟩
  · rw [h']
    exact List.perm_append_singleton a l'
  · rw [h']
    have hm : (l'.set i x).Perm (x :: l'.eraseIdx i) := by
      have := List.getElem_cons_eraseIdx_perm (l := l'.set i x) (n := i) (by simpa using hi)
      rw [List.getElem_set_self, List.eraseIdx_set_eq] at this
      exact this.symm
    have ha' : l'.Perm (a :: l'.eraseIdx i) := by
      have := List.getElem_cons_eraseIdx_perm (l := l') (n := i) hi
      rw [(List.getElem?_eq_some_iff.1 ha).2] at this
      exact this.symm
    exact (List.perm_append_singleton x l').trans ((ha'.cons x).trans ((List.Perm.swap a x _).trans (hm.symm.cons a)))

theorem swapRemove_length {l : List α} {i : Nat} {a : α} (h : l[i]? = some a) : (swapRemove l i).length + 1 = l.length :=
  (swapRemove_perm h).length_eq.symm

/-- What comes before the element removed stays where it is. -/
theorem swapRemove_before {l : List α} {i j : Nat} {a : α} (h : l[i]? = some a) (hj : j < i) : (swapRemove l i)[j]? = l[j]? := by
  rcases swapRemove_cases h with ⟨l', rfl, rfl, h'⟩ | ⟨l', x, rfl, hi, ha, h'⟩
  · rw [h', List.getElem?_append_left hj]
  · rw [h', List.getElem?_append_left (by omega), List.getElem?_set_ne (by omega)]

namespace Disp

/-- The entries about sessions are at the right positions, each once, and none is missing. -/
structure Addr (c : Conn) (futs : List (Nat × Call)) : Prop where
  here : ∀ id s i t, (id, .action s i t) ∈ futs → ∃ x act, c.obj? s = some x ∧ x.todo[i]? = some t ∧ t = .ctl act
  once : ∀ id id' s i t t', (id, .action s i t) ∈ futs → (id', .action s i t') ∈ futs → id = id'
  all : ∀ s x i act, c.obj? s = some x → x.todo[i]? = some (.ctl act) → ∃ id, (id, .action s i (.ctl act)) ∈ futs

theorem callOf_about (c : Conn) (n : Nat) (k : CtlFrame) : (callOf c n k).About k := by
  cases k <;> simp [callOf, Call.About]

theorem shift_about (s : Ref) (i : Nat) (p : Nat × Call) (fr : CtlFrame) : (shift s i p).2.About fr ↔ p.2.About fr := by
  obtain ⟨id, k⟩ := p
  cases k <;> cases fr <;> simp [shift, Call.About]

@[simp] theorem shift_fst (s : Ref) (i : Nat) (p : Nat × Call) : (shift s i p).1 = p.1 := by
  obtain ⟨id, k⟩ := p
  cases k <;> rfl

theorem shift_eq_action {s s' : Ref} {i j id : Nat} {t : Todo} {p : Nat × Call} (h : shift s i p = (id, .action s' j t)) :
    ∃ j', p = (id, .action s' j' t) ∧ j = if s' = s ∧ i < j' then j' - 1 else j' := by
  obtain ⟨id', k⟩ := p
  cases k with
  | action s₁ j₁ t₁ =>
    simp only [shift, Prod.mk.injEq, Call.action.injEq] at h
    obtain ⟨rfl, rfl, h, rfl⟩ := h
    exact ⟨j₁, rfl, h.symm⟩
  | _ => simp [shift] at h

/-- A step that makes calls. -/
theorem Addr.grows {c d : Conn} {futs : List (Nat × Call)} {l : List CtlFrame} (h : Addr c futs) (g : c.Grows d l) (n₀ : Nat)
    (hlt : ∀ p ∈ futs, p.1 < n₀) :
    Addr d (futs ++ l.mapIdx fun n k => (n₀ + n, callOf c n k)) := by
  have hnew : ∀ id s i t, (id, Call.action s i t) ∈ (l.mapIdx fun n k => (n₀ + n, callOf c n k)) →
      id = n₀ ∧ l[0]? = some (.action s t) ∧ ∃ x act, c.obj? s = some x ∧ i = x.todo.length ∧ t = .ctl act := by
    intro id s i t hm
    obtain ⟨n, hn, hp⟩ := List.mem_mapIdx.1 hm
    have hk : l[n]? = some l[n] := List.getElem?_eq_getElem hn
    cases hl : l[n] with
    | action s' t' =>
      rw [hl] at hk hp
      simp only [callOf, Prod.mk.injEq, Call.action.injEq] at hp
      obtain ⟨rfl, rfl, rfl, rfl⟩ := hp
      obtain ⟨rfl, hs, act, ha⟩ := g.told n s' t' hk
      obtain ⟨x, hx⟩ := Option.isSome_iff_exists.1 hs
      rw [hx]
      exact ⟨rfl, hk, x, act, rfl, rfl, ha⟩
    | _ => rw [hl] at hp; simp [callOf] at hp
  have hof : ∀ s t, l[0]? = some (.action s t) → l.filterMap (·.of s) = [t] := by
    intro s t h0
    cases l with
    | nil => simp at h0
    | cons k l =>
      simp at h0
      subst h0
      have : l.filterMap (·.of s) = [] := by
        rw [List.filterMap_eq_nil_iff]
        intro k hk
        obtain ⟨n, hn, rfl⟩ := List.mem_iff_getElem.1 hk
        cases hq : l[n] with
        | action s' t' =>
          have := (g.told (n + 1) s' t' (by simp [hn, hq])).1
          omega
        | _ => rfl
      rw [List.filterMap_cons, this]
      simp [CtlFrame.of]
  refine ⟨?_, ?_, ?_⟩
  · intro id s i t hm
    rcases List.mem_append.1 hm with hm | hm
    · obtain ⟨x, act, hx, ht, ha⟩ := h.here id s i t hm
      obtain ⟨x', hx', hto⟩ := g.todo s x hx
      refine ⟨x', act, hx', ?_, ha⟩
      rw [hto, List.getElem?_append_left (List.getElem?_eq_some_iff.1 ht).1]
      exact ht
    · obtain ⟨_, h0, x, act, hx, rfl, ha⟩ := hnew id s i t hm
      obtain ⟨x', hx', hto⟩ := g.todo s x hx
      refine ⟨x', act, hx', ?_, ha⟩
      rw [hto, hof s t h0]
      simp
  · have hmix : ∀ id id' s i t t', (id, Call.action s i t) ∈ futs →
        (id', Call.action s i t') ∈ (l.mapIdx fun n k => (n₀ + n, callOf c n k)) → False := by
      intro id id' s i t t' hm hm'
      obtain ⟨x, act, hx, ht, ha⟩ := h.here id s i t hm
      obtain ⟨_, h0, x', act, hx', rfl, ha⟩ := hnew id' s i t' hm'
      rw [hx] at hx'
      cases hx'
      simp at ht
    intro id id' s i t t' hm hm'
    rcases List.mem_append.1 hm with hm | hm <;> rcases List.mem_append.1 hm' with hm' | hm'
    · exact h.once id id' s i t t' hm hm'
    · exact (hmix _ _ _ _ _ _ hm hm').elim
    · exact (hmix _ _ _ _ _ _ hm' hm).elim
    · rw [(hnew _ _ _ _ hm).1, (hnew _ _ _ _ hm').1]
  · intro s x' i act hx' ht
    cases hx : c.obj? s with
    | none =>
      rw [g.fresh s x' hx hx'] at ht
      simp at ht
    | some x =>
      obtain ⟨y, hy, hto⟩ := g.todo s x hx
      rw [hx'] at hy
      cases hy
      rw [hto] at ht
      by_cases hi : i < x.todo.length
      · rw [List.getElem?_append_left hi] at ht
        obtain ⟨id, hid⟩ := h.all s x i act hx ht
        exact ⟨id, List.mem_append_left _ hid⟩
      · rw [List.getElem?_append_right (Nat.le_of_not_lt hi)] at ht
        have hm := List.mem_of_getElem? ht
        obtain ⟨k, hk, hof'⟩ := List.mem_filterMap.1 hm
        obtain ⟨n, hn, rfl⟩ := List.mem_iff_getElem.1 hk
        cases hq : l[n] with
        | action s' t' =>
          rw [hq] at hof'
          simp only [CtlFrame.of, Option.ite_none_right_eq_some] at hof'
          obtain ⟨rfl, ht'⟩ := hof'
          cases ht'
          have hk' : l[n]? = some (.action s' (.ctl act)) := by rw [List.getElem?_eq_getElem hn, hq]
          have h0 := (g.told n _ _ hk').1
          subst h0
          rw [hof s' _ hk'] at ht
          have hi0 : i - x.todo.length = 0 := by
            have := (List.getElem?_eq_some_iff.1 ht).1
            simp at this
            omega
          refine ⟨n₀ + 0, List.mem_append_right _ (List.mem_mapIdx.2 ⟨0, hn, ?_⟩)⟩
          simp only [hq, callOf, hx]
          congr 2
          omega
        | _ => rw [hq] at hof'; simp [CtlFrame.of] at hof'

/-- The answer to a call: the entry leaves `todo`. -/
theorem Addr.complete {c : Conn} {futs : List (Nat × Call)} {s : Ref} {i : Nat} {x : Session} {t₀ : Todo} (a : Answer)
    (hx : c.obj? s = some x) (ht₀ : x.todo[i]? = some t₀)
    (here : ∀ id s i t, (id, .action s i t) ∈ futs → ∃ x act, c.obj? s = some x ∧ x.todo[i]? = some t ∧ t = .ctl act)
    (once : ∀ id id' s i t t', (id, .action s i t) ∈ futs → (id', .action s i t') ∈ futs → id = id')
    (gone : ∀ id t, (id, Call.action s i t) ∉ futs)
    (all : ∀ s' x j act, c.obj? s' = some x → x.todo[j]? = some (.ctl act) → ¬ (s' = s ∧ j = i) →
      ∃ id, (id, .action s' j (.ctl act)) ∈ futs) :
    Addr (c.step (.local s (.complete i a.edit a.error))) (futs.map (shift s i)) := by
  have hobj : ∀ t, (c.step (.local s (.complete i a.edit a.error))).obj? t =
      if t = s then some (x.step (.complete i a.edit a.error)) else c.obj? t := by
    intro t
    show (c.onSession s _).obj? t = _
    rw [Conn.onSession_obj?, hx]
    rfl
  have hto : (x.step (.complete i a.edit a.error)).todo = x.todo.eraseIdx i ++ nextTodo a.edit a.error t₀ := by
    rcases step_todo x (.complete i a.edit a.error) with ⟨i', edit, e, t, h, ht, hto⟩ | ⟨_, h⟩ | ⟨_, _, h, _⟩
    · cases h
      rw [ht₀] at ht
      cases ht
      exact hto
    · rw [h i _ _ rfl] at ht₀
      cases ht₀
    · exact absurd rfl (h i _ _)
  have hi : i < x.todo.length := (List.getElem?_eq_some_iff.1 ht₀).1
  have hlen : (x.todo.eraseIdx i).length = x.todo.length - 1 := by rw [List.length_eraseIdx, if_pos hi]
  refine ⟨?_, ?_, ?_⟩
  · intro id s' j t hm
    obtain ⟨p, hp, hs⟩ := List.mem_map.1 hm
    obtain ⟨j', rfl, hj⟩ := shift_eq_action hs
    obtain ⟨y, act, hy, hyt, ha⟩ := here id s' j' t hp
    rw [hobj]
    by_cases h : s' = s
    · subst h
      rw [if_pos rfl]
      rw [hx] at hy
      cases hy
      have hne : j' ≠ i := by rintro rfl; exact gone _ _ hp
      have hlt := (List.getElem?_eq_some_iff.1 hyt).1
      refine ⟨_, act, rfl, ?_, ha⟩
      rw [hto]
      by_cases hij : i < j'
      · simp only [hij, and_self, if_true] at hj
        subst hj
        rw [List.getElem?_append_left (by omega), List.getElem?_eraseIdx_of_ge (by omega), Nat.sub_add_cancel (by omega)]
        exact hyt
      · simp only [hij, and_false, if_false] at hj
        subst hj
        rw [List.getElem?_append_left (by omega), List.getElem?_eraseIdx_of_lt (by omega)]
        exact hyt
    · rw [if_neg h]
      simp only [h, false_and, if_false] at hj
      subst hj
      exact ⟨y, act, hy, hyt, ha⟩
  · intro id id' s' j t t' hm hm'
    obtain ⟨p, hp, hs⟩ := List.mem_map.1 hm
    obtain ⟨j₁, rfl, hj⟩ := shift_eq_action hs
    obtain ⟨p', hp', hs'⟩ := List.mem_map.1 hm'
    obtain ⟨j₂, rfl, hj'⟩ := shift_eq_action hs'
    have : j₁ = j₂ := by
      by_cases h : s' = s
      · subst h
        have h1 : j₁ ≠ i := by rintro rfl; exact gone _ _ hp
        have h2 : j₂ ≠ i := by rintro rfl; exact gone _ _ hp'
        simp only [true_and] at hj hj'
        split at hj <;> split at hj' <;> omega
      · simp only [h, false_and, if_false] at hj hj'
        omega
    subst this
    exact once _ _ _ _ _ _ hp hp'
  · intro s' y j act hy hyt
    rw [hobj] at hy
    by_cases h : s' = s
    · subst h
      rw [if_pos rfl] at hy
      cases hy
      rw [hto] at hyt
      by_cases hj : j < (x.todo.eraseIdx i).length
      · rw [List.getElem?_append_left hj, List.getElem?_eraseIdx] at hyt
        split at hyt
        · next hji =>
          obtain ⟨id, hid⟩ := all s' x j act hx hyt (by omega)
          refine ⟨id, List.mem_map.2 ⟨_, hid, ?_⟩⟩
          simp only [shift]
          rw [if_neg (by omega)]
        · next hji =>
          obtain ⟨id, hid⟩ := all s' x (j + 1) act hx hyt (by omega)
          refine ⟨id, List.mem_map.2 ⟨_, hid, ?_⟩⟩
          simp only [shift]
          rw [if_pos ⟨trivial, by omega⟩]
          rfl
      · rw [List.getElem?_append_right (Nat.le_of_not_lt hj)] at hyt
        have := List.mem_of_getElem? hyt
        unfold nextTodo at this
        split at this
        · split at this <;> simp at this
        · simp at this
    · rw [if_neg h] at hy
      obtain ⟨id, hid⟩ := all s' y j act hy hyt (by simp [h])
      refine ⟨id, List.mem_map.2 ⟨_, hid, ?_⟩⟩
      simp [shift, h]

/-- What holds in every state of a dispatcher. -/
structure Inv (d : Disp) : Prop where
  reach : d.conn.Reachable
  perm : (d.answered ++ d.futs.map Prod.fst).Perm (List.range d.calls)
  count : (calledIn d.conn.log).length = d.calls
  about : ∀ id k, (id, k) ∈ d.futs → ∃ fr, (calledIn d.conn.log)[id]? = some fr ∧ k.About fr
  addr : Addr d.conn d.futs

theorem Inv.lt {d : Disp} (h : d.Inv) : ∀ p ∈ d.futs, p.1 < d.calls := by
  intro p hp
  have : p.1 ∈ d.answered ++ d.futs.map Prod.fst := List.mem_append_right _ (List.mem_map_of_mem hp)
  exact List.mem_range.1 (h.perm.mem_iff.1 this)

theorem Inv.nodup {d : Disp} (h : d.Inv) : (d.answered ++ d.futs.map Prod.fst).Nodup :=
  h.perm.nodup_iff.2 List.nodup_range

theorem advance_grows {d : Disp} {st : CStep} {l : List CtlFrame} (g : d.conn.Grows (d.conn.step st) l) :
    d.advance st = { d with conn := d.conn.step st
                            futs := d.futs ++ l.mapIdx (fun n k => (d.calls + n, callOf d.conn n k))
                            calls := d.calls + l.length } := by
  obtain ⟨evs, he, rfl⟩ := g.log
  unfold advance
  dsimp only
  rw [he, List.drop_left]

theorem range_append (m n : Nat) : List.range (m + n) = List.range m ++ (List.range n).map (m + ·) := by
  rw [List.range_add]

theorem Inv.advance {d : Disp} (h : d.Inv) (st : CStep) (hst : ∀ s i edit e, st ≠ .local s (.complete i edit e)) :
    (d.advance st).Inv := by
  obtain ⟨l, g⟩ := Conn.Grows.step d.conn st hst
  rw [advance_grows g]
  obtain ⟨evs, he, hl⟩ := g.log
  refine ⟨h.reach.step st, ?_, ?_, ?_, h.addr.grows g _ h.lt⟩
  · dsimp only
    rw [List.map_append, ← List.append_assoc, range_append]
    refine h.perm.append (List.Perm.of_eq ?_)
    apply List.ext_getElem <;> simp
  · dsimp only
    rw [he, calledIn_append, List.length_append, h.count, hl]
  · intro id k hm
    rw [he, calledIn_append, hl]
    rcases List.mem_append.1 hm with hm | hm
    · obtain ⟨fr, hfr, ha⟩ := h.about id k hm
      exact ⟨fr, by rw [List.getElem?_append_left (List.getElem?_eq_some_iff.1 hfr).1]; exact hfr, ha⟩
    · obtain ⟨n, hn, hp⟩ := List.mem_mapIdx.1 hm
      cases hp
      refine ⟨l[n], ?_, callOf_about _ _ _⟩
      rw [List.getElem?_append_right (by rw [h.count]; omega), h.count, Nat.add_sub_cancel_left]
      exact List.getElem?_eq_getElem hn

theorem complete_eq (d : Disp) (s : Ref) (i : Nat) (a : Answer) :
    d.complete s i a = { d with conn := d.conn.step (.local s (.complete i a.edit a.error)), futs := d.futs.map (shift s i) } := by
  obtain ⟨evs, he, hq⟩ := Conn.onSession_called d.conn s (.complete i a.edit a.error)
  have he' : (d.conn.step (.local s (.complete i a.edit a.error))).log = d.conn.log ++ evs := he
  unfold Disp.complete Disp.advance
  dsimp only
  rw [he', List.drop_left, hq]
  simp

/-- The parts of the invariant that do not look into sessions, when an entry is answered. -/
theorem complete_called (c : Conn) (s : Ref) (i : Nat) (a : Answer) :
    calledIn (c.step (.local s (.complete i a.edit a.error))).log = calledIn c.log := by
  obtain ⟨evs, he, hq⟩ := Conn.onSession_called c s (.complete i a.edit a.error)
  have he' : (c.step (.local s (.complete i a.edit a.error))).log = c.log ++ evs := he
  rw [he', calledIn_append, hq, List.append_nil]

theorem fail_eq (d : Disp) (e : PErr) : d.advance (.fail e) = { d with conn := d.conn.step (.fail e) } := by
  rw [advance_grows (Conn.Grows.setError d.conn e)]
  simp

theorem fail_called (c : Conn) (e : PErr) : calledIn (c.step (.fail e)).log = calledIn c.log := by
  obtain ⟨evs, he, hq⟩ := (Conn.Grows.setError c e).log
  have he' : (c.step (.fail e)).log = c.log ++ evs := he
  rw [he', calledIn_append, hq, List.append_nil]

/-- The answer to an outstanding call takes effect. -/
theorem Inv.handle {d : Disp} (h : d.Inv) {id : Nat} {k : Call} {rest : List (Nat × Call)}
    (hp : d.futs.Perm ((id, k) :: rest)) (a : Answer) : ({ d with futs := rest }.handle id k a).Inv := by
  have hmem : ∀ p ∈ rest, p ∈ d.futs := fun p h => hp.mem_iff.2 (List.mem_cons_of_mem _ h)
  have hk : (id, k) ∈ d.futs := hp.mem_iff.2 (List.mem_cons_self ..)
  have hid : ∀ p ∈ rest, p.1 ≠ id := by
    have hn := (List.nodup_append.1 h.nodup).2.1
    rw [(hp.map Prod.fst).nodup_iff] at hn
    intro p hp' he
    exact (List.nodup_cons.1 hn).1 (List.mem_map.2 ⟨p, hp', he⟩)
  have hperm : (d.answered ++ [id] ++ rest.map Prod.fst).Perm (List.range d.calls) := by
    refine List.Perm.trans ?_ h.perm
    rw [List.append_assoc]
    exact List.Perm.append_left _ (hp.map Prod.fst).symm
  have hrest : ∀ s x j act, d.conn.obj? s = some x → x.todo[j]? = some (.ctl act) →
      (∀ i t, k = .action s i t → j ≠ i) → ∃ id, (id, .action s j (.ctl act)) ∈ rest := by
    intro s x j act hx hj hne
    obtain ⟨id', hid'⟩ := h.addr.all s x j act hx hj
    rcases List.mem_cons.1 (hp.mem_iff.1 hid') with he | hm
    · cases he
      exact absurd rfl (hne _ _ rfl)
    · exact ⟨id', hm⟩
  cases k with
  | action s i t =>
    obtain ⟨x, act, hx, ht, ha⟩ := h.addr.here id s i t hk
    show Disp.Inv (Disp.complete _ s i a)
    rw [complete_eq]
    refine ⟨h.reach.step (.local s (.complete i a.edit a.error)), ?_, ?_, ?_, ?_⟩
    · dsimp only
      rw [List.map_map]
      have : Prod.fst ∘ shift s i = Prod.fst := funext fun p => shift_fst s i p
      rw [this]
      exact hperm
    · dsimp only
      rw [complete_called]
      exact h.count
    · intro id' k' hm
      dsimp only
      rw [complete_called]
      obtain ⟨p, hp', he⟩ := List.mem_map.1 hm
      obtain ⟨fr, hfr, hab⟩ := h.about p.1 p.2 (hmem _ hp')
      have h1 : p.1 = id' := by rw [← shift_fst s i p, he]
      exact ⟨fr, by rw [← h1]; exact hfr, by have := (shift_about s i p fr).2 hab; rwa [he] at this⟩
    · refine Addr.complete a hx ht (fun id s i t hm => h.addr.here id s i t (hmem _ hm))
        (fun id id' s i t t' hm hm' => h.addr.once id id' s i t t' (hmem _ hm) (hmem _ hm')) ?_ ?_
      · intro id' t' hm
        exact hid _ hm (h.addr.once _ _ _ _ _ _ (hmem _ hm) hk)
      · intro s' x' j act hx' hj hne
        refine hrest s' x' j act hx' hj ?_
        rintro i' t' he rfl
        cases he
        exact hne ⟨rfl, rfl⟩
  | protocolError e =>
    show Disp.Inv { Disp.advance _ (.fail e) with error := some e }
    rw [fail_eq]
    refine ⟨h.reach.step (.fail e), hperm, by dsimp only; rw [fail_called]; exact h.count, ?_, ?_⟩
    · intro id' k' hm
      dsimp only
      rw [fail_called]
      exact h.about id' k' (hmem _ hm)
    · have := h.addr.grows (Conn.Grows.setError d.conn e) d.calls h.lt
      refine ⟨fun id s i t hm => this.here id s i t (by simpa using hmem _ hm),
        fun id id' s i t t' hm hm' => this.once id id' s i t t' (by simpa using hmem _ hm) (by simpa using hmem _ hm'), ?_⟩
      intro s x j act hx hj
      obtain ⟨id', hid'⟩ := this.all s x j act hx hj
      rcases List.mem_cons.1 (hp.mem_iff.1 (by simpa using hid')) with he | hm
      · cases he
      · exact ⟨id', hm⟩
  | disconnected =>
    show Disp.Inv (Disp.advance _ (.fail .disconnected))
    rw [fail_eq]
    refine ⟨h.reach.step (.fail .disconnected), hperm, by dsimp only; rw [fail_called]; exact h.count, ?_, ?_⟩
    · intro id' k' hm
      dsimp only
      rw [fail_called]
      exact h.about id' k' (hmem _ hm)
    · have := h.addr.grows (Conn.Grows.setError d.conn .disconnected) d.calls h.lt
      refine ⟨fun id s i t hm => this.here id s i t (by simpa using hmem _ hm),
        fun id id' s i t t' hm hm' => this.once id id' s i t t' (by simpa using hmem _ hm) (by simpa using hmem _ hm'), ?_⟩
      intro s x j act hx hj
      obtain ⟨id', hid'⟩ := this.all s x j act hx hj
      rcases List.mem_cons.1 (hp.mem_iff.1 (by simpa using hid')) with he | hm
      · cases he
      · exact ⟨id', hm⟩
  | notice =>
    refine ⟨h.reach, hperm, h.count, fun id' k' hm => h.about id' k' (hmem _ hm), ?_⟩
    refine ⟨fun id s i t hm => h.addr.here id s i t (hmem _ hm),
      fun id id' s i t t' hm hm' => h.addr.once id id' s i t t' (hmem _ hm) (hmem _ hm'), ?_⟩
    intro s x j act hx hj
    exact hrest s x j act hx hj (by simp)

theorem Inv.attached {d : Disp} (h : d.Inv) {s : Ref} {i : Nat} {x : Session} {r : Ref} {g : Attach} (a : Answer)
    (hx : d.conn.obj? s = some x) (ht : x.todo[i]? = some (.attached r g)) : (d.complete s i a).Inv := by
  rw [complete_eq]
  refine ⟨h.reach.step (.local s (.complete i a.edit a.error)), ?_, ?_, ?_, ?_⟩
  · dsimp only
    rw [List.map_map]
    have : Prod.fst ∘ shift s i = Prod.fst := funext fun p => shift_fst s i p
    rw [this]
    exact h.perm
  · dsimp only
    rw [complete_called]
    exact h.count
  · intro id' k' hm
    dsimp only
    rw [complete_called]
    obtain ⟨p, hp', he⟩ := List.mem_map.1 hm
    obtain ⟨fr, hfr, hab⟩ := h.about p.1 p.2 hp'
    have h1 : p.1 = id' := by rw [← shift_fst s i p, he]
    exact ⟨fr, by rw [← h1]; exact hfr, by have := (shift_about s i p fr).2 hab; rwa [he] at this⟩
  · refine Addr.complete a hx ht h.addr.here h.addr.once ?_ fun s' x' j act hx' hj _ => h.addr.all s' x' j act hx' hj
    intro id t hm
    obtain ⟨y, act, hy, hyt, rfl⟩ := h.addr.here id s i t hm
    rw [hx] at hy
    cases hy
    rw [ht] at hyt
    cases hyt

theorem Inv.pollFrom {d : Disp} (h : d.Inv) (ready : Nat → Option Answer) (n idx : Nat) :
    (d.pollFrom ready n idx).Inv := by
  induction n generalizing d idx with
  | zero => exact h
  | succ n ih =>
    unfold Disp.pollFrom
    split
    · exact h
    · next id k hk =>
      split
      · exact ih h _
      · next a ha =>
        have h' := h.handle (swapRemove_perm hk) a
        dsimp only
        split
        · exact h'
        · exact ih h' _

theorem Inv.step {d : Disp} (h : d.Inv) (st : DStep) : (d.step st).Inv := by
  cases st with
  | recv ch f => exact h.advance _ (by simp)
  | own st =>
    unfold Disp.step
    dsimp only
    split
    · next ho =>
      refine h.advance _ ?_
      rintro s i edit e rfl
      simp [CStep.outside] at ho
    · exact h
  | attached s i a =>
    unfold Disp.step
    dsimp only
    split
    · next r g hb =>
      obtain ⟨x, hx, ht⟩ := Option.bind_eq_some_iff.1 hb
      exact h.attached a hx ht
    · exact h
  | poll ready => exact (h.advance .poll (by simp)).pollFrom ready _ _
  | shutdown => exact h.advance _ (by simp)

theorem Reachable.inv {d : Disp} (h : d.Reachable) : d.Inv := by
  obtain ⟨cfg, steps, rfl⟩ := h
  have h₀ : (new cfg).Inv := by
    refine ⟨⟨cfg, [], rfl⟩, .refl _, rfl, by simp [new], ⟨by simp [new], by simp [new], ?_⟩⟩
    intro s x i act hx
    simp [new, Conn.new, Conn.obj?] at hx
  generalize new cfg = d at h₀ ⊢
  induction steps generalizing d with
  | nil => exact h₀
  | cons st l ih => exact ih _ (h₀.step st)

theorem Reachable.step {d : Disp} (h : d.Reachable) (st : DStep) : (d.step st).Reachable := by
  obtain ⟨cfg, steps, rfl⟩ := h
  exact ⟨cfg, steps ++ [st], by simp [run, List.foldl_append]⟩

/-! ## One poll -/

theorem handle_ids (d : Disp) (id : Nat) (k : Call) (a : Answer) :
    (d.handle id k a).futs.map Prod.fst = d.futs.map Prod.fst ∧ (d.handle id k a).answered = d.answered ++ [id] ∧
      (d.handle id k a).calls = d.calls := by
  cases k with
  | action s i t =>
    unfold handle
    dsimp only
    rw [complete_eq]
    refine ⟨?_, rfl, rfl⟩
    dsimp only
    rw [List.map_map]
    congr 1
    exact funext fun p => shift_fst s i p
  | protocolError e => unfold handle; dsimp only; rw [fail_eq]; exact ⟨rfl, rfl, rfl⟩
  | disconnected => unfold handle; dsimp only; rw [fail_eq]; exact ⟨rfl, rfl, rfl⟩
  | notice => exact ⟨rfl, rfl, rfl⟩

/-- The control frame an entry is about, seen through the shifts. -/
theorem handle_calls (d : Disp) (id : Nat) (k : Call) (a : Answer) (p : Nat × Call) (hp : p ∈ (d.handle id k a).futs) :
    ∃ q ∈ d.futs, q.1 = p.1 ∧ ∀ e, p.2 = .protocolError e → q.2 = .protocolError e := by
  cases k with
  | action s i t =>
    unfold handle at hp
    dsimp only at hp
    rw [complete_eq] at hp
    obtain ⟨q, hq, rfl⟩ := List.mem_map.1 hp
    refine ⟨q, hq, by simp, fun e he => ?_⟩
    obtain ⟨id', k'⟩ := q
    cases k' <;> simp_all [shift]
  | protocolError e => unfold handle at hp; dsimp only at hp; rw [fail_eq] at hp; exact ⟨p, hp, rfl, fun _ h => h⟩
  | disconnected => unfold handle at hp; dsimp only at hp; rw [fail_eq] at hp; exact ⟨p, hp, rfl, fun _ h => h⟩
  | notice => exact ⟨p, hp, rfl, fun _ h => h⟩

theorem fail_conn_error (c : Conn) (e : PErr) : (c.step (.fail e)).error.isSome := by
  show (c.setError e).error.isSome
  rw [(Conn.setError_eq c e).2.2]
  rfl

theorem pollFrom_ready (ready : Nat → Option Answer) (n idx : Nat) {d : Disp} {id : Nat} {k : Call} {a : Answer}
    (hk : d.futs[idx]? = some (id, k)) (ha : ready id = some a) :
    d.pollFrom ready (n + 1) idx = { d with futs := swapRemove d.futs idx }.handle id k a ∨
    d.pollFrom ready (n + 1) idx = pollFrom ready n idx ({ d with futs := swapRemove d.futs idx }.handle id k a) := by
  conv => lhs; lhs; unfold Disp.pollFrom
  conv => rhs; lhs; unfold Disp.pollFrom
  rw [hk]
  dsimp only
  rw [ha]
  dsimp only
  split
  · exact .inl rfl
  · exact .inr rfl

/-- What one run of the loop does. -/
theorem pollFrom_spec (ready : Nat → Option Answer) (n idx : Nat) (d : Disp) (hn : d.futs.length ≤ n + idx)
    (hb : ∀ j, j < idx → ∀ p, d.futs[j]? = some p → ready p.1 = none) :
    ∃ l, (d.pollFrom ready n idx).answered = d.answered ++ l ∧
      (d.futs.map Prod.fst).Perm (l ++ (d.pollFrom ready n idx).futs.map Prod.fst) ∧
      (∀ id ∈ l, (ready id).isSome) ∧ (d.pollFrom ready n idx).calls = d.calls ∧
      ((∀ p ∈ (d.pollFrom ready n idx).futs, ready p.1 = none) ∨
        ∃ id e, (id, .protocolError e) ∈ d.futs ∧ (ready id).isSome ∧ id ∈ l ∧
          (d.pollFrom ready n idx).error = some e ∧ (d.pollFrom ready n idx).conn.error.isSome) := by
  induction n generalizing d idx with
  | zero =>
    refine ⟨[], by simp [Disp.pollFrom], by simp [Disp.pollFrom], by simp, rfl, .inl ?_⟩
    intro p hp
    obtain ⟨j, hj, rfl⟩ := List.mem_iff_getElem.1 hp
    have hj' : j < d.futs.length := hj
    exact hb j (by omega) _ (List.getElem?_eq_getElem hj)
  | succ n ih =>
    unfold Disp.pollFrom
    split
    · next hnone =>
      refine ⟨[], by simp, by simp, by simp, rfl, .inl ?_⟩
      intro p hp
      obtain ⟨j, hj, rfl⟩ := List.mem_iff_getElem.1 hp
      have := List.getElem?_eq_none_iff.1 hnone
      exact hb j (by omega) _ (List.getElem?_eq_getElem hj)
    · next id k hk =>
      split
      · next hr =>
        refine ih (idx + 1) d (by omega) ?_
        intro j hj p hp
        by_cases h : j = idx
        · subst h
          rw [hk] at hp
          cases hp
          exact hr
        · exact hb j (by omega) p hp
      · next a ha =>
        have hlen := swapRemove_length hk
        obtain ⟨h1, h2, h3⟩ := handle_ids { d with futs := swapRemove d.futs idx } id k a
        have hperm := (swapRemove_perm hk).map Prod.fst
        rw [List.map_cons] at hperm
        have hgo : ∃ l, (pollFrom ready n idx ({ d with futs := swapRemove d.futs idx }.handle id k a)).answered = d.answered ++ l ∧
            (d.futs.map Prod.fst).Perm
              (l ++ (pollFrom ready n idx ({ d with futs := swapRemove d.futs idx }.handle id k a)).futs.map Prod.fst) ∧
            (∀ id ∈ l, (ready id).isSome) ∧
            (pollFrom ready n idx ({ d with futs := swapRemove d.futs idx }.handle id k a)).calls = d.calls ∧
            ((∀ p ∈ (pollFrom ready n idx ({ d with futs := swapRemove d.futs idx }.handle id k a)).futs, ready p.1 = none) ∨
              ∃ id' e, (id', .protocolError e) ∈ d.futs ∧ (ready id').isSome ∧ id' ∈ l ∧
                (pollFrom ready n idx ({ d with futs := swapRemove d.futs idx }.handle id k a)).error = some e ∧
                (pollFrom ready n idx ({ d with futs := swapRemove d.futs idx }.handle id k a)).conn.error.isSome) := by
          obtain ⟨l, g1, g2, g3, g4, g5⟩ := ih idx ({ d with futs := swapRemove d.futs idx }.handle id k a) (by
              have : (Disp.handle { d with futs := swapRemove d.futs idx } id k a).futs.length = (swapRemove d.futs idx).length := by
                rw [← List.length_map (f := Prod.fst), h1, List.length_map]
              omega) (by
              intro j hj p hp
              have he : ((Disp.handle { d with futs := swapRemove d.futs idx } id k a).futs.map Prod.fst)[j]? = some p.1 := by
                rw [List.getElem?_map, hp]; rfl
              rw [h1, List.getElem?_map, swapRemove_before hk hj] at he
              obtain ⟨q, hq, hqe⟩ := Option.map_eq_some_iff.1 he
              rw [← hqe]
              exact hb j hj q hq)
          refine ⟨id :: l, ?_, ?_, ?_, by rw [g4, h3], ?_⟩
          · rw [g1, h2]; simp
          · rw [h1] at g2
            exact hperm.trans (g2.cons id)
          · intro id' hm
            rcases List.mem_cons.1 hm with rfl | hm
            · rw [ha]; rfl
            · exact g3 _ hm
          · rcases g5 with g5 | ⟨id', e, hm, hr, hl, he, hc⟩
            · exact .inl g5
            · refine .inr ⟨id', e, ?_, hr, List.mem_cons_of_mem _ hl, he, hc⟩
              obtain ⟨⟨q1, q2⟩, hq, rfl, hqe⟩ := handle_calls _ _ _ _ _ hm
              have := hqe e rfl
              dsimp only at this
              subst this
              exact (swapRemove_perm hk).mem_iff.2 (List.mem_cons_of_mem _ hq)
        dsimp only
        split
        · next e =>
          refine ⟨[id], h2, ?_, by simp [ha], h3, .inr ⟨id, e, List.mem_of_getElem? hk, by rw [ha]; rfl, by simp, rfl, ?_⟩⟩
          · rw [h1]; exact hperm
          · unfold handle
            dsimp only
            rw [fail_eq]
            exact fail_conn_error _ _
        · exact hgo

end Disp
end Amqp.Rt
