import Verif.Lemmas.DispatcherInv
import Verif.Props.ConnectionWitnesses
/-!
# C71: the answers to control calls

The control service is called about frames of the peer, about local events and about the end of the connection.  The calls
wait in a vector until they are answered.
-/

namespace Amqp.Rt
open Session Examples Disp

/-- **C71** A dispatcher drives its connection as `Model/Connection.lean` allows: whatever is proved of reachable connections
holds under a dispatcher. -/
theorem c71_is_connection {d : Disp} (h : d.Reachable) : d.conn.Reachable := h.inv.reach

/-- **C71** Every call made so far is either answered or outstanding, and is so once: the answers that took effect and the
vector together are the calls of the log, in some order. -/
theorem c71_each_once {d : Disp} (h : d.Reachable) :
    (d.answered ++ d.futs.map Prod.fst).Perm (List.range (calledIn d.conn.log).length) := by
  rw [h.inv.count]; exact h.inv.perm

/-- **C71** An outstanding call is the one its number says, and if it is about a frame of the peer, its session still has
that frame, at the position the entry names. -/
theorem c71_right_frame {d : Disp} (h : d.Reachable) {id : Nat} {k : Call} (hk : (id, k) ∈ d.futs) :
    (∃ fr, (calledIn d.conn.log)[id]? = some fr ∧ k.About fr) ∧
    ∀ s i t, k = .action s i t → ∃ x, d.conn.obj? s = some x ∧ x.todo[i]? = some t := by
  refine ⟨h.inv.about id k hk, ?_⟩
  rintro s i t rfl
  obtain ⟨x, _, hx, ht, _⟩ := h.inv.addr.here id s i t hk
  exact ⟨x, hx, ht⟩

/-- **C71** No frame of the peer waits in a session without a call that will let it go on, and with one call only. -/
theorem c71_none_missing {d : Disp} (h : d.Reachable) {s : Ref} {x : Session} {i : Nat} {act : Action}
    (hx : d.conn.obj? s = some x) (ht : x.todo[i]? = some (.ctl act)) :
    ∃ id, (id, .action s i (.ctl act)) ∈ d.futs ∧ ∀ id' t, (id', .action s i t) ∈ d.futs → id' = id := by
  obtain ⟨id, hid⟩ := h.inv.addr.all s x i act hx ht
  exact ⟨id, hid, fun id' t hid' => h.inv.addr.once _ _ _ _ _ _ hid' hid⟩

/-- **C71** One poll acts on calls that are answered, on each once, and on all of them, unless one of them was about a
protocol error: then the connection fails and the dispatcher stops with that error. -/
theorem c71_poll (d : Disp) (ready : Nat → Option Answer) :
    ∃ l, (d.step (.poll ready)).answered = d.answered ++ l ∧
      ((d.advance .poll).futs.map Prod.fst).Perm (l ++ (d.step (.poll ready)).futs.map Prod.fst) ∧
      (∀ id ∈ l, (ready id).isSome) ∧
      ((∀ p ∈ (d.step (.poll ready)).futs, ready p.1 = none) ∨
        ∃ id e, (id, .protocolError e) ∈ (d.advance .poll).futs ∧ id ∈ l ∧ (d.step (.poll ready)).error = some e ∧
          (d.step (.poll ready)).conn.error.isSome) := by
  obtain ⟨l, h1, h2, h3, _, h5⟩ := pollFrom_spec ready _ 0 (d.advance .poll) (Nat.le_refl _) (by intro j hj; omega)
  refine ⟨l, h1, h2, h3, ?_⟩
  rcases h5 with h5 | ⟨id, e, a, _, b, c, f⟩
  · exact .inl h5
  · exact .inr ⟨id, e, a, b, c, f⟩

/-! ## Order -/

theorem inOrder_advance {d : Disp} (h : d.InOrder) (st : CStep) : (d.advance st).InOrder := by
  unfold InOrder advance at *
  dsimp only
  rw [List.map_append, ← List.append_assoc, h, range_append]
  congr 1
  apply List.ext_getElem <;> simp

theorem inOrder_complete {d : Disp} (h : d.InOrder) (s : Ref) (i : Nat) (a : Answer) : (d.complete s i a).InOrder := by
  rw [complete_eq]
  unfold InOrder at *
  dsimp only
  rw [List.map_map]
  have : Prod.fst ∘ shift s i = Prod.fst := funext fun p => shift_fst s i p
  rw [this]
  exact h

theorem inOrder_sorted {d : Disp} (h : d.InOrder) : (d.futs.map Prod.fst).Pairwise (· < ·) := by
  have : (d.answered ++ d.futs.map Prod.fst).Pairwise (· < ·) := by rw [h]; exact List.pairwise_lt_range
  exact (List.pairwise_append.1 this).2.1

theorem swapRemove_short (a : α) (l : List α) (h : (a :: l).length ≤ 2) : swapRemove (a :: l) 0 = l := by
  rcases l with _ | ⟨b, _ | ⟨c, l⟩⟩
  · rfl
  · rfl
  · simp at h

theorem inOrder_pollFrom (ready : Nat → Option Answer) (n : Nat) (d : Disp) (h : d.InOrder) (hl : d.futs.length ≤ 2)
    (hr : ∀ p ∈ d.futs, ∀ q ∈ d.futs, p.1 < q.1 → (ready q.1).isSome → (ready p.1).isSome) :
    (d.pollFrom ready n 0).InOrder := by
  induction n generalizing d with
  | zero => exact h
  | succ n ih =>
    have hs := inOrder_sorted h
    cases hf : d.futs with
    | nil =>
      unfold pollFrom
      rw [hf]
      exact h
    | cons p rest =>
      obtain ⟨id, k⟩ := p
      have hk : d.futs[0]? = some (id, k) := by rw [hf]; rfl
      cases ha : ready id with
      | none =>
        have hnone : ∀ p ∈ d.futs, ready p.1 = none := by
          intro q hq
          rw [hf] at hq
          rcases List.mem_cons.1 hq with rfl | hq
          · exact ha
          · cases hq' : ready q.1 with
            | none => rfl
            | some a =>
              rw [hf, List.map_cons, List.pairwise_cons] at hs
              have := hr (id, k) (by rw [hf]; simp) q (by rw [hf]; simp [hq]) (hs.1 q.1 (List.mem_map_of_mem hq)) (by rw [hq']; rfl)
              rw [ha] at this
              cases this
        have hstay : ∀ m idx, d.pollFrom ready m idx = d := by
          intro m
          induction m with
          | zero => intro idx; rfl
          | succ m ih' =>
            intro idx
            unfold pollFrom
            split
            · rfl
            · next id' k' hk' => rw [hnone (id', k') (List.mem_of_getElem? hk')]; exact ih' _
        rw [hstay]
        exact h
      | some a =>
        have hsr : swapRemove d.futs 0 = rest := by
          rw [hf] at hl ⊢
          exact swapRemove_short _ _ hl
        obtain ⟨h1, h2, h3⟩ := handle_ids { d with futs := swapRemove d.futs 0 } id k a
        have hcase := pollFrom_ready ready n 0 hk ha
        generalize Disp.handle { d with futs := swapRemove d.futs 0 } id k a = d' at h1 h2 h3 hcase
        dsimp only at h1 h2 h3
        rw [hsr] at h1
        have ho : d'.InOrder := by
          unfold InOrder at *
          rw [h1, h2, h3, ← h, hf]
          simp
        rcases hcase with hcase | hcase
        · rw [hcase]; exact ho
        · rw [hcase]
          refine ih _ ho ?_ ?_
          · have : d'.futs.length = rest.length := by
              rw [← List.length_map (f := Prod.fst), h1, List.length_map]
            rw [this]
            rw [hf] at hl
            simp at hl
            omega
          · have hmem : ∀ p ∈ d'.futs, ∃ q ∈ d.futs, q.1 = p.1 := by
              intro p hp
              have : p.1 ∈ rest.map Prod.fst := by
                have := List.mem_map_of_mem (f := Prod.fst) hp
                rwa [h1] at this
              obtain ⟨q, hq, he⟩ := List.mem_map.1 this
              exact ⟨q, by rw [hf]; exact List.mem_cons_of_mem _ hq, he⟩
            intro p hp q hq
            obtain ⟨p', hp', e1⟩ := hmem p hp
            obtain ⟨q', hq', e2⟩ := hmem q hq
            rw [← e1, ← e2]
            exact hr p' hp' q' hq'

/-- **C71** If the dispatcher never holds more than two calls when it is polled, and the service answers in order, the
answers take effect in the order of the calls.  Missing: more than two calls, where this is false (`c71_out_of_order`). -/
theorem c71_in_order_partial (cfg : ConnCfg) (steps : List DStep) (h : (Disp.new cfg).Tame steps) :
    ((Disp.new cfg).run steps).InOrder := by
  have h₀ : (Disp.new cfg).InOrder := rfl
  generalize Disp.new cfg = d at h h₀ ⊢
  induction steps generalizing d with
  | nil => exact h₀
  | cons st l ih =>
    cases st with
    | poll ready => exact ih _ h.2 (inOrder_pollFrom ready _ _ (inOrder_advance h₀ _) h.1.1 h.1.2)
    | recv ch f => exact ih _ h (inOrder_advance h₀ _)
    | shutdown => exact ih _ h (inOrder_advance h₀ _)
    | own st =>
      refine ih _ h ?_
      unfold Disp.step
      dsimp only
      split
      · exact inOrder_advance h₀ _
      · exact h₀
    | attached s i a =>
      refine ih _ h ?_
      unfold Disp.step
      dsimp only
      split
      · exact inOrder_complete h₀ _ _ _
      · exact h₀

namespace Examples

/-- The service answers every call at once, and lets it pass. -/
def passAll : Nat → Option Answer := fun _ => some ⟨fun a => a, none⟩

/-- The peer attaches a receiver and then states its credit as often as `credits` says, before the dispatcher is polled. -/
def flows (credits : List UInt32) : List DStep :=
  [.recv 4 (.begin_ (aBegin 10)), .recv 4 (.attach (anAttach "a" 0 .receiver)), .poll passAll] ++
  credits.map (fun n => .recv 4 (.flow (aFlow (some 0) (some 0) (some n) (some 0) 10))) ++ [.poll passAll]

def flowsDemo (credits : List UInt32) : Disp := (Disp.new aCfg).run (flows credits)

/-- The credit of the first sender link. -/
def creditOf (d : Disp) : Option UInt32 := do
  let x ← d.conn.obj? 0
  let l ← x.snds[0]?
  return l.linkCredit

end Examples

/-- **C71** Violated: the answers do not take effect in the order of the calls when three are outstanding, though the service
answers all of them at once.  `swap_remove` puts the last call in the place of the first. -/
theorem c71_out_of_order : ∃ d : Disp, d.Reachable ∧ d.answered = [0, 1, 3, 2] ∧ d.futs.isEmpty ∧ d.error.isNone :=
  ⟨flowsDemo [1, 2, 3], ⟨_, _, rfl⟩, by decide +kernel, by decide +kernel, by decide +kernel⟩

/-- **C71** Violated: a sender link is left with the credit of an earlier flow frame.  The peer states a credit of 1, then 2,
then 3; all three frames are processed, and the link has credit 2. -/
theorem c71_stale_credit : creditOf (flowsDemo [1, 2, 3]) = some 2 ∧ (flowsDemo [1, 2, 3]).futs.isEmpty := by
  decide +kernel

/-- Two calls wait, about the frames at positions 0 and 1 of the session. -/
example : let d := (Disp.new aCfg).run ((flows [1, 2]).dropLast)
    d.Reachable ∧ d.futs.map Prod.fst = [1, 2] ∧ (d.conn.obj? 0).map (·.todo.length) = some 2 :=
  ⟨⟨_, _, rfl⟩, by decide +kernel, by decide +kernel⟩

/-- A tame execution. -/
example : (Disp.new aCfg).Tame (flows [1, 2]) := by
  refine ⟨⟨?_, fun _ _ _ _ _ _ => rfl⟩, ⟨?_, fun _ _ _ _ _ _ => rfl⟩, trivial⟩ <;> decide +kernel

/-- With two flow frames in a batch the last one counts. -/
example : creditOf (flowsDemo [1, 2]) = some 2 ∧ (flowsDemo [1, 2]).answered = [0, 1, 2] := by decide +kernel

end Amqp.Rt
