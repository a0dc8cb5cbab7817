import Verif.Lemmas.SessionLife
import Verif.Lemmas.SessionShip
import Verif.Lemmas.SessionCredit
/-!
# Sender links that have been given credit are in their slots until they are closed
-/

namespace Amqp.Rt
open Session

/-- The peer has stated a credit for the link. -/
def Session.Stated (s : Session) (r : Ref) : Prop := (∃ f, .ctl (.flow r f) ∈ s.todo) ∨ ∃ f, .applied r f ∈ s.log

def SndLive (s : Session) : Prop :=
  ∀ r l, s.snd? r = some l → l.closed = false → s.Stated r → s.links.get l.id = some (.snd (.established r))

theorem Micro.stated {s s' : Session} (h : Micro s s') {r : Ref} (hs : s'.Stated r) :
    s.Stated r ∨ ∃ k, s.links.get k = some (.snd (.established r)) := by
  rcases hs with ⟨f, hm⟩ | ⟨f, hm⟩
  · rcases h.todo _ hm with h' | ⟨r', f', k, he, hk⟩ | ⟨f', g, he, _⟩ | ⟨hn, _⟩
    · exact .inl (.inl ⟨f, h'⟩)
    · cases he; exact .inr ⟨k, hk⟩
    · cases he
    · exact absurd rfl (hn r f)
  · cases h.credit with
    | quiet evs hl he _ _ _ =>
      rw [hl] at hm
      rcases List.mem_append.mp hm with hm | hm
      · exact .inl (.inr ⟨f, hm⟩)
      · exact absurd trivial (he _ hm)
    | took t r' l evs _ _ hl he _ _ =>
      rw [hl] at hm
      rcases List.mem_append.mp hm with hm | hm
      · exact .inl (.inr ⟨f, hm⟩)
      · rcases List.mem_cons.mp hm with hm | hm
        · cases hm
        · exact absurd trivial (he _ hm)
    | applied r' f' ht hl _ _ =>
      rw [hl] at hm
      rcases List.mem_append.mp hm with hm | hm
      · exact .inl (.inr ⟨f, hm⟩)
      · cases List.mem_singleton.mp hm
        exact .inl (.inl ⟨f, ht⟩)

/-- An established sender link stays in its slot, unless it is closed. -/
theorem Micro.stays {s s' : Session} (h : Micro s s') (hw : s.links.Wf) {k : Nat} {r : Ref} {l : Snd}
    (hk : s.links.get k = some (.snd (.established r))) (hl : s.snd? r = some l) (hc : l.closed = false) :
    s'.links.get k = some (.snd (.established r)) := by
  have ins : ∀ x, (s.links.insert x).get k = some (.snd (.established r)) := by
    intro x
    rw [Slab.get_insert hw, if_neg, hk]
    intro h
    rw [← h, hw.vacantKey] at hk
    cases hk
  have rel : ∀ {k'}, s.Released k' → k' ≠ k := by
    rintro k' hr rfl
    rw [hr r l hk hl] at hc
    cases hc
  have set : ∀ {k'} (x : Link), k' ≠ k → (s.links.set k' x).get k = some (.snd (.established r)) := by
    intro k' x hne
    by_cases hcon : s.links.contains k' = true
    · rw [Slab.get_set _ _ _ _ hcon, if_neg hne, hk]
    · rw [show s.links.set k' x = s.links by simp [Slab.set, hcon]]; exact hk
  have opn : ∀ {k'} {x : Link}, s.links.get k' = some x → (∀ r, x ≠ .snd (.established r)) → k' ≠ k := by
    rintro k' x hx hn rfl
    rw [hk] at hx
    exact hn r (Option.some.inj hx).symm
  cases h
  case insertSlot x hx => exact ins x
  case newSnd a _ _ => exact ins _
  case newRcvRemote a _ => exact ins _
  case newRcvLocal a op => exact ins _
  case estSnd k' r' l' old hl' hid ho ht hr => exact set _ (rel hr)
  case estSndLocal k' l' op ho _ _ _ _ _ => exact set _ (opn ho (by simp))
  case estRcv k' r' src ho => exact set _ (opn ho (by simp))
  case estRcvLocal k' r' op ho => exact set _ (opn ho (by simp))
  case closeSlot k' x old ho hx hr => exact set _ (rel hr)
  case removeSlot k' hr =>
    show (s.links.remove k').get k = _
    rw [Slab.get_remove, if_neg (rel hr), hk]
  case clearSlots hr => exact absurd rfl (rel (hr k))
  all_goals first | exact hk | (simpa using hk)

theorem Micro.linksWf {s s' : Session} (h : Micro s s') (hw : s.links.Wf) : s'.links.Wf := by
  cases h
  case insertSlot x hx => exact hw.insert _
  case newSnd a _ _ => exact hw.insert _
  case newRcvRemote a _ => exact hw.insert _
  case newRcvLocal a op => exact hw.insert _
  case estSnd => exact hw.set _ _
  case estSndLocal => exact hw.set _ _
  case estRcv => exact hw.set _ _
  case estRcvLocal => exact hw.set _ _
  case closeSlot => exact hw.set _ _
  case removeSlot => exact hw.remove _
  case clearSlots => exact Slab.wf_empty
  all_goals first | exact hw | (simpa using hw)

structure LiveInv (s : Session) : Prop where
  refs : SndRefs s
  slots : SndSlots s
  wf : s.links.Wf
  live : SndLive s

theorem Micro.liveInv {s s' : Session} (h : Micro s s') (hi : LiveInv s) : LiveInv s' := by
  refine ⟨h.sndRefs hi.refs, h.sndSlots hi.slots, h.linksWf hi.wf, fun r l' hl' hc hs => ?_⟩
  have go : ∀ k, s.links.get k = some (.snd (.established r)) → s'.links.get l'.id = some (.snd (.established r)) := by
    intro k hk
    obtain ⟨l, hl, hid⟩ := hi.slots k r hk
    obtain ⟨l'', hl'', hid', _, _, hcl, _⟩ := h.snd_kept r l hl
    obtain rfl : l' = l'' := by rw [hl'] at hl''; exact Option.some.inj hl''
    have : l.closed = false := by
      cases hx : l.closed with
      | false => rfl
      | true => rw [hcl hx] at hc; cases hc
    rw [hid', hid]
    exact h.stays hi.wf hk hl this
  rcases h.stated hs with hst | ⟨k, hk⟩
  · have hlt : r < s.snds.length := by
      rcases hst with ⟨f, hm⟩ | ⟨f, hm⟩
      · exact hi.refs.flow r f hm
      · exact hi.refs.applied r f hm
    have hl : s.snd? r = some s.snds[r] := List.getElem?_eq_getElem hlt
    obtain ⟨l'', hl'', hid', _, _, hcl, _⟩ := h.snd_kept r _ hl
    obtain rfl : l' = l'' := by rw [hl'] at hl''; exact Option.some.inj hl''
    refine go _ (hi.live r _ hl ?_ hst)
    cases hx : s.snds[r].closed with
    | false => rfl
    | true => rw [hcl hx] at hc; cases hc
  · exact go k hk

theorem Session.Reachable.liveInv {s : Session} (h : Reachable s) : LiveInv s := by
  refine h.invariant ?_ fun _ _ h => h.liveInv
  intro s hf
  have hr : Reachable s := ⟨s, [], hf, rfl⟩
  refine ⟨hr.sndRefs, hr.sndSlots, hr.linksWf, ?_⟩
  obtain ⟨_, _, _, _, _, rfl⟩ := hf
  intro r l hl
  simp [Session.new, snd?] at hl

/-- A link has credit only after the peer has stated some. -/
theorem track_zero {r : Ref} {init : UInt32} {log : List Ev} (h : ∀ f, .applied r f ∉ log) (ht : Guarded r init log) :
    (track r init log).2 = 0 := by
  induction log using List.reverseRecOn with
  | nil => rfl
  | append_singleton log e ih =>
    have ih := ih (fun f hf => h f (by simp [hf])) (fun pre t post he => ht pre t (post ++ [e]) (by rw [he]; simp))
    rw [track_append]
    cases e <;> try exact ih
    · next t r' =>
      by_cases hr : r' = r
      · subst hr
        exact absurd ih (ht log t [] rfl)
      · simpa [see, hr] using ih
    · next r' f =>
      by_cases hr : r' = r
      · subst hr; exact absurd (by simp) (h f)
      · simpa [see, hr] using ih

theorem Session.Reachable.credit_stated {s : Session} (h : Reachable s) {r : Ref} {l : Snd} (hl : s.snd? r = some l)
    (hc : l.linkCredit ≠ 0) : s.Stated r := by
  obtain ⟨init, h₁, h₂⟩ := h.creditInv r (l.deliveryCount, l.linkCredit) (by simp [meter, hl])
  right
  by_contra hn
  have := track_zero (fun f hf => hn ⟨f, hf⟩) h₂
  rw [h₁] at this
  exact hc this

theorem Session.Reachable.took_stated {s : Session} (h : Reachable s) {t r : Ref} (ht : (t, r) ∈ tooks s.log) : s.Stated r := by
  have ht : .took t r ∈ s.log := by
    obtain ⟨e, he, hx⟩ := List.mem_filterMap.mp ht
    cases e <;> simp only at hx <;> try (cases hx; done)
    cases hx
    exact he
  have hlt := h.sndRefs.took t r ht
  obtain ⟨init, h₁, h₂⟩ := h.creditInv r (s.snds[r].deliveryCount, s.snds[r].linkCredit) (by simp [meter, snd?, List.getElem?_eq_getElem hlt])
  obtain ⟨pre, post, hs⟩ := List.append_of_mem ht
  right
  by_contra hn
  refine h₂ pre t post hs (track_zero (fun f hf => hn ⟨f, by rw [hs]; simp [hf]⟩) fun p t' q he => h₂ p t' (q ++ .took t r :: post) ?_)
  rw [hs, he]; simp

/-- A transfer frame goes out for a send on a link; while the link is not closed it is established in its slot. -/
theorem step_transfer {s : Session} (hs : s.Reachable) (st : Step) : (s.step st).shipped = s.shipped ∨
    ∃ r l, s.snd? r = some l ∧ ShipsFor l s (s.step st) ∧
      ((∃ req, st = .send req ∧ req.link = r ∧ l.closed = false) ∨ ∃ t y, st = .resumeSend t ∧ s.sends[t]? = some y ∧ y.req.link = r) ∧
      (l.closed = false → s.links.get l.id = some (.snd (.established r))) := by
  by_cases h₁ : ∃ req, st = .send req
  · obtain ⟨req, rfl⟩ := h₁
    rcases sendStart_shipped s req with hx | ⟨l, hl, hc, hcl, hh⟩
    · exact .inl hx
    · exact .inr ⟨req.link, l, hl, hh, .inl ⟨req, rfl, rfl, hcl⟩, fun h => hs.liveInv.live _ _ hl h (hs.credit_stated hl hc)⟩
  · by_cases h₂ : ∃ t, st = .resumeSend t
    · obtain ⟨t, rfl⟩ := h₂
      rcases sendResume_shipped s t with hx | ⟨y, l, hy, hl, hc, hh⟩
      · exact .inl hx
      · refine .inr ⟨y.req.link, l, hl, hh, .inr ⟨t, y, rfl, hy, rfl⟩, fun h => hs.liveInv.live _ _ hl h ?_⟩
        rcases hc with hc | ⟨tag, m, hst⟩
        · exact hs.credit_stated hl hc
        · exact hs.took_stated (hs.taskInv.window t y hy (by rw [hst]; rfl)).1
    · exact .inl (step_shipped s st (fun req h => h₁ ⟨req, h⟩) (fun t h => h₂ ⟨t, h⟩))

end Amqp.Rt
