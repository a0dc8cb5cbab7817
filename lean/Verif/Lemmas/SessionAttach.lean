import Verif.Spec.Attach
import Verif.Lemmas.SessionCredit
import Verif.Lemmas.SessionSent
import Verif.Lemmas.SessionRcv
import Verif.Lemmas.SessionArrive
/-!
# Where links come from
-/

namespace Amqp.Rt
open Session

theorem clampU32_limit (m : Option UInt64) : LimitOf m (m.map clampU32) := by
  unfold LimitOf
  cases m with
  | none => rfl
  | some n =>
    simp only [Option.map_some, Option.some.injEq]
    unfold clampU32
    split
    · next h => rw [UInt64.toNat_toUInt32, Nat.mod_eq_of_lt h]; omega
    · next h => simp; omega

theorem senderResponse_answers (k : Nat) {a : Attach} (h : a.role = .receiver) : Answers a (senderResponse k a) :=
  ⟨rfl, by rw [h]; rfl, rfl, rfl, rfl, rfl, rfl⟩

theorem receiverResponse_answers (k : Nat) {a : Attach} (h : a.role = .sender) : Answers a (receiverResponse k a) :=
  ⟨rfl, by rw [h]; rfl, rfl, rfl, rfl, rfl, rfl⟩

theorem sndNew_of (k : Nat) (n : Str) (a : Attach) :
    SenderOf a (sndNew k n a.handle (a.initialDeliveryCount.getD 0) (a.maxMessageSize.map clampU32)) :=
  ⟨rfl, rfl, clampU32_limit _, rfl, rfl, rfl, rfl⟩

theorem sndWith_of (k : Nat) (a : Attach) : SenderOf a (sndWith k a) := sndNew_of k _ a

/-- A sender link that was not there before is made from an attach of the peer. -/
theorem Micro.snd_new {s s' : Session} (h : Micro s s') {r : Ref} {l : Snd} (h₀ : s.snd? r = none) (hl : s'.snd? r = some l) :
    s'.log = s.log ∧ ∃ a, .peer (.attach a) ∈ s.log ∧ SenderOf a l := by
  have same : s'.snds.length = s.snds.length → s'.log = s.log ∧ ∃ a, .peer (.attach a) ∈ s.log ∧ SenderOf a l := by
    intro hlen
    have h₁ := snd?_lt hl
    rw [hlen] at h₁
    rw [snd?, List.getElem?_eq_getElem h₁] at h₀
    cases h₀
  have grown : ∀ y, s'.snds = s.snds ++ [y] → l = y := by
    intro y hy
    have hge : s.snds.length ≤ r := by
      rw [snd?] at h₀; exact List.getElem?_eq_none_iff.mp h₀
    rw [snd?, hy, List.getElem?_append_right hge] at hl
    have := List.mem_of_getElem? hl
    simpa using this
  cases h
  case estSndLocal k l' op _ _ _ _ _ hb =>
    obtain ⟨a, ha, hb⟩ := hb
    exact ⟨rfl, a, ha, by rw [grown _ rfl, hb]; exact sndNew_of ..⟩
  case newSnd a ha _ => exact ⟨rfl, a, ha, by rw [grown _ rfl]; exact sndWith_of ..⟩
  all_goals exact same (by first | rfl | simp [modSnd] | simp)

/-! ## The life of a sender link -/

/-- A sender link counts from the peer's attach on. -/
def SndBorn (s : Session) : Prop := ∀ r l, s.snd? r = some l → ∃ a, .peer (.attach a) ∈ s.log ∧ l.remoteHandle = a.handle ∧
  l.deliveryCount = a.initialDeliveryCount.getD 0 + UInt32.ofNat (taken r s.log)

theorem taken_quiet {r : Ref} {evs : List Ev} (h : ∀ e ∈ evs, ¬ e.Credit) : taken r evs = 0 := by
  unfold taken
  rw [List.countP_eq_zero]
  intro e he
  have := h e he
  cases e <;> simp
  exact absurd trivial this

theorem taken_none {s : Session} (hr : SndRefs s) {r : Ref} (h : s.snds.length ≤ r) : taken r s.log = 0 := by
  unfold taken
  rw [List.countP_eq_zero]
  intro e he
  cases e <;> simp
  rintro rfl
  exact absurd (hr.took _ _ he) (by omega)

theorem Micro.sndBorn {s s' : Session} (h : Micro s s') (hr : SndRefs s) (hi : SndBorn s) : SndBorn s' := by
  intro r l' hl'
  cases h₀ : s.snd? r with
  | none =>
    obtain ⟨hlog, a, ha, ho⟩ := h.snd_new h₀ hl'
    refine ⟨a, by rw [hlog]; exact ha, ho.remoteHandle, ?_⟩
    rw [hlog, taken_none hr (by rw [snd?] at h₀; exact List.getElem?_eq_none_iff.mp h₀), ho.deliveryCount]
    simp
  | some l =>
    obtain ⟨l'', hl'', _, _, hrh, _⟩ := h.snd_kept r l h₀
    obtain rfl : l' = l'' := by rw [hl'] at hl''; exact Option.some.inj hl''
    obtain ⟨a, ha, h₁, h₂⟩ := hi r l h₀
    refine ⟨a, h.log_mem ha, by rw [hrh, h₁], ?_⟩
    have hm' : s'.meter r = some (l'.deliveryCount, l'.linkCredit) := by simp [meter, hl']
    have hm : s.meter r = some (l.deliveryCount, l.linkCredit) := by simp [meter, h₀]
    cases h.credit with
    | quiet evs hl he _ hq _ =>
      rw [hq r (snd?_lt h₀), hm] at hm'
      rw [hl, taken_append, taken_quiet he]
      simp only [Option.some.injEq, Prod.mk.injEq] at hm'
      rw [← hm'.1, h₂]; rfl
    | took t r' l₁ evs hs _ hl he _ hq =>
      rw [hl, taken_append, show taken r (.took t r' :: evs) = taken r [.took t r'] + taken r evs from
        taken_append r [.took t r'] evs, taken_quiet he]
      rw [hq] at hm'
      by_cases hrr : r' = r
      · subst hrr
        rw [if_pos rfl] at hm'
        obtain rfl : l₁ = l := by rw [h₀] at hs; exact (Option.some.inj hs).symm
        simp only [Option.some.injEq, Prod.mk.injEq] at hm'
        rw [← hm'.1, h₂]
        simp [taken, UInt32.ofNat_add, UInt32.add_assoc]
      · rw [if_neg hrr, hm] at hm'
        simp only [Option.some.injEq, Prod.mk.injEq] at hm'
        rw [← hm'.1, h₂]
        simp [taken, hrr]
    | applied r' f _ hl _ hq =>
      have ht : taken r [.applied r' f] = 0 := rfl
      rw [hl, taken_append, ht, Nat.add_zero]
      rw [hq] at hm'
      have hcnt : l'.deliveryCount = l.deliveryCount := by
        split at hm'
        · rw [h₀] at hm'
          simp only [Option.map_some, Option.some.injEq, Prod.mk.injEq] at hm'
          rw [← hm'.1]
          unfold Snd.flow
          split <;> rfl
        · rw [hm] at hm'
          simp only [Option.some.injEq, Prod.mk.injEq] at hm'
          exact hm'.1.symm
      rw [hcnt, h₂]

theorem Session.Reachable.sndBorn {s : Session} (h : Reachable s) : SndBorn s := by
  have : SndRefs s ∧ SndBorn s := by
    refine h.invariant (P := fun s => SndRefs s ∧ SndBorn s) ?_ (fun _ _ hm hp => ⟨hm.sndRefs hp.1, hm.sndBorn hp.1 hp.2⟩)
    intro s hf
    refine ⟨Reachable.sndRefs ⟨s, [], hf, rfl⟩, ?_⟩
    obtain ⟨id, b, mfs, ch, b, rfl⟩ := hf
    intro r l hl
    simp [snd?, Session.new] at hl
  exact this.2

/-! ## Calls about attaches -/

/-- What the services are asked about are links made from the peer's attach, with the answer to it. -/
structure Asked (s : Session) : Prop where
  sender : ∀ r a g, .ctl (.attachSender r a g) ∈ s.todo → .peer (.attach a) ∈ s.log ∧ a.role = .receiver ∧
    ∃ l, s.snd? r = some l ∧ l.remoteHandle = a.handle ∧ g = senderResponse l.id a
  receiver : ∀ r a g, .ctl (.attachReceiver r a g) ∈ s.todo → .peer (.attach a) ∈ s.log ∧ a.role = .sender ∧
    ∃ l k, s.rcv? r = some l ∧ l.handle = UInt32.ofNat k ∧ l.remoteHandle = a.handle ∧ g = receiverResponse k a

theorem Micro.asked {s s' : Session} (h : Micro s s') (hi : Asked s) : Asked s' := by
  have keep₁ : ∀ r a g, .ctl (.attachSender r a g) ∈ s.todo → .peer (.attach a) ∈ s'.log ∧ a.role = .receiver ∧
      ∃ l, s'.snd? r = some l ∧ l.remoteHandle = a.handle ∧ g = senderResponse l.id a := by
    intro r a g ht
    obtain ⟨h₁, h₂, l, hl, h₃, h₄⟩ := hi.sender r a g ht
    obtain ⟨l', hl', h₅, _, h₆, _⟩ := h.snd_kept r l hl
    exact ⟨h.log_mem h₁, h₂, l', hl', by rw [h₆, h₃], by rw [h₄, h₅]⟩
  have keep₂ : ∀ r a g, .ctl (.attachReceiver r a g) ∈ s.todo → .peer (.attach a) ∈ s'.log ∧ a.role = .sender ∧
      ∃ l k, s'.rcv? r = some l ∧ l.handle = UInt32.ofNat k ∧ l.remoteHandle = a.handle ∧ g = receiverResponse k a := by
    intro r a g ht
    obtain ⟨h₁, h₂, l, k, hl, h₃, h₄, h₅⟩ := hi.receiver r a g ht
    obtain ⟨l', hl', h₆, h₇⟩ := h.rcv_kept hl
    exact ⟨h.log_mem h₁, h₂, l', k, hl', by rw [h₆, h₃], by rw [h₇, h₄], h₅⟩
  have keep : (∀ t ∈ s'.todo, t ∈ s.todo) → Asked s' := fun ht =>
    ⟨fun r a g h => keep₁ r a g (ht _ h), fun r a g h => keep₂ r a g (ht _ h)⟩
  cases h
  case newSnd a ha hr =>
    refine ⟨fun r a' g ht => ?_, fun r a' g ht => ?_⟩
    · rcases List.mem_append.1 ht with ht | ht
      · exact keep₁ r a' g ht
      · obtain ⟨⟩ := List.mem_singleton.1 ht
        exact ⟨ha, hr, sndWith s.links.vacantKey a, by simp [snd?], rfl, rfl⟩
    · rcases List.mem_append.1 ht with ht | ht
      · exact keep₂ r a' g ht
      · obtain ⟨⟩ := List.mem_singleton.1 ht
  case addTodo t h₁ h₂ hf hr =>
    refine ⟨fun r a' g ht => ?_, fun r a' g ht => ?_⟩
    · rcases List.mem_append.1 ht with ht | ht
      · exact keep₁ r a' g ht
      · exact absurd (List.mem_singleton.1 ht).symm (h₂ r a' g)
    · rcases List.mem_append.1 ht with ht | ht
      · exact keep₂ r a' g ht
      · obtain rfl := List.mem_singleton.1 ht
        obtain ⟨h₃, h₄⟩ := hr r a' g rfl
        exact ⟨hf, h₃, h₄⟩
  case addFlow r f k hk hf =>
    refine ⟨fun r a' g ht => ?_, fun r a' g ht => ?_⟩
    · rcases List.mem_append.1 ht with ht | ht
      · exact keep₁ r a' g ht
      · cases List.mem_singleton.1 ht
    · rcases List.mem_append.1 ht with ht | ht
      · exact keep₂ r a' g ht
      · cases List.mem_singleton.1 ht
  case eraseTodo i => exact keep fun t ht => List.mem_of_mem_eraseIdx ht
  all_goals exact keep (fun t ht => by first | exact ht | simpa using ht)

theorem Session.Reachable.asked {s : Session} (h : Reachable s) : Asked s :=
  h.invariant (by rintro _ ⟨id, l, mfs, ch, b, rfl⟩; exact ⟨by simp [Session.new], by simp [Session.new]⟩) fun _ _ h => h.asked

end Amqp.Rt
