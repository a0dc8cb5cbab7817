import Verif.Model.KeepAlive
import Verif.Model.Connection
import Mathlib.Tactic.Linarith
import Mathlib.Tactic.NormNum
import Mathlib.Tactic.Push
/-!
# The peer hears from us within its idle timeout: C67
-/

namespace Amqp.Rt

/-! ## How often a ping is due -/

theorem secs_bounds (R : Rounding) (idle : UInt32) (h : 0 < idle.toNat) :
    let x := R.rnd (R.rnd (R.rnd idle.toNat * (3 / 4)) / 1000)
    (idle.toNat : ℚ) * (3 / 4000) * (1 - 1 / 2 ^ 22) ≤ x ∧ x ≤ (idle.toNat : ℚ) * (3 / 4000) * (1 + 1 / 2 ^ 22) := by
  intro x
  have h0 : (0 : ℚ) < idle.toNat := by exact_mod_cast h
  obtain ⟨a₁, a₂⟩ := R.near idle.toNat h0.le
  have p₁ : 0 ≤ R.rnd idle.toNat * (3 / 4) := by
    have : (0 : ℚ) ≤ (idle.toNat : ℚ) * (1 - 1 / 2 ^ 24) := by norm_num
    linarith
  obtain ⟨b₁, b₂⟩ := R.near _ p₁
  have p₂ : 0 ≤ R.rnd (R.rnd idle.toNat * (3 / 4)) / 1000 := by
    have : (0 : ℚ) ≤ R.rnd idle.toNat * (3 / 4) * (1 - 1 / 2 ^ 24) := by norm_num; linarith
    linarith
  obtain ⟨c₁, c₂⟩ := R.near _ p₂
  norm_num at a₁ a₂ b₁ b₂ c₁ c₂ ⊢
  constructor
  · refine le_trans ?_ c₁
    linarith
  · refine le_trans c₂ ?_
    linarith

/-- The interval between pings, from the peer's timeout. -/
def pingInterval (R : Rounding) (idle : UInt32) : Nat := (KeepAlive.new (timeoutRemoteSecs R idle) 0).every

theorem new_every (secs now : Nat) : (KeepAlive.new secs now).every = min (secs * 500) 1000 := by
  simp only [KeepAlive.new, Nat.shiftRight_one]
  omega

theorem secs_pos (R : Rounding) (idle : UInt32) (h : 1334 ≤ idle.toNat) : 1 ≤ timeoutRemoteSecs R idle := by
  have h0 : idle > 0 := by
    rw [gt_iff_lt, UInt32.lt_iff_toNat_lt]; simp; omega
  unfold timeoutRemoteSecs
  rw [if_pos h0]
  have hb := (secs_bounds R idle (by omega)).1
  have hq : (1334 : ℚ) ≤ idle.toNat := by exact_mod_cast h
  have : (1 : ℤ) ≤ ⌊R.rnd (R.rnd (R.rnd idle.toNat * (3 / 4)) / 1000)⌋ := by
    rw [Int.le_floor]
    refine le_trans ?_ hb
    norm_num
    linarith
  omega

theorem secs_le (R : Rounding) (idle : UInt32) (n : Nat) (h : (n : ℚ) ≤ timeoutRemoteSecs R idle) (hn : 0 < n) :
    (n : ℚ) ≤ (idle.toNat : ℚ) * (3 / 4000) * (1 + 1 / 2 ^ 22) := by
  unfold timeoutRemoteSecs at h
  split at h
  · next h0 =>
    have h0 : 0 < idle.toNat := by rw [gt_iff_lt, UInt32.lt_iff_toNat_lt] at h0; simpa using h0
    refine le_trans ?_ (secs_bounds R idle h0).2
    have h : n ≤ min (⌊R.rnd (R.rnd (R.rnd idle.toNat * (3 / 4)) / 1000)⌋.toNat) 65535 := by exact_mod_cast h
    have : (n : ℤ) ≤ ⌊R.rnd (R.rnd (R.rnd idle.toNat * (3 / 4)) / 1000)⌋ := by omega
    rw [Int.le_floor] at this
    exact_mod_cast this
  · exfalso
    have : n ≤ 0 := by exact_mod_cast h
    omega

theorem secs_one (R : Rounding) (idle : UInt32) (h : 1 ≤ timeoutRemoteSecs R idle) : 1334 ≤ idle.toNat := by
  have := secs_le R idle 1 (by exact_mod_cast h) (by omega)
  by_contra hc
  norm_num at *
  have : (idle.toNat : ℚ) ≤ 1333 := by exact_mod_cast (by omega)
  linarith

theorem secs_two (R : Rounding) (idle : UInt32) (h : 2 ≤ timeoutRemoteSecs R idle) : 2667 ≤ idle.toNat := by
  have := secs_le R idle 2 (by exact_mod_cast h) (by omega)
  by_contra hc
  norm_num at *
  have : (idle.toNat : ℚ) ≤ 2666 := by exact_mod_cast (by omega)
  linarith

/-- **C67** Whatever timeout the peer announces, pings are due at least every second and at most every three eighths of the
timeout. -/
theorem c67_interval (R : Rounding) (idle : UInt32) :
    pingInterval R idle ≤ 1000 ∧ 8 * pingInterval R idle ≤ 3 * idle.toNat := by
  unfold pingInterval
  rw [new_every]
  have h₁ := secs_one R idle
  have h₂ := secs_two R idle
  omega

/-- **C67** A peer that announces 1334 ms or more is pinged. -/
theorem c67_pinged (R : Rounding) (idle : UInt32) (h : 1334 ≤ idle.toNat) : 500 ≤ pingInterval R idle := by
  unfold pingInterval
  rw [new_every]
  have := secs_pos R idle h
  omega

/-! ## The peer never waits long -/

/-- The dispatcher is polled in the order of time, and no later than `δ` after its timer has elapsed. -/
def Prompt (δ : Nat) : KeepAlive → Nat → List Nat → Prop
  | _, _, [] => True
  | k, since, now :: rest => since ≤ now ∧ now ≤ k.due + δ ∧ Prompt δ (k.poll now) now rest

theorem poll_every (k : KeepAlive) (now : Nat) : (k.poll now).every = k.every := by
  unfold KeepAlive.poll; split <;> rfl

theorem run_sent_mem (polls : List Nat) : ∀ (k : KeepAlive) (p : Nat), p ∈ k.sent → p ∈ (k.run polls).sent := by
  induction polls with
  | nil => exact fun _ _ h => h
  | cons now rest ih =>
    intro k p h
    refine ih (k.poll now) p ?_
    unfold KeepAlive.poll
    split
    · exact List.mem_append_left _ h
    · exact h

theorem prompt_heard (δ : Nat) (polls : List Nat) : ∀ (k : KeepAlive) (last since : Nat), k.every ≠ 0 → k.due = last + k.every →
    last ≤ since → Prompt δ k since polls → ∀ τ, last ≤ τ → (∃ q ∈ polls, τ ≤ q) →
    ∃ p, (p = last ∨ p ∈ (k.run polls).sent) ∧ p ≤ τ ∧ τ ≤ p + k.every + δ := by
  induction polls with
  | nil => rintro k last since _ _ _ _ τ _ ⟨q, hq, _⟩; cases hq
  | cons now rest ih =>
    rintro k last since h0 hd hs ⟨hn, hp, hr⟩ τ hτ ⟨q, hq, hτq⟩
    by_cases hle : τ ≤ now
    · exact ⟨last, .inl rfl, hτ, by omega⟩
    · have hq : q ∈ rest := by
        rcases List.mem_cons.mp hq with rfl | hq
        · omega
        · exact hq
      by_cases hdue : k.due ≤ now
      · have hk : k.poll now = { k with sent := k.sent ++ [now], due := now + k.every } := if_pos ⟨h0, hdue⟩
        obtain ⟨p, hp, h₁, h₂⟩ := ih (k.poll now) now now (by rw [poll_every]; exact h0) (by rw [hk]) (le_refl _) hr τ (by omega)
          ⟨q, hq, hτq⟩
        rw [poll_every] at h₂
        refine ⟨p, .inr ?_, h₁, h₂⟩
        rcases hp with rfl | hp
        · exact run_sent_mem rest _ _ (by rw [hk]; simp)
        · exact hp
      · have hk : k.poll now = k := if_neg fun h => hdue h.2
        rw [hk] at hr
        obtain ⟨p, hp, h₁, h₂⟩ := ih k last now h0 hd (by omega) hr τ hτ ⟨q, hq, hτq⟩
        refine ⟨p, ?_, h₁, h₂⟩
        show _ ∨ p ∈ ((k.poll now).run rest).sent
        rw [hk]
        exact hp

/-- **C67** As long as the dispatcher is polled within an eighth of the peer's timeout after its timer elapses, there is never
more than half of the timeout without a ping: at every time up to the last poll, a ping was sent within that span, or the
connection was begun.

Missing for the full property: timeouts of 1 to 1333 ms, see `c67_short_timeouts`. -/
theorem c67_heard_partial (R : Rounding) (idle : UInt32) (h : 1334 ≤ idle.toNat) (start δ : Nat) (polls : List Nat)
    (hp : Prompt δ (.new (timeoutRemoteSecs R idle) start) start polls) (hδ : 8 * δ ≤ idle.toNat) (τ : Nat) (h₁ : start ≤ τ)
    (h₂ : ∃ q ∈ polls, τ ≤ q) :
    ∃ p, (p = start ∨ p ∈ ((KeepAlive.new (timeoutRemoteSecs R idle) start).run polls).sent) ∧ p ≤ τ ∧
      2 * (τ - p) ≤ idle.toNat := by
  have he : (KeepAlive.new (timeoutRemoteSecs R idle) start).every = pingInterval R idle := by
    unfold pingInterval; rw [new_every, new_every]
  obtain ⟨p, hp, h₃, h₄⟩ := prompt_heard δ polls _ start start (by rw [he]; have := c67_pinged R idle h; omega) rfl (le_refl _) hp τ
    h₁ h₂
  rw [he] at h₄
  have := (c67_interval R idle).2
  exact ⟨p, hp, h₃, by omega⟩

/-- **C67** Pings are not sent more often than every half second. -/
theorem c67_not_too_often (R : Rounding) (idle : UInt32) (start : Nat) (polls : List Nat) :
    List.Pairwise (fun p q => p + 500 ≤ q) (((KeepAlive.new (timeoutRemoteSecs R idle) start).run polls).sent) := by
  have inv : ∀ (polls : List Nat) (k : KeepAlive), k.every = 0 ∨ 500 ≤ k.every → k.sent.Pairwise (fun p q => p + 500 ≤ q) →
      (∀ p ∈ k.sent, p + k.every ≤ k.due) → (k.run polls).sent.Pairwise (fun p q => p + 500 ≤ q) := by
    intro polls
    induction polls with
    | nil => exact fun _ _ h _ => h
    | cons now rest ih =>
      intro k h0 h₁ h₂
      show ((k.poll now).run rest).sent.Pairwise _
      apply ih
      · rw [poll_every]; exact h0
      · unfold KeepAlive.poll
        split
        · next hc =>
          rw [List.pairwise_append]
          refine ⟨h₁, List.pairwise_singleton _ _, fun p hp q hq => ?_⟩
          rw [List.mem_singleton.mp hq]
          have := h₂ p hp
          omega
        · exact h₁
      · rw [poll_every]
        unfold KeepAlive.poll
        split
        · next hc =>
          intro p hp
          rcases List.mem_append.mp hp with hp | hp
          · have := h₂ p hp
            show _ ≤ now + k.every
            omega
          · rw [List.mem_singleton.mp hp]
        · exact h₂
  apply inv
  · rw [new_every]; omega
  · exact List.Pairwise.nil
  · intro p hp; cases hp

/-- **C67** Violated: a peer that announces a timeout of up to 1333 ms is never pinged. -/
theorem c67_short_timeouts (R : Rounding) (idle : UInt32) (h : idle.toNat ≤ 1333) (start : Nat) (polls : List Nat) :
    ((KeepAlive.new (timeoutRemoteSecs R idle) start).run polls).sent = [] := by
  have h0 : (KeepAlive.new (timeoutRemoteSecs R idle) start).every = 0 := by
    rw [new_every]
    have := secs_one R idle
    omega
  have : ∀ (polls : List Nat) (k : KeepAlive), k.every = 0 → k.run polls = k := by
    intro polls
    induction polls with
    | nil => exact fun _ _ => rfl
    | cons now rest ih =>
      intro k hk
      have hp : k.poll now = k := if_neg fun h => h.1 hk
      show (k.poll now).run rest = k
      rw [hp, ih k hk]
  rw [this polls _ h0]
  rfl

/-- **C67** No timeout announced, no pings. -/
theorem c67_none (R : Rounding) (start : Nat) (polls : List Nat) :
    ((KeepAlive.new (timeoutRemoteSecs R 0) start).run polls).sent = [] := c67_short_timeouts R 0 (by decide) start polls

/-- **C67** The ping is an empty frame of eight bytes. -/
theorem c67_ping_bytes : ({ channel := 0, performative := .empty } : AmqpFrame).encode = [0, 0, 0, 8, 2, 0, 0, 0] := rfl

/-- **C67** A connection of this library takes no notice of a ping. -/
theorem c67_ping_ignored (c : Conn) (ch : UInt16) : c.step (.recv ch .empty) = { c with log := c.log ++ [.peer ch .empty] } := rfl

/-! The hypotheses hold for a peer that announces 4 s and a dispatcher that is polled on time; it then sends two pings. -/

/-- Exact arithmetic. -/
def exactly : Rounding where
  rnd x := x
  near x h := by constructor <;> linarith

theorem four_seconds : timeoutRemoteSecs exactly 4000 = 3 := by
  have : ⌊((4000 : ℕ) : ℚ) * (3 / 4) / 1000⌋ = 3 := by norm_num
  simp only [timeoutRemoteSecs, exactly]
  rw [if_pos (by decide), show (4000 : UInt32).toNat = 4000 from rfl, this]
  rfl

example : 1334 ≤ (4000 : UInt32).toNat ∧ 8 * 500 ≤ (4000 : UInt32).toNat ∧
    Prompt 500 (.new (timeoutRemoteSecs exactly 4000) 0) 0 [300, 1100, 1200, 2200] ∧
    ((KeepAlive.new (timeoutRemoteSecs exactly 4000) 0).run [300, 1100, 1200, 2200]).sent = [1100, 2200] := by
  rw [four_seconds]
  exact ⟨by decide, by decide, by simp [Prompt, KeepAlive.new, KeepAlive.poll], by decide⟩

end Amqp.Rt
