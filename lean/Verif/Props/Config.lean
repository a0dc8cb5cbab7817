import Verif.Model.Config
import Verif.Props.KeepAlive
import Verif.Lemmas.Structs
import Verif.Lemmas.Claims
/-!
# C91: the configuration is announced and understood

From the builder calls of one side to the view the other side has of them.
-/

namespace Amqp.Hs

/-! ## Spec -/

/-- The argument of the last call, in a sequence of builder calls, that `f` picks out. -/
def lastSetting (f : Setting → Option α) (l : List Setting) : Option α := (l.filterMap f).getLast?

def Setting.channelMax? : Setting → Option UInt16
  | .channelMax n => some n
  | _ => none

def Setting.maxFrameSize? : Setting → Option UInt32
  | .maxFrameSize n => some n
  | _ => none

def Setting.idleTimeout? : Setting → Option UInt16
  | .idleTimeout n => some n
  | _ => none

def Setting.hostname? : Setting → Option Str
  | .hostname n => some n
  | _ => none

def Setting.offered? : Setting → Option (Multiple Symbol)
  | .offeredCapabilities n => some n
  | _ => none

def Setting.desired? : Setting → Option (Multiple Symbol)
  | .desiredCapabilities n => some n
  | _ => none

def Setting.maxSize? : Setting → Option Nat
  | .maxSize n => some n
  | _ => none

/-- The configuration made by a sequence of builder calls. -/
def configured (l : List Setting) : Cfg := l.foldl Cfg.set .fresh

/-! ## Proofs -/

theorem lastSetting_nil (f : Setting → Option α) : lastSetting f [] = none := rfl

theorem lastSetting_concat (f : Setting → Option α) (l : List Setting) (s : Setting) :
    lastSetting f (l ++ [s]) = (f s).or (lastSetting f l) := by
  unfold lastSetting
  rw [List.filterMap_append]
  cases h : f s <;> simp [h]

theorem configured_concat (l : List Setting) (s : Setting) : configured (l ++ [s]) = (configured l).set s := by
  simp [configured, List.foldl_append]

theorem millis (t : UInt16) : (t.toUInt32 * 1000).toNat = t.toNat * 1000 := by
  have := t.toNat_lt
  rw [UInt32.toNat_mul, UInt16.toNat_toUInt32]
  show t.toNat * 1000 % 2 ^ 32 = _
  omega

/-- Two sequences of calls one after the other, last first. -/
theorem configured_induct {P : List Setting → Prop} (h0 : P []) (h1 : ∀ l s, P l → P (l ++ [s])) (l : List Setting) : P l := by
  induction h : l.length generalizing l with
  | zero => rw [List.length_eq_zero_iff.mp h]; exact h0
  | succ n ih =>
    rcases List.eq_nil_or_concat l with rfl | ⟨l', s, rfl⟩
    · simp at h
    · rw [List.concat_eq_append]
      refine h1 _ _ (ih l' ?_)
      simpa using h

/-- **C91** What is announced in the open is what was set last, in whatever order and however often the builder methods
were called, or the documented default; the idle timeout is in milliseconds and does not overflow, and zero is announced
as none. -/
theorem c91_announced (l : List Setting) (id : Str) :
    let o := (configured l).toOpen id
    let idle := ((lastSetting Setting.idleTimeout? l).map fun t => t.toNat * 1000).getD 120000
    o.containerId = id ∧
    o.maxFrameSize = (lastSetting Setting.maxFrameSize? l).getD 65535 ∧
    o.channelMax = (lastSetting Setting.channelMax? l).getD 1024 ∧
    o.hostname = lastSetting Setting.hostname? l ∧
    o.offeredCapabilities = lastSetting Setting.offered? l ∧
    o.desiredCapabilities = lastSetting Setting.desired? l ∧
    o.idleTimeOut.map UInt32.toNat = (if idle = 0 then none else some idle) ∧
    (configured l).maxSize = (lastSetting Setting.maxSize? l).getD 0 := by
  have key : (configured l).maxFrameSize = (lastSetting Setting.maxFrameSize? l).getD 65535 ∧
      (configured l).channelMax = (lastSetting Setting.channelMax? l).getD 1024 ∧
      (configured l).hostname = lastSetting Setting.hostname? l ∧
      (configured l).offeredCapabilities = lastSetting Setting.offered? l ∧
      (configured l).desiredCapabilities = lastSetting Setting.desired? l ∧
      (configured l).idleTimeOut.toNat =
        ((lastSetting Setting.idleTimeout? l).map fun t => t.toNat * 1000).getD 120000 ∧
      (configured l).maxSize = (lastSetting Setting.maxSize? l).getD 0 := by
    induction l using configured_induct with
    | h0 => exact ⟨rfl, rfl, rfl, rfl, rfl, rfl, rfl⟩
    | h1 l s ih =>
      obtain ⟨h1, h2, h3, h4, h5, h6, h7⟩ := ih
      rw [configured_concat]
      simp only [lastSetting_concat]
      cases s <;>
        simp [Cfg.set, Setting.maxFrameSize?, Setting.channelMax?, Setting.hostname?, Setting.offered?, Setting.desired?,
          Setting.idleTimeout?, Setting.maxSize?, h1, h2, h3, h4, h5, h6, h7, -UInt32.toNat_mul, millis]
  obtain ⟨h1, h2, h3, h4, h5, h6, h7⟩ := key
  refine ⟨rfl, h1, h2, h3, h4, h5, ?_, h7⟩
  simp only [Cfg.toOpen]
  rw [← h6]
  by_cases h : (configured l).idleTimeOut.toNat = 0
  · have hn : ¬ (configured l).idleTimeOut > 0 := by
      rw [gt_iff_lt, UInt32.lt_iff_toNat_lt]; simp [h]
    rw [if_neg hn, if_pos h]; rfl
  · have hp : (configured l).idleTimeOut > 0 := by
      rw [gt_iff_lt, UInt32.lt_iff_toNat_lt]; simp; omega
    rw [if_pos hp, if_neg h]; rfl

/-- **C91** The peer has the same view of the configuration as its owner. -/
theorem c91_understood (c : Cfg) (id : Str) (h : wf (c.toOpen id)) (rest : Bytes) :
    ∃ o, (dec : Dec Open) (enc (c.toOpen id) ++ rest) = .ok (o, rest) ∧
      RemoteCfg.new o =
        ⟨c.maxFrameSize, c.channelMax, c.idleTimeOut, c.hostname, c.offeredCapabilities, c.desiredCapabilities⟩ := by
  refine ⟨_, roundTrips _ h rest, ?_⟩
  have : ((c.toOpen id).idleTimeOut).getD 0 = c.idleTimeOut := by
    simp only [Cfg.toOpen]
    split
    · rfl
    · rename_i hn
      have : c.idleTimeOut.toNat = 0 := by
        rw [gt_iff_lt, UInt32.lt_iff_toNat_lt] at hn; simp at hn; omega
      exact (UInt32.toNat_inj.mp this).symm
  simp only [RemoteCfg.new, this]
  rfl

-- the open of the default configuration meets the condition
example : wf (Cfg.fresh.toOpen ⟨ascii "id"⟩) :=
  ⟨⟨utf8_of_ascii _ (by decide), by decide⟩, trivial, trivial, trivial, trivial, trivial, trivial, trivial, trivial, trivial,
    by decide +kernel⟩

/-- **C91** A capability offered is a capability listed, on both sides. -/
theorem c91_capabilities (l : List Setting) (id : Str) (caps : Multiple Symbol)
    (h : lastSetting Setting.offered? l = some caps) :
    capList (configured l).offeredCapabilities = caps.items ∧
    capList (RemoteCfg.new ((configured l).toOpen id)).offeredCapabilities = caps.items := by
  have := (c91_announced l id).2.2.2.2.1
  have e : (configured l).offeredCapabilities = some caps := by
    rw [← h, ← this]; rfl
  exact ⟨by rw [e]; rfl, by show capList (configured l).offeredCapabilities = _; rw [e]; rfl⟩

/-- **C91** A timeout of two seconds or more set here makes a peer of this library send something at least twice a second
to once a second, and not later than three eighths of the timeout. -/
theorem c91_pinged (R : Rt.Rounding) (c : Cfg) (t : UInt16) (id : Str) (h : 2 ≤ t.toNat) :
    let idle := (RemoteCfg.new ((c.set (.idleTimeout t)).toOpen id)).idleTimeOut
    500 ≤ Rt.pingInterval R idle ∧ 8 * Rt.pingInterval R idle ≤ 3 * (t.toNat * 1000) := by
  have hm := millis t
  have hi : (RemoteCfg.new ((c.set (.idleTimeout t)).toOpen id)).idleTimeOut = t.toUInt32 * 1000 := by
    have hp : t.toUInt32 * 1000 > 0 := by
      rw [gt_iff_lt, UInt32.lt_iff_toNat_lt, hm]; simp; omega
    simp [RemoteCfg.new, Cfg.toOpen, Cfg.set, hp]
  simp only [hi]
  refine ⟨Rt.c67_pinged R _ (by omega), ?_⟩
  have := (Rt.c67_interval R (t.toUInt32 * 1000)).2
  omega

/-- **C91** Violated for a timeout of one second: the peer, of this library, never sends anything to keep the connection
alive, with any rounding of its floating-point numbers. -/
theorem c91_one_second (R : Rt.Rounding) (c : Cfg) (id : Str) :
    (RemoteCfg.new ((c.set (.idleTimeout 1)).toOpen id)).idleTimeOut = 1000 ∧ Rt.pingInterval R 1000 = 0 := by
  refine ⟨rfl, ?_⟩
  unfold Rt.pingInterval
  rw [Rt.new_every]
  have := Rt.secs_one R 1000
  have h : Rt.timeoutRemoteSecs R 1000 = 0 := by
    by_contra hc
    have := this (by omega)
    revert this
    decide
  rw [h]
  rfl

/-- **C91** Violated: a maximum frame size below the 512 bytes every peer must accept (AMQP 1.0 §2.7.1) is announced like
any other. -/
theorem c91_below_minimum (c : Cfg) (n : UInt32) (_ : n < 512) (id : Str) :
    ((c.set (.maxFrameSize n)).toOpen id).maxFrameSize = n := rfl

example : ((configured [.idleTimeout 0, .channelMax 7, .idleTimeout 30, .hostname ⟨ascii "h"⟩]).toOpen ⟨[]⟩).idleTimeOut =
    some 30000 := by decide +kernel
example : ((configured [.idleTimeout 0]).toOpen ⟨[]⟩).idleTimeOut = none := by decide +kernel

end Amqp.Hs
