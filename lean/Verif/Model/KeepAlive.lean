import Mathlib.Algebra.Order.Floor.Defs
import Mathlib.Data.Rat.Floor
import Mathlib.Algebra.Order.Ring.Rat
/-!
# Keep-alive pings

The part of the dispatcher that keeps the peer's idle timer from expiring (dispatcher.rs:31-50, 138-147, lib.rs:242-256).
Times are milliseconds of one clock.
-/

namespace Amqp.Rt

/-- How the products and quotients of `f32` are rounded: up to a relative error of `2^-24`.  IEEE 754 rounds this way in
the range of numbers that occur here; nothing else is used of it. -/
structure Rounding where
  rnd : ℚ → ℚ
  near : ∀ x, 0 ≤ x → x * (1 - 1 / 2 ^ 24) ≤ rnd x ∧ rnd x ≤ x * (1 + 1 / 2 ^ 24)

/-- `RemoteServiceConfig::timeout_remote_secs` (lib.rs:242-254), from the timeout in the peer's open (absent: 0, lib.rs:232).
`Seconds::checked_new` stops at 65535. -/
def timeoutRemoteSecs (R : Rounding) (idle : UInt32) : Nat :=
  if idle > 0 then min (⌊R.rnd (R.rnd (R.rnd idle.toNat * (3 / 4)) / 1000)⌋.toNat) 65535 else 0

/-- The state of the idle timer in the dispatcher; `sent` are the times at which an empty frame went out. -/
structure KeepAlive where
  /-- `idle_timeout`. -/
  every : Nat
  /-- When `idle_sleep` elapses. -/
  due : Nat
  sent : List Nat

namespace KeepAlive

/-- `Dispatcher::new` (dispatcher.rs:31-50), given `timeout_remote_secs` (client/connection.rs:69,87; server/handshake.rs:141,
server/service.rs:191, 310). -/
def new (secs : Nat) (now : Nat) : KeepAlive :=
  let every := min ((secs * 1000) >>> 1) 1000
  { every, due := now + every, sent := [] }

/-- The last part of `Dispatcher::poll` (dispatcher.rs:138-147).  It is not reached when a control call that failed the connection
was answered in the same poll (dispatcher.rs:128-132). -/
def poll (k : KeepAlive) (now : Nat) : KeepAlive :=
  if k.every ≠ 0 ∧ k.due ≤ now then { k with sent := k.sent ++ [now], due := now + k.every } else k

def run (k : KeepAlive) (polls : List Nat) : KeepAlive := polls.foldl poll k

end KeepAlive
end Amqp.Rt
