import Verif.Model.Wrapper
/-!
# C95: the response to an attach is what the control service made of it
-/

namespace Amqp.Wrap

theorem run_uses (a : α) (fs : List (α → α)) (os : List (Op α)) :
    run (some a) (fs.map .use ++ os) = run (some (fs.foldl (fun a f => f a) a)) os := by
  induction fs generalizing a with
  | nil => rfl
  | cons f fs ih =>
    rw [List.map_cons, List.cons_append, run]
    simp only [step, ih, List.foldl_cons]
    cases run (some (fs.foldl (fun a f => f a) (f a))) os with
    | none => rfl
    | some p => simp

/-- **C95** While the service has not answered, it may change the response as often as it likes; nothing is sent yet. -/
theorem c95_before (a : α) (fs : List (α → α)) :
    run (some a) (fs.map .use) = some (some (fs.foldl (fun a f => f a) a), []) := by
  have := run_uses a fs []
  rw [List.append_nil] at this
  rw [this]
  rfl

/-- **C95** What the dispatcher takes when the service has answered has all the changes, in the order in which they were
made. -/
theorem c95_taken (a : α) (fs : List (α → α)) :
    run (some a) (fs.map .use ++ [.answer]) = some (none, [fs.foldl (fun a f => f a) a]) := by
  rw [run_uses]
  rfl

/-- **C95** Violated: a service that keeps its control frame and looks at the response after it has answered panics,
whatever went before and whatever it wants with it; the method does not say so. -/
theorem c95_after (a : α) (fs : List (α → α)) (f : α → α) (os : List (Op α)) :
    run (some a) (fs.map .use ++ .answer :: .use f :: os) = none := by
  rw [run_uses]
  rfl

/-- **C95** This is the only way to panic: operations of which at most the last is the answer never do. -/
theorem c95_only_after (a : α) (os : List (Op α)) (h : run (some a) os = none) :
    ∃ pre o post, os = pre ++ .answer :: o :: post := by
  induction os generalizing a with
  | nil => cases h
  | cons o os ih =>
    rw [run] at h
    cases o with
    | use f =>
      simp only [step] at h
      have h : run (some (f a)) os = none := by
        cases hr : run (some (f a)) os with
        | none => rfl
        | some p => rw [hr] at h; simp at h
      obtain ⟨pre, o, post, rfl⟩ := ih _ h
      exact ⟨.use f :: pre, o, post, rfl⟩
    | answer =>
      cases os with
      | nil => simp [step, run] at h
      | cons o os => exact ⟨[], o, os, rfl⟩

example : run (some 1) [.use (· + 1), .use (· * 3), .answer] = some (none, [6]) := rfl
example : run (some 1) [.answer, .use (· + 1)] = none := rfl

end Amqp.Wrap
