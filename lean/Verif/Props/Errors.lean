import Mathlib.Data.List.Induction
import Verif.Lemmas.Claims
import Verif.Lemmas.Structs
import Verif.Lemmas.CompositeClaims
import Verif.Spec.CompositeClaims
import Verif.Spec.Errors
/-!
# The errors applications make: C74
-/

namespace Amqp.Rt
open AppError

/-! ## What is read -/

theorem amqpError_inv {s : Symbol} {r : AmqpError} (h : AmqpError.ofBase s = .ok r) : s = r.toBase := by
  by_cases hs : ∃ e : AmqpError, s = e.toBase
  · obtain ⟨e, rfl⟩ := hs
    rw [e.of_to] at h
    cases h; rfl
  · rw [AmqpError.of_err fun e he => hs ⟨e, he⟩] at h; cases h

theorem connectionError_inv {s : Symbol} {r : ConnectionError} (h : ConnectionError.ofBase s = .ok r) : s = r.toBase := by
  by_cases hs : ∃ e : ConnectionError, s = e.toBase
  · obtain ⟨e, rfl⟩ := hs
    rw [e.of_to] at h
    cases h; rfl
  · rw [ConnectionError.of_err fun e he => hs ⟨e, he⟩] at h; cases h

theorem sessionError_inv {s : Symbol} {r : SessionError} (h : SessionError.ofBase s = .ok r) : s = r.toBase := by
  by_cases hs : ∃ e : SessionError, s = e.toBase
  · obtain ⟨e, rfl⟩ := hs
    rw [e.of_to] at h
    cases h; rfl
  · rw [SessionError.of_err fun e he => hs ⟨e, he⟩] at h; cases h

theorem linkError_inv {s : Symbol} {r : LinkError} (h : LinkError.ofBase s = .ok r) : s = r.toBase := by
  by_cases hs : ∃ e : LinkError, s = e.toBase
  · obtain ⟨e, rfl⟩ := hs
    rw [e.of_to] at h
    cases h; rfl
  · rw [LinkError.of_err fun e he => hs ⟨e, he⟩] at h; cases h

/-- What a symbol is read as: well formed, with the same symbol and the same bytes. -/
theorem ofSymbol_spec (s : Symbol) (hs : wf s) :
    wf (ErrorCondition.ofSymbol s) ∧ (ErrorCondition.ofSymbol s).symbol = s ∧ enc (ErrorCondition.ofSymbol s) = enc s ∧
    size (ErrorCondition.ofSymbol s) = size s ∧
    ∀ s', ErrorCondition.ofSymbol s = .custom s' → ∀ n, Standard.conditionName n ≠ none → s' ≠ n.symbol := by
  have hsize : ∀ c : ErrorCondition, enc c = enc s → size c = size s := fun c h => by rw [exactSize, exactSize, h]
  unfold ErrorCondition.ofSymbol
  split
  · next r h => rw [amqpError_inv h] at hsize ⊢; exact ⟨True.intro, by cases r <;> rfl, rfl, hsize _ rfl, by simp⟩
  · next e1 h1 =>
    split
    · next r h => rw [connectionError_inv h] at hsize ⊢; exact ⟨True.intro, by cases r <;> rfl, rfl, hsize _ rfl, by simp⟩
    · next e2 h2 =>
      split
      · next r h => rw [sessionError_inv h] at hsize ⊢; exact ⟨True.intro, by cases r <;> rfl, rfl, hsize _ rfl, by simp⟩
      · next e3 h3 =>
        split
        · next r h => rw [linkError_inv h] at hsize ⊢; exact ⟨True.intro, by cases r <;> rfl, rfl, hsize _ rfl, by simp⟩
        · next e4 h4 =>
          have n1 : ∀ e : AmqpError, s ≠ e.toBase := by rintro e rfl; rw [e.of_to] at h1; cases h1
          have n2 : ∀ e : ConnectionError, s ≠ e.toBase := by rintro e rfl; rw [e.of_to] at h2; cases h2
          have n3 : ∀ e : SessionError, s ≠ e.toBase := by rintro e rfl; rw [e.of_to] at h3; cases h3
          have n4 : ∀ e : LinkError, s ≠ e.toBase := by rintro e rfl; rw [e.of_to] at h4; cases h4
          refine ⟨⟨hs, n1, n2, n3, n4⟩, rfl, rfl, hsize _ rfl, ?_⟩
          intro s' he n hn hx
          cases he
          subst hx
          cases n with
          | amqpError e => exact n1 e (by cases e <;> rfl)
          | connectionError e => exact n2 e (by cases e <;> rfl)
          | sessionError e => exact n3 e (by cases e <;> rfl)
          | linkError e => exact n4 e (by cases e <;> rfl)
          | custom _ => exact hn rfl

/-! ## C74 -/

/-- **C74** What an application says with an error it makes: the condition it chose, the last description and the last
fields it gave. -/
theorem c74_error_made (l : List Adorn) (texts : List Str) (e : AmqpError) (c : ErrorCondition) :
    (texts.foldl describe (amqp e)).toError .amqpError =
      { condition := .amqpError e, description := texts.getLast?, info := none } ∧
    (texts.foldl describe (withError c)).toError .amqpError =
      { condition := c, description := texts.getLast?, info := none } ∧
    (l.foldl adorn forceDetach).toError .linkError =
      { condition := .linkError .detachForced, description := lastText l, info := lastFields l } ∧
    (l.foldl adorn redirect).toError .linkError =
      { condition := .linkError .redirect, description := lastText l, info := lastFields l } ∧
    (l.foldl adorn (link c)).toError .linkError = { condition := c, description := lastText l, info := lastFields l } := by
  have ht : ∀ (texts : List Str) (x : AppError AmqpError), x.description = none →
      texts.foldl describe x = { x with description := texts.getLast? } := by
    intro texts
    induction texts using List.reverseRecOn with
    | nil => intro x hx; cases x; cases hx; rfl
    | append_singleton l t ih => intro x hx; rw [List.foldl_append, ih x hx]; simp [describe]
  have hl : ∀ (l : List Adorn) (x : AppError LinkError), x.description = none → x.info = none →
      l.foldl adorn x = { x with description := lastText l, info := lastFields l } := by
    intro l
    induction l using List.reverseRecOn with
    | nil => intro x hx hi; cases x; cases hx; cases hi; rfl
    | append_singleton l t ih =>
      intro x hx hi
      rw [List.foldl_append, ih x hx hi]
      cases t <;> simp [adorn, describe, fields, lastText, lastFields]
  rw [ht _ _ rfl, ht _ _ rfl, hl _ _ rfl rfl, hl _ _ rfl rfl, hl _ _ rfl rfl]
  exact ⟨rfl, rfl, rfl, rfl, rfl⟩

/-- **C74** The shorthands are the conditions they are named after. -/
theorem c74_shorthands (s : Str) :
    (internalError.describe s).toError .amqpError = ⟨.amqpError .internalError, some s, none⟩ ∧
    (notFound.describe s).toError .amqpError = ⟨.amqpError .notFound, some s, none⟩ ∧
    (unauthorizedAccess.describe s).toError .amqpError = ⟨.amqpError .unauthorizedAccess, some s, none⟩ ∧
    (decodeError.describe s).toError .amqpError = ⟨.amqpError .decodeError, some s, none⟩ ∧
    (invalidField.describe s).toError .amqpError = ⟨.amqpError .invalidField, some s, none⟩ ∧
    (notAllowed.describe s).toError .amqpError = ⟨.amqpError .notAllowed, some s, none⟩ ∧
    (notImplemented.describe s).toError .amqpError = ⟨.amqpError .notImplemented, some s, none⟩ :=
  ⟨rfl, rfl, rfl, rfl, rfl, rfl, rfl⟩

/-- **C74** What the peer makes of it: the same description and fields, and the condition with the same symbol; a symbol the
specification defines is taken for that condition, also if the application gave it as a custom one. -/
theorem c74_error_arrives (e : Error) (hs : wf e.condition.symbol) (hd : wf e.description) (hi : wf e.info)
    (hl : (Composite.content e).length + 4 < U32) (rest : Bytes) :
    ∃ e', (dec : Dec Error) (enc e ++ rest) = .ok (e', rest) ∧ e.condition.Same e'.condition ∧
      e'.description = e.description ∧ e'.info = e.info := by
  have key : ∃ c, wf c ∧ e.condition.Same c ∧ enc c = enc e.condition ∧ size c = size e.condition := by
    cases hc : e.condition with
    | custom s =>
      obtain ⟨h1, h2, h3, h4, h5⟩ := ofSymbol_spec s (by rw [hc] at hs; exact hs)
      exact ⟨_, h1, ⟨h2.symm, fun s' n he hn => h5 s' he n hn⟩, h3, h4⟩
    | amqpError x => exact ⟨.amqpError x, True.intro, ⟨rfl, by intro _ _ h; cases h⟩, rfl, rfl⟩
    | connectionError x => exact ⟨.connectionError x, True.intro, ⟨rfl, by intro _ _ h; cases h⟩, rfl, rfl⟩
    | sessionError x => exact ⟨.sessionError x, True.intro, ⟨rfl, by intro _ _ h; cases h⟩, rfl, rfl⟩
    | linkError x => exact ⟨.linkError x, True.intro, ⟨rfl, by intro _ _ h; cases h⟩, rfl, rfl⟩
  obtain ⟨c, hw, hsame, henc, hsz⟩ := key
  have hcont : Composite.content ({ e with condition := c } : Error) = Composite.content e := by
    simp [Composite.content, Composite.fields, fld, henc]
  have hbytes : enc ({ e with condition := c } : Error) = enc e := by
    show Composite.encode _ = Composite.encode _
    simp [Composite.encode, Composite.content, Composite.contentSize, Composite.fields, fld, henc, hsz]
  have hwf : wf ({ e with condition := c } : Error) := ⟨hw, hd, hi, by rw [hcont]; exact hl⟩
  have := (roundTrips : RoundTrips Error) _ hwf rest
  rw [hbytes] at this
  exact ⟨_, this, hsame, rfl, rfl⟩

/-- **C74** The constants of `error_code`: given as a custom condition, each is taken by the peer for the condition it is
named after, and those for transactions are the specification's.

Missing for the full property: ERRANT_LINK (`c74_errant_link`). -/
theorem c74_codes_partial (k : ErrorCode) (hk : k ≠ .errantLink) :
    (∀ c, k.means = some c → ErrorCondition.ofSymbol k.symbol = c ∧ k.symbol = c.symbol) ∧
    (∀ n, k.transactionName = some n → k.symbol = sym n) ∧ (k.means.isSome ∨ k.transactionName.isSome) := by
  refine ⟨fun c h => ?_, fun n h => ?_, by cases k <;> simp [ErrorCode.means, ErrorCode.transactionName]⟩
  · cases k <;> first | exact absurd rfl hk | (cases h; exact ⟨by decide +kernel, rfl⟩) | cases h
  · cases k <;> first | (cases h; rfl) | cases h

/-- **C74** Violated: `ERRANT_LINK` is misspelt (`amqp:session-errant-link`).  The peer takes it for a condition of its own. -/
theorem c74_errant_link :
    ErrorCode.errantLink.symbol ≠ (ErrorCondition.sessionError .errantLink).symbol ∧
    ErrorCondition.ofSymbol ErrorCode.errantLink.symbol = .custom (sym "amqp:session-errant-link") := by decide +kernel

/-- A link is refused with a custom condition that is one of the constants. -/
def stolenError : Error := (link (.custom ErrorCode.stolen.symbol)).toError .linkError

/-- Non-vacuity: the peer reads it. -/
example : ∃ e', (dec : Dec Error) (enc stolenError ++ [1]) = .ok (e', [1]) ∧ stolenError.condition.Same e'.condition ∧
    e'.description = none ∧ e'.info = none := by
  refine c74_error_arrives stolenError (LinkError.wf_base .stolen) True.intro True.intro ?_ [1]
  have : (Composite.content stolenError).length = 20 := by decide +kernel
  unfold U32
  omega

example : ErrorCondition.ofSymbol ErrorCode.stolen.symbol = .linkError .stolen := by decide +kernel

end Amqp.Rt
