import Verif.Spec.Codec
/-! The shapes of the codec claims, for any type with a wire encoding. -/

namespace Amqp

/-- Decoding what was encoded gives the value back and leaves what follows, whatever it is. -/
def RoundTrips (α : Type) [Wire α] [WF α] : Prop :=
  ∀ a : α, wf a → ∀ rest : Bytes, (dec : Dec α) (enc a ++ rest) = .ok (a, rest)

/-- `encoded_size` is the number of bytes written. -/
def ExactSize (α : Type) [Wire α] : Prop := ∀ a : α, size a = (enc a).length

/-- A successful decode depends only on the bytes it consumed. -/
def ReadsOnlyItself (α : Type) [Wire α] : Prop :=
  ∀ (s : Bytes) (a : α) (r : Bytes), (dec : Dec α) s = .ok (a, r) →
    ∃ p, s = p ++ r ∧ ∀ t, (dec : Dec α) (p ++ t) = .ok (a, t)

/-- A successful decode is not changed by bytes arriving later. -/
def IgnoresLaterBytes (α : Type) [Wire α] : Prop :=
  ∀ (s : Bytes) (a : α) (r t : Bytes), (dec : Dec α) s = .ok (a, r) → (dec : Dec α) (s ++ t) = .ok (a, r ++ t)

/-- A value cut short is reported as incomplete. -/
def TruncationDetected (α : Type) [Wire α] [WF α] : Prop :=
  ∀ a : α, wf a → ∀ p t : Bytes, enc a = p ++ t → t ≠ [] → ∃ n, (dec : Dec α) p = .error (.incomplete n)

/-- An error other than "incomplete" does not go away when more bytes arrive. -/
def ErrorsAreFinal (α : Type) [Wire α] : Prop :=
  ∀ (s : Bytes) (e : Err), (dec : Dec α) s = .error e → (∀ n, e ≠ .incomplete n) →
    ∀ t, (dec : Dec α) (s ++ t) = .error e

/-- No input makes the decoder panic. -/
def NeverPanics (α : Type) [Wire α] : Prop := ∀ s : Bytes, (dec : Dec α) s ≠ .error .panic

/-- Different values have different encodings. -/
def Unambiguous (α : Type) [Wire α] [WF α] : Prop := ∀ a b : α, wf a → wf b → enc a = enc b → a = b

/-- A concatenation of encodings can be split in one way only: no encoding is a proper prefix of another, so any two
sequences with the same concatenation are the same sequence. -/
def UniquelyParsable (α : Type) [Wire α] [WF α] : Prop :=
  ∀ (l l' : List α), (∀ a ∈ l, wf a) → (∀ a ∈ l', wf a) → l.flatMap enc = l'.flatMap enc → l = l'

end Amqp
