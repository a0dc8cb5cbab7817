import Verif.Model.Comparisons
import Verif.Props.Values
/-!
# C93: comparing values with text and constructors with descriptors
-/

namespace Amqp
open Dec

/-- **C93** A value equals a text exactly if it is the string or the symbol of that text. -/
theorem c93_text (v : Variant) (t : Bytes) : v.eqText t = true ↔ v = .string ⟨t⟩ ∨ v = .symbol ⟨t⟩ := by
  cases v <;> simp only [Variant.eqText, beq_iff_eq, Variant.string.injEq, Variant.symbol.injEq, reduceCtorEq, or_false, false_or,
    Bool.false_eq_true] <;> (constructor <;> intro h <;> first | (cases h; rfl) | (subst h; rfl))

/-- **C93** It is the comparison of what `as_str` gives. -/
theorem c93_as_str (v : Variant) (t : Bytes) : v.eqText t = true ↔ v.asText = some t := by
  cases v <;> simp [Variant.eqText, Variant.asText]

/-- **C93** The comparison comes out alike on both sides of the wire. -/
theorem c93_across (v w : Variant) (h : wf v) (rest r : Bytes) (t : Bytes)
    (hd : (dec : Dec Variant) (enc v ++ rest) = .ok (w, r)) : w.eqText t = v.eqText t := by
  have := (c02_variant_round_trip v h rest).symm.trans hd
  simp only [Except.ok.injEq, Prod.mk.injEq] at this
  rw [this.1]

/-- **C93** Two values that equal the same text need not equal each other: the text does not tell a string from a symbol. -/
theorem c93_two_values (t : Bytes) :
    (Variant.string ⟨t⟩).eqText t = true ∧ (Variant.symbol ⟨t⟩).eqText t = true ∧
      Variant.string ⟨t⟩ ≠ Variant.symbol ⟨t⟩ := by
  refine ⟨?_, ?_, by intro h; cases h⟩ <;> simp [Variant.eqText]

/-- **C93** `ensure_described` accepts a constructor exactly if it has the descriptor asked for. -/
theorem c93_ensured (c : Constructor) (d : Descriptor) : c.ensureDescribed d = .ok () ↔ c.descriptor = some d := by
  cases c <;> simp [Constructor.ensureDescribed, Constructor.descriptor]

/-- **C93** A refusal names what was found. -/
theorem c93_named (c : Constructor) (d : Descriptor) (e : Err) (h : c.ensureDescribed d = .error e) :
    (∃ d', c.descriptor = some d' ∧ d' ≠ d ∧ e = .invalidDescriptor d') ∨
      (c.descriptor = none ∧ e = .invalidFormatCode c.code) := by
  cases c with
  | formatCode f =>
    cases h
    exact .inr ⟨rfl, rfl⟩
  | described d' f =>
    unfold Constructor.ensureDescribed at h
    simp only at h
    split at h
    · cases h
    · rename_i hn
      cases h
      exact .inl ⟨d', rfl, hn, rfl⟩

/-- **C93** The check comes out alike on both sides of the wire. -/
theorem c93_constructor_across (c c' : Constructor) (h : wf c) (rest r : Bytes) (d : Descriptor)
    (hd : (dec : Dec Constructor) (enc c ++ rest) = .ok (c', r)) : c'.ensureDescribed d = c.ensureDescribed d := by
  have := (rt_dec h rest).symm.trans hd
  simp only [Except.ok.injEq, Prod.mk.injEq] at this
  rw [this.1]

/-! ## Examples -/

example : (Variant.symbol (sym "a")).eqText (sym "a").bytes = true := by decide
example : (Variant.binary (sym "a").bytes).eqText (sym "a").bytes = false := by decide
example : (Constructor.described (.ulong 5) 0x70).ensureDescribed (.ulong 5) = .ok () := rfl
example : (Constructor.described (.ulong 5) 0x70).ensureDescribed (.ulong 6) = .error (.invalidDescriptor (.ulong 5)) := rfl
example : (Constructor.formatCode 0x70).ensureDescribed (.ulong 5) = .error (.invalidFormatCode 0x70) := rfl

end Amqp
