import Verif.Spec.Claims
import Verif.Lemmas.Compound
/-! The codec claims from the laws. -/

namespace Amqp
open Dec

theorem roundTrips [Wire α] [WF α] [LawfulWire α] : RoundTrips α := fun _ h rest => rt_dec h rest

theorem exactSize [Wire α] [SizeWire α] : ExactSize α := fun a => (SizeWire.size_eq a).symm

theorem readsOnlyItself [Wire α] [GoodWire α] : ReadsOnlyItself α := fun s a r h => Good.dec.ok s a r h

theorem ignoresLaterBytes [Wire α] [StableWire α] : IgnoresLaterBytes α := fun _ _ _ t h =>
  (Stable.dec.ok _ _ _ h).2 t

theorem errorsAreFinal [Wire α] [StableWire α] : ErrorsAreFinal α := fun s e h he t =>
  Stable.dec.err _ _ h (by cases e <;> simp_all [Err.isIncomplete]) t

theorem truncationDetected [Wire α] [WF α] [LawfulWire α] [StableWire α] : TruncationDetected α := by
  intro a h p t hp ht
  have hr := roundTrips a h []
  rw [List.append_nil, hp] at hr
  cases hd : (dec : Dec α) p with
  | ok x =>
    obtain ⟨b, r⟩ := x
    rw [ignoresLaterBytes _ _ _ t hd] at hr
    simp only [Except.ok.injEq, Prod.mk.injEq, List.append_eq_nil_iff] at hr
    exact absurd hr.2.2 ht
  | error e =>
    by_cases he : ∃ n, e = .incomplete n
    · obtain ⟨n, rfl⟩ := he
      exact ⟨n, rfl⟩
    · rw [errorsAreFinal _ _ hd (fun n h => he ⟨n, h⟩) t] at hr
      simp at hr

theorem unambiguous [Wire α] [WF α] [LawfulWire α] : Unambiguous α := by
  intro a b ha hb h
  have h1 := roundTrips a ha []
  rw [h, roundTrips b hb []] at h1
  simp only [Except.ok.injEq, Prod.mk.injEq, and_true] at h1
  exact h1.symm

theorem uniquelyParsable [Wire α] [WF α] [LawfulWire α] : UniquelyParsable α := by
  intro l
  induction l with
  | nil =>
    intro l' _ hl' h
    cases l' with
    | nil => rfl
    | cons b l' =>
      obtain ⟨c, tl, he, _⟩ := LawfulWire.rt b (hl' b (by simp))
      rw [List.flatMap_cons, he] at h
      simp at h
  | cons a l ih =>
    intro l' hl hl' h
    cases l' with
    | nil =>
      obtain ⟨c, tl, he, _⟩ := LawfulWire.rt a (hl a (by simp))
      rw [List.flatMap_cons, he] at h
      simp at h
    | cons b l' =>
      have h1 := roundTrips a (hl a (by simp)) (l.flatMap enc)
      rw [List.flatMap_cons, List.flatMap_cons] at h
      rw [h, roundTrips b (hl' b (by simp)) (l'.flatMap enc)] at h1
      simp only [Except.ok.injEq, Prod.mk.injEq] at h1
      rw [h1.1, ih l' (fun x hx => hl x (by simp [hx])) (fun x hx => hl' x (by simp [hx])) h1.2.symm]

end Amqp
