import Verif.Spec.Codec
import Verif.Model.Compound
/-! Well-formedness of the typed collections. -/

namespace Amqp

/-- Distinct hashable keys, well-formed entries, and a body that fits the 32-bit size field. -/
instance [Wire κ] [Wire ν] [Key κ] [WF κ] [WF ν] : WF (HMap κ ν) := ⟨fun m =>
  (∀ e ∈ m.entries, wf e.1 ∧ wf e.2 ∧ hashOk e.1 = true) ∧
  m.entries.Pairwise (fun a b => keq a.1 b.1 = false) ∧ (encEntries m.entries).length + 4 < U32⟩

instance [Wire κ] [WF κ] : WF (VecMap κ) := ⟨fun m =>
  (∀ e ∈ m.entries, wf e.1 ∧ wf e.2) ∧ (encEntries m.entries).length + 4 < U32⟩

instance [ArrayWire α] [WF α] : WF (Arr α) := ⟨fun a =>
  (∀ x ∈ a.items, wf x) ∧ (a.items.flatMap arrEnc).length + 5 < U32⟩

instance [ArrayWire α] [WF α] : WF (Multiple α) := ⟨fun m => wf (Arr.mk m.items)⟩

instance : WF VList := ⟨fun l => (∀ x ∈ l.items, wf x) ∧ (l.items.flatMap enc).length + 4 < U32⟩

end Amqp
