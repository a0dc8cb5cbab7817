import Verif.Spec.Posted
import Verif.Lemmas.Claims
import Verif.Lemmas.Structs
import Verif.Lemmas.Frame
/-!
# Frames made of parts that fit are well formed
-/

namespace Amqp

theorem composite_size_le [Composite α] [WF α] [Layout α] [LawfulComposite α] (x : α) :
    (Composite.encode x).length ≤ Composite.contentSize x + 12 ∧ (Composite.content x).length = Composite.contentSize x := by
  have h : (Composite.encode x).length = Composite.encodedSize x := (Composite.sizeWire (α := α)).size_eq x
  refine ⟨?_, Composite.content_length x⟩
  rw [h]
  unfold Composite.encodedSize
  split <;> omega

theorem fit_none [Wire α] [WF α] : Fit (none : Option α) := by
  refine ⟨True.intro, ?_⟩
  have : (enc (none : Option α)).length = 1 := rfl
  omega

theorem fit_some [Wire α] [WF α] {v : α} (h : Fit v) : Fit (some v) := h

theorem fit_empty : Fit (⟨[]⟩ : Str) := by
  refine ⟨⟨by decide, by show 0 < U32; unfold U32; omega⟩, ?_⟩
  have : (enc (⟨[]⟩ : Str)).length = 2 := by decide
  omega

/-- An attach whose parts are those of one that fits. -/
theorem Attach.Fit.same {a b : Attach} (h : a.Fit) (h₁ : b.name = a.name) (h₂ : b.source = a.source) (h₃ : b.target = a.target)
    (h₄ : b.unsettled = a.unsettled) (h₅ : b.offeredCapabilities = a.offeredCapabilities)
    (h₆ : b.desiredCapabilities = a.desiredCapabilities) (h₇ : b.properties = a.properties) : b.Fit :=
  ⟨h₁ ▸ h.name, h₂ ▸ h.source, h₃ ▸ h.target, h₄ ▸ h.unsettled, h₅ ▸ h.offered, h₆ ▸ h.desired, h₇ ▸ h.properties⟩

/-! ## The errors the session makes up -/

theorem error_fit (c : ErrorCondition) (d : Option Str) (hc : wf c) (hd : wf d) (h₁ : (enc c).length ≤ 60)
    (h₂ : (enc d).length ≤ 60) :
    Fit ({ condition := c, description := d, info := none } : Error) ∧
      (enc ({ condition := c, description := d, info := none } : Error)).length ≤ 133 := by
  have hs : Composite.contentSize ({ condition := c, description := d, info := none } : Error) = size c + (size d + (1 + 0)) := by
    simp [Composite.contentSize, Composite.fields, fld]; rfl
  rw [← exactSize] at h₁ h₂
  obtain ⟨h₃, h₄⟩ := composite_size_le ({ condition := c, description := d, info := none } : Error)
  have h₅ : (enc ({ condition := c, description := d, info := none } : Error)).length ≤ 133 := by
    show (Composite.encode _).length ≤ _; omega
  exact ⟨⟨⟨hc, hd, True.intro, by rw [h₄]; unfold U32; omega⟩, by omega⟩, h₅⟩

namespace Rt
open Session

theorem text_wf {d : Str} (h : d = text "delivery_id is wrong" ∨ d = text "Internal error" ∨ d = text "delivery_id is required") :
    wf d ∧ (enc d).length ≤ 60 := by
  have hw : ∀ d : Str, validUtf8 d.bytes = true → d.bytes.length < U32 → wf d := fun _ h₁ h₂ => ⟨h₁, h₂⟩
  rcases h with rfl | rfl | rfl
  all_goals exact ⟨hw _ (by decide +kernel) (by decide +kernel), by decide +kernel⟩

theorem linkError_fit (e : LinkError) {d : Option Str} (h : d = none ∨ d = some (text "delivery_id is wrong") ∨
    d = some (text "Internal error") ∨ d = some (text "delivery_id is required")) : Amqp.Fit (linkError e d) := by
  have hc : (enc (ErrorCondition.linkError e)).length ≤ 60 := by cases e <;> decide +kernel
  refine fit_some (error_fit (.linkError e) d True.intro ?_ hc ?_).1
  · rcases h with rfl | rfl | rfl | rfl
    · exact True.intro
    all_goals exact (text_wf (by simp)).1
  · rcases h with rfl | rfl | rfl | rfl
    · show 1 ≤ 60; omega
    all_goals exact (text_wf (by simp)).2

theorem dropRejection_fit : Amqp.Fit dropRejection := by
  have hn : (∀ e : AmqpError, sym "Internal error" ≠ e.toBase) ∧ (∀ e : ConnectionError, sym "Internal error" ≠ e.toBase) ∧
      (∀ e : SessionError, sym "Internal error" ≠ e.toBase) ∧ ∀ e : LinkError, sym "Internal error" ≠ e.toBase :=
    ⟨fun e => by cases e <;> decide +kernel, fun e => by cases e <;> decide +kernel, fun e => by cases e <;> decide +kernel,
      fun e => by cases e <;> decide +kernel⟩
  have hs : wf (sym "Internal error") := ⟨by decide +kernel, by show (ascii "Internal error").length < U32; decide +kernel⟩
  obtain ⟨h₁, h₂⟩ := error_fit (.custom (sym "Internal error")) none ⟨hs, hn⟩ True.intro (by decide +kernel) (by decide +kernel)
  obtain ⟨h₃, h₄⟩ := composite_size_le
    ({ error := some { condition := .custom (sym "Internal error"), description := none, info := none } } : Rejected)
  have hc : Composite.contentSize
      ({ error := some { condition := .custom (sym "Internal error"), description := none, info := none } } : Rejected) =
      size ({ condition := .custom (sym "Internal error"), description := none, info := none } : Error) + 0 := by
    simp [Composite.contentSize, Composite.fields, fld]; rfl
  rw [← exactSize] at h₂
  refine ⟨⟨h₁.1, by rw [h₄, hc]; unfold U32; omega⟩, ?_⟩
  show (Composite.encode (_ : Rejected)).length < _
  omega

end Rt

/-! ## Frames -/

theorem size_u32_le (x : UInt32) : size x ≤ 5 := by
  show (if x = 0 then 1 else if x > 255 then 5 else 2) ≤ 5
  split
  · omega
  · split <;> omega

theorem size_opt_u32_le (x : Option UInt32) : size x ≤ 5 := by
  rcases x with _ | x
  · show 1 ≤ 5; omega
  · exact size_u32_le x

theorem size_opt_u64_le (x : Option UInt64) : size x ≤ 9 := by
  rcases x with _ | x
  · show 1 ≤ 9; omega
  · show (if x = 0 then 1 else if x > 255 then 9 else 2) ≤ 9
    split
    · omega
    · split <;> omega

theorem fit_size [Wire α] [WF α] [SizeWire α] {v : α} (h : Fit v) : size v < 2 ^ 28 := by rw [exactSize]; exact h.2

theorem Attach.Fit.wf {a : Attach} (h : a.Fit) : Amqp.wf a ∧ (enc a).length + 8 < U32 := by
  have e : Composite.contentSize a = size a.name + (size a.handle + (size a.role + (size a.sndSettleMode +
      (size a.rcvSettleMode + (size a.source + (size a.target + (size a.unsettled + (size a.incompleteUnsettled +
      (size a.initialDeliveryCount + (size a.maxMessageSize + (size a.offeredCapabilities + (size a.desiredCapabilities +
      (size a.properties + 0))))))))))))) := by
    simp [Composite.contentSize, Composite.fields, fld]
  have := fit_size h.name
  have := fit_size h.source
  have := fit_size h.target
  have := fit_size h.unsettled
  have := fit_size h.offered
  have := fit_size h.desired
  have := fit_size h.properties
  have := size_u32_le a.handle
  have := size_opt_u32_le a.initialDeliveryCount
  have := size_opt_u64_le a.maxMessageSize
  have : size a.role = 1 := by cases a.role <;> rfl
  have : size a.sndSettleMode = 2 := by cases a.sndSettleMode <;> rfl
  have : size a.rcvSettleMode = 2 := by cases a.rcvSettleMode <;> rfl
  have : size a.incompleteUnsettled = 1 := rfl
  obtain ⟨h₁, h₂⟩ := composite_size_le a
  refine ⟨⟨h.name.1, True.intro, True.intro, True.intro, True.intro, h.source.1, h.target.1, h.unsettled.1, True.intro, ?_, ?_,
    h.offered.1, h.desired.1, h.properties.1, by rw [h₂]; unfold U32; omega⟩, ?_⟩
  · cases a.initialDeliveryCount <;> exact True.intro
  · cases a.maxMessageSize <;> exact True.intro
  · show (Composite.encode a).length + 8 < U32
    unfold U32; omega

theorem detach_wf {d : Detach} (h : Fit d.error) : wf d ∧ (enc d).length + 8 < U32 := by
  have e : Composite.contentSize d = size d.handle + (size d.closed + (size d.error + 0)) := by
    simp [Composite.contentSize, Composite.fields, fld]
  have := fit_size h
  have := size_u32_le d.handle
  have : size d.closed = 1 := rfl
  obtain ⟨h₁, h₂⟩ := composite_size_le d
  refine ⟨⟨True.intro, True.intro, h.1, by rw [h₂]; unfold U32; omega⟩, ?_⟩
  show (Composite.encode d).length + 8 < U32
  unfold U32; omega

theorem end_wf {d : End} (h : Fit d.error) : wf d ∧ (enc d).length + 8 < U32 := by
  have e : Composite.contentSize d = size d.error + 0 := by
    simp [Composite.contentSize, Composite.fields, fld]
  have := fit_size h
  obtain ⟨h₁, h₂⟩ := composite_size_le d
  refine ⟨⟨h.1, by rw [h₂]; unfold U32; omega⟩, ?_⟩
  show (Composite.encode d).length + 8 < U32
  unfold U32; omega

theorem close_wf {d : Close} (h : Fit d.error) : wf d ∧ (enc d).length + 8 < U32 := by
  have e : Composite.contentSize d = size d.error + 0 := by
    simp [Composite.contentSize, Composite.fields, fld]
  have := fit_size h
  obtain ⟨h₁, h₂⟩ := composite_size_le d
  refine ⟨⟨h.1, by rw [h₂]; unfold U32; omega⟩, ?_⟩
  show (Composite.encode d).length + 8 < U32
  unfold U32; omega

theorem disposition_wf {d : Disposition} (h : Fit d.state) : wf d ∧ (enc d).length + 8 < U32 := by
  have e : Composite.contentSize d = size d.role + (size d.first + (size d.last + (size d.settled + (size d.state +
      (size d.batchable + 0))))) := by
    simp [Composite.contentSize, Composite.fields, fld]
  have := fit_size h
  have := size_u32_le d.first
  have := size_opt_u32_le d.last
  have : size d.role = 1 := by cases d.role <;> rfl
  have : size d.settled = 1 := rfl
  have : size d.batchable = 1 := rfl
  obtain ⟨h₁, h₂⟩ := composite_size_le d
  refine ⟨⟨True.intro, True.intro, ?_, True.intro, h.1, True.intro, by rw [h₂]; unfold U32; omega⟩, ?_⟩
  · cases d.last <;> exact True.intro
  · show (Composite.encode d).length + 8 < U32
    unfold U32; omega

theorem flow_wf {d : Flow} (h : Fit d.properties) : wf d ∧ (enc d).length + 8 < U32 := by
  have e : Composite.contentSize d = size d.nextIncomingId + (size d.incomingWindow + (size d.nextOutgoingId +
      (size d.outgoingWindow + (size d.handle + (size d.deliveryCount + (size d.linkCredit + (size d.available +
      (size d.drain + (size d.echo + (size d.properties + 0)))))))))) := by
    simp [Composite.contentSize, Composite.fields, fld]
  have := fit_size h
  have := size_opt_u32_le d.nextIncomingId
  have := size_u32_le d.incomingWindow
  have := size_u32_le d.nextOutgoingId
  have := size_u32_le d.outgoingWindow
  have := size_opt_u32_le d.handle
  have := size_opt_u32_le d.deliveryCount
  have := size_opt_u32_le d.linkCredit
  have := size_opt_u32_le d.available
  have : size d.drain = 1 := rfl
  have : size d.echo = 1 := rfl
  obtain ⟨h₁, h₂⟩ := composite_size_le d
  have ow : ∀ x : Option UInt32, wf x := by rintro (_ | _) <;> exact True.intro
  refine ⟨⟨ow _, True.intro, True.intro, True.intro, ow _, ow _, ow _, ow _, True.intro, True.intro, h.1,
    by rw [h₂]; unfold U32; omega⟩, ?_⟩
  show (Composite.encode d).length + 8 < U32
  unfold U32; omega

theorem size_opt_u16_le (x : Option UInt16) : size x ≤ 3 := by
  rcases x with _ | x
  · show 1 ≤ 3; omega
  · exact Nat.le_refl 3

theorem begin_wf {d : Begin} (h₁ : Fit d.offeredCapabilities) (h₂ : Fit d.desiredCapabilities) (h₃ : Fit d.properties) :
    wf d ∧ (enc d).length + 8 < U32 := by
  have e : Composite.contentSize d = size d.remoteChannel + (size d.nextOutgoingId + (size d.incomingWindow +
      (size d.outgoingWindow + (size d.handleMax + (size d.offeredCapabilities + (size d.desiredCapabilities +
      (size d.properties + 0))))))) := by
    simp [Composite.contentSize, Composite.fields, fld]
  have := fit_size h₁
  have := fit_size h₂
  have := fit_size h₃
  have := size_opt_u16_le d.remoteChannel
  have := size_u32_le d.nextOutgoingId
  have := size_u32_le d.incomingWindow
  have := size_u32_le d.outgoingWindow
  have := size_u32_le d.handleMax
  obtain ⟨g₁, g₂⟩ := composite_size_le d
  refine ⟨⟨?_, True.intro, True.intro, True.intro, True.intro, h₁.1, h₂.1, h₃.1, by rw [g₂]; unfold U32; omega⟩, ?_⟩
  · cases d.remoteChannel <;> exact True.intro
  · show (Composite.encode d).length + 8 < U32
    unfold U32; omega

/-- A frame that fits is a frame the codec can carry. -/
theorem Frame.Fit.wf {f : Frame} (h : f.Fit) (channel : UInt16) : Amqp.wf (⟨channel, f⟩ : AmqpFrame) := by
  cases f
  case attach a => exact Attach.Fit.wf h
  case detach d => exact detach_wf h
  case end_ d => exact end_wf h
  case disposition d => exact disposition_wf h
  case flow d => exact flow_wf h
  all_goals exact h

end Amqp
