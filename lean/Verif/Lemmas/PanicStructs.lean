import Verif.Lemmas.Panic
import Verif.Model.Io
/-! Panics of the protocol types, frames and messages. -/

namespace Amqp
open Dec

theorem Role.ofBase_ne_panic (b : Bool) : Role.ofBase b ≠ .error .panic := by
  simp only [Role.ofBase]
  repeat' split
  all_goals simp
instance : QuietWire Role := ⟨fun fmt => (QuietWire.quiet fmt).bindAny fun b => .liftE (Role.ofBase_ne_panic b)⟩
theorem SenderSettleMode.ofBase_ne_panic (b : UInt8) : SenderSettleMode.ofBase b ≠ .error .panic := by
  simp only [SenderSettleMode.ofBase]
  repeat' split
  all_goals simp
instance : QuietWire SenderSettleMode := ⟨fun fmt => (QuietWire.quiet fmt).bindAny fun b => .liftE (SenderSettleMode.ofBase_ne_panic b)⟩
theorem ReceiverSettleMode.ofBase_ne_panic (b : UInt8) : ReceiverSettleMode.ofBase b ≠ .error .panic := by
  simp only [ReceiverSettleMode.ofBase]
  repeat' split
  all_goals simp
instance : QuietWire ReceiverSettleMode := ⟨fun fmt => (QuietWire.quiet fmt).bindAny fun b => .liftE (ReceiverSettleMode.ofBase_ne_panic b)⟩
theorem AmqpError.ofBase_ne_panic (b : Symbol) : AmqpError.ofBase b ≠ .error .panic := by
  have key {c : Prop} [Decidable c] {a : AmqpError} {e : Except Err AmqpError} (h : e ≠ .error .panic) :
      (if c then .ok a else e) ≠ .error .panic := by split <;> simp_all
  exact key <| key <| key <| key <| key <| key <| key <| key <| key <| key <| key <| key <| key <| by simp
instance : QuietWire AmqpError := ⟨fun fmt => (QuietWire.quiet fmt).bindAny fun b => .liftE (AmqpError.ofBase_ne_panic b)⟩
theorem ConnectionError.ofBase_ne_panic (b : Symbol) : ConnectionError.ofBase b ≠ .error .panic := by
  simp only [ConnectionError.ofBase]
  repeat' split
  all_goals simp
instance : QuietWire ConnectionError := ⟨fun fmt => (QuietWire.quiet fmt).bindAny fun b => .liftE (ConnectionError.ofBase_ne_panic b)⟩
theorem SessionError.ofBase_ne_panic (b : Symbol) : SessionError.ofBase b ≠ .error .panic := by
  simp only [SessionError.ofBase]
  repeat' split
  all_goals simp
instance : QuietWire SessionError := ⟨fun fmt => (QuietWire.quiet fmt).bindAny fun b => .liftE (SessionError.ofBase_ne_panic b)⟩
theorem LinkError.ofBase_ne_panic (b : Symbol) : LinkError.ofBase b ≠ .error .panic := by
  simp only [LinkError.ofBase]
  repeat' split
  all_goals simp
instance : QuietWire LinkError := ⟨fun fmt => (QuietWire.quiet fmt).bindAny fun b => .liftE (LinkError.ofBase_ne_panic b)⟩
theorem SaslCode.ofBase_ne_panic (b : UInt8) : SaslCode.ofBase b ≠ .error .panic := by
  simp only [SaslCode.ofBase]
  repeat' split
  all_goals simp
instance : QuietWire SaslCode := ⟨fun fmt => (QuietWire.quiet fmt).bindAny fun b => .liftE (SaslCode.ofBase_ne_panic b)⟩
theorem TerminusDurability.ofBase_ne_panic (b : UInt32) : TerminusDurability.ofBase b ≠ .error .panic := by
  simp only [TerminusDurability.ofBase]
  repeat' split
  all_goals simp
instance : QuietWire TerminusDurability := ⟨fun fmt => (QuietWire.quiet fmt).bindAny fun b => .liftE (TerminusDurability.ofBase_ne_panic b)⟩
theorem TerminusExpiryPolicy.ofBase_ne_panic (b : Symbol) : TerminusExpiryPolicy.ofBase b ≠ .error .panic := by
  simp only [TerminusExpiryPolicy.ofBase]
  repeat' split
  all_goals simp
instance : QuietWire TerminusExpiryPolicy := ⟨fun fmt => (QuietWire.quiet fmt).bindAny fun b => .liftE (TerminusExpiryPolicy.ofBase_ne_panic b)⟩
instance : QuietWire ErrorCondition := ⟨fun fmt => (QuietWire.quiet fmt).bindAny fun _ => .pure _⟩
instance : QuietWire DistributionMode := ⟨fun fmt => (QuietWire.quiet fmt).bindAny fun _ => .pure _⟩
instance : QuietWire MessageId := ⟨fun fmt =>
  .ite ((QuietWire.quiet fmt).bindAny fun _ => .pure _) <| .ite ((QuietWire.quiet fmt).bindAny fun _ => .pure _) <|
  .ite ((QuietWire.quiet fmt).bindAny fun _ => .pure _) <| .ite ((QuietWire.quiet fmt).bindAny fun _ => .pure _) <|
  .fail (by simp)⟩

theorem dec_variant_hash {s r : Bytes} {v : Variant} (h : (dec : Dec Variant) s = .ok (v, r)) (hv : v.hashable = false) :
    ∃ b ∈ s, isMapCode b = true := by
  cases s with
  | nil => cases h
  | cons c s => exact decVarF_hash (s.length + 2) c s v r h hv

instance : CalmWire (HMap Variant Variant) := ⟨fun fmt => by
  by_cases hmap : fmt = FC.map8 ∨ fmt = FC.map32
  · have hm : isMapCode fmt = true := by rcases hmap with rfl | rfl <;> rfl
    have hcl : ∀ s r : Bytes, CalmNoMap s → r <:+ s → CalmNoMap r :=
      fun s r h hs => ⟨h.1.suffix hs, fun b hb => h.2 b (hs.subset hb)⟩
    refine (Total.mapHeader fmt).bindGen (Q := CalmNoMap) (fun sc => ?_)
      fun s r h hs => hcl s r (CalmAt.noMap hm h) hs
    refine Total.bindGen (Q := CalmNoMap) ?_ (fun _ => .pure _) hcl
    refine Total.limit _ (Q := CalmNoMap) ?_ fun s h =>
      ⟨h.1.infix (List.take_prefix _ _).isInfix, fun b hb => h.2 b ((List.take_prefix _ _).subset hb)⟩
    refine Total.mapLoop (Total.dec.mono fun _ h => h.1) (Total.dec.mono fun _ h => h.1) hcl (fun s k r hs hk => ?_) _ _
    cases hh : k.hashable with
    | true => exact hh
    | false =>
      exfalso
      obtain ⟨b, hb, hbm⟩ := dec_variant_hash hk hh
      rw [hs.2 b hb] at hbm; cases hbm
  · have : mapHeader fmt = fail (.invalidFormatCode fmt) := by
      rw [mapHeader, if_neg (fun h => hmap (.inl h)), if_neg (fun h => hmap (.inr h))]
    show Total (CalmAt fmt) (mapHeader fmt >>= _)
    rw [this]
    exact ⟨fun s _ h => (nomatch h), fun s a r h => (nomatch h)⟩⟩

local macro "fields" : tactic => `(tactic| (repeat' first
  | exact FTotal.pure _ | exact FTotal.req | exact FTotal.opt | exact FTotal.dflt
  | refine FTotal.bind ?_ fun _ => ?_))

instance : CalmComposite Error := ⟨by fields⟩
instance : CalmWire Error := calmWire
instance : CalmComposite Open := ⟨by fields⟩
instance : CalmWire Open := calmWire
instance : CalmComposite Begin := ⟨by fields⟩
instance : CalmWire Begin := calmWire
instance : CalmComposite Flow := ⟨by fields⟩
instance : CalmWire Flow := calmWire
instance : CalmComposite Detach := ⟨by fields⟩
instance : CalmWire Detach := calmWire
instance : CalmComposite End := ⟨by fields⟩
instance : CalmWire End := calmWire
instance : CalmComposite Close := ⟨by fields⟩
instance : CalmWire Close := calmWire
instance : CalmComposite SaslMechanisms := ⟨by fields⟩
instance : CalmWire SaslMechanisms := calmWire
instance : CalmComposite SaslInit := ⟨by fields⟩
instance : CalmWire SaslInit := calmWire
instance : CalmComposite SaslChallenge := ⟨by fields⟩
instance : CalmWire SaslChallenge := calmWire
instance : CalmComposite SaslResponse := ⟨by fields⟩
instance : CalmWire SaslResponse := calmWire
instance : CalmComposite SaslOutcome := ⟨by fields⟩
instance : CalmWire SaslOutcome := calmWire
instance : CalmComposite Target := ⟨by fields⟩
instance : CalmWire Target := calmWire
instance : CalmComposite Header := ⟨by fields⟩
instance : CalmWire Header := calmWire
instance : CalmComposite Properties := ⟨by fields⟩
instance : CalmWire Properties := calmWire
instance : CalmComposite Received := ⟨by fields⟩
instance : CalmWire Received := calmWire
instance : CalmComposite Accepted := ⟨by fields⟩
instance : CalmWire Accepted := calmWire
instance : CalmComposite Rejected := ⟨by fields⟩
instance : CalmWire Rejected := calmWire
instance : CalmComposite Released := ⟨by fields⟩
instance : CalmWire Released := calmWire
instance : CalmComposite Modified := ⟨by fields⟩
instance : CalmWire Modified := calmWire
instance : CalmWire Outcome := ⟨fun _ => .ite ((Total.of_any Total.decAny).bindAt fun _ => .ite (Total.decInner.bind fun _ => .pure _) <| .ite (Total.decInner.bind fun _ => .pure _) <| .ite (Total.decInner.bind fun _ => .pure _) <| .ite (Total.decInner.bind fun _ => .pure _) <| .fail (by simp)) (.fail (by simp))⟩
instance : CalmWire DeliveryState := ⟨fun _ => .ite ((Total.of_any Total.decAny).bindAt fun _ => .ite (Total.decInner.bind fun _ => .pure _) <| .ite (Total.decInner.bind fun _ => .pure _) <| .ite (Total.decInner.bind fun _ => .pure _) <| .ite (Total.decInner.bind fun _ => .pure _) <| .ite (Total.decInner.bind fun _ => .pure _) <| .fail (by simp)) (.fail (by simp))⟩
instance : CalmComposite Source := ⟨by fields⟩
instance : CalmWire Source := calmWire
instance : CalmComposite Attach := ⟨by fields⟩
instance : CalmWire Attach := calmWire
instance : CalmComposite Disposition := ⟨by fields⟩
instance : CalmWire Disposition := calmWire
instance : CalmComposite TransferHead := ⟨by fields⟩
instance : CalmWire TransferHead := calmWire
instance : CalmWire SaslFrameBody := ⟨fun _ => .ite ((Total.of_any Total.decAny).bindAt fun _ => .ite (Total.decInner.bind fun _ => .pure _) <| .ite (Total.decInner.bind fun _ => .pure _) <| .ite (Total.decInner.bind fun _ => .pure _) <| .ite (Total.decInner.bind fun _ => .pure _) <| .ite (Total.decInner.bind fun _ => .pure _) <| .fail (by simp)) (.fail (by simp))⟩

instance : CalmWire Section := ⟨fun _ => .ite ((Total.of_any Total.decAny).bindAt fun _ =>
  .ite (Total.decInner.bind fun _ => .pure _) <| .ite (Total.dec.bind fun _ => .pure _) <|
  .ite (Total.dec.bind fun _ => .pure _) <| .ite (Total.dec.bind fun _ => .pure _) <|
  .ite (Total.dec.bind fun _ => .pure _) <| .ite (Total.dec.bind fun _ => .pure _) <|
  .ite (Total.dec.bind fun _ => .pure _) <| .ite (Total.dec.bind fun _ => .pure _) <|
  .ite (Total.decInner.bind fun _ => .pure _) <| .fail (by simp)) (.fail (by simp))⟩

theorem Total.transfer : Total Calm Transfer.decInner :=
  Total.decInner.bind fun head => ⟨fun _ _ h => (nomatch h), fun s a r h => by cases h; exact List.nil_suffix⟩

theorem Total.frameBody (d : Descriptor) : Total Calm (Frame.decBody d) :=
  .ite (Total.decInner.bind fun _ => .pure _) <| .ite (Total.decInner.bind fun _ => .pure _) <|
  .ite (Total.decInner.bind fun _ => .pure _) <| .ite (Total.decInner.bind fun _ => .pure _) <|
  .ite (Total.transfer.bind fun _ => .pure _) <| .ite (Total.decInner.bind fun _ => .pure _) <|
  .ite (Total.decInner.bind fun _ => .pure _) <| .ite (Total.decInner.bind fun _ => .pure _) <|
  .ite (Total.decInner.bind fun _ => .pure _) <| .fail (by simp)

theorem Total.frame : Total Calm Frame.decode where
  quiet s hs h := by
    cases s with
    | nil => cases h
    | cons c s =>
      simp only [Frame.decode] at h
      split at h
      · exact ((Total.of_any (Total.decAny (α := Descriptor))).bind Total.frameBody).quiet s (CalmAt.calm hs) h
      · cases h
  suffix s a r h := by
    cases s with
    | nil => cases h; exact List.suffix_refl _
    | cons c s =>
      simp only [Frame.decode] at h
      split at h
      · exact (((Total.of_any (Total.decAny (α := Descriptor))).bind Total.frameBody).suffix s a r h).trans (List.suffix_cons c s)
      · cases h

theorem Total.frameHeader (ty : UInt8) : Total Any (decFrameHeader ty) where
  quiet s _ h := by
    simp only [decFrameHeader] at h
    repeat' first | (simp at h; done) | split at h
  suffix s a r h := by
    simp only [decFrameHeader] at h
    split at h
    · split at h
      · simp at h
      · split at h
        · simp at h
        · split at h
          · simp at h
          · simp only [Except.ok.injEq, Prod.mk.injEq] at h; rw [← h.2]; exact List.drop_suffix _ _
    · simp at h

theorem Total.amqpFrame : Total Calm AmqpFrame.decode :=
  (Total.of_any (Total.frameHeader 0)).bind fun _ => Total.frame.bind fun _ => .pure _
theorem Total.saslFrame : Total Calm SaslFrame.decode :=
  (Total.of_any (Total.frameHeader 1)).bind fun _ => Total.dec.bind fun _ => .pure _

theorem decodeLoop_calm : ∀ (n : Nat) (m : Message) (s : Bytes), Calm s → Message.decodeLoop n m s ≠ .error .panic
  | n, m, [], _ => by cases n <;> exact nofun
  | 0, m, a :: s, _ => nofun
  | n + 1, m, a :: s, hs => by
    show (match (dec : Dec Section) (a :: s) with
      | .ok (sec, r) => Message.decodeLoop n (m.addSection sec) r
      | .error e => .error e) ≠ _
    cases h : (dec : Dec Section) (a :: s) with
    | ok x =>
      obtain ⟨sec, r⟩ := x
      exact decodeLoop_calm n _ r (hs.suffix (Total.dec.suffix _ _ _ h))
    | error e => exact fun he => Total.dec.quiet (α := Section) _ hs (by rw [h]; cases he; rfl)

end Amqp
