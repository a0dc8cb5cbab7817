-- Written by tools/gen_structs.py from the tables there.
import Verif.Lemmas.Composite
import Verif.Spec.Structs
/-! Laws of the enumerations and composite types. -/

namespace Amqp
open Dec

theorem nf_ite {c : Prop} [Decidable c] {a : α} {r : Except Err α} (h : r ≠ .error .fuel) :
    (if c then .ok a else r) ≠ .error .fuel := by
  split
  · nofun
  · exact h

theorem utf8_of_ascii : ∀ b : Bytes, (b.all fun c => c ≤ 0x7F) = true → validUtf8 b = true
  | [], _ => by rw [validUtf8]
  | b :: l, h => by
    rw [List.all_cons, Bool.and_eq_true, decide_eq_true_eq] at h
    rw [validUtf8.eq_def]
    simp only
    rw [if_pos h.1]
    exact utf8_of_ascii l h.2

theorem ascii_utf8 {s : Symbol} (h : (s.bytes.all fun c => c ≤ 0x7F) = true) (h2 : s.bytes.length < 256) : wf s :=
  ⟨utf8_of_ascii _ h, Nat.lt_trans h2 (by decide)⟩

theorem Role.of_fine (s : Bool) : Role.ofBase s ≠ .error .fuel := by
  unfold Role.ofBase
  repeat apply nf_ite
  nofun
instance : LawfulWire Role where
  rt x _ := enum_rt (toB := Role.toBase) (ofB := Role.ofBase) rfl (fun _ => rfl) trivial (by cases x <;> rfl)
instance : SizeWire Role where size_eq x := SizeWire.size_eq x.toBase
instance : NonNullWire Role where nn x := NonNullWire.nn x.toBase
instance : GoodWire Role where
  good fmt := (Good.decF fmt).bind fun s => Good.liftE (by
    exact Role.of_fine s)

theorem SenderSettleMode.of_fine (s : UInt8) : SenderSettleMode.ofBase s ≠ .error .fuel := by
  unfold SenderSettleMode.ofBase
  repeat apply nf_ite
  nofun
instance : LawfulWire SenderSettleMode where
  rt x _ := enum_rt (toB := SenderSettleMode.toBase) (ofB := SenderSettleMode.ofBase) rfl (fun _ => rfl) trivial (by cases x <;> rfl)
instance : SizeWire SenderSettleMode where size_eq x := SizeWire.size_eq x.toBase
instance : NonNullWire SenderSettleMode where nn x := NonNullWire.nn x.toBase
instance : GoodWire SenderSettleMode where
  good fmt := (Good.decF fmt).bind fun s => Good.liftE (by
    exact SenderSettleMode.of_fine s)

theorem ReceiverSettleMode.of_fine (s : UInt8) : ReceiverSettleMode.ofBase s ≠ .error .fuel := by
  unfold ReceiverSettleMode.ofBase
  repeat apply nf_ite
  nofun
instance : LawfulWire ReceiverSettleMode where
  rt x _ := enum_rt (toB := ReceiverSettleMode.toBase) (ofB := ReceiverSettleMode.ofBase) rfl (fun _ => rfl) trivial (by cases x <;> rfl)
instance : SizeWire ReceiverSettleMode where size_eq x := SizeWire.size_eq x.toBase
instance : NonNullWire ReceiverSettleMode where nn x := NonNullWire.nn x.toBase
instance : GoodWire ReceiverSettleMode where
  good fmt := (Good.decF fmt).bind fun s => Good.liftE (by
    exact ReceiverSettleMode.of_fine s)

theorem AmqpError.wf_base (x : AmqpError) : wf x.toBase := by cases x <;> exact ascii_utf8 (by decide) (by decide)
theorem AmqpError.of_to (x : AmqpError) : AmqpError.ofBase x.toBase = .ok x := by cases x <;> rfl
theorem AmqpError.of_err {s : Symbol} (h : ∀ x : AmqpError, s ≠ x.toBase) : AmqpError.ofBase s = .error (.unknownEnumOption "AmqpError") := by
  simp only [AmqpError.ofBase]
  rw [if_neg (show ¬ s = sym "amqp:internal-error" from h .internalError), if_neg (show ¬ s = sym "amqp:not-found" from h .notFound), if_neg (show ¬ s = sym "amqp:unauthorized-access" from h .unauthorizedAccess), if_neg (show ¬ s = sym "amqp:decode-error" from h .decodeError), if_neg (show ¬ s = sym "amqp:resource-limit-exceeded" from h .resourceLimitExceeded), if_neg (show ¬ s = sym "amqp:not-allowed" from h .notAllowed), if_neg (show ¬ s = sym "amqp:invalid-field" from h .invalidField), if_neg (show ¬ s = sym "amqp:not-implemented" from h .notImplemented), if_neg (show ¬ s = sym "amqp:resource-locked" from h .resourceLocked), if_neg (show ¬ s = sym "amqp:precondition-failed" from h .preconditionFailed), if_neg (show ¬ s = sym "amqp:resource-deleted" from h .resourceDeleted), if_neg (show ¬ s = sym "amqp:illegal-state" from h .illegalState), if_neg (show ¬ s = sym "amqp:frame-size-too-small" from h .frameSizeTooSmall)]
theorem AmqpError.of_fine (s : Symbol) : AmqpError.ofBase s ≠ .error .fuel := by
  unfold AmqpError.ofBase
  repeat apply nf_ite
  nofun
instance : LawfulWire AmqpError where
  rt x _ := enum_rt (toB := AmqpError.toBase) (ofB := AmqpError.ofBase) rfl (fun _ => rfl) x.wf_base x.of_to
instance : SizeWire AmqpError where size_eq x := by cases x <;> rfl
instance : NonNullWire AmqpError where nn x := NonNullWire.nn x.toBase
instance : GoodWire AmqpError where
  good fmt := (Good.decF fmt).bind fun s => Good.liftE (by
    exact AmqpError.of_fine s)

theorem ConnectionError.wf_base (x : ConnectionError) : wf x.toBase := by cases x <;> exact ascii_utf8 (by decide) (by decide)
theorem ConnectionError.of_to (x : ConnectionError) : ConnectionError.ofBase x.toBase = .ok x := by cases x <;> rfl
theorem ConnectionError.of_err {s : Symbol} (h : ∀ x : ConnectionError, s ≠ x.toBase) : ConnectionError.ofBase s = .error (.unknownEnumOption "ConnectionError") := by
  simp only [ConnectionError.ofBase]
  rw [if_neg (show ¬ s = sym "amqp:connection:forced" from h .connectionForced), if_neg (show ¬ s = sym "amqp:connection:framing-error" from h .framingError), if_neg (show ¬ s = sym "amqp:connection:redirect" from h .redirect)]
theorem ConnectionError.of_fine (s : Symbol) : ConnectionError.ofBase s ≠ .error .fuel := by
  unfold ConnectionError.ofBase
  repeat apply nf_ite
  nofun
instance : LawfulWire ConnectionError where
  rt x _ := enum_rt (toB := ConnectionError.toBase) (ofB := ConnectionError.ofBase) rfl (fun _ => rfl) x.wf_base x.of_to
instance : SizeWire ConnectionError where size_eq x := by cases x <;> rfl
instance : NonNullWire ConnectionError where nn x := NonNullWire.nn x.toBase
instance : GoodWire ConnectionError where
  good fmt := (Good.decF fmt).bind fun s => Good.liftE (by
    exact ConnectionError.of_fine s)

theorem SessionError.wf_base (x : SessionError) : wf x.toBase := by cases x <;> exact ascii_utf8 (by decide) (by decide)
theorem SessionError.of_to (x : SessionError) : SessionError.ofBase x.toBase = .ok x := by cases x <;> rfl
theorem SessionError.of_err {s : Symbol} (h : ∀ x : SessionError, s ≠ x.toBase) : SessionError.ofBase s = .error (.unknownEnumOption "SessionError") := by
  simp only [SessionError.ofBase]
  rw [if_neg (show ¬ s = sym "amqp:session:window-violation" from h .windowViolation), if_neg (show ¬ s = sym "amqp:session:errant-link" from h .errantLink), if_neg (show ¬ s = sym "amqp:session:handle-in-use" from h .handleInUse), if_neg (show ¬ s = sym "amqp:session:unattached-handle" from h .unattachedHandle)]
theorem SessionError.of_fine (s : Symbol) : SessionError.ofBase s ≠ .error .fuel := by
  unfold SessionError.ofBase
  repeat apply nf_ite
  nofun
instance : LawfulWire SessionError where
  rt x _ := enum_rt (toB := SessionError.toBase) (ofB := SessionError.ofBase) rfl (fun _ => rfl) x.wf_base x.of_to
instance : SizeWire SessionError where size_eq x := by cases x <;> rfl
instance : NonNullWire SessionError where nn x := NonNullWire.nn x.toBase
instance : GoodWire SessionError where
  good fmt := (Good.decF fmt).bind fun s => Good.liftE (by
    exact SessionError.of_fine s)

theorem LinkError.wf_base (x : LinkError) : wf x.toBase := by cases x <;> exact ascii_utf8 (by decide) (by decide)
theorem LinkError.of_to (x : LinkError) : LinkError.ofBase x.toBase = .ok x := by cases x <;> rfl
theorem LinkError.of_err {s : Symbol} (h : ∀ x : LinkError, s ≠ x.toBase) : LinkError.ofBase s = .error (.unknownEnumOption "LinkError") := by
  simp only [LinkError.ofBase]
  rw [if_neg (show ¬ s = sym "amqp:link:detach-forced" from h .detachForced), if_neg (show ¬ s = sym "amqp:link:transfer-limit-exceeded" from h .transferLimitExceeded), if_neg (show ¬ s = sym "amqp:link:message-size-exceeded" from h .messageSizeExceeded), if_neg (show ¬ s = sym "amqp:link:redirect" from h .redirect), if_neg (show ¬ s = sym "amqp:link:stolen" from h .stolen)]
theorem LinkError.of_fine (s : Symbol) : LinkError.ofBase s ≠ .error .fuel := by
  unfold LinkError.ofBase
  repeat apply nf_ite
  nofun
instance : LawfulWire LinkError where
  rt x _ := enum_rt (toB := LinkError.toBase) (ofB := LinkError.ofBase) rfl (fun _ => rfl) x.wf_base x.of_to
instance : SizeWire LinkError where size_eq x := by cases x <;> rfl
instance : NonNullWire LinkError where nn x := NonNullWire.nn x.toBase
instance : GoodWire LinkError where
  good fmt := (Good.decF fmt).bind fun s => Good.liftE (by
    exact LinkError.of_fine s)

theorem SaslCode.of_fine (s : UInt8) : SaslCode.ofBase s ≠ .error .fuel := by
  unfold SaslCode.ofBase
  repeat apply nf_ite
  nofun
instance : LawfulWire SaslCode where
  rt x _ := enum_rt (toB := SaslCode.toBase) (ofB := SaslCode.ofBase) rfl (fun _ => rfl) trivial (by cases x <;> rfl)
instance : SizeWire SaslCode where size_eq x := SizeWire.size_eq x.toBase
instance : NonNullWire SaslCode where nn x := NonNullWire.nn x.toBase
instance : GoodWire SaslCode where
  good fmt := (Good.decF fmt).bind fun s => Good.liftE (by
    exact SaslCode.of_fine s)

theorem TerminusDurability.of_fine (s : UInt32) : TerminusDurability.ofBase s ≠ .error .fuel := by
  unfold TerminusDurability.ofBase
  repeat apply nf_ite
  nofun
instance : LawfulWire TerminusDurability where
  rt x _ := enum_rt (toB := TerminusDurability.toBase) (ofB := TerminusDurability.ofBase) rfl (fun _ => rfl) trivial (by cases x <;> rfl)
instance : SizeWire TerminusDurability where size_eq x := SizeWire.size_eq x.toBase
instance : NonNullWire TerminusDurability where nn x := NonNullWire.nn x.toBase
instance : GoodWire TerminusDurability where
  good fmt := (Good.decF fmt).bind fun s => Good.liftE (by
    exact TerminusDurability.of_fine s)

theorem TerminusExpiryPolicy.wf_base (x : TerminusExpiryPolicy) : wf x.toBase := by cases x <;> exact ascii_utf8 (by decide) (by decide)
theorem TerminusExpiryPolicy.of_to (x : TerminusExpiryPolicy) : TerminusExpiryPolicy.ofBase x.toBase = .ok x := by cases x <;> rfl
theorem TerminusExpiryPolicy.of_err {s : Symbol} (h : ∀ x : TerminusExpiryPolicy, s ≠ x.toBase) : TerminusExpiryPolicy.ofBase s = .error (.unknownEnumOption "TerminusExpiryPolicy") := by
  simp only [TerminusExpiryPolicy.ofBase]
  rw [if_neg (show ¬ s = sym "link-detach" from h .linkDetach), if_neg (show ¬ s = sym "session-end" from h .sessionEnd), if_neg (show ¬ s = sym "connection-close" from h .connectionClose), if_neg (show ¬ s = sym "never" from h .never)]
theorem TerminusExpiryPolicy.of_fine (s : Symbol) : TerminusExpiryPolicy.ofBase s ≠ .error .fuel := by
  unfold TerminusExpiryPolicy.ofBase
  repeat apply nf_ite
  nofun
instance : LawfulWire TerminusExpiryPolicy where
  rt x _ := enum_rt (toB := TerminusExpiryPolicy.toBase) (ofB := TerminusExpiryPolicy.ofBase) rfl (fun _ => rfl) x.wf_base x.of_to
instance : SizeWire TerminusExpiryPolicy where size_eq x := by cases x <;> rfl
instance : NonNullWire TerminusExpiryPolicy where nn x := NonNullWire.nn x.toBase
instance : GoodWire TerminusExpiryPolicy where
  good fmt := (Good.decF fmt).bind fun s => Good.liftE (by
    exact TerminusExpiryPolicy.of_fine s)

theorem ErrorCondition.of_conn (x : ConnectionError) : ErrorCondition.ofSymbol x.toBase = .connectionError x := by
  rw [ErrorCondition.ofSymbol, AmqpError.of_err (by intro e; cases x <;> cases e <;> decide), ConnectionError.of_to]
theorem ErrorCondition.of_sess (x : SessionError) : ErrorCondition.ofSymbol x.toBase = .sessionError x := by
  rw [ErrorCondition.ofSymbol, AmqpError.of_err (by intro e; cases x <;> cases e <;> decide),
    ConnectionError.of_err (by intro e; cases x <;> cases e <;> decide), SessionError.of_to]
theorem ErrorCondition.of_link (x : LinkError) : ErrorCondition.ofSymbol x.toBase = .linkError x := by
  rw [ErrorCondition.ofSymbol, AmqpError.of_err (by intro e; cases x <;> cases e <;> decide),
    ConnectionError.of_err (by intro e; cases x <;> cases e <;> decide),
    SessionError.of_err (by intro e; cases x <;> cases e <;> decide), LinkError.of_to]

theorem symbol_rt {α : Type} [Wire α] {ofS : Symbol → α} {a : α} {s : Symbol} (he : enc a = enc s)
    (hd : ∀ fmt, (decF fmt : Dec α) = (decF fmt >>= fun b => pure (ofS b))) (hw : wf s) (hof : ofS s = a) : RTF a := by
  obtain ⟨c, tl, h1, h2⟩ := LawfulWire.rt s hw
  refine ⟨c, tl, he.trans h1, fun rest => ?_⟩
  rw [hd, Dec.bind_ok (h2 rest), hof]
  rfl

instance : LawfulWire ErrorCondition where
  rt x h := match x, h with
    | .amqpError e, _ => symbol_rt (ofS := ErrorCondition.ofSymbol) (s := e.toBase) rfl (fun _ => rfl) e.wf_base
        (by rw [ErrorCondition.ofSymbol, e.of_to])
    | .connectionError e, _ => symbol_rt (ofS := ErrorCondition.ofSymbol) (s := e.toBase) rfl (fun _ => rfl) e.wf_base
        (ErrorCondition.of_conn e)
    | .sessionError e, _ => symbol_rt (ofS := ErrorCondition.ofSymbol) (s := e.toBase) rfl (fun _ => rfl) e.wf_base
        (ErrorCondition.of_sess e)
    | .linkError e, _ => symbol_rt (ofS := ErrorCondition.ofSymbol) (s := e.toBase) rfl (fun _ => rfl) e.wf_base
        (ErrorCondition.of_link e)
    | .custom s, ⟨h, h1, h2, h3, h4⟩ => symbol_rt (ofS := ErrorCondition.ofSymbol) (s := s) rfl (fun _ => rfl) h
        (by rw [ErrorCondition.ofSymbol, AmqpError.of_err h1, ConnectionError.of_err h2, SessionError.of_err h3,
          LinkError.of_err h4])
instance : SizeWire ErrorCondition where
  size_eq x := match x with
    | .amqpError e => SizeWire.size_eq e
    | .connectionError e => SizeWire.size_eq e
    | .sessionError e => SizeWire.size_eq e
    | .linkError e => SizeWire.size_eq e
    | .custom e => SizeWire.size_eq e
instance : NonNullWire ErrorCondition where
  nn x := match x with
    | .amqpError e => NonNullWire.nn e
    | .connectionError e => NonNullWire.nn e
    | .sessionError e => NonNullWire.nn e
    | .linkError e => NonNullWire.nn e
    | .custom e => NonNullWire.nn e
instance : GoodWire ErrorCondition where
  good fmt := (Good.decF fmt).bind fun _ => Good.pure _

instance : LawfulWire DistributionMode where
  rt x h := match x, h with
    | .move, _ => symbol_rt (ofS := DistributionMode.ofSymbol) (s := sym "move") rfl (fun _ => rfl)
        (ascii_utf8 (by decide) (by decide)) (if_pos rfl)
    | .copy, _ => symbol_rt (ofS := DistributionMode.ofSymbol) (s := sym "copy") rfl (fun _ => rfl)
        (ascii_utf8 (by decide) (by decide)) (by decide)
    | .custom s, ⟨h, h1, h2⟩ => symbol_rt (ofS := DistributionMode.ofSymbol) (s := s) rfl (fun _ => rfl) h
        (by rw [DistributionMode.ofSymbol, if_neg h1, if_neg h2])
instance : SizeWire DistributionMode where
  size_eq x := match x with
    | .move => rfl
    | .copy => rfl
    | .custom s => SizeWire.size_eq s
instance : NonNullWire DistributionMode where
  nn x := match x with
    | .move => NonNullWire.nn (sym "move")
    | .copy => NonNullWire.nn (sym "copy")
    | .custom s => NonNullWire.nn s
instance : GoodWire DistributionMode where
  good fmt := (Good.decF fmt).bind fun _ => Good.pure _

theorem messageId_rt {β : Type} [Wire β] [WF β] [LawfulWire β] {f : β → MessageId} {v : β} (h : wf v)
    (he : enc (f v) = enc v)
    (hd : ∀ c tl, enc v = c :: tl → (decF c : Dec MessageId) = (decF c >>= fun b => pure (f b))) : RTF (f v) := by
  obtain ⟨c, tl, h1, h2⟩ := LawfulWire.rt v h
  refine ⟨c, tl, he.trans h1, fun rest => ?_⟩
  rw [hd c tl h1, Dec.bind_ok (h2 rest)]
  rfl

instance : LawfulWire MessageId where
  rt x h := match x, h with
    | .ulong v, _ => messageId_rt (f := .ulong) (v := v) trivial rfl (fun c tl h => by
        have hc : c = FC.smallulong ∨ c = FC.ulong ∨ c = FC.ulong0 := by
          simp only [enc] at h
          split at h
          · injection h with h _; exact .inr (.inr h.symm)
          · split at h
            · injection h with h _; exact .inr (.inl h.symm)
            · injection h with h _; exact .inl h.symm
        exact if_pos hc)
    | .uuid v, _ => messageId_rt (f := .uuid) (v := v) trivial rfl (fun c tl h => by
        injection h with h _
        subst h
        rfl)
    | .binary v, h => messageId_rt (f := .binary) (v := v) h rfl (fun c tl h => by
        rcases encVar_head h with rfl | rfl <;> rfl)
    | .string v, h => messageId_rt (f := .string) (v := v) h rfl (fun c tl h => by
        rcases encVar_head h with rfl | rfl <;> rfl)
instance : SizeWire MessageId where
  size_eq x := match x with
    | .ulong e => SizeWire.size_eq e
    | .uuid e => SizeWire.size_eq e
    | .binary e => SizeWire.size_eq e
    | .string e => SizeWire.size_eq e
instance : NonNullWire MessageId where
  nn x := match x with
    | .ulong e => NonNullWire.nn e
    | .uuid e => NonNullWire.nn e
    | .binary e => NonNullWire.nn e
    | .string e => NonNullWire.nn e
instance : GoodWire MessageId where
  good fmt := .ite ((Good.decF fmt).bind fun _ => Good.pure _) <| .ite ((Good.decF fmt).bind fun _ => Good.pure _) <|
    .ite ((Good.decF fmt).bind fun _ => Good.pure _) <| .ite ((Good.decF fmt).bind fun _ => Good.pure _) <| .fail (by simp)

instance : LawfulComposite Error where
  code_small := by decide
  code_pos := by decide
  code_spec := rfl
  name_spec := rfl
  name_ascii := by decide
  bytes _ := rfl
  mand_lt x := by simp [Layout.mandatory, Layout.fieldBytes]
  len_small x := by simp [Composite.fields]
  full x keep h := by
    have h1 := h 1 (by simp [Layout.fieldBytes])
    have h2 := h 2 (by simp [Layout.fieldBytes])
    simp only [Layout.keepFields, h1, h2, if_true]
  sizes x := by
    simp only [Composite.fields, List.forall_mem_cons, List.not_mem_nil, false_imp_iff, implies_true, and_true]
    exact ⟨fld_size x.condition, fld_size x.description, fld_size x.info⟩
  small x h := h.2.2.2
  ft x keep k h hk := by
    obtain ⟨h0, h1, h2, _⟩ := h
    obtain ⟨l0, k0⟩ := hk (0, "condition") (by simp [Layout.mandatory])
    simp only at l0
    exact (ft_req "condition" h0 (by omega) k0).cons <| (ft_opt h1).cons <| (ft_opt h2).cons <| ft_pure
  fe x keep k nm h hk hm := by
    obtain ⟨h0, h1, h2, _⟩ := h
    have k0 : 0 < k → keep 0 = true := hk (0, "condition") (by simp [Layout.mandatory])
    simp only [Layout.mandatory] at hm
    by_cases c0 : k ≤ 0
    · rw [find_yes (by simpa using c0)] at hm
      injection hm with hm; subst hm
      exact fe_req "condition" c0
    exact absurd hm (by simp [c0])
  stable := .bind .req fun _ => .bind .opt fun _ => .bind .opt fun _ => .pure
instance : LawfulWire Error := Composite.lawful
instance : SizeWire Error := Composite.sizeWire
instance : NonNullWire Error := Composite.nonNull
instance : GoodWire Error := Composite.goodWire

instance : LawfulComposite Open where
  code_small := by decide
  code_pos := by decide
  code_spec := rfl
  name_spec := rfl
  name_ascii := by decide
  bytes _ := rfl
  mand_lt x := by simp [Layout.mandatory, Layout.fieldBytes]
  len_small x := by simp [Composite.fields]
  full x keep h := by
    have h1 := h 1 (by simp [Layout.fieldBytes])
    have h2 := h 2 (by simp [Layout.fieldBytes])
    have h3 := h 3 (by simp [Layout.fieldBytes])
    have h4 := h 4 (by simp [Layout.fieldBytes])
    have h5 := h 5 (by simp [Layout.fieldBytes])
    have h6 := h 6 (by simp [Layout.fieldBytes])
    have h7 := h 7 (by simp [Layout.fieldBytes])
    have h8 := h 8 (by simp [Layout.fieldBytes])
    have h9 := h 9 (by simp [Layout.fieldBytes])
    simp only [Layout.keepFields, h1, h2, h3, h4, h5, h6, h7, h8, h9, if_true]
  sizes x := by
    simp only [Composite.fields, List.forall_mem_cons, List.not_mem_nil, false_imp_iff, implies_true, and_true]
    exact ⟨fld_size x.containerId, fld_size x.hostname, fld_size x.maxFrameSize, fld_size x.channelMax, fld_size x.idleTimeOut, fld_size x.outgoingLocales, fld_size x.incomingLocales, fld_size x.offeredCapabilities, fld_size x.desiredCapabilities, fld_size x.properties⟩
  small x h := h.2.2.2.2.2.2.2.2.2.2
  ft x keep k h hk := by
    obtain ⟨h0, h1, h2, h3, h4, h5, h6, h7, h8, h9, _⟩ := h
    obtain ⟨l0, k0⟩ := hk (0, "container_id") (by simp [Layout.mandatory])
    simp only at l0
    exact (ft_req "container_id" h0 (by omega) k0).cons <| (ft_opt h1).cons <| (ft_dflt h2).cons <| (ft_dflt h3).cons <| (ft_opt h4).cons <| (ft_opt h5).cons <| (ft_opt h6).cons <| (ft_opt h7).cons <| (ft_opt h8).cons <| (ft_opt h9).cons <| ft_pure
  fe x keep k nm h hk hm := by
    obtain ⟨h0, h1, h2, h3, h4, h5, h6, h7, h8, h9, _⟩ := h
    have k0 : 0 < k → keep 0 = true := hk (0, "container_id") (by simp [Layout.mandatory])
    simp only [Layout.mandatory] at hm
    by_cases c0 : k ≤ 0
    · rw [find_yes (by simpa using c0)] at hm
      injection hm with hm; subst hm
      exact fe_req "container_id" c0
    exact absurd hm (by simp [c0])
  stable := .bind .req fun _ => .bind .opt fun _ => .bind .dflt fun _ => .bind .dflt fun _ => .bind .opt fun _ => .bind .opt fun _ => .bind .opt fun _ => .bind .opt fun _ => .bind .opt fun _ => .bind .opt fun _ => .pure
instance : LawfulWire Open := Composite.lawful
instance : SizeWire Open := Composite.sizeWire
instance : NonNullWire Open := Composite.nonNull
instance : GoodWire Open := Composite.goodWire

instance : LawfulComposite Begin where
  code_small := by decide
  code_pos := by decide
  code_spec := rfl
  name_spec := rfl
  name_ascii := by decide
  bytes _ := rfl
  mand_lt x := by simp [Layout.mandatory, Layout.fieldBytes]
  len_small x := by simp [Composite.fields]
  full x keep h := by
    have h0 := h 0 (by simp [Layout.fieldBytes])
    have h4 := h 4 (by simp [Layout.fieldBytes])
    have h5 := h 5 (by simp [Layout.fieldBytes])
    have h6 := h 6 (by simp [Layout.fieldBytes])
    have h7 := h 7 (by simp [Layout.fieldBytes])
    simp only [Layout.keepFields, h0, h4, h5, h6, h7, if_true]
  sizes x := by
    simp only [Composite.fields, List.forall_mem_cons, List.not_mem_nil, false_imp_iff, implies_true, and_true]
    exact ⟨fld_size x.remoteChannel, fld_size x.nextOutgoingId, fld_size x.incomingWindow, fld_size x.outgoingWindow, fld_size x.handleMax, fld_size x.offeredCapabilities, fld_size x.desiredCapabilities, fld_size x.properties⟩
  small x h := h.2.2.2.2.2.2.2.2
  ft x keep k h hk := by
    obtain ⟨h0, h1, h2, h3, h4, h5, h6, h7, _⟩ := h
    obtain ⟨l1, k1⟩ := hk (1, "next_outgoing_id") (by simp [Layout.mandatory])
    obtain ⟨l2, k2⟩ := hk (2, "incoming_window") (by simp [Layout.mandatory])
    obtain ⟨l3, k3⟩ := hk (3, "outgoing_window") (by simp [Layout.mandatory])
    simp only at l1 l2 l3
    exact (ft_opt h0).cons <| (ft_req "next_outgoing_id" h1 (by omega) k1).cons <| (ft_req "incoming_window" h2 (by omega) k2).cons <| (ft_req "outgoing_window" h3 (by omega) k3).cons <| (ft_dflt h4).cons <| (ft_opt h5).cons <| (ft_opt h6).cons <| (ft_opt h7).cons <| ft_pure
  fe x keep k nm h hk hm := by
    obtain ⟨h0, h1, h2, h3, h4, h5, h6, h7, _⟩ := h
    have k1 : 1 < k → keep 1 = true := hk (1, "next_outgoing_id") (by simp [Layout.mandatory])
    have k2 : 2 < k → keep 2 = true := hk (2, "incoming_window") (by simp [Layout.mandatory])
    have k3 : 3 < k → keep 3 = true := hk (3, "outgoing_window") (by simp [Layout.mandatory])
    simp only [Layout.mandatory] at hm
    by_cases c1 : k ≤ 1
    · rw [find_yes (by simpa using c1)] at hm
      injection hm with hm; subst hm
      exact (ft_opt h0).fcons <| fe_req "next_outgoing_id" c1
    by_cases c2 : k ≤ 2
    · rw [find_no (by simp; omega), find_yes (by simpa using c2)] at hm
      injection hm with hm; subst hm
      have k1 := k1 (by omega)
      exact (ft_opt h0).fcons <| (ft_req "next_outgoing_id" h1 (by omega) k1).fcons <| fe_req "incoming_window" c2
    by_cases c3 : k ≤ 3
    · rw [find_no (by simp; omega), find_no (by simp; omega), find_yes (by simpa using c3)] at hm
      injection hm with hm; subst hm
      have k1 := k1 (by omega)
      have k2 := k2 (by omega)
      exact (ft_opt h0).fcons <| (ft_req "next_outgoing_id" h1 (by omega) k1).fcons <| (ft_req "incoming_window" h2 (by omega) k2).fcons <| fe_req "outgoing_window" c3
    exact absurd hm (by simp [c1, c2, c3])
  stable := .bind .opt fun _ => .bind .req fun _ => .bind .req fun _ => .bind .req fun _ => .bind .dflt fun _ => .bind .opt fun _ => .bind .opt fun _ => .bind .opt fun _ => .pure
instance : LawfulWire Begin := Composite.lawful
instance : SizeWire Begin := Composite.sizeWire
instance : NonNullWire Begin := Composite.nonNull
instance : GoodWire Begin := Composite.goodWire

instance : LawfulComposite Flow where
  code_small := by decide
  code_pos := by decide
  code_spec := rfl
  name_spec := rfl
  name_ascii := by decide
  bytes _ := rfl
  mand_lt x := by simp [Layout.mandatory, Layout.fieldBytes]
  len_small x := by simp [Composite.fields]
  full x keep h := by
    have h0 := h 0 (by simp [Layout.fieldBytes])
    have h4 := h 4 (by simp [Layout.fieldBytes])
    have h5 := h 5 (by simp [Layout.fieldBytes])
    have h6 := h 6 (by simp [Layout.fieldBytes])
    have h7 := h 7 (by simp [Layout.fieldBytes])
    have h8 := h 8 (by simp [Layout.fieldBytes])
    have h9 := h 9 (by simp [Layout.fieldBytes])
    have h10 := h 10 (by simp [Layout.fieldBytes])
    simp only [Layout.keepFields, h0, h4, h5, h6, h7, h8, h9, h10, if_true]
  sizes x := by
    simp only [Composite.fields, List.forall_mem_cons, List.not_mem_nil, false_imp_iff, implies_true, and_true]
    exact ⟨fld_size x.nextIncomingId, fld_size x.incomingWindow, fld_size x.nextOutgoingId, fld_size x.outgoingWindow, fld_size x.handle, fld_size x.deliveryCount, fld_size x.linkCredit, fld_size x.available, fld_size x.drain, fld_size x.echo, fld_size x.properties⟩
  small x h := h.2.2.2.2.2.2.2.2.2.2.2
  ft x keep k h hk := by
    obtain ⟨h0, h1, h2, h3, h4, h5, h6, h7, h8, h9, h10, _⟩ := h
    obtain ⟨l1, k1⟩ := hk (1, "incoming_window") (by simp [Layout.mandatory])
    obtain ⟨l2, k2⟩ := hk (2, "next_outgoing_id") (by simp [Layout.mandatory])
    obtain ⟨l3, k3⟩ := hk (3, "outgoing_window") (by simp [Layout.mandatory])
    simp only at l1 l2 l3
    exact (ft_opt h0).cons <| (ft_req "incoming_window" h1 (by omega) k1).cons <| (ft_req "next_outgoing_id" h2 (by omega) k2).cons <| (ft_req "outgoing_window" h3 (by omega) k3).cons <| (ft_opt h4).cons <| (ft_opt h5).cons <| (ft_opt h6).cons <| (ft_opt h7).cons <| (ft_dflt h8).cons <| (ft_dflt h9).cons <| (ft_opt h10).cons <| ft_pure
  fe x keep k nm h hk hm := by
    obtain ⟨h0, h1, h2, h3, h4, h5, h6, h7, h8, h9, h10, _⟩ := h
    have k1 : 1 < k → keep 1 = true := hk (1, "incoming_window") (by simp [Layout.mandatory])
    have k2 : 2 < k → keep 2 = true := hk (2, "next_outgoing_id") (by simp [Layout.mandatory])
    have k3 : 3 < k → keep 3 = true := hk (3, "outgoing_window") (by simp [Layout.mandatory])
    simp only [Layout.mandatory] at hm
    by_cases c1 : k ≤ 1
    · rw [find_yes (by simpa using c1)] at hm
      injection hm with hm; subst hm
      exact (ft_opt h0).fcons <| fe_req "incoming_window" c1
    by_cases c2 : k ≤ 2
    · rw [find_no (by simp; omega), find_yes (by simpa using c2)] at hm
      injection hm with hm; subst hm
      have k1 := k1 (by omega)
      exact (ft_opt h0).fcons <| (ft_req "incoming_window" h1 (by omega) k1).fcons <| fe_req "next_outgoing_id" c2
    by_cases c3 : k ≤ 3
    · rw [find_no (by simp; omega), find_no (by simp; omega), find_yes (by simpa using c3)] at hm
      injection hm with hm; subst hm
      have k1 := k1 (by omega)
      have k2 := k2 (by omega)
      exact (ft_opt h0).fcons <| (ft_req "incoming_window" h1 (by omega) k1).fcons <| (ft_req "next_outgoing_id" h2 (by omega) k2).fcons <| fe_req "outgoing_window" c3
    exact absurd hm (by simp [c1, c2, c3])
  stable := .bind .opt fun _ => .bind .req fun _ => .bind .req fun _ => .bind .req fun _ => .bind .opt fun _ => .bind .opt fun _ => .bind .opt fun _ => .bind .opt fun _ => .bind .dflt fun _ => .bind .dflt fun _ => .bind .opt fun _ => .pure
instance : LawfulWire Flow := Composite.lawful
instance : SizeWire Flow := Composite.sizeWire
instance : NonNullWire Flow := Composite.nonNull
instance : GoodWire Flow := Composite.goodWire

instance : LawfulComposite Detach where
  code_small := by decide
  code_pos := by decide
  code_spec := rfl
  name_spec := rfl
  name_ascii := by decide
  bytes _ := rfl
  mand_lt x := by simp [Layout.mandatory, Layout.fieldBytes]
  len_small x := by simp [Composite.fields]
  full x keep h := by
    have h1 := h 1 (by simp [Layout.fieldBytes])
    have h2 := h 2 (by simp [Layout.fieldBytes])
    simp only [Layout.keepFields, h1, h2, if_true]
  sizes x := by
    simp only [Composite.fields, List.forall_mem_cons, List.not_mem_nil, false_imp_iff, implies_true, and_true]
    exact ⟨fld_size x.handle, fld_size x.closed, fld_size x.error⟩
  small x h := h.2.2.2
  ft x keep k h hk := by
    obtain ⟨h0, h1, h2, _⟩ := h
    obtain ⟨l0, k0⟩ := hk (0, "handle") (by simp [Layout.mandatory])
    simp only at l0
    exact (ft_req "handle" h0 (by omega) k0).cons <| (ft_dflt h1).cons <| (ft_opt h2).cons <| ft_pure
  fe x keep k nm h hk hm := by
    obtain ⟨h0, h1, h2, _⟩ := h
    have k0 : 0 < k → keep 0 = true := hk (0, "handle") (by simp [Layout.mandatory])
    simp only [Layout.mandatory] at hm
    by_cases c0 : k ≤ 0
    · rw [find_yes (by simpa using c0)] at hm
      injection hm with hm; subst hm
      exact fe_req "handle" c0
    exact absurd hm (by simp [c0])
  stable := .bind .req fun _ => .bind .dflt fun _ => .bind .opt fun _ => .pure
instance : LawfulWire Detach := Composite.lawful
instance : SizeWire Detach := Composite.sizeWire
instance : NonNullWire Detach := Composite.nonNull
instance : GoodWire Detach := Composite.goodWire

instance : LawfulComposite End where
  code_small := by decide
  code_pos := by decide
  code_spec := rfl
  name_spec := rfl
  name_ascii := by decide
  bytes _ := rfl
  mand_lt x := by simp [Layout.mandatory, Layout.fieldBytes]
  len_small x := by simp [Composite.fields]
  full x keep h := by
    have h0 := h 0 (by simp [Layout.fieldBytes])
    simp only [Layout.keepFields, h0, if_true]
  sizes x := by
    simp only [Composite.fields, List.forall_mem_cons, List.not_mem_nil, false_imp_iff, implies_true, and_true]
    exact fld_size x.error
  small x h := h.2
  ft x keep k h hk := by
    obtain ⟨h0, _⟩ := h
    exact (ft_opt h0).cons <| ft_pure
  fe x keep k nm h hk hm := nomatch hm
  stable := .bind .opt fun _ => .pure
instance : LawfulWire End := Composite.lawful
instance : SizeWire End := Composite.sizeWire
instance : NonNullWire End := Composite.nonNull
instance : GoodWire End := Composite.goodWire

instance : LawfulComposite Close where
  code_small := by decide
  code_pos := by decide
  code_spec := rfl
  name_spec := rfl
  name_ascii := by decide
  bytes _ := rfl
  mand_lt x := by simp [Layout.mandatory, Layout.fieldBytes]
  len_small x := by simp [Composite.fields]
  full x keep h := by
    have h0 := h 0 (by simp [Layout.fieldBytes])
    simp only [Layout.keepFields, h0, if_true]
  sizes x := by
    simp only [Composite.fields, List.forall_mem_cons, List.not_mem_nil, false_imp_iff, implies_true, and_true]
    exact fld_size x.error
  small x h := h.2
  ft x keep k h hk := by
    obtain ⟨h0, _⟩ := h
    exact (ft_opt h0).cons <| ft_pure
  fe x keep k nm h hk hm := nomatch hm
  stable := .bind .opt fun _ => .pure
instance : LawfulWire Close := Composite.lawful
instance : SizeWire Close := Composite.sizeWire
instance : NonNullWire Close := Composite.nonNull
instance : GoodWire Close := Composite.goodWire

instance : LawfulComposite SaslMechanisms where
  code_small := by decide
  code_pos := by decide
  code_spec := rfl
  name_spec := rfl
  name_ascii := by decide
  bytes _ := rfl
  mand_lt x := by simp [Layout.mandatory, Layout.fieldBytes]
  len_small x := by simp [Composite.fields]
  full x _ _ := rfl
  sizes x := by
    simp only [Composite.fields, List.forall_mem_cons, List.not_mem_nil, false_imp_iff, implies_true, and_true]
    exact fld_size x.saslServerMechanisms
  small x h := h.2
  ft x keep k h hk := by
    obtain ⟨h0, _⟩ := h
    obtain ⟨l0, k0⟩ := hk (0, "sasl_server_mechanisms") (by simp [Layout.mandatory])
    simp only at l0
    exact (ft_req "sasl_server_mechanisms" h0 (by omega) k0).cons <| ft_pure
  fe x keep k nm h hk hm := by
    obtain ⟨h0, _⟩ := h
    have k0 : 0 < k → keep 0 = true := hk (0, "sasl_server_mechanisms") (by simp [Layout.mandatory])
    simp only [Layout.mandatory] at hm
    by_cases c0 : k ≤ 0
    · rw [find_yes (by simpa using c0)] at hm
      injection hm with hm; subst hm
      exact fe_req "sasl_server_mechanisms" c0
    exact absurd hm (by simp [c0])
  stable := .bind .req fun _ => .pure
instance : LawfulWire SaslMechanisms := Composite.lawful
instance : SizeWire SaslMechanisms := Composite.sizeWire
instance : NonNullWire SaslMechanisms := Composite.nonNull
instance : GoodWire SaslMechanisms := Composite.goodWire

instance : LawfulComposite SaslInit where
  code_small := by decide
  code_pos := by decide
  code_spec := rfl
  name_spec := rfl
  name_ascii := by decide
  bytes _ := rfl
  mand_lt x := by simp [Layout.mandatory, Layout.fieldBytes]
  len_small x := by simp [Composite.fields]
  full x keep h := by
    have h1 := h 1 (by simp [Layout.fieldBytes])
    have h2 := h 2 (by simp [Layout.fieldBytes])
    simp only [Layout.keepFields, h1, h2, if_true]
  sizes x := by
    simp only [Composite.fields, List.forall_mem_cons, List.not_mem_nil, false_imp_iff, implies_true, and_true]
    exact ⟨fld_size x.mechanism, fld_size x.initialResponse, fld_size x.hostname⟩
  small x h := h.2.2.2
  ft x keep k h hk := by
    obtain ⟨h0, h1, h2, _⟩ := h
    obtain ⟨l0, k0⟩ := hk (0, "mechanism") (by simp [Layout.mandatory])
    simp only at l0
    exact (ft_req "mechanism" h0 (by omega) k0).cons <| (ft_opt h1).cons <| (ft_opt h2).cons <| ft_pure
  fe x keep k nm h hk hm := by
    obtain ⟨h0, h1, h2, _⟩ := h
    have k0 : 0 < k → keep 0 = true := hk (0, "mechanism") (by simp [Layout.mandatory])
    simp only [Layout.mandatory] at hm
    by_cases c0 : k ≤ 0
    · rw [find_yes (by simpa using c0)] at hm
      injection hm with hm; subst hm
      exact fe_req "mechanism" c0
    exact absurd hm (by simp [c0])
  stable := .bind .req fun _ => .bind .opt fun _ => .bind .opt fun _ => .pure
instance : LawfulWire SaslInit := Composite.lawful
instance : SizeWire SaslInit := Composite.sizeWire
instance : NonNullWire SaslInit := Composite.nonNull
instance : GoodWire SaslInit := Composite.goodWire

instance : LawfulComposite SaslChallenge where
  code_small := by decide
  code_pos := by decide
  code_spec := rfl
  name_spec := rfl
  name_ascii := by decide
  bytes _ := rfl
  mand_lt x := by simp [Layout.mandatory, Layout.fieldBytes]
  len_small x := by simp [Composite.fields]
  full x _ _ := rfl
  sizes x := by
    simp only [Composite.fields, List.forall_mem_cons, List.not_mem_nil, false_imp_iff, implies_true, and_true]
    exact fld_size x.challenge
  small x h := h.2
  ft x keep k h hk := by
    obtain ⟨h0, _⟩ := h
    obtain ⟨l0, k0⟩ := hk (0, "challenge") (by simp [Layout.mandatory])
    simp only at l0
    exact (ft_req "challenge" h0 (by omega) k0).cons <| ft_pure
  fe x keep k nm h hk hm := by
    obtain ⟨h0, _⟩ := h
    have k0 : 0 < k → keep 0 = true := hk (0, "challenge") (by simp [Layout.mandatory])
    simp only [Layout.mandatory] at hm
    by_cases c0 : k ≤ 0
    · rw [find_yes (by simpa using c0)] at hm
      injection hm with hm; subst hm
      exact fe_req "challenge" c0
    exact absurd hm (by simp [c0])
  stable := .bind .req fun _ => .pure
instance : LawfulWire SaslChallenge := Composite.lawful
instance : SizeWire SaslChallenge := Composite.sizeWire
instance : NonNullWire SaslChallenge := Composite.nonNull
instance : GoodWire SaslChallenge := Composite.goodWire

instance : LawfulComposite SaslResponse where
  code_small := by decide
  code_pos := by decide
  code_spec := rfl
  name_spec := rfl
  name_ascii := by decide
  bytes _ := rfl
  mand_lt x := by simp [Layout.mandatory, Layout.fieldBytes]
  len_small x := by simp [Composite.fields]
  full x _ _ := rfl
  sizes x := by
    simp only [Composite.fields, List.forall_mem_cons, List.not_mem_nil, false_imp_iff, implies_true, and_true]
    exact fld_size x.response
  small x h := h.2
  ft x keep k h hk := by
    obtain ⟨h0, _⟩ := h
    obtain ⟨l0, k0⟩ := hk (0, "response") (by simp [Layout.mandatory])
    simp only at l0
    exact (ft_req "response" h0 (by omega) k0).cons <| ft_pure
  fe x keep k nm h hk hm := by
    obtain ⟨h0, _⟩ := h
    have k0 : 0 < k → keep 0 = true := hk (0, "response") (by simp [Layout.mandatory])
    simp only [Layout.mandatory] at hm
    by_cases c0 : k ≤ 0
    · rw [find_yes (by simpa using c0)] at hm
      injection hm with hm; subst hm
      exact fe_req "response" c0
    exact absurd hm (by simp [c0])
  stable := .bind .req fun _ => .pure
instance : LawfulWire SaslResponse := Composite.lawful
instance : SizeWire SaslResponse := Composite.sizeWire
instance : NonNullWire SaslResponse := Composite.nonNull
instance : GoodWire SaslResponse := Composite.goodWire

instance : LawfulComposite SaslOutcome where
  code_small := by decide
  code_pos := by decide
  code_spec := rfl
  name_spec := rfl
  name_ascii := by decide
  bytes _ := rfl
  mand_lt x := by simp [Layout.mandatory, Layout.fieldBytes]
  len_small x := by simp [Composite.fields]
  full x keep h := by
    have h1 := h 1 (by simp [Layout.fieldBytes])
    simp only [Layout.keepFields, h1, if_true]
  sizes x := by
    simp only [Composite.fields, List.forall_mem_cons, List.not_mem_nil, false_imp_iff, implies_true, and_true]
    exact ⟨fld_size x.code, fld_size x.additionalData⟩
  small x h := h.2.2
  ft x keep k h hk := by
    obtain ⟨h0, h1, _⟩ := h
    obtain ⟨l0, k0⟩ := hk (0, "code") (by simp [Layout.mandatory])
    simp only at l0
    exact (ft_req "code" h0 (by omega) k0).cons <| (ft_opt h1).cons <| ft_pure
  fe x keep k nm h hk hm := by
    obtain ⟨h0, h1, _⟩ := h
    have k0 : 0 < k → keep 0 = true := hk (0, "code") (by simp [Layout.mandatory])
    simp only [Layout.mandatory] at hm
    by_cases c0 : k ≤ 0
    · rw [find_yes (by simpa using c0)] at hm
      injection hm with hm; subst hm
      exact fe_req "code" c0
    exact absurd hm (by simp [c0])
  stable := .bind .req fun _ => .bind .opt fun _ => .pure
instance : LawfulWire SaslOutcome := Composite.lawful
instance : SizeWire SaslOutcome := Composite.sizeWire
instance : NonNullWire SaslOutcome := Composite.nonNull
instance : GoodWire SaslOutcome := Composite.goodWire

instance : LawfulComposite Target where
  code_small := by decide
  code_pos := by decide
  code_spec := rfl
  name_spec := rfl
  name_ascii := by decide
  bytes _ := rfl
  mand_lt x := by simp [Layout.mandatory, Layout.fieldBytes]
  len_small x := by simp [Composite.fields]
  full x keep h := by
    have h0 := h 0 (by simp [Layout.fieldBytes])
    have h1 := h 1 (by simp [Layout.fieldBytes])
    have h2 := h 2 (by simp [Layout.fieldBytes])
    have h3 := h 3 (by simp [Layout.fieldBytes])
    have h4 := h 4 (by simp [Layout.fieldBytes])
    have h5 := h 5 (by simp [Layout.fieldBytes])
    have h6 := h 6 (by simp [Layout.fieldBytes])
    simp only [Layout.keepFields, h0, h1, h2, h3, h4, h5, h6, if_true]
  sizes x := by
    simp only [Composite.fields, List.forall_mem_cons, List.not_mem_nil, false_imp_iff, implies_true, and_true]
    exact ⟨fld_size x.address, fld_size x.durable, fld_size x.expiryPolicy, fld_size x.timeout, fld_size x.dynamic, fld_size x.dynamicNodeProperties, fld_size x.capabilities⟩
  small x h := h.2.2.2.2.2.2.2
  ft x keep k h hk := by
    obtain ⟨h0, h1, h2, h3, h4, h5, h6, _⟩ := h
    exact (ft_opt h0).cons <| (ft_dflt h1).cons <| (ft_dflt h2).cons <| (ft_dflt h3).cons <| (ft_dflt h4).cons <| (ft_opt h5).cons <| (ft_opt h6).cons <| ft_pure
  fe x keep k nm h hk hm := nomatch hm
  stable := .bind .opt fun _ => .bind .dflt fun _ => .bind .dflt fun _ => .bind .dflt fun _ => .bind .dflt fun _ => .bind .opt fun _ => .bind .opt fun _ => .pure
instance : LawfulWire Target := Composite.lawful
instance : SizeWire Target := Composite.sizeWire
instance : NonNullWire Target := Composite.nonNull
instance : GoodWire Target := Composite.goodWire

instance : LawfulComposite Header where
  code_small := by decide
  code_pos := by decide
  code_spec := rfl
  name_spec := rfl
  name_ascii := by decide
  bytes _ := rfl
  mand_lt x := by simp [Layout.mandatory, Layout.fieldBytes]
  len_small x := by simp [Composite.fields]
  full x keep h := by
    have h0 := h 0 (by simp [Layout.fieldBytes])
    have h1 := h 1 (by simp [Layout.fieldBytes])
    have h2 := h 2 (by simp [Layout.fieldBytes])
    have h3 := h 3 (by simp [Layout.fieldBytes])
    have h4 := h 4 (by simp [Layout.fieldBytes])
    simp only [Layout.keepFields, h0, h1, h2, h3, h4, if_true]
  sizes x := by
    simp only [Composite.fields, List.forall_mem_cons, List.not_mem_nil, false_imp_iff, implies_true, and_true]
    exact ⟨fld_size x.durable, fld_size x.priority, fld_size x.ttl, fld_size x.firstAcquirer, fld_size x.deliveryCount⟩
  small x h := h.2.2.2.2.2
  ft x keep k h hk := by
    obtain ⟨h0, h1, h2, h3, h4, _⟩ := h
    exact (ft_dflt h0).cons <| (ft_dflt h1).cons <| (ft_opt h2).cons <| (ft_dflt h3).cons <| (ft_dflt h4).cons <| ft_pure
  fe x keep k nm h hk hm := nomatch hm
  stable := .bind .dflt fun _ => .bind .dflt fun _ => .bind .opt fun _ => .bind .dflt fun _ => .bind .dflt fun _ => .pure
instance : LawfulWire Header := Composite.lawful
instance : SizeWire Header := Composite.sizeWire
instance : NonNullWire Header := Composite.nonNull
instance : GoodWire Header := Composite.goodWire

instance : LawfulComposite Properties where
  code_small := by decide
  code_pos := by decide
  code_spec := rfl
  name_spec := rfl
  name_ascii := by decide
  bytes _ := rfl
  mand_lt x := by simp [Layout.mandatory, Layout.fieldBytes]
  len_small x := by simp [Composite.fields]
  full x keep h := by
    have h0 := h 0 (by simp [Layout.fieldBytes])
    have h1 := h 1 (by simp [Layout.fieldBytes])
    have h2 := h 2 (by simp [Layout.fieldBytes])
    have h3 := h 3 (by simp [Layout.fieldBytes])
    have h4 := h 4 (by simp [Layout.fieldBytes])
    have h5 := h 5 (by simp [Layout.fieldBytes])
    have h6 := h 6 (by simp [Layout.fieldBytes])
    have h7 := h 7 (by simp [Layout.fieldBytes])
    have h8 := h 8 (by simp [Layout.fieldBytes])
    have h9 := h 9 (by simp [Layout.fieldBytes])
    have h10 := h 10 (by simp [Layout.fieldBytes])
    have h11 := h 11 (by simp [Layout.fieldBytes])
    have h12 := h 12 (by simp [Layout.fieldBytes])
    simp only [Layout.keepFields, h0, h1, h2, h3, h4, h5, h6, h7, h8, h9, h10, h11, h12, if_true]
  sizes x := by
    simp only [Composite.fields, List.forall_mem_cons, List.not_mem_nil, false_imp_iff, implies_true, and_true]
    exact ⟨fld_size x.messageId, fld_size x.userId, fld_size x.to, fld_size x.subject, fld_size x.replyTo, fld_size x.correlationId, fld_size x.contentType, fld_size x.contentEncoding, fld_size x.absoluteExpiryTime, fld_size x.creationTime, fld_size x.groupId, fld_size x.groupSequence, fld_size x.replyToGroupId⟩
  small x h := h.2.2.2.2.2.2.2.2.2.2.2.2.2
  ft x keep k h hk := by
    obtain ⟨h0, h1, h2, h3, h4, h5, h6, h7, h8, h9, h10, h11, h12, _⟩ := h
    exact (ft_opt h0).cons <| (ft_opt h1).cons <| (ft_opt h2).cons <| (ft_opt h3).cons <| (ft_opt h4).cons <| (ft_opt h5).cons <| (ft_opt h6).cons <| (ft_opt h7).cons <| (ft_opt h8).cons <| (ft_opt h9).cons <| (ft_opt h10).cons <| (ft_opt h11).cons <| (ft_opt h12).cons <| ft_pure
  fe x keep k nm h hk hm := nomatch hm
  stable := .bind .opt fun _ => .bind .opt fun _ => .bind .opt fun _ => .bind .opt fun _ => .bind .opt fun _ => .bind .opt fun _ => .bind .opt fun _ => .bind .opt fun _ => .bind .opt fun _ => .bind .opt fun _ => .bind .opt fun _ => .bind .opt fun _ => .bind .opt fun _ => .pure
instance : LawfulWire Properties := Composite.lawful
instance : SizeWire Properties := Composite.sizeWire
instance : NonNullWire Properties := Composite.nonNull
instance : GoodWire Properties := Composite.goodWire

instance : LawfulComposite Received where
  code_small := by decide
  code_pos := by decide
  code_spec := rfl
  name_spec := rfl
  name_ascii := by decide
  bytes _ := rfl
  mand_lt x := by simp [Layout.mandatory, Layout.fieldBytes]
  len_small x := by simp [Composite.fields]
  full x _ _ := rfl
  sizes x := by
    simp only [Composite.fields, List.forall_mem_cons, List.not_mem_nil, false_imp_iff, implies_true, and_true]
    exact ⟨fld_size x.sectionNumber, fld_size x.sectionOffset⟩
  small x h := h.2.2
  ft x keep k h hk := by
    obtain ⟨h0, h1, _⟩ := h
    obtain ⟨l0, k0⟩ := hk (0, "section_number") (by simp [Layout.mandatory])
    obtain ⟨l1, k1⟩ := hk (1, "section_offset") (by simp [Layout.mandatory])
    simp only at l0 l1
    exact (ft_req "section_number" h0 (by omega) k0).cons <| (ft_req "section_offset" h1 (by omega) k1).cons <| ft_pure
  fe x keep k nm h hk hm := by
    obtain ⟨h0, h1, _⟩ := h
    have k0 : 0 < k → keep 0 = true := hk (0, "section_number") (by simp [Layout.mandatory])
    have k1 : 1 < k → keep 1 = true := hk (1, "section_offset") (by simp [Layout.mandatory])
    simp only [Layout.mandatory] at hm
    by_cases c0 : k ≤ 0
    · rw [find_yes (by simpa using c0)] at hm
      injection hm with hm; subst hm
      exact fe_req "section_number" c0
    by_cases c1 : k ≤ 1
    · rw [find_no (by simp; omega), find_yes (by simpa using c1)] at hm
      injection hm with hm; subst hm
      have k0 := k0 (by omega)
      exact (ft_req "section_number" h0 (by omega) k0).fcons <| fe_req "section_offset" c1
    exact absurd hm (by simp [c0, c1])
  stable := .bind .req fun _ => .bind .req fun _ => .pure
instance : LawfulWire Received := Composite.lawful
instance : SizeWire Received := Composite.sizeWire
instance : NonNullWire Received := Composite.nonNull
instance : GoodWire Received := Composite.goodWire

instance : LawfulComposite Accepted where
  code_small := by decide
  code_pos := by decide
  code_spec := rfl
  name_spec := rfl
  name_ascii := by decide
  bytes _ := rfl
  mand_lt x := by simp [Layout.mandatory, Layout.fieldBytes]
  len_small x := by simp [Composite.fields]
  full x _ _ := rfl
  sizes x := by simp [Composite.fields]
  small x h := h
  ft x keep k h hk := ft_pure
  fe x keep k nm h hk hm := nomatch hm
  stable := .pure
instance : LawfulWire Accepted := Composite.lawful
instance : SizeWire Accepted := Composite.sizeWire
instance : NonNullWire Accepted := Composite.nonNull
instance : GoodWire Accepted := Composite.goodWire

instance : LawfulComposite Rejected where
  code_small := by decide
  code_pos := by decide
  code_spec := rfl
  name_spec := rfl
  name_ascii := by decide
  bytes _ := rfl
  mand_lt x := by simp [Layout.mandatory, Layout.fieldBytes]
  len_small x := by simp [Composite.fields]
  full x keep h := by
    have h0 := h 0 (by simp [Layout.fieldBytes])
    simp only [Layout.keepFields, h0, if_true]
  sizes x := by
    simp only [Composite.fields, List.forall_mem_cons, List.not_mem_nil, false_imp_iff, implies_true, and_true]
    exact fld_size x.error
  small x h := h.2
  ft x keep k h hk := by
    obtain ⟨h0, _⟩ := h
    exact (ft_opt h0).cons <| ft_pure
  fe x keep k nm h hk hm := nomatch hm
  stable := .bind .opt fun _ => .pure
instance : LawfulWire Rejected := Composite.lawful
instance : SizeWire Rejected := Composite.sizeWire
instance : NonNullWire Rejected := Composite.nonNull
instance : GoodWire Rejected := Composite.goodWire

instance : LawfulComposite Released where
  code_small := by decide
  code_pos := by decide
  code_spec := rfl
  name_spec := rfl
  name_ascii := by decide
  bytes _ := rfl
  mand_lt x := by simp [Layout.mandatory, Layout.fieldBytes]
  len_small x := by simp [Composite.fields]
  full x _ _ := rfl
  sizes x := by simp [Composite.fields]
  small x h := h
  ft x keep k h hk := ft_pure
  fe x keep k nm h hk hm := nomatch hm
  stable := .pure
instance : LawfulWire Released := Composite.lawful
instance : SizeWire Released := Composite.sizeWire
instance : NonNullWire Released := Composite.nonNull
instance : GoodWire Released := Composite.goodWire

instance : LawfulComposite Modified where
  code_small := by decide
  code_pos := by decide
  code_spec := rfl
  name_spec := rfl
  name_ascii := by decide
  bytes _ := rfl
  mand_lt x := by simp [Layout.mandatory, Layout.fieldBytes]
  len_small x := by simp [Composite.fields]
  full x keep h := by
    have h0 := h 0 (by simp [Layout.fieldBytes])
    have h1 := h 1 (by simp [Layout.fieldBytes])
    have h2 := h 2 (by simp [Layout.fieldBytes])
    simp only [Layout.keepFields, h0, h1, h2, if_true]
  sizes x := by
    simp only [Composite.fields, List.forall_mem_cons, List.not_mem_nil, false_imp_iff, implies_true, and_true]
    exact ⟨fld_size x.deliveryFailed, fld_size x.undeliverableHere, fld_size x.messageAnnotations⟩
  small x h := h.2.2.2
  ft x keep k h hk := by
    obtain ⟨h0, h1, h2, _⟩ := h
    exact (ft_opt h0).cons <| (ft_opt h1).cons <| (ft_opt h2).cons <| ft_pure
  fe x keep k nm h hk hm := nomatch hm
  stable := .bind .opt fun _ => .bind .opt fun _ => .bind .opt fun _ => .pure
instance : LawfulWire Modified := Composite.lawful
instance : SizeWire Modified := Composite.sizeWire
instance : NonNullWire Modified := Composite.nonNull
instance : GoodWire Modified := Composite.goodWire

instance : LawfulWire Outcome where
  rt x h := by
    cases x with
    | accepted v =>
      exact sum_rt (f := Outcome.accepted) h rfl (fun d hd => by
        simp only [decF, Outcome.decodeF, if_true]
        rw [Dec.bind_ok hd]
        simp [Composite.isMine, Composite.code])
    | rejected v =>
      exact sum_rt (f := Outcome.rejected) h rfl (fun d hd => by
        simp only [decF, Outcome.decodeF, if_true]
        rw [Dec.bind_ok hd]
        simp [Composite.isMine, Composite.code])
    | released v =>
      exact sum_rt (f := Outcome.released) h rfl (fun d hd => by
        simp only [decF, Outcome.decodeF, if_true]
        rw [Dec.bind_ok hd]
        simp [Composite.isMine, Composite.code])
    | modified v =>
      exact sum_rt (f := Outcome.modified) h rfl (fun d hd => by
        simp only [decF, Outcome.decodeF, if_true]
        rw [Dec.bind_ok hd]
        simp [Composite.isMine, Composite.code])
instance : SizeWire Outcome where
  size_eq x := by
    cases x with
    | accepted v => exact SizeWire.size_eq v
    | rejected v => exact SizeWire.size_eq v
    | released v => exact SizeWire.size_eq v
    | modified v => exact SizeWire.size_eq v
instance : NonNullWire Outcome where
  nn x := by
    cases x with
    | accepted v => exact NonNullWire.nn v
    | rejected v => exact NonNullWire.nn v
    | released v => exact NonNullWire.nn v
    | modified v => exact NonNullWire.nn v
instance : GoodWire Outcome where
  good fmt := .ite (.bind .dec fun d => .ite (Composite.decInner_good.bind fun _ => .pure _) (.ite (Composite.decInner_good.bind fun _ => .pure _) (.ite (Composite.decInner_good.bind fun _ => .pure _) (.ite (Composite.decInner_good.bind fun _ => .pure _) (.fail (by simp)))))) (.fail (by simp))

instance : LawfulWire DeliveryState where
  rt x h := by
    cases x with
    | received v =>
      exact sum_rt (f := DeliveryState.received) h rfl (fun d hd => by
        simp only [decF, DeliveryState.decodeF, if_true]
        rw [Dec.bind_ok hd]
        simp [Composite.isMine, Composite.code])
    | accepted v =>
      exact sum_rt (f := DeliveryState.accepted) h rfl (fun d hd => by
        simp only [decF, DeliveryState.decodeF, if_true]
        rw [Dec.bind_ok hd]
        simp [Composite.isMine, Composite.code])
    | rejected v =>
      exact sum_rt (f := DeliveryState.rejected) h rfl (fun d hd => by
        simp only [decF, DeliveryState.decodeF, if_true]
        rw [Dec.bind_ok hd]
        simp [Composite.isMine, Composite.code])
    | released v =>
      exact sum_rt (f := DeliveryState.released) h rfl (fun d hd => by
        simp only [decF, DeliveryState.decodeF, if_true]
        rw [Dec.bind_ok hd]
        simp [Composite.isMine, Composite.code])
    | modified v =>
      exact sum_rt (f := DeliveryState.modified) h rfl (fun d hd => by
        simp only [decF, DeliveryState.decodeF, if_true]
        rw [Dec.bind_ok hd]
        simp [Composite.isMine, Composite.code])
instance : SizeWire DeliveryState where
  size_eq x := by
    cases x with
    | received v => exact SizeWire.size_eq v
    | accepted v => exact SizeWire.size_eq v
    | rejected v => exact SizeWire.size_eq v
    | released v => exact SizeWire.size_eq v
    | modified v => exact SizeWire.size_eq v
instance : NonNullWire DeliveryState where
  nn x := by
    cases x with
    | received v => exact NonNullWire.nn v
    | accepted v => exact NonNullWire.nn v
    | rejected v => exact NonNullWire.nn v
    | released v => exact NonNullWire.nn v
    | modified v => exact NonNullWire.nn v
instance : GoodWire DeliveryState where
  good fmt := .ite (.bind .dec fun d => .ite (Composite.decInner_good.bind fun _ => .pure _) (.ite (Composite.decInner_good.bind fun _ => .pure _) (.ite (Composite.decInner_good.bind fun _ => .pure _) (.ite (Composite.decInner_good.bind fun _ => .pure _) (.ite (Composite.decInner_good.bind fun _ => .pure _) (.fail (by simp))))))) (.fail (by simp))

instance : LawfulComposite Source where
  code_small := by decide
  code_pos := by decide
  code_spec := rfl
  name_spec := rfl
  name_ascii := by decide
  bytes _ := rfl
  mand_lt x := by simp [Layout.mandatory, Layout.fieldBytes]
  len_small x := by simp [Composite.fields]
  full x keep h := by
    have h0 := h 0 (by simp [Layout.fieldBytes])
    have h1 := h 1 (by simp [Layout.fieldBytes])
    have h2 := h 2 (by simp [Layout.fieldBytes])
    have h3 := h 3 (by simp [Layout.fieldBytes])
    have h4 := h 4 (by simp [Layout.fieldBytes])
    have h5 := h 5 (by simp [Layout.fieldBytes])
    have h6 := h 6 (by simp [Layout.fieldBytes])
    have h7 := h 7 (by simp [Layout.fieldBytes])
    have h8 := h 8 (by simp [Layout.fieldBytes])
    have h9 := h 9 (by simp [Layout.fieldBytes])
    have h10 := h 10 (by simp [Layout.fieldBytes])
    simp only [Layout.keepFields, h0, h1, h2, h3, h4, h5, h6, h7, h8, h9, h10, if_true]
  sizes x := by
    simp only [Composite.fields, List.forall_mem_cons, List.not_mem_nil, false_imp_iff, implies_true, and_true]
    exact ⟨fld_size x.address, fld_size x.durable, fld_size x.expiryPolicy, fld_size x.timeout, fld_size x.dynamic, fld_size x.dynamicNodeProperties, fld_size x.distributionMode, fld_size x.filter, fld_size x.defaultOutcome, fld_size x.outcomes, fld_size x.capabilities⟩
  small x h := h.2.2.2.2.2.2.2.2.2.2.2
  ft x keep k h hk := by
    obtain ⟨h0, h1, h2, h3, h4, h5, h6, h7, h8, h9, h10, _⟩ := h
    exact (ft_opt h0).cons <| (ft_dflt h1).cons <| (ft_dflt h2).cons <| (ft_dflt h3).cons <| (ft_dflt h4).cons <| (ft_opt h5).cons <| (ft_opt h6).cons <| (ft_opt h7).cons <| (ft_opt h8).cons <| (ft_opt h9).cons <| (ft_opt h10).cons <| ft_pure
  fe x keep k nm h hk hm := nomatch hm
  stable := .bind .opt fun _ => .bind .dflt fun _ => .bind .dflt fun _ => .bind .dflt fun _ => .bind .dflt fun _ => .bind .opt fun _ => .bind .opt fun _ => .bind .opt fun _ => .bind .opt fun _ => .bind .opt fun _ => .bind .opt fun _ => .pure
instance : LawfulWire Source := Composite.lawful
instance : SizeWire Source := Composite.sizeWire
instance : NonNullWire Source := Composite.nonNull
instance : GoodWire Source := Composite.goodWire

instance : LawfulComposite Attach where
  code_small := by decide
  code_pos := by decide
  code_spec := rfl
  name_spec := rfl
  name_ascii := by decide
  bytes _ := rfl
  mand_lt x := by simp [Layout.mandatory, Layout.fieldBytes]
  len_small x := by simp [Composite.fields]
  full x keep h := by
    have h3 := h 3 (by simp [Layout.fieldBytes])
    have h4 := h 4 (by simp [Layout.fieldBytes])
    have h5 := h 5 (by simp [Layout.fieldBytes])
    have h6 := h 6 (by simp [Layout.fieldBytes])
    have h7 := h 7 (by simp [Layout.fieldBytes])
    have h8 := h 8 (by simp [Layout.fieldBytes])
    have h9 := h 9 (by simp [Layout.fieldBytes])
    have h10 := h 10 (by simp [Layout.fieldBytes])
    have h11 := h 11 (by simp [Layout.fieldBytes])
    have h12 := h 12 (by simp [Layout.fieldBytes])
    have h13 := h 13 (by simp [Layout.fieldBytes])
    simp only [Layout.keepFields, h3, h4, h5, h6, h7, h8, h9, h10, h11, h12, h13, if_true]
  sizes x := by
    simp only [Composite.fields, List.forall_mem_cons, List.not_mem_nil, false_imp_iff, implies_true, and_true]
    exact ⟨fld_size x.name, fld_size x.handle, fld_size x.role, fld_size x.sndSettleMode, fld_size x.rcvSettleMode, fld_size x.source, fld_size x.target, fld_size x.unsettled, fld_size x.incompleteUnsettled, fld_size x.initialDeliveryCount, fld_size x.maxMessageSize, fld_size x.offeredCapabilities, fld_size x.desiredCapabilities, fld_size x.properties⟩
  small x h := h.2.2.2.2.2.2.2.2.2.2.2.2.2.2
  ft x keep k h hk := by
    obtain ⟨h0, h1, h2, h3, h4, h5, h6, h7, h8, h9, h10, h11, h12, h13, _⟩ := h
    obtain ⟨l0, k0⟩ := hk (0, "name") (by simp [Layout.mandatory])
    obtain ⟨l1, k1⟩ := hk (1, "handle") (by simp [Layout.mandatory])
    obtain ⟨l2, k2⟩ := hk (2, "role") (by simp [Layout.mandatory])
    simp only at l0 l1 l2
    exact (ft_req "name" h0 (by omega) k0).cons <| (ft_req "handle" h1 (by omega) k1).cons <| (ft_req "role" h2 (by omega) k2).cons <| (ft_dflt h3).cons <| (ft_dflt h4).cons <| (ft_opt h5).cons <| (ft_opt h6).cons <| (ft_opt h7).cons <| (ft_dflt h8).cons <| (ft_opt h9).cons <| (ft_opt h10).cons <| (ft_opt h11).cons <| (ft_opt h12).cons <| (ft_opt h13).cons <| ft_pure
  fe x keep k nm h hk hm := by
    obtain ⟨h0, h1, h2, h3, h4, h5, h6, h7, h8, h9, h10, h11, h12, h13, _⟩ := h
    have k0 : 0 < k → keep 0 = true := hk (0, "name") (by simp [Layout.mandatory])
    have k1 : 1 < k → keep 1 = true := hk (1, "handle") (by simp [Layout.mandatory])
    have k2 : 2 < k → keep 2 = true := hk (2, "role") (by simp [Layout.mandatory])
    simp only [Layout.mandatory] at hm
    by_cases c0 : k ≤ 0
    · rw [find_yes (by simpa using c0)] at hm
      injection hm with hm; subst hm
      exact fe_req "name" c0
    by_cases c1 : k ≤ 1
    · rw [find_no (by simp; omega), find_yes (by simpa using c1)] at hm
      injection hm with hm; subst hm
      have k0 := k0 (by omega)
      exact (ft_req "name" h0 (by omega) k0).fcons <| fe_req "handle" c1
    by_cases c2 : k ≤ 2
    · rw [find_no (by simp; omega), find_no (by simp; omega), find_yes (by simpa using c2)] at hm
      injection hm with hm; subst hm
      have k0 := k0 (by omega)
      have k1 := k1 (by omega)
      exact (ft_req "name" h0 (by omega) k0).fcons <| (ft_req "handle" h1 (by omega) k1).fcons <| fe_req "role" c2
    exact absurd hm (by simp [c0, c1, c2])
  stable := .bind .req fun _ => .bind .req fun _ => .bind .req fun _ => .bind .dflt fun _ => .bind .dflt fun _ => .bind .opt fun _ => .bind .opt fun _ => .bind .opt fun _ => .bind .dflt fun _ => .bind .opt fun _ => .bind .opt fun _ => .bind .opt fun _ => .bind .opt fun _ => .bind .opt fun _ => .pure
instance : LawfulWire Attach := Composite.lawful
instance : SizeWire Attach := Composite.sizeWire
instance : NonNullWire Attach := Composite.nonNull
instance : GoodWire Attach := Composite.goodWire

instance : LawfulComposite Disposition where
  code_small := by decide
  code_pos := by decide
  code_spec := rfl
  name_spec := rfl
  name_ascii := by decide
  bytes _ := rfl
  mand_lt x := by simp [Layout.mandatory, Layout.fieldBytes]
  len_small x := by simp [Composite.fields]
  full x keep h := by
    have h2 := h 2 (by simp [Layout.fieldBytes])
    have h3 := h 3 (by simp [Layout.fieldBytes])
    have h4 := h 4 (by simp [Layout.fieldBytes])
    have h5 := h 5 (by simp [Layout.fieldBytes])
    simp only [Layout.keepFields, h2, h3, h4, h5, if_true]
  sizes x := by
    simp only [Composite.fields, List.forall_mem_cons, List.not_mem_nil, false_imp_iff, implies_true, and_true]
    exact ⟨fld_size x.role, fld_size x.first, fld_size x.last, fld_size x.settled, fld_size x.state, fld_size x.batchable⟩
  small x h := h.2.2.2.2.2.2
  ft x keep k h hk := by
    obtain ⟨h0, h1, h2, h3, h4, h5, _⟩ := h
    obtain ⟨l0, k0⟩ := hk (0, "role") (by simp [Layout.mandatory])
    obtain ⟨l1, k1⟩ := hk (1, "first") (by simp [Layout.mandatory])
    simp only at l0 l1
    exact (ft_req "role" h0 (by omega) k0).cons <| (ft_req "first" h1 (by omega) k1).cons <| (ft_opt h2).cons <| (ft_dflt h3).cons <| (ft_opt h4).cons <| (ft_dflt h5).cons <| ft_pure
  fe x keep k nm h hk hm := by
    obtain ⟨h0, h1, h2, h3, h4, h5, _⟩ := h
    have k0 : 0 < k → keep 0 = true := hk (0, "role") (by simp [Layout.mandatory])
    have k1 : 1 < k → keep 1 = true := hk (1, "first") (by simp [Layout.mandatory])
    simp only [Layout.mandatory] at hm
    by_cases c0 : k ≤ 0
    · rw [find_yes (by simpa using c0)] at hm
      injection hm with hm; subst hm
      exact fe_req "role" c0
    by_cases c1 : k ≤ 1
    · rw [find_no (by simp; omega), find_yes (by simpa using c1)] at hm
      injection hm with hm; subst hm
      have k0 := k0 (by omega)
      exact (ft_req "role" h0 (by omega) k0).fcons <| fe_req "first" c1
    exact absurd hm (by simp [c0, c1])
  stable := .bind .req fun _ => .bind .req fun _ => .bind .opt fun _ => .bind .dflt fun _ => .bind .opt fun _ => .bind .dflt fun _ => .pure
instance : LawfulWire Disposition := Composite.lawful
instance : SizeWire Disposition := Composite.sizeWire
instance : NonNullWire Disposition := Composite.nonNull
instance : GoodWire Disposition := Composite.goodWire

instance : LawfulComposite TransferHead where
  code_small := by decide
  code_pos := by decide
  code_spec := rfl
  name_spec := rfl
  name_ascii := by decide
  bytes _ := rfl
  mand_lt x := by simp [Layout.mandatory, Layout.fieldBytes]
  len_small x := by simp [Composite.fields]
  full x keep h := by
    have h1 := h 1 (by simp [Layout.fieldBytes])
    have h2 := h 2 (by simp [Layout.fieldBytes])
    have h3 := h 3 (by simp [Layout.fieldBytes])
    have h4 := h 4 (by simp [Layout.fieldBytes])
    have h5 := h 5 (by simp [Layout.fieldBytes])
    have h6 := h 6 (by simp [Layout.fieldBytes])
    have h7 := h 7 (by simp [Layout.fieldBytes])
    have h8 := h 8 (by simp [Layout.fieldBytes])
    have h9 := h 9 (by simp [Layout.fieldBytes])
    have h10 := h 10 (by simp [Layout.fieldBytes])
    simp only [Layout.keepFields, h1, h2, h3, h4, h5, h6, h7, h8, h9, h10, if_true]
  sizes x := by
    simp only [Composite.fields, List.forall_mem_cons, List.not_mem_nil, false_imp_iff, implies_true, and_true]
    exact ⟨fld_size x.handle, fld_size x.deliveryId, fld_size x.deliveryTag, fld_size x.messageFormat, fld_size x.settled, fld_size x.more, fld_size x.rcvSettleMode, fld_size x.state, fld_size x.resume, fld_size x.aborted, fld_size x.batchable⟩
  small x h := h.2.2.2.2.2.2.2.2.2.2.2
  ft x keep k h hk := by
    obtain ⟨h0, h1, h2, h3, h4, h5, h6, h7, h8, h9, h10, _⟩ := h
    obtain ⟨l0, k0⟩ := hk (0, "handle") (by simp [Layout.mandatory])
    simp only at l0
    exact (ft_req "handle" h0 (by omega) k0).cons <| (ft_opt h1).cons <| (ft_opt h2).cons <| (ft_opt h3).cons <| (ft_opt h4).cons <| (ft_dflt h5).cons <| (ft_opt h6).cons <| (ft_opt h7).cons <| (ft_dflt h8).cons <| (ft_dflt h9).cons <| (ft_dflt h10).cons <| ft_pure
  fe x keep k nm h hk hm := by
    obtain ⟨h0, h1, h2, h3, h4, h5, h6, h7, h8, h9, h10, _⟩ := h
    have k0 : 0 < k → keep 0 = true := hk (0, "handle") (by simp [Layout.mandatory])
    simp only [Layout.mandatory] at hm
    by_cases c0 : k ≤ 0
    · rw [find_yes (by simpa using c0)] at hm
      injection hm with hm; subst hm
      exact fe_req "handle" c0
    exact absurd hm (by simp [c0])
  stable := .bind .req fun _ => .bind .opt fun _ => .bind .opt fun _ => .bind .opt fun _ => .bind .opt fun _ => .bind .dflt fun _ => .bind .opt fun _ => .bind .opt fun _ => .bind .dflt fun _ => .bind .dflt fun _ => .bind .dflt fun _ => .pure
instance : LawfulWire TransferHead := Composite.lawful
instance : SizeWire TransferHead := Composite.sizeWire
instance : NonNullWire TransferHead := Composite.nonNull
instance : GoodWire TransferHead := Composite.goodWire

instance : LawfulWire SaslFrameBody where
  rt x h := by
    cases x with
    | saslMechanisms v =>
      exact sum_rt (f := SaslFrameBody.saslMechanisms) h rfl (fun d hd => by
        simp only [decF, SaslFrameBody.decodeF, if_true]
        rw [Dec.bind_ok hd]
        simp [Composite.isMine, Composite.code])
    | saslInit v =>
      exact sum_rt (f := SaslFrameBody.saslInit) h rfl (fun d hd => by
        simp only [decF, SaslFrameBody.decodeF, if_true]
        rw [Dec.bind_ok hd]
        simp [Composite.isMine, Composite.code])
    | saslChallenge v =>
      exact sum_rt (f := SaslFrameBody.saslChallenge) h rfl (fun d hd => by
        simp only [decF, SaslFrameBody.decodeF, if_true]
        rw [Dec.bind_ok hd]
        simp [Composite.isMine, Composite.code])
    | saslResponse v =>
      exact sum_rt (f := SaslFrameBody.saslResponse) h rfl (fun d hd => by
        simp only [decF, SaslFrameBody.decodeF, if_true]
        rw [Dec.bind_ok hd]
        simp [Composite.isMine, Composite.code])
    | saslOutcome v =>
      exact sum_rt (f := SaslFrameBody.saslOutcome) h rfl (fun d hd => by
        simp only [decF, SaslFrameBody.decodeF, if_true]
        rw [Dec.bind_ok hd]
        simp [Composite.isMine, Composite.code])
instance : SizeWire SaslFrameBody where
  size_eq x := by
    cases x with
    | saslMechanisms v => exact SizeWire.size_eq v
    | saslInit v => exact SizeWire.size_eq v
    | saslChallenge v => exact SizeWire.size_eq v
    | saslResponse v => exact SizeWire.size_eq v
    | saslOutcome v => exact SizeWire.size_eq v
instance : NonNullWire SaslFrameBody where
  nn x := by
    cases x with
    | saslMechanisms v => exact NonNullWire.nn v
    | saslInit v => exact NonNullWire.nn v
    | saslChallenge v => exact NonNullWire.nn v
    | saslResponse v => exact NonNullWire.nn v
    | saslOutcome v => exact NonNullWire.nn v
instance : GoodWire SaslFrameBody where
  good fmt := .ite (.bind .dec fun d => .ite (Composite.decInner_good.bind fun _ => .pure _) (.ite (Composite.decInner_good.bind fun _ => .pure _) (.ite (Composite.decInner_good.bind fun _ => .pure _) (.ite (Composite.decInner_good.bind fun _ => .pure _) (.ite (Composite.decInner_good.bind fun _ => .pure _) (.fail (by simp))))))) (.fail (by simp))

end Amqp
