
theorem ErrorCondition.of_conn (x : ConnectionError) : ErrorCondition.ofSymbol x.toBase = .connectionError x := by
  rw [ErrorCondition.ofSymbol, AmqpError.of_err (by intro e; cases x <;> cases e <;> decide), ConnectionError.of_to]
theorem ErrorCondition.of_sess (x : SessionError) : ErrorCondition.ofSymbol x.toBase = .sessionError x := by
  rw [ErrorCondition.ofSymbol, AmqpError.of_err (by intro e; cases x <;> cases e <;> decide),
    ConnectionError.of_err (by intro e; cases x <;> cases e <;> decide), SessionError.of_to]
theorem ErrorCondition.of_link (x : LinkError) : ErrorCondition.ofSymbol x.toBase = .linkError x := by
  rw [ErrorCondition.ofSymbol, AmqpError.of_err (by intro e; cases x <;> cases e <;> decide),
    ConnectionError.of_err (by intro e; cases x <;> cases e <;> decide),
    SessionError.of_err (by intro e; cases x <;> cases e <;> decide), LinkError.of_to]

theorem symbol_rt {α : Type} [Wire α] {ofS : Symbol → α} {a : α} {s : Symbol} (he : enc a = enc s)
    (hd : ∀ fmt, (decF fmt : Dec α) = (decF fmt >>= fun b => pure (ofS b))) (hw : wf s) (hof : ofS s = a) : RTF a := by
  obtain ⟨c, tl, h1, h2⟩ := LawfulWire.rt s hw
  refine ⟨c, tl, he.trans h1, fun rest => ?_⟩
  rw [hd, Dec.bind_ok (h2 rest), hof]
  rfl

instance : LawfulWire ErrorCondition where
  rt x h := match x, h with
    | .amqpError e, _ => symbol_rt (ofS := ErrorCondition.ofSymbol) (s := e.toBase) rfl (fun _ => rfl) e.wf_base
        (by rw [ErrorCondition.ofSymbol, e.of_to])
    | .connectionError e, _ => symbol_rt (ofS := ErrorCondition.ofSymbol) (s := e.toBase) rfl (fun _ => rfl) e.wf_base
        (ErrorCondition.of_conn e)
    | .sessionError e, _ => symbol_rt (ofS := ErrorCondition.ofSymbol) (s := e.toBase) rfl (fun _ => rfl) e.wf_base
        (ErrorCondition.of_sess e)
    | .linkError e, _ => symbol_rt (ofS := ErrorCondition.ofSymbol) (s := e.toBase) rfl (fun _ => rfl) e.wf_base
        (ErrorCondition.of_link e)
    | .custom s, ⟨h, h1, h2, h3, h4⟩ => symbol_rt (ofS := ErrorCondition.ofSymbol) (s := s) rfl (fun _ => rfl) h
        (by rw [ErrorCondition.ofSymbol, AmqpError.of_err h1, ConnectionError.of_err h2, SessionError.of_err h3,
          LinkError.of_err h4])
instance : SizeWire ErrorCondition where
  size_eq x := match x with
    | .amqpError e => SizeWire.size_eq e
    | .connectionError e => SizeWire.size_eq e
    | .sessionError e => SizeWire.size_eq e
    | .linkError e => SizeWire.size_eq e
    | .custom e => SizeWire.size_eq e
instance : NonNullWire ErrorCondition where
  nn x := match x with
    | .amqpError e => NonNullWire.nn e
    | .connectionError e => NonNullWire.nn e
    | .sessionError e => NonNullWire.nn e
    | .linkError e => NonNullWire.nn e
    | .custom e => NonNullWire.nn e
instance : GoodWire ErrorCondition where
  good fmt := (Good.decF fmt).bind fun _ => Good.pure _

instance : LawfulWire DistributionMode where
  rt x h := match x, h with
    | .move, _ => symbol_rt (ofS := DistributionMode.ofSymbol) (s := sym "move") rfl (fun _ => rfl)
        (ascii_utf8 (by decide) (by decide)) (if_pos rfl)
    | .copy, _ => symbol_rt (ofS := DistributionMode.ofSymbol) (s := sym "copy") rfl (fun _ => rfl)
        (ascii_utf8 (by decide) (by decide)) (by decide)
    | .custom s, ⟨h, h1, h2⟩ => symbol_rt (ofS := DistributionMode.ofSymbol) (s := s) rfl (fun _ => rfl) h
        (by rw [DistributionMode.ofSymbol, if_neg h1, if_neg h2])
instance : SizeWire DistributionMode where
  size_eq x := match x with
    | .move => rfl
    | .copy => rfl
    | .custom s => SizeWire.size_eq s
instance : NonNullWire DistributionMode where
  nn x := match x with
    | .move => NonNullWire.nn (sym "move")
    | .copy => NonNullWire.nn (sym "copy")
    | .custom s => NonNullWire.nn s
instance : GoodWire DistributionMode where
  good fmt := (Good.decF fmt).bind fun _ => Good.pure _

theorem messageId_rt {β : Type} [Wire β] [WF β] [LawfulWire β] {f : β → MessageId} {v : β} (h : wf v)
    (he : enc (f v) = enc v)
    (hd : ∀ c tl, enc v = c :: tl → (decF c : Dec MessageId) = (decF c >>= fun b => pure (f b))) : RTF (f v) := by
  obtain ⟨c, tl, h1, h2⟩ := LawfulWire.rt v h
  refine ⟨c, tl, he.trans h1, fun rest => ?_⟩
  rw [hd c tl h1, Dec.bind_ok (h2 rest)]
  rfl

instance : LawfulWire MessageId where
  rt x h := match x, h with
    | .ulong v, _ => messageId_rt (f := .ulong) (v := v) trivial rfl (fun c tl h => by
        have hc : c = FC.smallulong ∨ c = FC.ulong ∨ c = FC.ulong0 := by
          simp only [enc] at h
          split at h
          · injection h with h _; exact .inr (.inr h.symm)
          · split at h
            · injection h with h _; exact .inr (.inl h.symm)
            · injection h with h _; exact .inl h.symm
        exact if_pos hc)
    | .uuid v, _ => messageId_rt (f := .uuid) (v := v) trivial rfl (fun c tl h => by
        injection h with h _
        subst h
        rfl)
    | .binary v, h => messageId_rt (f := .binary) (v := v) h rfl (fun c tl h => by
        rcases encVar_head h with rfl | rfl <;> rfl)
    | .string v, h => messageId_rt (f := .string) (v := v) h rfl (fun c tl h => by
        rcases encVar_head h with rfl | rfl <;> rfl)
instance : SizeWire MessageId where
  size_eq x := match x with
    | .ulong e => SizeWire.size_eq e
    | .uuid e => SizeWire.size_eq e
    | .binary e => SizeWire.size_eq e
    | .string e => SizeWire.size_eq e
instance : NonNullWire MessageId where
  nn x := match x with
    | .ulong e => NonNullWire.nn e
    | .uuid e => NonNullWire.nn e
    | .binary e => NonNullWire.nn e
    | .string e => NonNullWire.nn e
instance : GoodWire MessageId where
  good fmt := .ite ((Good.decF fmt).bind fun _ => Good.pure _) <| .ite ((Good.decF fmt).bind fun _ => Good.pure _) <|
    .ite ((Good.decF fmt).bind fun _ => Good.pure _) <| .ite ((Good.decF fmt).bind fun _ => Good.pure _) <| .fail (by simp)
