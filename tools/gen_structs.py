#!/usr/bin/env python3
"""Write Verif/Model/Enums.lean, Verif/Model/Structs.lean, Verif/Spec/Structs.lean and Verif/Lemmas/Structs.lean.

The tables below transcribe codec/src/protocol/definitions.rs."""
import os
ROOT = os.path.join(os.path.dirname(os.path.abspath(__file__)), '..', 'lean', 'Verif')
HEAD = "-- Written by tools/gen_structs.py from the tables there.\n"

# name, base type, lines, [(ctor, value)]
ENUMS = [
 ('Role', 'Bool', '393-436', [('sender', 'false'), ('receiver', 'true')]),
 ('SenderSettleMode', 'UInt8', '439-492', [('unsettled', '0'), ('settled', '1'), ('mixed', '2')]),
 ('ReceiverSettleMode', 'UInt8', '495-538', [('first', '0'), ('second', '1')]),
 ('AmqpError', 'Symbol', '541-618', [
   ('internalError', 'amqp:internal-error', 19), ('notFound', 'amqp:not-found', 14),
   ('unauthorizedAccess', 'amqp:unauthorized-access', 24), ('decodeError', 'amqp:decode-error', 17),
   ('resourceLimitExceeded', 'amqp:resource-limit-exceeded', 28), ('notAllowed', 'amqp:not-allowed', 16),
   ('invalidField', 'amqp:invalid-field', 18), ('notImplemented', 'amqp:not-implemented', 20),
   ('resourceLocked', 'amqp:resource-locked', 20), ('preconditionFailed', 'amqp:precondition-failed', 24),
   ('resourceDeleted', 'amqp:resource-deleted', 21), ('illegalState', 'amqp:illegal-state', 18),
   ('frameSizeTooSmall', 'amqp:frame-size-too-small', 25)]),
 ('ConnectionError', 'Symbol', '621-658', [
   ('connectionForced', 'amqp:connection:forced', 22), ('framingError', 'amqp:connection:framing-error', 29),
   ('redirect', 'amqp:connection:redirect', 24)]),
 ('SessionError', 'Symbol', '661-704', [
   ('windowViolation', 'amqp:session:window-violation', 29), ('errantLink', 'amqp:session:errant-link', 24),
   ('handleInUse', 'amqp:session:handle-in-use', 26), ('unattachedHandle', 'amqp:session:unattached-handle', 30)]),
 ('LinkError', 'Symbol', '707-754', [
   ('detachForced', 'amqp:link:detach-forced', 23), ('transferLimitExceeded', 'amqp:link:transfer-limit-exceeded', 33),
   ('messageSizeExceeded', 'amqp:link:message-size-exceeded', 31), ('redirect', 'amqp:link:redirect', 18),
   ('stolen', 'amqp:link:stolen', 16)]),
 ('SaslCode', 'UInt8', '757-830', [('ok', '0'), ('auth', '1'), ('sys', '2'), ('sysPerm', '3'), ('sysTemp', '4')]),
 ('TerminusDurability', 'UInt32', '833-886', [('none', '0'), ('configuration', '1'), ('unsettledState', '2')]),
 ('TerminusExpiryPolicy', 'Symbol', '889-935', [
   ('linkDetach', 'link-detach', 11), ('sessionEnd', 'session-end', 11),
   ('connectionClose', 'connection-close', 16), ('never', 'never', 5)]),
]

SYMS = 'Multiple Symbol'
FIELDS = 'HMap Symbol Variant'
# name, code, symbolic name, lines, [(field, rust name, kind R/O/D, type, default)]
STRUCTS = [
 ('Error', 29, 'amqp:error:list', '1021-1175', [('condition','condition','R','ErrorCondition'), ('description','description','O','Str'), ('info','info','O','VecSymbolMap')]),
 ('Open', 16, 'amqp:open:list', '1177-1515', [('containerId','container_id','R','Str'), ('hostname','hostname','O','Str'),
   ('maxFrameSize','max_frame_size','D','UInt32','4294967295'), ('channelMax','channel_max','D','UInt16','65535'),
   ('idleTimeOut','idle_time_out','O','UInt32'), ('outgoingLocales','outgoing_locales','O',SYMS), ('incomingLocales','incoming_locales','O',SYMS),
   ('offeredCapabilities','offered_capabilities','O',SYMS), ('desiredCapabilities','desired_capabilities','O',SYMS), ('properties','properties','O',FIELDS)]),
 ('Begin', 17, 'amqp:begin:list', '1517-1806', [('remoteChannel','remote_channel','O','UInt16'), ('nextOutgoingId','next_outgoing_id','R','UInt32'),
   ('incomingWindow','incoming_window','R','UInt32'), ('outgoingWindow','outgoing_window','R','UInt32'), ('handleMax','handle_max','D','UInt32','4294967295'),
   ('offeredCapabilities','offered_capabilities','O',SYMS), ('desiredCapabilities','desired_capabilities','O',SYMS), ('properties','properties','O',FIELDS)]),
 ('Flow', 19, 'amqp:flow:list', '2251-2616', [('nextIncomingId','next_incoming_id','O','UInt32'), ('incomingWindow','incoming_window','R','UInt32'),
   ('nextOutgoingId','next_outgoing_id','R','UInt32'), ('outgoingWindow','outgoing_window','R','UInt32'), ('handle','handle','O','UInt32'),
   ('deliveryCount','delivery_count','O','UInt32'), ('linkCredit','link_credit','O','UInt32'), ('available','available','O','UInt32'),
   ('drain','drain','D','Bool','false'), ('echo','echo','D','Bool','false'), ('properties','properties','O',FIELDS)]),
 ('Detach', 22, 'amqp:detach:list', '3232-3387', [('handle','handle','R','UInt32'), ('closed','closed','D','Bool','false'), ('error','error','O','Error')]),
 ('End', 23, 'amqp:end:list', '3389-3468', [('error','error','O','Error')]),
 ('Close', 24, 'amqp:close:list', '3470-3549', [('error','error','O','Error')]),
 ('SaslMechanisms', 64, 'amqp:sasl-mechanisms:list', '3551-3635', [('saslServerMechanisms','sasl_server_mechanisms','R',SYMS)]),
 ('SaslInit', 65, 'amqp:sasl-init:list', '3637-3761', [('mechanism','mechanism','R','Symbol'), ('initialResponse','initial_response','O','Bytes'), ('hostname','hostname','O','Str')]),
 ('SaslChallenge', 66, 'amqp:sasl-challenge:list', '3763-3843', [('challenge','challenge','R','Bytes')]),
 ('SaslResponse', 67, 'amqp:sasl-response:list', '3845-3925', [('response','response','R','Bytes')]),
 ('SaslOutcome', 68, 'amqp:sasl-outcome:list', '3927-4027', [('code','code','R','SaslCode'), ('additionalData','additional_data','O','Bytes')]),
 ('Target', 41, 'amqp:target:list', '4318-4525', [('address','address','O','Str'), ('durable','durable','D','TerminusDurability','.none'),
   ('expiryPolicy','expiry_policy','D','TerminusExpiryPolicy','.sessionEnd'), ('timeout','timeout','D','UInt32','0'), ('dynamic','dynamic','D','Bool','false'),
   ('dynamicNodeProperties','dynamic_node_properties','O',FIELDS), ('capabilities','capabilities','O',SYMS)]),
 ('Header', 112, 'amqp:header:list', '4527-4694', [('durable','durable','D','Bool','false'), ('priority','priority','D','UInt8','4'), ('ttl','ttl','O','UInt32'),
   ('firstAcquirer','first_acquirer','D','Bool','false'), ('deliveryCount','delivery_count','D','UInt32','0')]),
 ('Properties', 115, 'amqp:properties:list', '4696-5019', [('messageId','message_id','O','MessageId'), ('userId','user_id','O','Bytes'), ('to','to','O','Str'),
   ('subject','subject','O','Str'), ('replyTo','reply_to','O','Str'), ('correlationId','correlation_id','O','MessageId'), ('contentType','content_type','O','Symbol'),
   ('contentEncoding','content_encoding','O','Symbol'), ('absoluteExpiryTime','absolute_expiry_time','O','Timestamp'), ('creationTime','creation_time','O','Timestamp'),
   ('groupId','group_id','O','Str'), ('groupSequence','group_sequence','O','UInt32'), ('replyToGroupId','reply_to_group_id','O','Str')]),
 ('Received', 35, 'amqp:received:list', '5021-5122', [('sectionNumber','section_number','R','UInt32'), ('sectionOffset','section_offset','R','UInt64')]),
 ('Accepted', 36, 'amqp:accepted:list', '5124-5184', []),
 ('Rejected', 37, 'amqp:rejected:list', '5186-5265', [('error','error','O','Error')]),
 ('Released', 38, 'amqp:released:list', '5267-5327', []),
 ('Modified', 39, 'amqp:modified:list', '5329-5500', [('deliveryFailed','delivery_failed','O','Bool'), ('undeliverableHere','undeliverable_here','O','Bool'),
   ('messageAnnotations','message_annotations','O','VecSymbolMap')]),
 ('@SUM', 'Outcome', '172-220', ['Accepted','Rejected','Released','Modified']),
 ('@SUM', 'DeliveryState', '114-170', ['Received','Accepted','Rejected','Released','Modified']),
 ('Source', 40, 'amqp:source:list', '4029-4316', [('address','address','O','Str'), ('durable','durable','D','TerminusDurability','.none'),
   ('expiryPolicy','expiry_policy','D','TerminusExpiryPolicy','.sessionEnd'), ('timeout','timeout','D','UInt32','0'), ('dynamic','dynamic','D','Bool','false'),
   ('dynamicNodeProperties','dynamic_node_properties','O',FIELDS), ('distributionMode','distribution_mode','O','DistributionMode'),
   ('filter','filter','O','HMap Symbol (Option Str)'), ('defaultOutcome','default_outcome','O','Outcome'), ('outcomes','outcomes','O',SYMS), ('capabilities','capabilities','O',SYMS)]),
 ('Attach', 18, 'amqp:attach:list', '1808-2249', [('name','name','R','Str'), ('handle','handle','R','UInt32'), ('role','role','R','Role'),
   ('sndSettleMode','snd_settle_mode','D','SenderSettleMode','.mixed'), ('rcvSettleMode','rcv_settle_mode','D','ReceiverSettleMode','.first'),
   ('source','source','O','Source'), ('target','target','O','Target'), ('unsettled','unsettled','O','HMap Variant Variant'),
   ('incompleteUnsettled','incomplete_unsettled','D','Bool','false'), ('initialDeliveryCount','initial_delivery_count','O','UInt32'),
   ('maxMessageSize','max_message_size','O','UInt64'), ('offeredCapabilities','offered_capabilities','O',SYMS), ('desiredCapabilities','desired_capabilities','O',SYMS),
   ('properties','properties','O',FIELDS)]),
 ('Disposition', 21, 'amqp:disposition:list', '2998-3230', [('role','role','R','Role'), ('first','first','R','UInt32'), ('last','last','O','UInt32'),
   ('settled','settled','D','Bool','false'), ('state','state','O','DeliveryState'), ('batchable','batchable','D','Bool','false')]),
 ('TransferHead', 20, 'amqp:transfer:list', '2618-2996', [('handle','handle','R','UInt32'), ('deliveryId','delivery_id','O','UInt32'), ('deliveryTag','delivery_tag','O','Bytes'),
   ('messageFormat','message_format','O','UInt32'), ('settled','settled','O','Bool'), ('more','more','D','Bool','false'), ('rcvSettleMode','rcv_settle_mode','O','ReceiverSettleMode'),
   ('state','state','O','DeliveryState'), ('resume','resume','D','Bool','false'), ('aborted','aborted','D','Bool','false'), ('batchable','batchable','D','Bool','false')]),
 ('@SUM', 'SaslFrameBody', '312-376', ['SaslMechanisms','SaslInit','SaslChallenge','SaslResponse','SaslOutcome']),
]

def lc(n): return n[0].lower() + n[1:]
def par(t): return f'({t})' if ' ' in t else t

# ------------------------------------------------------------------ enums
o = HEAD + '''import Verif.Model.Composite
/-!
# Restricted types with named choices

`codec/src/protocol/definitions.rs:393-935` and the hand-written choices of `codec/src/protocol/mod.rs:46-196`.
-/

namespace Amqp
open Dec
'''
for n, base, lines, cs in ENUMS:
    o += f'\n/-- `{n}` (definitions.rs:{lines}). -/\ninductive {n} where\n'
    for c in cs: o += f'  | {c[0]}\n'
    o += 'deriving DecidableEq, Repr\n\n'
    o += f'/-- The wire value of each choice (definitions.rs:{lines}, `encode`). -/\ndef {n}.toBase : {n} → {base}\n'
    for c in cs: o += f'  | .{c[0]} => ' + (f'sym "{c[1]}"' if base == 'Symbol' else c[1]) + '\n'
    o += f'\n/-- `{n}::try_from` (definitions.rs:{lines}). -/\ndef {n}.ofBase (v : {base}) : Except Err {n} :=\n'
    for i, c in enumerate(cs):
        val = f'sym "{c[1]}"' if base == 'Symbol' else c[1]
        o += ('  if ' if i == 0 else '  else if ') + f'v = {val} then .ok .{c[0]}\n'
    o += f'  else .error (.unknownEnumOption "{n}")\n'
    o += f'\ninstance : Wire {n} where\n  enc x := enc x.toBase\n'
    if base == 'Symbol':
        o += '  size x := match x with\n'
        for c in cs: o += f'    | .{c[0]} => {c[2]} + 2\n'
    else: o += '  size x := size x.toBase\n'
    o += f'  decF fmt := do liftE ({n}.ofBase (← decF fmt))\n'
o += '''
/-- `ErrorCondition` (protocol/mod.rs:104-111). -/
inductive ErrorCondition where
  | amqpError (e : AmqpError)
  | connectionError (e : ConnectionError)
  | sessionError (e : SessionError)
  | linkError (e : LinkError)
  | custom (s : Symbol)
deriving DecidableEq, Repr

/-- protocol/mod.rs:119-137: the first table that knows the symbol wins, else it is custom. -/
def ErrorCondition.ofSymbol (s : Symbol) : ErrorCondition :=
  match AmqpError.ofBase s with
  | .ok r => .amqpError r
  | .error _ => match ConnectionError.ofBase s with
    | .ok r => .connectionError r
    | .error _ => match SessionError.ofBase s with
      | .ok r => .sessionError r
      | .error _ => match LinkError.ofBase s with
        | .ok r => .linkError r
        | .error _ => .custom s

/-- protocol/mod.rs:119-159. -/
instance : Wire ErrorCondition where
  enc x := match x with
    | .amqpError v => enc v
    | .connectionError v => enc v
    | .sessionError v => enc v
    | .linkError v => enc v
    | .custom v => enc v
  size x := match x with
    | .amqpError v => size v
    | .connectionError v => size v
    | .sessionError v => size v
    | .linkError v => size v
    | .custom v => size v
  decF fmt := do return ErrorCondition.ofSymbol (← decF fmt)

/-- `DistributionMode` (protocol/mod.rs:161-166). -/
inductive DistributionMode where
  | move
  | copy
  | custom (s : Symbol)
deriving DecidableEq, Repr

/-- protocol/mod.rs:168-178. -/
def DistributionMode.ofSymbol (s : Symbol) : DistributionMode :=
  if s = sym "move" then .move else if s = sym "copy" then .copy else .custom s

/-- protocol/mod.rs:168-196. -/
instance : Wire DistributionMode where
  enc x := match x with
    | .move => enc (sym "move")
    | .copy => enc (sym "copy")
    | .custom v => enc v
  size x := match x with
    | .move => 6
    | .copy => 6
    | .custom v => size v
  decF fmt := do return DistributionMode.ofSymbol (← decF fmt)

/-- `MessageId` (protocol/mod.rs:46-52). -/
inductive MessageId where
  | ulong (v : UInt64)
  | uuid (v : Uuid)
  | binary (v : Bytes)
  | string (v : Str)
deriving DecidableEq

/-- protocol/mod.rs:66-102. -/
instance : Wire MessageId where
  enc x := match x with
    | .ulong v => enc v
    | .uuid v => enc v
    | .binary v => enc v
    | .string v => enc v
  size x := match x with
    | .ulong v => size v
    | .uuid v => size v
    | .binary v => size v
    | .string v => size v
  decF fmt :=
    if fmt = FC.smallulong ∨ fmt = FC.ulong ∨ fmt = FC.ulong0 then do return .ulong (← decF fmt)
    else if fmt = FC.uuid then do return .uuid (← decF fmt)
    else if fmt = FC.binary8 ∨ fmt = FC.binary32 then do return .binary (← decF fmt)
    else if fmt = FC.string8 ∨ fmt = FC.string32 then do return .string (← decF fmt)
    else fail (.invalidFormatCode fmt)

end Amqp
'''
open(f'{ROOT}/Model/Enums.lean', 'w').write(o)

# ------------------------------------------------------------------ structs: model
o = HEAD + '''import Verif.Model.Enums
/-!
# Composite types: performatives, delivery states, terminus types, message sections, SASL frames

Instances of the template in `Composite.lean`, one per generated struct of `codec/src/protocol/definitions.rs`.
`TransferHead` is `Transfer` without its body (see `Frame.lean`).
-/

namespace Amqp
open Dec
'''
for st in STRUCTS:
    if st[0] == '@SUM':
        _, n, lines, alts = st
        o += f'\n/-- `{n}` (definitions.rs:{lines}). -/\ninductive {n} where\n'
        for a in alts: o += f'  | {lc(a)} (v : {a})\n'
        o += f'\n/-- definitions.rs:{lines}: the descriptor, by code or by name, selects the alternative. -/\n'
        o += f'def {n}.decodeF (fmt : UInt8) : Dec {n} :=\n  if fmt = FC.described then do\n    let d ← (dec : Dec Descriptor)\n'
        for i, a in enumerate(alts):
            o += f'    {"if" if i == 0 else "else if"} Composite.isMine {a} d then return .{lc(a)} (← Composite.decInner)\n'
        o += '    else fail (.invalidDescriptor d)\n  else fail (.invalidFormatCode fmt)\n'
        o += f'\ninstance : Wire {n} where\n  enc x := match x with\n'
        for a in alts: o += f'    | .{lc(a)} v => enc v\n'
        o += '  size x := match x with\n'
        for a in alts: o += f'    | .{lc(a)} v => size v\n'
        o += f'  decF := {n}.decodeF\n'
        continue
    n, code, symn, lines, fs = st
    o += f'\n/-- `{n}` (definitions.rs:{lines}). -/\nstructure {n} where\n'
    for f in fs:
        t = f'Option {par(f[3])}' if f[2] == 'O' else f[3]
        o += f'  {f[0]} : {t}\n'
    o += f'\n/-- definitions.rs:{lines}. -/\ninstance : Composite {n} where\n  code := {code}\n  name := sym "{symn}"\n'
    o += f'  fields x := [' + ', '.join(f'fld x.{f[0]}' for f in fs) + ']\n' if fs else '  fields _ := []\n'
    o += '  decFields := do\n'
    for f in fs:
        k = f'req "{f[1]}"' if f[2] == 'R' else 'opt' if f[2] == 'O' else f'dflt {f[4]}'
        o += f'    let {f[0]} ← {k}\n'
    o += '    return { ' + ', '.join(f[0] for f in fs) + ' }\n' if fs else '    return {}\n'
    o += f'\ninstance : Wire {n} := Composite.wire {n}\n'
o += '\nend Amqp\n'
open(f'{ROOT}/Model/Structs.lean', 'w').write(o)

# ------------------------------------------------------------------ structs: spec
o = HEAD + '''import Verif.Spec.Compound
import Verif.Spec.Composite
import Verif.Model.Structs
/-!
Well-formedness of enumerations and composite types, and what a composite type decodes to when only its first `k`
fields are on the wire.
-/

namespace Amqp
'''
for n, *_ in ENUMS: o += f'\ninstance : WF {n} := ⟨fun _ => True⟩'
o += '''

/-- A custom condition must not be one of the well-known ones (those are their own values). -/
instance : WF ErrorCondition := ⟨fun x => match x with
  | .custom s => wf s ∧ (∀ e : AmqpError, s ≠ e.toBase) ∧ (∀ e : ConnectionError, s ≠ e.toBase) ∧
      (∀ e : SessionError, s ≠ e.toBase) ∧ (∀ e : LinkError, s ≠ e.toBase)
  | _ => True⟩

instance : WF DistributionMode := ⟨fun x => match x with
  | .custom s => wf s ∧ s ≠ sym "move" ∧ s ≠ sym "copy"
  | _ => True⟩

instance : WF MessageId := ⟨fun x => match x with
  | .binary b => wf b
  | .string s => wf s
  | _ => True⟩
'''
for st in STRUCTS:
    if st[0] == '@SUM':
        _, n, lines, alts = st
        o += f'\ninstance : WF {n} := ⟨fun x => match x with\n' + '\n'.join(f'  | .{lc(a)} v => wf v' for a in alts) + '⟩\n'
        continue
    n, code, symn, lines, fs = st
    o += f'\ninstance : WF {n} := ⟨fun x =>\n  ' + ''.join(f'wf x.{f[0]} ∧ ' for f in fs) + f'(Composite.content x).length + 4 < U32⟩\n'
    o += f'\ninstance : Layout {n} where\n  descriptorCode := {code}\n  descriptorName := "{symn}"\n'
    o += f'  fieldBytes {"x" if fs else "_"} := [' + ', '.join(f'enc x.{f[0]}' for f in fs) + ']\n'
    o += '  mandatory := [' + ', '.join(f'({i}, "{f[1]}")' for i, f in enumerate(fs) if f[2] == 'R') + ']\n'
    if any(f[2] != 'R' for f in fs):
        o += '  keepFields keep x :=\n    { ' + ',\n      '.join(
          f'{f[0]} := ' + (f'x.{f[0]}' if f[2] == 'R' else f'if keep {i} then x.{f[0]} else ' + ('none' if f[2] == 'O' else f[4]))
          for i, f in enumerate(fs)) + ' }\n'
    else: o += '  keepFields _ x := x\n'
o += '\nend Amqp\n'
open(f'{ROOT}/Spec/Structs.lean', 'w').write(o)

# ------------------------------------------------------------------ lemmas
o = HEAD + '''import Verif.Lemmas.Composite
import Verif.Spec.Structs
/-! Laws of the enumerations and composite types. -/

namespace Amqp
open Dec

theorem nf_ite {c : Prop} [Decidable c] {a : α} {r : Except Err α} (h : r ≠ .error .fuel) :
    (if c then .ok a else r) ≠ .error .fuel := by
  split
  · nofun
  · exact h

theorem utf8_of_ascii : ∀ b : Bytes, (b.all fun c => c ≤ 0x7F) = true → validUtf8 b = true
  | [], _ => by rw [validUtf8]
  | b :: l, h => by
    rw [List.all_cons, Bool.and_eq_true, decide_eq_true_eq] at h
    rw [validUtf8.eq_def]
    simp only
    rw [if_pos h.1]
    exact utf8_of_ascii l h.2

theorem ascii_utf8 {s : Symbol} (h : (s.bytes.all fun c => c ≤ 0x7F) = true) (h2 : s.bytes.length < 256) : wf s :=
  ⟨utf8_of_ascii _ h, Nat.lt_trans h2 (by decide)⟩
'''
for n, base, lines, cs in ENUMS:
    if base == 'Symbol':
        o += f'''
theorem {n}.wf_base (x : {n}) : wf x.toBase := by cases x <;> exact ascii_utf8 (by decide) (by decide)
theorem {n}.of_to (x : {n}) : {n}.ofBase x.toBase = .ok x := by cases x <;> rfl
theorem {n}.of_err {{s : Symbol}} (h : ∀ x : {n}, s ≠ x.toBase) : {n}.ofBase s = .error (.unknownEnumOption "{n}") := by
  simp only [{n}.ofBase]
  rw [''' + ', '.join(f'if_neg (show ¬ s = sym "{c[1]}" from h .{c[0]})' for c in cs) + f''']
theorem {n}.of_fine (s : {base}) : {n}.ofBase s ≠ .error .fuel := by
  unfold {n}.ofBase
  repeat apply nf_ite
  nofun
instance : LawfulWire {n} where
  rt x _ := enum_rt (toB := {n}.toBase) (ofB := {n}.ofBase) rfl (fun _ => rfl) x.wf_base x.of_to
instance : SizeWire {n} where size_eq x := by cases x <;> rfl
instance : NonNullWire {n} where nn x := NonNullWire.nn x.toBase
instance : GoodWire {n} where
  good fmt := (Good.decF fmt).bind fun s => Good.liftE (by
    exact {n}.of_fine s)
'''
    else:
        o += f'''
theorem {n}.of_fine (s : {base}) : {n}.ofBase s ≠ .error .fuel := by
  unfold {n}.ofBase
  repeat apply nf_ite
  nofun
instance : LawfulWire {n} where
  rt x _ := enum_rt (toB := {n}.toBase) (ofB := {n}.ofBase) rfl (fun _ => rfl) trivial (by cases x <;> rfl)
instance : SizeWire {n} where size_eq x := SizeWire.size_eq x.toBase
instance : NonNullWire {n} where nn x := NonNullWire.nn x.toBase
instance : GoodWire {n} where
  good fmt := (Good.decF fmt).bind fun s => Good.liftE (by
    exact {n}.of_fine s)
'''
o += open(os.path.join(os.path.dirname(os.path.abspath(__file__)), 'enum_lemmas.txt')).read()
for st in STRUCTS:
    if st[0] == '@SUM':
        _, n, lines, alts = st
        o += f'\ninstance : LawfulWire {n} where\n  rt x h := by\n    cases x with\n'
        for i, a in enumerate(alts):
            o += f'    | {lc(a)} v =>\n      exact sum_rt (f := {n}.{lc(a)}) h rfl (fun d hd => by\n        simp only [decF, {n}.decodeF, if_true]\n'
            o += f'        rw [Dec.bind_ok hd]\n        simp [Composite.isMine, Composite.code])\n'
        o += f'instance : SizeWire {n} where\n  size_eq x := by\n    cases x with\n' + '\n'.join(f'    | {lc(a)} v => exact SizeWire.size_eq v' for a in alts) + '\n'
        o += f'instance : NonNullWire {n} where\n  nn x := by\n    cases x with\n' + '\n'.join(f'    | {lc(a)} v => exact NonNullWire.nn v' for a in alts) + '\n'
        o += f'instance : GoodWire {n} where\n  good fmt := .ite (.bind .dec fun d => ' + ''.join('.ite (Composite.decInner_good.bind fun _ => .pure _) (' for a in alts) + '.fail (by simp)' + ')' * len(alts) + ') (.fail (by simp))\n'
        continue
    n, code, symn, lines, fs = st
    o += f'\ninstance : LawfulComposite {n} where\n  code_small := by decide\n  code_pos := by decide\n  code_spec := rfl\n  name_spec := rfl\n  name_ascii := by decide\n  bytes _ := rfl\n'
    o += f'  mand_lt x := by simp [Layout.mandatory, Layout.fieldBytes]\n'
    o += f'  len_small x := by simp [Composite.fields]\n'
    nr = [i for i, f in enumerate(fs) if f[2] != 'R']
    if nr:
        o += '  full x keep h := by\n' + ''.join(f'    have h{i} := h {i} (by simp [Layout.fieldBytes])\n' for i in nr)
        o += '    simp only [Layout.keepFields, ' + ', '.join(f'h{i}' for i in nr) + ', if_true]\n'
    else: o += '  full x _ _ := rfl\n'
    o += '  sizes x := by\n    simp only [Composite.fields, List.forall_mem_cons, List.not_mem_nil, false_imp_iff, implies_true, and_true]\n' if fs else '  sizes x := by simp [Composite.fields]\n'
    if fs: o += '    exact ' + ('⟨' if len(fs) > 1 else '') + ', '.join(f'fld_size x.{f[0]}' for f in fs) + ('⟩' if len(fs) > 1 else '') + '\n'
    o += '  small x h := h' + '.2' * len(fs) + '\n'
    def step(i, f):
        return (f'(ft_req "{f[1]}" h{i} (by omega) k{i}).cons' if f[2] == 'R' else f'(ft_opt h{i}).cons' if f[2] == 'O' else f'(ft_dflt h{i}).cons')
    mand = [(i, f[1]) for i, f in enumerate(fs) if f[2] == 'R']
    if fs:
        o += f'  ft x keep k h hk := by\n    obtain ⟨' + ', '.join(f'h{i}' for i in range(len(fs))) + ', _⟩ := h\n'
        for i, nm in mand:
            o += f'    obtain ⟨l{i}, k{i}⟩ := hk ({i}, "{nm}") (by simp [Layout.mandatory])\n'
        if mand: o += '    simp only at ' + ' '.join(f'l{i}' for i, _ in mand) + '\n'
        o += '    exact ' + ' <| '.join(step(i, f) for i, f in enumerate(fs)) + ' <| ft_pure\n'
    else:
        o += '  ft x keep k h hk := ft_pure\n'
    if mand:
        o += f'  fe x keep k nm h hk hm := by\n    obtain ⟨' + ', '.join(f'h{i}' for i in range(len(fs))) + ', _⟩ := h\n'
        for i, nm in mand:
            o += f'    have k{i} : {i} < k → keep {i} = true := hk ({i}, "{nm}") (by simp [Layout.mandatory])\n'
        o += '    simp only [Layout.mandatory] at hm\n'
        ind = '    '
        for j, (i, nm) in enumerate(mand):
            o += f'{ind}by_cases c{i} : k ≤ {i}\n'
            hyp = ''.join(f'{ind}  have k{i2} := k{i2} (by omega)\n' for i2, _ in mand[:j])
            o += hyp if False else ''
            o += f'{ind}· rw [' + ''.join(f'find_no (by simp; omega), ' for i2, _ in mand[:j]) + f'find_yes (by simpa using c{i})] at hm\n'
            o += f'{ind}  injection hm with hm; subst hm\n'
            for i2, _ in mand[:j]: o += f'{ind}  have k{i2} := k{i2} (by omega)\n'
            o += f'{ind}  exact ' + ''.join(step(i2, f).replace('.cons', '.fcons') + ' <| ' for i2, f in enumerate(fs[:i])) + f'fe_req "{nm}" c{i}\n'
        o += f'{ind}exact absurd hm (by simp [' + ', '.join(f'c{i}' for i, _ in mand) + '])\n'
    else:
        o += '  fe x keep k nm h hk hm := nomatch hm\n'
    o += '  stable := ' + ''.join(('.bind .req fun _ => ' if f[2] == 'R' else '.bind .opt fun _ => ' if f[2] == 'O' else '.bind .dflt fun _ => ') for f in fs) + '.pure\n'
    o += f'instance : LawfulWire {n} := Composite.lawful\ninstance : SizeWire {n} := Composite.sizeWire\ninstance : NonNullWire {n} := Composite.nonNull\ninstance : GoodWire {n} := Composite.goodWire\n'
o += '\nend Amqp\n'
open(f'{ROOT}/Lemmas/Structs.lean', 'w').write(o)
