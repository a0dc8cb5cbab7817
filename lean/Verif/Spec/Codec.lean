import Verif.Model.Variant
/-!
# What the codec properties talk about

`WF a`: the value `a` is one that the Rust type can hold and the wire format can express.
Strings are UTF-8 (an invariant of the Rust types), sizes fit the 32-bit size field, timestamps have
millisecond precision and lie in the range where the code is faithful (see `wfTimestamp`).
-/

namespace Amqp

class WF (α : Type) where
  wf : α → Prop

export WF (wf)

/-- 32-bit size limit of the wire format. -/
abbrev U32 : Nat := 2 ^ 32

instance : WF Bool := ⟨fun _ => True⟩
instance : WF UInt8 := ⟨fun _ => True⟩
instance : WF UInt16 := ⟨fun _ => True⟩
instance : WF UInt32 := ⟨fun _ => True⟩
instance : WF UInt64 := ⟨fun _ => True⟩
instance : WF Int8 := ⟨fun _ => True⟩
instance : WF Int16 := ⟨fun _ => True⟩
instance : WF Int32 := ⟨fun _ => True⟩
instance : WF Int64 := ⟨fun _ => True⟩
instance : WF F32 := ⟨fun _ => True⟩
instance : WF F64 := ⟨fun _ => True⟩
instance : WF Char := ⟨fun _ => True⟩
instance : WF Uuid := ⟨fun _ => True⟩
instance : WF Bytes := ⟨fun b => b.length < U32⟩
instance : WF Str := ⟨fun s => validUtf8 s.bytes = true ∧ s.bytes.length < U32⟩
instance : WF Symbol := ⟨fun s => validUtf8 s.bytes = true ∧ s.bytes.length < U32⟩

/-- Timestamps the wire can carry and the code decodes faithfully: millisecond precision, not a leap second, within
chrono's range, and either not before the epoch or at least one second before it and not on a whole second. -/
def wfTimestamp (t : Timestamp) : Prop :=
  minSecs ≤ t.secs ∧ t.secs ≤ maxSecs ∧ t.nanos < 1000000000 ∧ t.nanos % 1000000 = 0 ∧
    (0 ≤ t.secs ∨ t.secs ≤ -2 ∧ t.nanos ≠ 0)

instance : WF Timestamp := ⟨wfTimestamp⟩

/-- Zero-valued numeric descriptors are excluded: the decoder rejects them. -/
def wfDescriptor : Descriptor → Prop
  | .ulong v => v ≠ 0
  | .symbol s => wf s

instance : WF Descriptor := ⟨wfDescriptor⟩

/-- A plain constructor must not be the described marker itself. -/
def wfConstructor : Constructor → Prop
  | .formatCode c => c ≠ FC.described
  | .described d _ => wf d

instance : WF Constructor := ⟨wfConstructor⟩

instance [WF α] : WF (Option α) := ⟨fun o => match o with
  | some a => wf a
  | none => True⟩

/-- The raw bytes of one complete compound value: `list0`, or an 8-bit or 32-bit compound code, its size field, and
exactly that many bytes. -/
def rawCompound (data : Bytes) : Prop :=
  data = [FC.list0] ∨
  (∃ c sz tl, data = c :: sz :: tl ∧ (c = FC.list8 ∨ c = FC.map8 ∨ c = FC.array8) ∧ tl.length = sz.toNat) ∨
  (∃ c tl, data = c :: (be 4 tl.length ++ tl) ∧ (c = FC.list32 ∨ c = FC.map32 ∨ c = FC.array32) ∧ tl.length < U32)

/-- Values whose encoding starts with a compound format code. -/
def Variant.isCompound : Variant → Bool
  | .list _ => true
  | .map _ => true
  | .array .. => true
  | _ => false

mutual
/-- Well-formed value trees. -/
def Variant.wfv : Variant → Prop
  | .timestamp t => wfTimestamp t
  | .binary b => wf b
  | .string s => wf s
  | .symbol s => wf s
  | .list l => wfvList l ∧ (Variant.listEnc l).length + 4 < U32
  | .map m => wfvMap m ∧ (Variant.mapEnc m).length + 4 < U32 ∧ m.Pairwise (fun a b => Variant.keyEq a.1 b.1 = false)
  | .array count ctor payload =>
    wf ctor ∧ (enc ctor).length + payload.length + 4 < U32 ∧
      ((enc ctor).length + payload.length < 255 → count < 256)
  | .described d v => wf d ∧ v.wfv ∧ v.isCompound = false
  | .describedCompound d data => wf d ∧ rawCompound data
  | _ => True

def Variant.wfvList : List Variant → Prop
  | [] => True
  | v :: l => v.wfv ∧ wfvList l

/-- Keys must also be hashable: no map occurs inside a key. -/
def Variant.wfvMap : List (Variant × Variant) → Prop
  | [] => True
  | (k, v) :: m => k.wfv ∧ k.hashable = true ∧ v.wfv ∧ wfvMap m
end

instance : WF Variant := ⟨Variant.wfv⟩

end Amqp
