import Verif.Model.Structures
/-
  messages/field.rs: the (length, max length, offset) descriptors of payload fields.
-/
namespace Ntlm

/-- messages/field.rs:14-19. -/
structure Field where
  len : UInt16
  maxLen : UInt16
  offset : UInt32
  deriving DecidableEq, Repr

/-- messages/field.rs:21-49. -/
instance : Wire Field where
  serializeInto _ f := do
    let a ← writeU16 f.len
    let b ← writeU16 f.maxLen
    let c ← writeU32 f.offset
    return a + b + c
  deserialize _ := do
    let len ← leU16
    let maxLen ← leU16
    let offset ← leU32
    return { len, maxLen, offset }

namespace Field

/-- messages/field.rs:52-56 `get_range` followed by the indexing `&input[..]` (lines 73, 105): a panic if the range
    ends past the input.  (`start + len` cannot overflow a 64-bit `usize`; on a 32-bit target an overflowing
    range is also a panic, so the result is the same.) -/
def slice (f : Field) (input : List UInt8) : Except PErr (List UInt8) :=
  if f.offset.toNat + f.len.toNat ≤ input.length then
    .ok ((input.drop f.offset.toNat).take f.len.toNat)
  else .error (.panic .sliceIndex)

/-- messages/field.rs:58-88 `get_data_if`; what the value does not consume is ignored (line 76 only logs). -/
def getDataIf {α : Type} [Wire α] (cfg : Cfg) (f : Field) (input : List UInt8) (cond : Bool) :
    Except PErr (Option α) :=
  if cond then
    if f.len = 0 then .ok none
    else
      match f.slice input with
      | .error e => .error e
      | .ok data =>
        match (Wire.deserialize cfg : Parser α) data with
        | .ok (value, _) => .ok (some value)
        | .error e => .error e
  else .ok none

/-- messages/field.rs:90-119 `get_many_if`. -/
def getManyIf {α : Type} [Wire α] (cfg : Cfg) (f : Field) (input : List UInt8) (cond : Bool) :
    Except PErr (List α) :=
  if cond then
    if f.len = 0 then .ok []
    else
      match f.slice input with
      | .error e => .error e
      | .ok data =>
        match many0 (Wire.deserialize cfg : Parser α) data with
        | .ok (value, _) => .ok value
        | .error e => .error e
  else .ok []

/-- messages/field.rs:121-127 `zeroed`. -/
def zeroed : Field := { len := 0, maxLen := 0, offset := 0 }

/-- messages/field.rs:141-151 (= 166-176): serialize a value at the end of the payload `data` and describe where it is.
    Returns the descriptor and the extended payload. -/
def place {α : Type} [Wire α] (cfg : Cfg) (v : α) (data : List UInt8) :
    Except Panic (Field × List UInt8) :=
  if data.length < 2 ^ 32 then
    match Wire.serializeInto cfg v data with
    | .ok (len, data') =>
      if len < 2 ^ 16 then
        .ok ({ len := UInt16.ofNat len, maxLen := UInt16.ofNat len, offset := UInt32.ofNat data.length }, data')
      else .error .fieldLen
    | .error e => .error e
  else .error .fieldOffset

/-- messages/field.rs:156-181 `append`.  `data: &mut Vec<u8>` is threaded: the result carries its new content. -/
def append {α : Type} [Wire α] (cfg : Cfg) (value : Option α) (data : List UInt8) : W (Nat × List UInt8) :=
  match value with
  | some v =>
    match place cfg v data with
    | .ok (field, data') => do
      let n ← Wire.serializeInto cfg field
      return (n, data')
    | .error e => W.panic e
  | none => do
    let n ← Wire.serializeInto cfg zeroed
    return (n, data)

/-- messages/field.rs:129-154 `append_many`. -/
def appendMany {α : Type} [Wire α] (cfg : Cfg) (values : List α) (data : List UInt8) : W (Nat × List UInt8) :=
  match values with
  | [] => do
    let n ← Wire.serializeInto cfg zeroed
    return (n, data)
  | _ :: _ =>
    match place cfg values data with
    | .ok (field, data') => do
      let n ← Wire.serializeInto cfg field
      return (n, data')
    | .error e => W.panic e

end Field

/-- `if let Some(ref version) = self.version { version.serialize_into(&mut payload) }`
    (negotiate.rs:69-71, challenge.rs:136-138, authenticate.rs:81-83). -/
def pushVersion (cfg : Cfg) (version : Option Version) (payload : List UInt8) : Except Panic (List UInt8) :=
  match version with
  | some v => match Wire.serializeInto cfg v payload with
    | .ok (_, p) => .ok p
    | .error e => .error e
  | none => .ok payload

end Ntlm
