import Verif.Model.Field
import Verif.Model.Crypto
/-
  The places where the code depends on the machine it is compiled for: `unsafe` views of `u16` slices as bytes, and
  `usize`.  The rest of the model is for little-endian machines with a 64-bit `usize`.
-/
namespace Ntlm

/-- What the code depends on. -/
structure Target where
  bigEndian : Bool
  /-- width of `usize` -/
  bits : Nat
  /-- arithmetic overflow panics (debug builds) or wraps around -/
  overflowChecks : Bool

namespace Target

/-- A `u16` in memory. -/
def unitBytes (t : Target) (u : UInt16) : List UInt8 :=
  if t.bigEndian then [UInt8.ofNat (u.toNat / 256), UInt8.ofNat u.toNat] else [UInt8.ofNat u.toNat, UInt8.ofNat (u.toNat / 256)]

/-- A `[u16]` seen as bytes: `slice::from_raw_parts(ptr.cast(), len * 2)` (crypto/nt.rs:10, :24; structures/avid.rs:168). -/
def unitsAsBytes (t : Target) (us : List UInt16) : List UInt8 := us.flatMap t.unitBytes

/-- structures/avid.rs:162-173 `encode_string`. -/
def encodeString (t : Target) (s : Str) : W Nat := do
  let data := t.unitsAsBytes (encodeUtf16 s)
  if data.length < 65536 then
    let a ← writeU16 (UInt16.ofNat data.length)
    let b ← writeLen data
    return a + b
  else W.panic .stringTooLong

/-- structures/avid.rs:182-221: the `match self` of `AvPair::serialize_into`; only texts go through `encode_string`. -/
def pairBody (t : Target) (cfg : Cfg) : AvPair → W Nat
  | .nbComputerName s => t.encodeString s
  | .nbDomainName s => t.encodeString s
  | .dnsComputerName s => t.encodeString s
  | .dnsDomainName s => t.encodeString s
  | .dnsTreeName s => t.encodeString s
  | .targetName s => t.encodeString s
  | p => p.serializeBody cfg

/-- structures/avid.rs:175-224 `AvPair::serialize_into`. -/
def pair (t : Target) (cfg : Cfg) (p : AvPair) : W Nat := do
  let a ← Wire.serializeInto cfg p.getId
  let b ← t.pairBody cfg p
  return a + b

/-- messages.rs:83-104, `Vec<AvPair>`. -/
def pairs (t : Target) (cfg : Cfg) : List AvPair → Nat → W Nat
  | [], size => pure size
  | x :: xs, size => do
    let n ← t.pair cfg x
    pairs t cfg xs (size + n)

/-- crypto/nt.rs:5-15 `ntowfv1`. -/
def ntowfv1 (t : Target) (P : Prims) (password : Str) : Bytes 16 := P.md4 (t.unitsAsBytes (encodeUtf16 password))

/-- crypto/nt.rs:17-28 `ntowfv2`. -/
def ntowfv2 (t : Target) (P : Prims) (cm : CaseMap) (username : Str) (hash : Bytes 16) (domain : Str) : Bytes 16 :=
  P.hmacMd5 hash.val (t.unitsAsBytes (encodeUtf16 (cm.upper username ++ domain)))

/-- messages/field.rs:52-56 `get_range` followed by the indexing `&input[..]` (lines 73, 105).  `as usize` keeps the low
    bits; `start + len` may overflow; indexing panics if the range ends before it starts or past the input.  `none` is a
    panic. -/
def slice (t : Target) (f : Field) (input : List UInt8) : Option (List UInt8) :=
  let start := f.offset.toNat % 2 ^ t.bits
  let sum := start + f.len.toNat % 2 ^ t.bits
  if 2 ^ t.bits ≤ sum ∧ t.overflowChecks then none
  else
    let «end» := sum % 2 ^ t.bits
    if start ≤ «end» ∧ «end» ≤ input.length then some ((input.drop start).take («end» - start)) else none

/-- messages/field.rs:58-88 `get_data_if`. -/
def getDataIf {α : Type} [Wire α] (t : Target) (cfg : Cfg) (f : Field) (input : List UInt8) (cond : Bool) :
    Except PErr (Option α) :=
  if cond then
    if f.len = 0 then .ok none
    else
      match t.slice f input with
      | none => .error (.panic .sliceIndex)
      | some data =>
        match (Wire.deserialize cfg : Parser α) data with
        | .ok (value, _) => .ok (some value)
        | .error e => .error e
  else .ok none

/-- messages/field.rs:90-119 `get_many_if`. -/
def getManyIf {α : Type} [Wire α] (t : Target) (cfg : Cfg) (f : Field) (input : List UInt8) (cond : Bool) :
    Except PErr (List α) :=
  if cond then
    if f.len = 0 then .ok []
    else
      match t.slice f input with
      | none => .error (.panic .sliceIndex)
      | some data =>
        match many0 (Wire.deserialize cfg : Parser α) data with
        | .ok (value, _) => .ok value
        | .error e => .error e
  else .ok []

end Target

end Ntlm
