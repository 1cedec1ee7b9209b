import Verif.Model.Target
/-
  The `unsafe` blocks of the portable code: `slice::from_raw_parts(v.as_ptr().cast(), v.len() * 2)`, with `v` a `Vec<u16>`
  (crypto/nt.rs:10, :24; structures/avid.rs:168), over a model of memory.  Elsewhere in the model the view is a function of
  the elements (`Target.unitsAsBytes`, `u16sAsBytes`).
  Simplified: aliasing is not modelled — the vectors are locals nobody writes to while the view is used, and live to the end
  of the function that made the view.
-/
namespace Ntlm

/-- The bytes that are allocated and initialised, by address. -/
abbrev Memory := Nat → Option UInt8

/-- What an operation on raw memory comes to. -/
inductive Outcome (α : Type) where
  | value (a : α)
  | panic
  /-- undefined behaviour -/
  | undefined
  deriving DecidableEq, Repr

namespace Memory

/-- The `n` bytes from `addr` on, if they are all there. -/
def read (m : Memory) (addr : Nat) : Nat → Option (List UInt8)
  | 0 => some []
  | n + 1 => do
    let b ← m addr
    let rest ← read m (addr + 1) n
    return b :: rest

end Memory

namespace Target

/-- The largest `isize`. -/
def isizeMax (t : Target) : Nat := 2 ^ (t.bits - 1) - 1

/-- `a * b` on `usize`: with overflow checks (debug builds) a panic, otherwise modulo the word size. -/
def usizeMul (t : Target) (a b : Nat) : Outcome Nat :=
  if a * b < 2 ^ t.bits then .value (a * b)
  else if t.overflowChecks then .panic else .value (a * b % 2 ^ t.bits)

/-- `slice::from_raw_parts::<u8>(ptr, len)`, by its safety conditions: the pointer is not null (and aligned, which for bytes
    every pointer is), the `len` bytes from it on are allocated and initialised, there are at most `isize::MAX` of them and
    they do not go past the end of the address space. -/
def fromRawParts (t : Target) (m : Memory) (ptr len : Nat) : Outcome (List UInt8) :=
  if ptr = 0 ∨ t.isizeMax < len ∨ 2 ^ t.bits < ptr + len then .undefined
  else match m.read ptr len with
    | some bytes => .value bytes
    | none => .undefined

/-- `slice::from_raw_parts(v.as_ptr().cast(), v.len() * 2)` (crypto/nt.rs:10, :24; structures/avid.rs:168), for a vector of
    `len` units at `ptr`. -/
def byteView (t : Target) (m : Memory) (ptr len : Nat) : Outcome (List UInt8) :=
  match t.usizeMul len 2 with
  | .value n => t.fromRawParts m ptr n
  | .panic => .panic
  | .undefined => .undefined

/-- crypto/nt.rs:5-15 `ntowfv1`, with the vector of line 6 at `ptr`. -/
def ntowfv1At (t : Target) (P : Prims) (m : Memory) (ptr : Nat) (password : Str) : Outcome (Bytes 16) :=
  match t.byteView m ptr (encodeUtf16 password).length with
  | .value bytes => .value (P.md4 bytes)
  | .panic => .panic
  | .undefined => .undefined

/-- crypto/nt.rs:17-28 `ntowfv2`, with the vector of line 19 at `ptr`. -/
def ntowfv2At (t : Target) (P : Prims) (cm : CaseMap) (m : Memory) (ptr : Nat) (username : Str) (hash : Bytes 16) (domain : Str) :
    Outcome (Bytes 16) :=
  match t.byteView m ptr (encodeUtf16 (cm.upper username ++ domain)).length with
  | .value bytes => .value (P.hmacMd5 hash.val bytes)
  | .panic => .panic
  | .undefined => .undefined

/-- structures/avid.rs:162-173 `encode_string`, with the vector of line 167 at `ptr`; the value is what is done to the
    writer. -/
def encodeStringAt (t : Target) (m : Memory) (ptr : Nat) (s : Str) : Outcome (W Nat) :=
  match t.byteView m ptr (encodeUtf16 s).length with
  | .value data => .value do
      if data.length < 65536 then
        let a ← writeU16 (UInt16.ofNat data.length)
        let b ← writeLen data
        return a + b
      else W.panic .stringTooLong
  | .panic => .panic
  | .undefined => .undefined

end Target

end Ntlm
