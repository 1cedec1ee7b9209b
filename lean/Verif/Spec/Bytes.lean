import Verif.Spec.Layout
/-
  Specification: reading integers and field descriptors out of a byte string by position.
-/
namespace Ntlm.Spec

/-- The byte at a position (0 past the end). -/
def byteAt (b : List UInt8) (i : Nat) : Nat := (b.getD i 0).toNat

/-- The 16-bit little-endian number at a position. -/
def u16At (b : List UInt8) (i : Nat) : Nat := byteAt b i + 256 * byteAt b (i + 1)

/-- The 32-bit little-endian number at a position. -/
def u32At (b : List UInt8) (i : Nat) : Nat := u16At b i + 65536 * u16At b (i + 2)

/-- The `n` bytes starting at a position. -/
def bytesAt (b : List UInt8) (i n : Nat) : List UInt8 := (b.drop i).take n

/-- The payload of message `b` consists, from `start` to its end, of the given values, one after another without gap
    or overlap, and for each value the 8 bytes at the given header position are its length (twice) and its
    offset; the 8 bytes of an absent value are zero. -/
def payloadIs (b : List UInt8) : Nat → List (Nat × Option (List UInt8)) → Prop
  | start, [] => start = b.length
  | start, (pos, none) :: fields => bytesAt b pos 8 = [0, 0, 0, 0, 0, 0, 0, 0] ∧ payloadIs b start fields
  | start, (pos, some v) :: fields =>
    u16At b pos = v.length ∧ u16At b (pos + 2) = v.length ∧ u32At b (pos + 4) = start ∧
      start + v.length ≤ b.length ∧ bytesAt b start v.length = v ∧ payloadIs b (start + v.length) fields

/-- The three things every writer must satisfy at once: what it writes does not depend on what is already in the buffer,
    the old content is kept in front, and the returned count is the number of bytes added.  If it
    fails, it fails on every buffer alike. -/
def AppendOnly (α : Type) [Wire α] : Prop :=
  ∀ (cfg : Cfg) (x : α), ∃ r : Except Panic (List UInt8), ∀ buffer,
    Wire.serializeInto cfg x buffer =
      match r with
      | .ok added => .ok (added.length, buffer ++ added)
      | .error p => .error p

end Ntlm.Spec
