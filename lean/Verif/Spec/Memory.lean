import Verif.Model.Memory
/-
  Specification for C83: what Rust guarantees of a vector.
-/
namespace Ntlm.Spec

/-- The two bytes of a `u16` in memory, lowest address first. -/
def unitInMemory (t : Target) (u : UInt16) : UInt8 × UInt8 :=
  if t.bigEndian then (UInt8.ofNat (u.toNat / 256), UInt8.ofNat (u.toNat % 256))
  else (UInt8.ofNat (u.toNat % 256), UInt8.ofNat (u.toNat / 256))

/-- A `Vec<u16>` with the elements `us` is at `ptr`: the pointer is aligned and not null (it dangles if the vector is empty), an
    allocation has at most `isize::MAX` bytes and lies inside the address space, and element `i` is at `ptr + 2 * i`. -/
structure vecAt (t : Target) (m : Memory) (ptr : Nat) (us : List UInt16) : Prop where
  notNull : ptr ≠ 0
  aligned : ptr % 2 = 0
  size : us.length * 2 < 2 ^ (t.bits - 1)
  inside : ptr + us.length * 2 ≤ 2 ^ t.bits
  elements : ∀ i u, us[i]? = some u →
    m (ptr + 2 * i) = some (unitInMemory t u).1 ∧ m (ptr + 2 * i + 1) = some (unitInMemory t u).2

end Ntlm.Spec
