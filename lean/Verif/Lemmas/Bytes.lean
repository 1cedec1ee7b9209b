import Verif.Spec.Bytes
import Verif.Lemmas.Basic
/-
  Parsers in terms of byte positions.
-/
namespace Ntlm

open Spec

theorem byteAt_drop (i : List UInt8) (k j : Nat) : byteAt (i.drop k) j = byteAt i (k + j) := by
  simp [byteAt, List.getD_eq_getElem?_getD, List.getElem?_drop]

theorem u16At_drop (i : List UInt8) (k j : Nat) : u16At (i.drop k) j = u16At i (k + j) := by
  simp [u16At, byteAt_drop, Nat.add_assoc]

theorem u32At_drop (i : List UInt8) (k j : Nat) : u32At (i.drop k) j = u32At i (k + j) := by
  simp [u32At, u16At_drop, Nat.add_assoc]

theorem bytesAt_drop (i : List UInt8) (k j n : Nat) : bytesAt (i.drop k) j n = bytesAt i (k + j) n := by
  simp [bytesAt, List.drop_drop]

theorem byteAt_lt (i : List UInt8) (j : Nat) : byteAt i j < 256 := UInt8.toNat_lt _
theorem u16At_lt (i : List UInt8) (j : Nat) : u16At i j < 65536 := by
  have := byteAt_lt i j; have := byteAt_lt i (j + 1); simp only [u16At]; omega
theorem u32At_lt (i : List UInt8) (j : Nat) : u32At i j < 2 ^ 32 := by
  have := u16At_lt i j; have := u16At_lt i (j + 2); simp only [u32At]; omega

theorem leVal_take1 (i : List UInt8) : leVal (i.take 1) = byteAt i 0 := by
  rcases i with _ | ⟨a, _⟩ <;> simp [leVal, byteAt]

theorem leVal_take2 (i : List UInt8) : leVal (i.take 2) = u16At i 0 := by
  rcases i with _ | ⟨a, _ | ⟨b, _⟩⟩ <;> simp [leVal, u16At, byteAt]

theorem leVal_take3 (i : List UInt8) : leVal (i.take 3) = byteAt i 0 + 256 * byteAt i 1 + 65536 * byteAt i 2 := by
  rcases i with _ | ⟨a, _ | ⟨b, _ | ⟨c, _⟩⟩⟩ <;> simp [leVal, byteAt] <;> omega

theorem leVal_take4 (i : List UInt8) : leVal (i.take 4) = u32At i 0 := by
  rcases i with _ | ⟨a, _ | ⟨b, _ | ⟨c, _ | ⟨d, _⟩⟩⟩⟩ <;> simp [leVal, u32At, u16At, byteAt] <;> omega

theorem u16At_append_left (a b : List UInt8) (j : Nat) (h : j + 2 ≤ a.length) : u16At (a ++ b) j = u16At a j := by
  have h1 : j < a.length := by omega
  have h2 : j + 1 < a.length := by omega
  simp [u16At, byteAt, List.getD_eq_getElem?_getD, List.getElem?_append, h1, h2]

end Ntlm
