import Verif.Lemmas.AvFrame
/-
  Where reading UTF-16 text stops.
-/
namespace Ntlm

open Spec

theorem bytesOfTwo (a b : UInt8) (r : List UInt8) : u16At (a :: b :: r) 0 = a.toNat + 256 * b.toNat := rfl

/-- When a code unit is refused. -/
theorem unitP_error_iff (i : List UInt8) : unitP i = .error .error ↔
    i.length < 2 ∨ u16At i 0 = 0 ∨ (0xD800 ≤ u16At i 0 ∧ u16At i 0 ≤ 0xDFFF) := by
  simp only [unitP, mapOpt, leU16_eq]
  match i with
  | [] => simp
  | [a] => simp
  | a :: b :: r =>
    have ha := a.toNat_lt
    have hb := b.toNat_lt
    rw [bytesOfTwo]
    have hl : ¬ (a :: b :: r).length < 2 := by simp
    simp only [hl, if_false, List.take_succ_cons, List.take_zero, leVal, false_or]
    have e : (UInt16.ofNat (a.toNat + 256 * (b.toNat + 256 * 0))).toNat = a.toNat + 256 * b.toNat := by
      simp only [UInt16.toNat_ofNat']; omega
    have hz : UInt16.ofNat (a.toNat + 256 * (b.toNat + 256 * 0)) = 0 ↔ a.toNat + 256 * b.toNat = 0 := by
      rw [← e]
      constructor
      · intro h; rw [h]; rfl
      · intro h; exact UInt16.toNat_inj.mp (by simpa using h)
    simp only [decodeUnit, hz, e]
    by_cases h0 : a.toNat + 256 * b.toNat = 0
    · simp [h0]
    · simp only [h0, if_false, false_or]
      by_cases hv : (a.toNat + 256 * b.toNat).isValidChar
      · simp only [hv, dite_true, reduceCtorEq, false_iff]
        simp only [Nat.isValidChar] at hv
        omega
      · simp only [hv, dite_false, true_iff]
        simp only [Nat.isValidChar] at hv
        omega

end Ntlm
