import Verif.Lemmas.ClientAuth
import Verif.Props.Encoding
import Verif.Props.Decode
import Verif.Props.Crypto
/-
  Lemmas about the bytes of the messages a client sends.
-/
namespace Ntlm

open Spec Client

theorem zeros_u16 {b : List UInt8} {p : Nat} (h : bytesAt b p 8 = [0, 0, 0, 0, 0, 0, 0, 0]) : u16At b p = 0 := by
  have e : ∀ i, i < 8 → b.getD (p + i) 0 = 0 := by
    intro i hi
    have h1 := congrArg (fun l => l.getD i 0) h
    simp only [bytesAt, List.getD_eq_getElem?_getD, List.getElem?_take, List.getElem?_drop, hi, if_true] at h1
    rw [List.getD_eq_getElem?_getD, h1]
    have : i = 0 ∨ i = 1 ∨ i = 2 ∨ i = 3 ∨ i = 4 ∨ i = 5 ∨ i = 6 ∨ i = 7 := by omega
    rcases this with rfl | rfl | rfl | rfl | rfl | rfl | rfl | rfl <;> rfl
  have e0 := e 0 (by omega)
  have e1 := e 1 (by omega)
  simp only [u16At, byteAt, e1, Nat.add_zero] at *
  rw [e0]; rfl

/-- Reading a field of a well laid out message. -/
theorem payloadIs_mem {b : List UInt8} {fields : List (Nat × Option (List UInt8))} {start pos : Nat}
    {v : Option (List UInt8)} (h : payloadIs b start fields) (hm : (pos, v) ∈ fields) :
    fieldBytes b pos = payload v ∧ (emptyField b pos ↔ payload v = []) ∧ ¬ outOfRange b pos := by
  induction fields generalizing start with
  | nil => simp at hm
  | cons f fields ih =>
    obtain ⟨p, w⟩ := f
    rcases List.mem_cons.mp hm with e | hm'
    · cases e
      cases v with
      | none =>
        have := zeros_u16 h.1
        refine ⟨?_, ?_, ?_⟩
        · simp [fieldBytes, this, bytesAt, payload]
        · simp [emptyField, this, payload]
        · simp [outOfRange, this]
      | some v =>
        obtain ⟨h1, h2, h3, h4, h5, _⟩ := h
        refine ⟨?_, ?_, ?_⟩
        · rw [fieldBytes, h1, h3, h5]; rfl
        · simp [emptyField, h1, payload]
        · simp only [outOfRange, h1, h3]; omega
    · cases w with
      | none => exact ih h.2 hm'
      | some w => exact ih h.2.2.2.2.2 hm'

/-- The bytes of an authenticate message without version block. -/
theorem sent_layout (m : Authenticate) (hf : authenticateFits m) (hv : m.version = none) :
    let b := authenticateBytes m
    bytesAt b 0 8 = ntlmssp ∧ u32At b 8 = 3 ∧ u32At b 60 = m.negotiateFlags.bits.toNat ∧ bytesAt b 64 16 = m.mic.val ∧
    fieldHolds b 12 (payload (m.lmChallengeResponse.map lmBytes)) ∧
    fieldHolds b 20 (payload (m.ntChallengeResponse.map ntBytes)) ∧
    fieldHolds b 28 (payload (m.domain.map fun s => utf16le s.s)) ∧
    fieldHolds b 36 (payload (m.user.map fun s => utf16le s.s)) ∧
    fieldHolds b 44 (payload (m.workstation.map fun s => utf16le s.s)) ∧
    fieldHolds b 52 (payload (m.encryptedRandomSessionKey.map fun k => k.val)) := by
  have cfg : Cfg := ⟨false, false, .unix⟩
  obtain ⟨h1, h2, h3, _, h5, h6⟩ := Props.C05_authenticate_layout cfg m _ ((serialize_authenticate cfg m _).mpr ⟨hf, rfl⟩)
  simp only [hv, Option.map_none, payload, Option.getD_none, List.length_nil, Nat.add_zero] at h5
  refine ⟨h1, h2, h3, h5, payloadIs_mem h6 (by simp), payloadIs_mem h6 (by simp), payloadIs_mem h6 (by simp),
    payloadIs_mem h6 (by simp), payloadIs_mem h6 (by simp), payloadIs_mem h6 (by simp)⟩

theorem flagAt_bit {b : List UInt8} {pos : Nat} {f : Flags} (h : u32At b pos = f.bits.toNat) (k : Nat) :
    flagAt b pos k ↔ bit f k := by simp only [flagAt, h, bit]

end Ntlm
