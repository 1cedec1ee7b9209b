import Verif.Spec.Text
import Verif.Spec.Bytes
import Verif.Spec.Structures
/-
  Specification vocabulary for decoding untrusted bytes, in terms of byte positions.
-/
namespace Ntlm.Spec

/-- The input has the fixed header of the message type: long enough, signature, type number. -/
def hasHeader (i : List UInt8) (type size : Nat) : Prop :=
  size ≤ i.length ∧ i.take 8 = ntlmssp ∧ u32At i 8 = type

/-- The CHALLENGE header is accepted (with the strict feature, only if the reserved bytes are zero). -/
def challengeHeader (cfg : Cfg) (i : List UInt8) : Prop :=
  hasHeader i 2 48 ∧ (cfg.strict = true → u32At i 32 = 0 ∧ u32At i 36 = 0)

/-- The payload range named by the descriptor at `pos`. -/
def fieldBytes (i : List UInt8) (pos : Nat) : List UInt8 := bytesAt i (u32At i (pos + 4)) (u16At i pos)

/-- The descriptor at `pos` is empty. -/
def emptyField (i : List UInt8) (pos : Nat) : Prop := u16At i pos = 0

/-- The descriptor at `pos` names a non-empty range that does not lie inside the input. -/
def outOfRange (i : List UInt8) (pos : Nat) : Prop :=
  u16At i pos ≠ 0 ∧ i.length < u32At i (pos + 4) + u16At i pos

/-- Bit `k` of the flag word at `pos`. -/
def flagAt (i : List UInt8) (pos k : Nat) : Prop := (u32At i pos).testBit k = true

/-- If the VERSION flag (bit 25 of the word at `flagsPos`) is set, a valid version block follows the header. -/
def versionBlockOk (i : List UInt8) (flagsPos size : Nat) : Prop :=
  flagAt i flagsPos 25 →
    size + 8 ≤ i.length ∧ byteAt i (size + 4) = 0 ∧ byteAt i (size + 5) = 0 ∧ byteAt i (size + 6) = 0 ∧
      byteAt i (size + 7) = 15

/-- Length of the version block. -/
def versionSize (i : List UInt8) (flagsPos : Nat) : Nat := if (u32At i flagsPos).testBit 25 then 8 else 0

/-- The value `v` of an AV pair with identifier `id` is accepted but not used up. -/
def residue (cfg : Cfg) (id : Nat) (v : List UInt8) : Prop :=
  (id ∈ [1, 2, 3, 4, 5, 9] ∧ ¬ ∃ s, plain s ∧ v = utf16le s) ∨
  (id = 6 ∧ 4 < v.length ∧ u32At v 0 < 8) ∨
  (id = 7 ∧ 8 < v.length ∧ (2 ^ 32 * u32At v 4 + u32At v 0) / 1000000 ≤ cfg.platform.maxSecs) ∨
  (id = 8 ∧ 48 < v.length ∧ u32At v 4 = 0) ∨
  (id = 10 ∧ 16 < v.length)

/-- Reading AV pairs from `i` meets a value that is not used up. -/
inductive AvResidue (cfg : Cfg) : List UInt8 → Prop where
  | here {i} : 4 ≤ i.length → 4 + u16At i 2 ≤ i.length → residue cfg (u16At i 0) (bytesAt i 4 (u16At i 2)) →
      AvResidue cfg i
  | later {i p} : pairAt cfg i p → AvResidue cfg (i.drop (4 + u16At i 2)) → AvResidue cfg i

/-- The 28-byte fixed part of an NTLMv2 response: both response types 1, reserved parts zero, a time the platform's
    clock can represent. -/
def ntv2Fixed (cfg : Cfg) (b : List UInt8) : Prop :=
  28 ≤ b.length ∧ byteAt b 0 = 1 ∧ byteAt b 1 = 1 ∧ u16At b 2 = 0 ∧ u32At b 4 = 0 ∧
    (2 ^ 32 * u32At b 12 + u32At b 8) / 1000000 ≤ cfg.platform.maxSecs ∧ u32At b 24 = 0

/-- `b` can be read as an NT response: an NTLMv2 fixed part followed by readable AV pairs, or otherwise at
    least the 24 bytes of an NTLMv1 response. -/
def ntDecodes (cfg : Cfg) (b : List UInt8) : Prop :=
  (ntv2Fixed cfg b ∧ ∃ l r, AvWalk cfg (b.drop 28) l r) ∨ (¬ ntv2Fixed cfg b ∧ 24 ≤ b.length)

/-- Decoding `i` as a NEGOTIATE message aborts. -/
def negotiateAborts (i : List UInt8) : Prop :=
  hasHeader i 1 32 ∧ versionBlockOk i 12 32 ∧
    (outOfRange i 16 ∨ ((emptyField i 16 ∨ ∃ s, fieldBytes i 16 = utf8Bytes s) ∧ outOfRange i 24))

/-- Decoding `i` as a CHALLENGE message aborts. -/
def challengeAborts (cfg : Cfg) (i : List UInt8) : Prop :=
  challengeHeader cfg i ∧ versionBlockOk i 20 48 ∧
    (outOfRange i 12 ∨ outOfRange i 40 ∨
      (cfg.debug = true ∧ ¬ emptyField i 40 ∧ AvResidue cfg (fieldBytes i 40)))

/-- Decoding `i` as an AUTHENTICATE message aborts. -/
def authenticateAborts (cfg : Cfg) (i : List UInt8) : Prop :=
  hasHeader i 3 64 ∧ versionBlockOk i 60 64 ∧ 64 + versionSize i 60 + 16 ≤ i.length ∧
    (outOfRange i 12 ∨ outOfRange i 20 ∨
      (cfg.debug = true ∧ ¬ emptyField i 20 ∧ ntv2Fixed cfg (fieldBytes i 20) ∧
        AvResidue cfg ((fieldBytes i 20).drop 28)) ∨
      ((emptyField i 20 ∨ ntDecodes cfg (fieldBytes i 20)) ∧
        (outOfRange i 28 ∨ outOfRange i 36 ∨ outOfRange i 44 ∨ (flagAt i 60 30 ∧ outOfRange i 52))))

/-- What an optional field holds: absent if the descriptor at `pos` is empty; otherwise the range it names lies inside the
    input and means the value, in the sense of `P`. -/
def fieldIs {α : Type} (i : List UInt8) (pos : Nat) (P : List UInt8 → α → Prop) (x : Option α) : Prop :=
  (emptyField i pos ∧ x = none) ∨ (¬ emptyField i pos ∧ ¬ outOfRange i pos ∧ ∃ v, x = some v ∧ P (fieldBytes i pos) v)

/-- UTF-8 text, all of it. -/
def oemIs (b : List UInt8) (v : OEMString) : Prop := b = utf8Bytes v.s

/-- UTF-16LE text: plain text up to the end, a lone last byte, a NUL unit or a surrogate unit. -/
def textIs (b : List UInt8) (v : UnicodeString) : Prop :=
  plain v.s ∧ ∃ r, b = utf16le v.s ++ r ∧ textEnds r

/-- The target infos: empty with an empty descriptor, otherwise the pairs that can be read one after another. -/
def infosAre (cfg : Cfg) (i : List UInt8) (pos : Nat) (l : List AvPair) : Prop :=
  (emptyField i pos ∧ l = []) ∨ (¬ emptyField i pos ∧ ¬ outOfRange i pos ∧ ∃ r, AvWalk cfg (fieldBytes i pos) l r)

/-- The version block: present exactly with the VERSION flag (bit 25), and of revision 15. -/
def versionIs (i : List UInt8) (flagsPos size : Nat) (v : Option Version) : Prop :=
  (flagAt i flagsPos 25 ∧ ∃ x, v = some x ∧ x.revisionCount = 15 ∧ bytesAt i size 8 = versionBytes x) ∨
    (¬ flagAt i flagsPos 25 ∧ v = none)

/-- An LM response: the first 24 bytes, as NTLMv1 with the NTLM flag (bit 9), as LMv2 without; a shorter one counts as
    absent. -/
def lmIs (i : List UInt8) (x : Option LmChallenge) : Prop :=
  (emptyField i 12 ∧ x = none) ∨ (¬ emptyField i 12 ∧ ¬ outOfRange i 12 ∧
    (((fieldBytes i 12).length < 24 ∧ x = none) ∨
      ∃ c, x = some c ∧ lmBytes c = (fieldBytes i 12).take 24 ∧ ((∃ d, c = .v1 d) ↔ flagAt i 60 9)))

/-- An NT response: an NTLMv2 one if it starts with an NTLMv2 fixed part, otherwise the first 24 bytes as NTLMv1. -/
def ntIs (cfg : Cfg) (b : List UInt8) (x : NtChallenge) : Prop :=
  (ntv2Fixed cfg b ∧ ∃ c r, x = .v2 c ∧ fileTimeBytes c.timestamp = bytesAt b 8 8 ∧
      c.challengeFromClient.val = bytesAt b 16 8 ∧ AvWalk cfg (b.drop 28) c.targetInfos r) ∨
    (¬ ntv2Fixed cfg b ∧ ∃ c, x = .v1 c ∧ c.response.val = b.take 24)

/-- The encrypted session key: read only with the KEY_EXCH flag (bit 30); the first 16 bytes. -/
def keyIs (i : List UInt8) (x : Option (Bytes 16)) : Prop :=
  (¬ flagAt i 60 30 ∧ x = none) ∨ (flagAt i 60 30 ∧ fieldIs i 52 (fun b k => k.val = b.take 16) x)

/-- The call aborts. -/
def panics {α : Type} (x : Except PErr α) : Prop := ∃ p, x = .error (.panic p)

/-- A text that is present but empty counts as absent. -/
def dropEmpty (s : Option UnicodeString) : Option UnicodeString := if s = some ⟨[]⟩ then none else s

end Ntlm.Spec
