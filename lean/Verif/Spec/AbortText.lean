import Verif.Spec.Decode
import Verif.Model.Trace
/-
  Specification: what the message of an abort of a decoder is made from.
-/
namespace Ntlm.Spec

open Trace (Msg)

/-- The message about the range that the descriptor at `pos` names: where it starts and stops, and how long the input is. -/
def rangeMsg (i : List UInt8) (pos : Nat) : Msg :=
  .outOfRange (u32At i (pos + 4)) (u32At i (pos + 4) + u16At i pos) i.length

/-- The message is about the first of these descriptors that names a range outside the input. -/
def firstOut (i : List UInt8) : List Nat → Msg → Prop
  | [], _ => False
  | pos :: ps, m => (outOfRange i pos ∧ m = rangeMsg i pos) ∨ (¬ outOfRange i pos ∧ firstOut i ps m)

/-- Reading AV pairs from `i` meets a value that is longer than its content; the first such value has `n` bytes too many. -/
inductive AvLeft (cfg : Cfg) : List UInt8 → Nat → Prop where
  | here {i p} : pairAt cfg i p → (avValueBytes p).length < u16At i 2 →
      AvLeft cfg i (u16At i 2 - (avValueBytes p).length)
  | later {i p n} : pairAt cfg i p → (avValueBytes p).length = u16At i 2 → AvLeft cfg (i.drop (4 + u16At i 2)) n →
      AvLeft cfg i n

/-- Decoding `i` as a NEGOTIATE message aborts with this message. -/
def negotiateSays (i : List UInt8) (m : Msg) : Prop :=
  hasHeader i 1 32 ∧ versionBlockOk i 12 32 ∧
    (firstOut i [16] m ∨
      (¬ outOfRange i 16 ∧ (emptyField i 16 ∨ ∃ s, fieldBytes i 16 = utf8Bytes s) ∧ firstOut i [24] m))

/-- Decoding `i` as a CHALLENGE message aborts with this message. -/
def challengeSays (cfg : Cfg) (i : List UInt8) (m : Msg) : Prop :=
  challengeHeader cfg i ∧ versionBlockOk i 20 48 ∧
    (firstOut i [12, 40] m ∨
      (¬ outOfRange i 12 ∧ ¬ outOfRange i 40 ∧ cfg.debug = true ∧ ¬ emptyField i 40 ∧
        ∃ n, AvLeft cfg (fieldBytes i 40) n ∧ m = .leftOver n))

/-- Decoding `i` as an AUTHENTICATE message aborts with this message.  The range of the session key counts only with the
    KEY_EXCH flag (bit 30). -/
def authenticateSays (cfg : Cfg) (i : List UInt8) (m : Msg) : Prop :=
  hasHeader i 3 64 ∧ versionBlockOk i 60 64 ∧ 64 + versionSize i 60 + 16 ≤ i.length ∧
    (firstOut i [12, 20] m ∨
      (¬ outOfRange i 12 ∧ ¬ outOfRange i 20 ∧ cfg.debug = true ∧ ¬ emptyField i 20 ∧ ntv2Fixed cfg (fieldBytes i 20) ∧
        ∃ n, AvLeft cfg ((fieldBytes i 20).drop 28) n ∧ m = .leftOver n) ∨
      (¬ outOfRange i 12 ∧ ¬ outOfRange i 20 ∧ (emptyField i 20 ∨ ntDecodes cfg (fieldBytes i 20)) ∧
        (firstOut i [28, 36, 44] m ∨
          (¬ outOfRange i 28 ∧ ¬ outOfRange i 36 ∧ ¬ outOfRange i 44 ∧ flagAt i 60 30 ∧ firstOut i [52] m))))

/-- What is printed about a range that stops outside. -/
def endText (k len : Nat) : Str :=
  "range end index ".toList ++ Nat.toDigits 10 k ++ " out of range for slice of length ".toList ++ Nat.toDigits 10 len

/-- What is printed about a range that starts outside, by newer standard libraries. -/
def startText (k len : Nat) : Str :=
  "range start index ".toList ++ Nat.toDigits 10 k ++ " out of range for slice of length ".toList ++ Nat.toDigits 10 len

/-- What is printed about bytes that are left over. -/
def leftText (n : Nat) : Str :=
  "assertion `left == right` failed\n  left: ".toList ++ Nat.toDigits 10 n ++ "\n right: ".toList ++ ['0']

end Ntlm.Spec
