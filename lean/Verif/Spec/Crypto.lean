import Verif.Spec.Builders
import Verif.Spec.Text
/-
  Specification of the key derivations and responses, after MS-NLMP 3.3 and 3.4, over arbitrary primitives.  Everything is
  stated on plain byte lists.
-/
namespace Ntlm.Spec

/-- Bit `i` of a byte string, most significant bit of the first byte first. -/
def keyBit (k : List UInt8) (i : Nat) : Bool := (k.getD (i / 8) 0).toNat.testBit (7 - i % 8)

/-- Number of one bits of a byte. -/
def ones (v : UInt8) : Nat := (List.range 8).countP fun i => v.toNat.testBit i

/-- `e` is the 8-byte DES key for the 56 key bits of `k`: seven key bits in the upper part of each byte, odd parity. -/
def isDesKey (k e : List UInt8) : Prop :=
  e.length = 8 ∧ ∀ j, j < 8 →
    (∀ t, t < 7 → (e.getD j 0).toNat.testBit (7 - t) = keyBit k (7 * j + t)) ∧ ones (e.getD j 0) % 2 = 1

/-- `DES(K, D)` with a 7-byte key. -/
def isDes (P : Prims) (k : List UInt8) (d : Bytes 8) (c : List UInt8) : Prop :=
  ∃ e : Bytes 8, isDesKey k e.val ∧ c = (P.desBlock e d).val

/-- `DESL(K, D)`: `DES(K[0..6], D) ‖ DES(K[7..13], D) ‖ DES(K[14..15] ‖ Z(5), D)`. -/
def isDesl (P : Prims) (k : List UInt8) (d : Bytes 8) (r : List UInt8) : Prop :=
  ∃ c1 c2 c3, isDes P (k.take 7) d c1 ∧ isDes P ((k.drop 7).take 7) d c2 ∧
    isDes P (k.drop 14 ++ [0, 0, 0, 0, 0]) d c3 ∧ r = c1 ++ c2 ++ c3

/-- Only ASCII characters. -/
def ascii (s : Str) : Prop := ∀ c ∈ s, c.toNat < 128

/-- The ASCII upper case of a text, one byte per character. -/
def asciiUpperBytes (s : Str) : List UInt8 := s.map fun c => UInt8.ofNat c.toUpper.toNat

/-- The 14-byte LM password: the first 14 characters in upper case, padded with zeros. -/
def lmPassword (s : Str) : List UInt8 :=
  asciiUpperBytes (s.take 14) ++ List.replicate (14 - s.length) 0

/-- `LMOWFv1`: two DES blocks of "KGS!@#$%". -/
def isLmHash (P : Prims) (pw14 : List UInt8) (h : List UInt8) : Prop :=
  ∃ (magic : Bytes 8) (c1 c2 : List UInt8), magic.val = "KGS!@#$%".toUTF8.data.toList ∧
    isDes P (pw14.take 7) magic c1 ∧ isDes P (pw14.drop 7) magic c2 ∧ h = c1 ++ c2

/-- The two seven-byte halves of a password, for LM hashing: the first 14 bytes of its UTF-8 form (the whole password if shorter),
    which must be whole characters, in upper case (padded with NULs if the password is shorter than 14 bytes) must take 14
    bytes, and byte 7 of that must be a character boundary. -/
def lmHalves (cm : CaseMap) (pw a b : Str) : Prop :=
  ∃ head tail pad, pw = head ++ tail ∧
    ((utf8Bytes pw).length < 14 ∧ tail = [] ∧ pad = List.replicate (14 - (utf8Bytes (cm.upper head)).length) '\x00' ∨
      (utf8Bytes head).length = 14 ∧ pad = []) ∧
    cm.upper head ++ pad = a ++ b ∧ (utf8Bytes a).length = 7 ∧ (utf8Bytes b).length = 7

/-- The passwords for which the LM hash is computed without a panic. -/
def lmComputable (cm : CaseMap) (pw : Str) : Prop := ∃ a b, lmHalves cm pw a b

/-- NTLMv1 (3.3.1): NT response, LM response, session base key.  Flag 19 is EXTENDED_SESSIONSECURITY; `noLm` is NoLMResponseNTLMv1. -/
def isNtlmv1 (P : Prims) (flags : Flags) (keyNt keyLm : Bytes 16) (server client : Bytes 8) (noLm : Bool)
    (nt lm sbk : List UInt8) : Prop :=
  sbk = (P.md4 keyNt.val).val ∧
  ((bit flags 19 ∧
      (∃ d : Bytes 8, d.val = (P.md5 (server.val ++ client.val)).val.take 8 ∧ isDesl P keyNt.val d nt) ∧
      lm = client.val ++ List.replicate 16 0) ∨
    (¬ bit flags 19 ∧ isDesl P keyNt.val server nt ∧
      ((noLm = true ∧ lm = nt) ∨ (noLm = false ∧ isDesl P keyLm.val server lm))))

/-- The NTLMv2 blob (3.3.2 `temp`). -/
def ntlmv2Temp (time : FileTime) (client : Bytes 8) (infos : List AvPair) : List UInt8 :=
  [1, 1] ++ List.replicate 6 0 ++ fileTimeBytes time ++ client.val ++ List.replicate 4 0 ++ avListBytes infos ++
    List.replicate 4 0

/-- The file time this crate takes from the clock: whole seconds since 1970, in microseconds. -/
def clockTime (clock : SystemTime) (t : FileTime) : Prop :=
  0 ≤ clock.secs ∧ (fileTimeValue t : Int) = clock.secs * 1000000

/-- The time an NTLMv2 response carries: the one given, otherwise the clock's. -/
def timeUsed (given : Option FileTime) (clock : SystemTime) (t : FileTime) : Prop :=
  given = some t ∨ (given = none ∧ clockTime clock t)

/-- KXKEY (3.4.5.1).  Flags: 19 EXTENDED_SESSIONSECURITY, 7 LM_KEY, 22 REQUEST_NON_NT_SESSION_KEY. -/
def isKxkey (P : Prims) (flags : Flags) (sbk : Bytes 16) (lmResponse : List UInt8) (lmowf : Bytes 16)
    (server : Bytes 8) (r : List UInt8) : Prop :=
  (bit flags 19 → r = (P.hmacMd5 sbk.val (server.val ++ lmResponse.take 8)).val) ∧
  (¬ bit flags 19 → bit flags 7 → ∃ (d : Bytes 8) (c1 c2 : List UInt8), d.val = lmResponse.take 8 ∧
    isDes P (lmowf.val.take 7) d c1 ∧
    isDes P ((lmowf.val.drop 7).take 1 ++ [0xBD, 0xBD, 0xBD, 0xBD, 0xBD, 0xBD]) d c2 ∧ r = c1 ++ c2) ∧
  (¬ bit flags 19 → ¬ bit flags 7 → bit flags 22 → r = lmowf.val.take 8 ++ List.replicate 8 0) ∧
  (¬ bit flags 19 → ¬ bit flags 7 → ¬ bit flags 22 → r = sbk.val)

/-- Was a key exchange negotiated?  KEY_EXCH (30) and SIGN (4) or SEAL (5). -/
def keyExchange (flags : Flags) : Prop := bit flags 30 ∧ (bit flags 4 ∨ bit flags 5)

/-- RC4K(key, data). -/
def rc4k (P : Prims) (key data : Bytes 16) : List UInt8 :=
  List.zipWith (· ^^^ ·) data.val (P.rc4Keystream key).val

end Ntlm.Spec
