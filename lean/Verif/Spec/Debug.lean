import Verif.Spec.Builders
/-
  What the debugging output of flag words and buffers should be.
-/
namespace Ntlm.Spec

/-- The names of the flags, MS-NLMP 2.2.2.5, from bit 0 to bit 31. -/
def flagNames : List String :=
  ["NTLMSSP_NEGOTIATE_UNICODE", "NTLM_NEGOTIATE_OEM", "NTLMSSP_REQUEST_TARGET", "R10", "NTLMSSP_NEGOTIATE_SIGN",
   "NTLMSSP_NEGOTIATE_SEAL", "NTLMSSP_NEGOTIATE_DATAGRAM", "NTLMSSP_NEGOTIATE_LM_KEY", "R9", "NTLMSSP_NEGOTIATE_NTLM",
   "R8", "NTLMSSP_ANONYMOUS", "NTLMSSP_NEGOTIATE_OEM_DOMAIN_SUPPLIED", "NTLMSSP_NEGOTIATE_OEM_WORKSTATION_SUPPLIED",
   "R7", "NTLMSSP_NEGOTIATE_ALWAYS_SIGN", "NTLMSSP_TARGET_TYPE_DOMAIN", "NTLMSSP_TARGET_TYPE_SERVER", "R6",
   "NTLMSSP_NEGOTIATE_EXTENDED_SESSIONSECURITY", "NTLMSSP_NEGOTIATE_IDENTIFY", "R5",
   "NTLMSSP_REQUEST_NON_NT_SESSION_KEY", "NTLMSSP_NEGOTIATE_TARGET_INFO", "R4", "NTLMSSP_NEGOTIATE_VERSION", "R3",
   "R2", "R1", "NTLMSSP_NEGOTIATE_128", "NTLMSSP_NEGOTIATE_KEY_EXCH", "NTLMSSP_NEGOTIATE_56"]

/-- The name of flag `k`. -/
def flagName (k : Nat) : Str := (flagNames.getD k "").toList

/-- The pieces of a text between vertical bars. -/
def pieces : Str → List Str
  | [] => [[]]
  | c :: s =>
    if c = '|' then [] :: pieces s
    else match pieces s with
      | [] => [[c]]
      | p :: ps => (c :: p) :: ps

/-- The value of a hexadecimal digit. -/
def hexValue (c : Char) : Option Nat :=
  "0123456789abcdef".toList.findIdx? (· == c)

/-- `s` is the lower-case hexadecimal dump of the bytes `b`: two digits per byte, the high one first. -/
def isHexDump (s : Str) (b : List UInt8) : Prop :=
  s.length = 2 * b.length ∧
  ∀ i (h : i < b.length), ∃ x y, (s[2 * i]?).bind hexValue = some x ∧ (s[2 * i + 1]?).bind hexValue = some y ∧
    b[i].toNat = 16 * x + y

end Ntlm.Spec
