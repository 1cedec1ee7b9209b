import Verif.Model.Flags
import Verif.Model.Text
/-
  The `Debug` implementations written by hand: messages/flags.rs:289-550, messages/structures.rs:52-59.  `fmt::Formatter` is
  a string being appended to; write errors of the formatter are not modelled.
-/
namespace Ntlm

/-- messages/flags.rs:292-547: the 32 blocks of `Debug for Flags`, in the order of the code: the flag tested and the name
    written. -/
def Flags.debugTable : List (UInt32 × Str) :=
  [(Flags.NTLMSSP_NEGOTIATE_56, "NTLMSSP_NEGOTIATE_56".toList),
   (Flags.NTLMSSP_NEGOTIATE_KEY_EXCH, "NTLMSSP_NEGOTIATE_KEY_EXCH".toList),
   (Flags.NTLMSSP_NEGOTIATE_128, "NTLMSSP_NEGOTIATE_128".toList),
   (Flags.R1, "R1".toList),
   (Flags.R2, "R2".toList),
   (Flags.R3, "R3".toList),
   (Flags.NTLMSSP_NEGOTIATE_VERSION, "NTLMSSP_NEGOTIATE_VERSION".toList),
   (Flags.R4, "R4".toList),
   (Flags.NTLMSSP_NEGOTIATE_TARGET_INFO, "NTLMSSP_NEGOTIATE_TARGET_INFO".toList),
   (Flags.NTLMSSP_REQUEST_NON_NT_SESSION_KEY, "NTLMSSP_REQUEST_NON_NT_SESSION_KEY".toList),
   (Flags.R5, "R5".toList),
   (Flags.NTLMSSP_NEGOTIATE_IDENTIFY, "NTLMSSP_NEGOTIATE_IDENTIFY".toList),
   (Flags.NTLMSSP_NEGOTIATE_EXTENDED_SESSIONSECURITY, "NTLMSSP_NEGOTIATE_EXTENDED_SESSIONSECURITY".toList),
   (Flags.R6, "R6".toList),
   (Flags.NTLMSSP_TARGET_TYPE_SERVER, "NTLMSSP_TARGET_TYPE_SERVER".toList),
   (Flags.NTLMSSP_TARGET_TYPE_DOMAIN, "NTLMSSP_TARGET_TYPE_DOMAIN".toList),
   (Flags.NTLMSSP_NEGOTIATE_ALWAYS_SIGN, "NTLMSSP_NEGOTIATE_ALWAYS_SIGN".toList),
   (Flags.R7, "R7".toList),
   (Flags.NTLMSSP_NEGOTIATE_OEM_WORKSTATION_SUPPLIED, "NTLMSSP_NEGOTIATE_OEM_WORKSTATION_SUPPLIED".toList),
   (Flags.NTLMSSP_NEGOTIATE_OEM_DOMAIN_SUPPLIED, "NTLMSSP_NEGOTIATE_OEM_DOMAIN_SUPPLIED".toList),
   (Flags.NTLMSSP_ANONYMOUS, "NTLMSSP_ANONYMOUS".toList),
   (Flags.R8, "R8".toList),
   (Flags.NTLMSSP_NEGOTIATE_NTLM, "NTLMSSP_NEGOTIATE_NTLM".toList),
   (Flags.R9, "R9".toList),
   (Flags.NTLMSSP_NEGOTIATE_LM_KEY, "NTLMSSP_NEGOTIATE_LM_KEY".toList),
   (Flags.NTLMSSP_NEGOTIATE_DATAGRAM, "NTLMSSP_NEGOTIATE_DATAGRAM".toList),
   (Flags.NTLMSSP_NEGOTIATE_SEAL, "NTLMSSP_NEGOTIATE_SEAL".toList),
   (Flags.NTLMSSP_NEGOTIATE_SIGN, "NTLMSSP_NEGOTIATE_SIGN".toList),
   (Flags.R10, "R10".toList),
   (Flags.NTLMSSP_REQUEST_TARGET, "NTLMSSP_REQUEST_TARGET".toList),
   (Flags.NTLM_NEGOTIATE_OEM, "NTLM_NEGOTIATE_OEM".toList),
   (Flags.NTLMSSP_NEGOTIATE_UNICODE, "NTLMSSP_NEGOTIATE_UNICODE".toList)]

/-- One block, e.g. messages/flags.rs:292-299: the state is the variable `first` and the text written so far. -/
def Flags.debugBlock (f : Flags) (st : Bool × Str) (e : UInt32 × Str) : Bool × Str :=
  if f.hasFlag e.1 then
    if st.1 then (false, st.2 ++ e.2) else (false, st.2 ++ ('|' :: e.2))
  else st

/-- messages/flags.rs:289-550 `Debug for Flags`.  The last block does not assign `first`, which is not read again. -/
def Flags.debug (f : Flags) : Str := (Flags.debugTable.foldl f.debugBlock (true, [])).2

/-- One lower-case hexadecimal digit of `{:02x}`. -/
def hexDigit (n : Nat) : Char := if n < 10 then Char.ofNat (48 + n) else Char.ofNat (87 + n)

/-- `write!(f, "{:02x}", b)`. -/
def hexByte (b : UInt8) : Str := [hexDigit (b.toNat / 16), hexDigit (b.toNat % 16)]

/-- messages/structures.rs:52-59 `Debug` of the fixed-size buffers. -/
def Bytes.debug {n : Nat} (b : Bytes n) : Str := b.val.flatMap hexByte

end Ntlm
