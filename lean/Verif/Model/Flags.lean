import Verif.Model.Basic
/-
  messages/flags.rs (the `Debug` implementation, lines 289-550, is in Model/Debug.lean).
-/
namespace Ntlm

/-- messages/flags.rs:165-167 `struct Flags(pub u32)`. -/
structure Flags where
  bits : UInt32
  deriving DecidableEq, Repr

namespace Flags

/-! Bit indices, messages/flags.rs:18-163. -/

/-- messages/flags.rs:18 -/ def NTLMSSP_NEGOTIATE_56 : UInt32 := 31
/-- messages/flags.rs:23 -/ def NTLMSSP_NEGOTIATE_KEY_EXCH : UInt32 := 30
/-- messages/flags.rs:32 -/ def NTLMSSP_NEGOTIATE_128 : UInt32 := 29
/-- messages/flags.rs:35 -/ def R1 : UInt32 := 28
/-- messages/flags.rs:38 -/ def R2 : UInt32 := 27
/-- messages/flags.rs:41 -/ def R3 : UInt32 := 26
/-- messages/flags.rs:46 -/ def NTLMSSP_NEGOTIATE_VERSION : UInt32 := 25
/-- messages/flags.rs:49 -/ def R4 : UInt32 := 24
/-- messages/flags.rs:53 -/ def NTLMSSP_NEGOTIATE_TARGET_INFO : UInt32 := 23
/-- messages/flags.rs:56 -/ def NTLMSSP_REQUEST_NON_NT_SESSION_KEY : UInt32 := 22
/-- messages/flags.rs:59 -/ def R5 : UInt32 := 21
/-- messages/flags.rs:62 -/ def NTLMSSP_NEGOTIATE_IDENTIFY : UInt32 := 20
/-- messages/flags.rs:72 -/ def NTLMSSP_NEGOTIATE_EXTENDED_SESSIONSECURITY : UInt32 := 19
/-- messages/flags.rs:75 -/ def R6 : UInt32 := 18
/-- messages/flags.rs:81 -/ def NTLMSSP_TARGET_TYPE_SERVER : UInt32 := 17
/-- messages/flags.rs:87 -/ def NTLMSSP_TARGET_TYPE_DOMAIN : UInt32 := 16
/-- messages/flags.rs:95 -/ def NTLMSSP_NEGOTIATE_ALWAYS_SIGN : UInt32 := 15
/-- messages/flags.rs:98 -/ def R7 : UInt32 := 14
/-- messages/flags.rs:103 -/ def NTLMSSP_NEGOTIATE_OEM_WORKSTATION_SUPPLIED : UInt32 := 13
/-- messages/flags.rs:106 -/ def NTLMSSP_NEGOTIATE_OEM_DOMAIN_SUPPLIED : UInt32 := 12
/-- messages/flags.rs:109 -/ def NTLMSSP_ANONYMOUS : UInt32 := 11
/-- messages/flags.rs:112 -/ def R8 : UInt32 := 10
/-- messages/flags.rs:117 -/ def NTLMSSP_NEGOTIATE_NTLM : UInt32 := 9
/-- messages/flags.rs:120 -/ def R9 : UInt32 := 8
/-- messages/flags.rs:129 -/ def NTLMSSP_NEGOTIATE_LM_KEY : UInt32 := 7
/-- messages/flags.rs:134 -/ def NTLMSSP_NEGOTIATE_DATAGRAM : UInt32 := 6
/-- messages/flags.rs:141 -/ def NTLMSSP_NEGOTIATE_SEAL : UInt32 := 5
/-- messages/flags.rs:146 -/ def NTLMSSP_NEGOTIATE_SIGN : UInt32 := 4
/-- messages/flags.rs:149 -/ def R10 : UInt32 := 3
/-- messages/flags.rs:152 -/ def NTLMSSP_REQUEST_TARGET : UInt32 := 2
/-- messages/flags.rs:155 -/ def NTLM_NEGOTIATE_OEM : UInt32 := 1
/-- messages/flags.rs:163 -/ def NTLMSSP_NEGOTIATE_UNICODE : UInt32 := 0

/-- messages/flags.rs:169-173 `Default for Flags`. -/
def default : Flags := ⟨1 <<< NTLMSSP_NEGOTIATE_UNICODE⟩

/-- messages/flags.rs:192-195 `has_flag`.  `1 << bit` on `u32` uses `bit mod 32`, as a release build
    does; the debug assertion is in `hasFlagApi`. -/
def hasFlag (f : Flags) (bit : UInt32) : Bool := (f.bits &&& (1 <<< bit)) != 0

/-- messages/flags.rs:197-200 `set_flag`. -/
def setFlag (f : Flags) (bit : UInt32) : Flags := ⟨f.bits ||| (1 <<< bit)⟩

/-- messages/flags.rs:202-205 `clear_flag`. -/
def clearFlag (f : Flags) (bit : UInt32) : Flags := ⟨f.bits &&& ((0xffffffff : UInt32) &&& ~~~(1 <<< bit))⟩

/-- The public `has_flag` with its `debug_assert!(bit <= 31)` (messages/flags.rs:193).  All calls inside the crate
    use the constants above, for which the assertion holds; they use `hasFlag` directly. -/
def hasFlagApi (cfg : Cfg) (f : Flags) (bit : UInt32) : Except Panic Bool :=
  if cfg.debug && !(bit ≤ 31) then .error .debugAssert else .ok (f.hasFlag bit)

/-- The public `set_flag` with its `debug_assert!` (messages/flags.rs:198). -/
def setFlagApi (cfg : Cfg) (f : Flags) (bit : UInt32) : Except Panic Flags :=
  if cfg.debug && !(bit ≤ 31) then .error .debugAssert else .ok (f.setFlag bit)

/-- The public `clear_flag` with its `debug_assert!` (messages/flags.rs:203). -/
def clearFlagApi (cfg : Cfg) (f : Flags) (bit : UInt32) : Except Panic Flags :=
  if cfg.debug && !(bit ≤ 31) then .error .debugAssert else .ok (f.clearFlag bit)

/-- Value of `cfg(features = "strict")` as written in messages/flags.rs:212 ff.  The key that Cargo sets is
    `feature`, not `features`, so this condition is false in every build, whatever `Cfg.strict` is. -/
def cfgFeaturesStrict (_cfg : Cfg) : Bool := false

/-- messages/flags.rs:207-286, the body of `validate` as a function of the value of its `cfg` conditions; the `log::warn!`
    calls have no effect on the result. -/
def validateWith (strict : Bool) (flags : UInt32) : Bool :=
  let f : Flags := ⟨flags⟩
  if f.hasFlag R1 && strict then false
  else if f.hasFlag R2 && strict then false
  else if f.hasFlag R3 && strict then false
  else if f.hasFlag R4 && strict then false
  else if f.hasFlag R5 && strict then false
  else if f.hasFlag R6 && strict then false
  else if f.hasFlag R7 && strict then false
  else if f.hasFlag R8 && strict then false
  else if f.hasFlag R9 && strict then false
  else if f.hasFlag R10 && strict then false
  else if (f.hasFlag NTLMSSP_TARGET_TYPE_DOMAIN && f.hasFlag NTLMSSP_TARGET_TYPE_SERVER)
      && strict then false
  else if (!f.hasFlag NTLMSSP_NEGOTIATE_UNICODE && !f.hasFlag NTLM_NEGOTIATE_OEM)
      && strict then false
  else if (f.hasFlag NTLMSSP_NEGOTIATE_EXTENDED_SESSIONSECURITY && f.hasFlag NTLMSSP_NEGOTIATE_LM_KEY)
      && strict then false
  else true

/-- messages/flags.rs:207-286 `validate`. -/
def validate (cfg : Cfg) (flags : UInt32) : Bool := validateWith (cfgFeaturesStrict cfg) flags

end Flags

/-- messages/flags.rs:175-189. -/
instance : Wire Flags where
  serializeInto _ f := writeU32 f.bits
  deserialize cfg := pmap (verify leU32 (Flags.validate cfg)) Flags.mk

end Ntlm
