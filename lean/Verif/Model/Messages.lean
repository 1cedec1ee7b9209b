import Verif.Model.Field
import Verif.Model.Crypto
/-
  messages/negotiate.rs, messages/challenge.rs, messages/authenticate.rs.
-/
namespace Ntlm

/-- Run a payload computation inside the message writer. -/
def W.ofExcept {α : Type} (x : Except Panic α) : W α := fun w =>
  match x with
  | .ok a => .ok (a, w)
  | .error e => .error e

/-! ### NEGOTIATE -/

/-- messages/negotiate.rs:17-23. -/
structure Negotiate where
  negotiateFlags : Flags
  domainName : Option OEMString
  workstation : Option OEMString
  version : Option Version
  deriving DecidableEq, Repr

namespace Negotiate

/-- messages/negotiate.rs:17 `#[derive(Default)]`. -/
def default : Negotiate :=
  { negotiateFlags := Flags.default, domainName := none, workstation := none, version := none }

/-- messages/negotiate.rs:26-36. -/
def setDomainName (m : Negotiate) (d : Option Str) : Negotiate :=
  let m := { m with domainName := d.map OEMString.mk }
  if m.domainName.isSome then
    { m with negotiateFlags := m.negotiateFlags.setFlag Flags.NTLMSSP_NEGOTIATE_OEM_DOMAIN_SUPPLIED }
  else
    { m with negotiateFlags := m.negotiateFlags.clearFlag Flags.NTLMSSP_NEGOTIATE_OEM_DOMAIN_SUPPLIED }

/-- messages/negotiate.rs:38-40. -/
def getDomainName (m : Negotiate) : Option Str := m.domainName.map (·.s)

/-- messages/negotiate.rs:42-52. -/
def setWorkstation (m : Negotiate) (w : Option Str) : Negotiate :=
  let m := { m with workstation := w.map OEMString.mk }
  if m.workstation.isSome then
    { m with negotiateFlags := m.negotiateFlags.setFlag Flags.NTLMSSP_NEGOTIATE_OEM_WORKSTATION_SUPPLIED }
  else
    { m with negotiateFlags := m.negotiateFlags.clearFlag Flags.NTLMSSP_NEGOTIATE_OEM_WORKSTATION_SUPPLIED }

/-- messages/negotiate.rs:54-56. -/
def getWorkstation (m : Negotiate) : Option Str := m.workstation.map (·.s)

/-- messages/negotiate.rs:60-87 `serialize_into` (`MESSAGE_TYPE = 1`, `PAYLOAD_OFFSET = 32`). -/
def serializeInto (cfg : Cfg) (m : Negotiate) : W Nat := do
  let payload ← W.ofExcept (pushVersion cfg m.version (List.replicate 32 0))
  writeAll signature
  let written := signature.length
  let a ← writeU32 0x00000001
  let b ← Wire.serializeInto cfg m.negotiateFlags
  let (c, payload) ← Field.append cfg m.domainName payload
  let (d, payload) ← Field.append cfg m.workstation payload
  let written := written + a + b + c + d
  if written != 32 then W.panic .headerAssert
  else
    writeAll (payload.drop 32)
    return written + (payload.drop 32).length

/-- messages/negotiate.rs:93-103: the fixed header. -/
def header (cfg : Cfg) : Parser (Flags × Field × Field) := do
  tag signature
  let _ ← verify leU32 (fun mt => mt == 0x00000001)
  let negotiateFlags ← (Wire.deserialize cfg : Parser Flags)
  let domainNameField ← (Wire.deserialize cfg : Parser Field)
  let workstationField ← (Wire.deserialize cfg : Parser Field)
  return (negotiateFlags, domainNameField, workstationField)

/-- messages/negotiate.rs:89-130 `deserialize`. -/
def deserialize (cfg : Cfg) : Parser Negotiate := fun input =>
  match header cfg input with
  | .error e => .error e
  | .ok ((negotiateFlags, domainNameField, workstationField), rest) =>
    match cond (negotiateFlags.hasFlag Flags.NTLMSSP_NEGOTIATE_VERSION)
        (Wire.deserialize cfg : Parser Version) rest with
    | .error e => .error e
    | .ok (version, _) =>
      match domainNameField.getDataIf cfg input
          (negotiateFlags.hasFlag Flags.NTLMSSP_NEGOTIATE_OEM_DOMAIN_SUPPLIED || true) with
      | .error e => .error e
      | .ok domainName =>
        match workstationField.getDataIf cfg input
            (negotiateFlags.hasFlag Flags.NTLMSSP_NEGOTIATE_OEM_WORKSTATION_SUPPLIED || true) with
        | .error e => .error e
        | .ok workstation => .ok ({ negotiateFlags, domainName, workstation, version }, [])

end Negotiate

/-- messages/negotiate.rs:59-131. -/
instance : Wire Negotiate where
  serializeInto := Negotiate.serializeInto
  deserialize := Negotiate.deserialize

/-! ### CHALLENGE -/

/-- messages/challenge.rs:19-26. -/
structure Challenge where
  targetName : Option UnicodeString
  negotiateFlags : Flags
  serverChallenge : Bytes 8
  targetInfos : List AvPair
  version : Option Version
  deriving DecidableEq, Repr

namespace Challenge

/-- messages/challenge.rs:19 `#[derive(Default)]`. -/
def default : Challenge :=
  { targetName := none, negotiateFlags := Flags.default, serverChallenge := Bytes.zero 8,
    targetInfos := [], version := none }

/-- messages/challenge.rs:29-35, expanding messages.rs:5-13 (`set_target_name`). -/
def setTargetName (m : Challenge) (t : Option Str) : Challenge :=
  let m := { m with targetName := t.map UnicodeString.mk }
  if m.targetName.isSome then
    { m with negotiateFlags := m.negotiateFlags.setFlag Flags.NTLMSSP_REQUEST_TARGET }
  else
    { m with negotiateFlags := m.negotiateFlags.clearFlag Flags.NTLMSSP_REQUEST_TARGET }

/-- messages/challenge.rs:29-35, expanding messages.rs:14-16 (`get_target_name`). -/
def getTargetName (m : Challenge) : Option Str := m.targetName.map (·.s)

/-- messages/challenge.rs:37-47.  `Vec::insert(len - 1, info)`. -/
def addTargetInfo (m : Challenge) (info : AvPair) : Challenge :=
  if m.targetInfos.isEmpty then
    { m with
      targetInfos := [info, .eol]
      negotiateFlags := m.negotiateFlags.setFlag Flags.NTLMSSP_NEGOTIATE_TARGET_INFO }
  else
    let index := m.targetInfos.length - 1
    { m with targetInfos := m.targetInfos.take index ++ info :: m.targetInfos.drop index }

/-- messages/challenge.rs:49-52. -/
def addComputername (m : Challenge) (s : Str) : Challenge := m.addTargetInfo (.nbComputerName s)
/-- messages/challenge.rs:54-57. -/
def addDomainname (m : Challenge) (s : Str) : Challenge := m.addTargetInfo (.nbDomainName s)
/-- messages/challenge.rs:59-65. -/
def addDnscomputername (m : Challenge) (s : Str) : Challenge := m.addTargetInfo (.dnsComputerName s)
/-- messages/challenge.rs:67-73. -/
def addDnsdomainname (m : Challenge) (s : Str) : Challenge := m.addTargetInfo (.dnsDomainName s)
/-- messages/challenge.rs:75-78. -/
def addDnstreename (m : Challenge) (s : Str) : Challenge := m.addTargetInfo (.dnsTreeName s)
/-- messages/challenge.rs:80-83. -/
def addFlags (m : Challenge) (f : MsvAvFlags) : Challenge := m.addTargetInfo (.flags f)
/-- messages/challenge.rs:85-88. -/
def addTimestamp (m : Challenge) (t : FileTime) : Challenge := m.addTargetInfo (.timestamp t)
/-- messages/challenge.rs:90-93. -/
def addSinglehost (m : Challenge) (d : SingleHostData) : Challenge := m.addTargetInfo (.singleHost d)
/-- messages/challenge.rs:95-98. -/
def addTargetname (m : Challenge) (s : Str) : Challenge := m.addTargetInfo (.targetName s)
/-- messages/challenge.rs:100-103. -/
def addChannelbindings (m : Challenge) (h : Bytes 16) : Challenge := m.addTargetInfo (.channelBindings h)

/-- messages/challenge.rs:105-118.  `env` is the process environment (`std::env::var(..).ok()`). -/
def fillFromEnv (cm : CaseMap) (env : String → Option Str) (m : Challenge) : Challenge :=
  let m := match env "COMPUTERNAME" with
    | some s => m.addComputername (cm.upper s)
    | none => m
  let m := match env "COMPUTERDNSNAME" with
    | some s => m.addDnscomputername s
    | none => m
  let m := match env "USERDOMAIN" with
    | some s => m.addDomainname (cm.upper s)
    | none => m
  match env "USERDNSDOMAIN" with
    | some s => m.addDnsdomainname s
    | none => m

/-- messages/challenge.rs:120-122. -/
def getTargetInfos (m : Challenge) : List AvPair := m.targetInfos

/-- messages/challenge.rs:126-154 `serialize_into` (`MESSAGE_TYPE = 2`, `PAYLOAD_OFFSET = 48`). -/
def serializeInto (cfg : Cfg) (m : Challenge) : W Nat := do
  let payload ← W.ofExcept (pushVersion cfg m.version (List.replicate 48 0))
  writeAll signature
  let written := signature.length
  let a ← writeU32 0x00000002
  let (b, payload) ← Field.append cfg m.targetName payload
  let c ← Wire.serializeInto cfg m.negotiateFlags
  let d ← Wire.serializeInto cfg m.serverChallenge
  let e ← writeU64 0
  let (f, payload) ← Field.appendMany cfg m.targetInfos payload
  let written := written + a + b + c + d + e + f
  if written != 48 then W.panic .headerAssert
  else
    writeAll (payload.drop 48)
    return written + (payload.drop 48).length

/-- messages/challenge.rs:160-163: the reserved 64-bit word, checked only with feature `strict`. -/
def parseReserved (cfg : Cfg) : Parser UInt64 :=
  if cfg.strict then verify leU64 (fun reserved => reserved == 0) else leU64

/-- messages/challenge.rs:164-179: the fixed header. -/
def header (cfg : Cfg) : Parser (Field × Flags × Bytes 8 × Field) := do
  tag signature
  let _ ← verify leU32 (fun mt => mt == 0x00000002)
  let targetNameField ← (Wire.deserialize cfg : Parser Field)
  let negotiateFlags ← (Wire.deserialize cfg : Parser Flags)
  let serverChallenge ← (Wire.deserialize cfg : Parser (Bytes 8))
  let _reserved ← parseReserved cfg
  let targetInfosField ← (Wire.deserialize cfg : Parser Field)
  return (targetNameField, negotiateFlags, serverChallenge, targetInfosField)

/-- messages/challenge.rs:192-201: is the list empty or terminated by the end-of-list pair?  (The slice at line 194
    is the one already taken successfully at line 190.) -/
def lastIsEol (infos : List AvPair) : Bool :=
  match infos.getLast? with
  | some .eol => true
  | some _ => false
  | none => true

/-- messages/challenge.rs:156-213 `deserialize`. -/
def deserialize (cfg : Cfg) : Parser Challenge := fun input =>
  match header cfg input with
  | .error e => .error e
  | .ok ((targetNameField, negotiateFlags, serverChallenge, targetInfosField), rest) =>
    match cond (negotiateFlags.hasFlag Flags.NTLMSSP_NEGOTIATE_VERSION)
        (Wire.deserialize cfg : Parser Version) rest with
    | .error e => .error e
    | .ok (version, _) =>
      match targetNameField.getDataIf cfg input
          (negotiateFlags.hasFlag Flags.NTLMSSP_REQUEST_TARGET || true) with
      | .error e => .error e
      | .ok targetName =>
        match targetInfosField.getManyIf cfg input true with
        | .error e => .error e
        | .ok targetInfos =>
          if lastIsEol targetInfos then
            .ok ({ targetName, negotiateFlags, serverChallenge, targetInfos, version }, [])
          else .error .error

end Challenge

/-- messages/challenge.rs:125-214. -/
instance : Wire Challenge where
  serializeInto := Challenge.serializeInto
  deserialize := Challenge.deserialize

/-! ### AUTHENTICATE -/

/-- messages/authenticate.rs:23-35. -/
structure Authenticate where
  lmChallengeResponse : Option LmChallenge
  ntChallengeResponse : Option NtChallenge
  domain : Option UnicodeString
  user : Option UnicodeString
  workstation : Option UnicodeString
  encryptedRandomSessionKey : Option (Bytes 16)
  negotiateFlags : Flags
  version : Option Version
  mic : Bytes 16
  exportedSessionKey : Option (Bytes 16)
  deriving DecidableEq, Repr

namespace Authenticate

/-- messages/authenticate.rs:23 `#[derive(Default)]`. -/
def default : Authenticate :=
  { lmChallengeResponse := none, ntChallengeResponse := none, domain := none, user := none,
    workstation := none, encryptedRandomSessionKey := none, negotiateFlags := Flags.default,
    version := none, mic := Bytes.zero 16, exportedSessionKey := none }

/-- messages/authenticate.rs:38-51. -/
def setEncryptedRandomSessionKey (m : Authenticate) (k : Option (Bytes 16)) : Authenticate :=
  let m := { m with encryptedRandomSessionKey := k }
  if m.encryptedRandomSessionKey.isSome then
    { m with negotiateFlags := m.negotiateFlags.setFlag Flags.NTLMSSP_NEGOTIATE_KEY_EXCH }
  else
    { m with negotiateFlags := m.negotiateFlags.clearFlag Flags.NTLMSSP_NEGOTIATE_KEY_EXCH }

/-- messages/authenticate.rs:53-55. -/
def getEncryptedRandomSessionKey (m : Authenticate) : Option (Bytes 16) := m.encryptedRandomSessionKey

/-- messages/authenticate.rs:72-107 `serialize_into` (`MESSAGE_TYPE = 3`, `PAYLOAD_OFFSET = 64`). -/
def serializeInto (cfg : Cfg) (m : Authenticate) : W Nat := do
  let payload ← W.ofExcept (pushVersion cfg m.version (List.replicate 64 0))
  let payload := payload ++ m.mic.val
  writeAll signature
  let written := signature.length
  let a ← writeU32 0x00000003
  let (b, payload) ← Field.append cfg m.lmChallengeResponse payload
  let (c, payload) ← Field.append cfg m.ntChallengeResponse payload
  let (d, payload) ← Field.append cfg m.domain payload
  let (e, payload) ← Field.append cfg m.user payload
  let (f, payload) ← Field.append cfg m.workstation payload
  let (g, payload) ← Field.append cfg m.encryptedRandomSessionKey payload
  let h ← Wire.serializeInto cfg m.negotiateFlags
  let written := written + a + b + c + d + e + f + g + h
  if written != 64 then W.panic .headerAssert
  else
    writeAll (payload.drop 64)
    return written + (payload.drop 64).length

/-- The fixed header as read by messages/authenticate.rs:113-138. -/
structure Header where
  lm : Field
  nt : Field
  domain : Field
  user : Field
  workstation : Field
  ersk : Field
  flags : Flags
  deriving DecidableEq, Repr

/-- messages/authenticate.rs:113-138. -/
def header (cfg : Cfg) : Parser Header := do
  tag signature
  let _ ← verify leU32 (fun mt => mt == 0x00000003)
  let lm ← (Wire.deserialize cfg : Parser Field)
  let nt ← (Wire.deserialize cfg : Parser Field)
  let domain ← (Wire.deserialize cfg : Parser Field)
  let user ← (Wire.deserialize cfg : Parser Field)
  let workstation ← (Wire.deserialize cfg : Parser Field)
  let ersk ← (Wire.deserialize cfg : Parser Field)
  let flags ← (Wire.deserialize cfg : Parser Flags)
  return { lm, nt, domain, user, workstation, ersk, flags }

/-- `result.ok().flatten()` (messages/authenticate.rs:148-149, :154-155): parse errors become `None`, panics stay panics. -/
def okFlatten {α : Type} (r : Except PErr (Option α)) : Except PErr (Option α) :=
  match r with
  | .ok x => .ok x
  | .error (.panic p) => .error (.panic p)
  | .error _ => .ok none

/-- messages/authenticate.rs:145-157. -/
def lmResponse (cfg : Cfg) (h : Header) (input : List UInt8) : Except PErr (Option LmChallenge) :=
  if h.flags.hasFlag Flags.NTLMSSP_NEGOTIATE_NTLM then
    match okFlatten (h.lm.getDataIf cfg input true : Except PErr (Option Lmv1Challenge)) with
    | .ok c => .ok (c.map .v1)
    | .error e => .error e
  else
    match okFlatten (h.lm.getDataIf cfg input true : Except PErr (Option Lmv2Challenge)) with
    | .ok c => .ok (c.map .v2)
    | .error e => .error e

/-- messages/authenticate.rs:145-183: everything after version and MIC. -/
def body (cfg : Cfg) (h : Header) (version : Option Version) (mic : Bytes 16) (input : List UInt8) :
    Except PErr Authenticate := do
  let lmChallengeResponse ← lmResponse cfg h input
  let ntChallengeResponse ← h.nt.getDataIf cfg input true
  let domain ← h.domain.getDataIf cfg input true
  let user ← h.user.getDataIf cfg input true
  let workstation ← h.workstation.getDataIf cfg input true
  let encryptedRandomSessionKey ←
    h.ersk.getDataIf cfg input (h.flags.hasFlag Flags.NTLMSSP_NEGOTIATE_KEY_EXCH)
  return { lmChallengeResponse, ntChallengeResponse, domain, user, workstation,
           encryptedRandomSessionKey, negotiateFlags := h.flags, version, mic,
           exportedSessionKey := none }

/-- messages/authenticate.rs:109-184 `deserialize`. -/
def deserialize (cfg : Cfg) : Parser Authenticate := fun input =>
  match header cfg input with
  | .error e => .error e
  | .ok (h, rest) =>
    match cond (h.flags.hasFlag Flags.NTLMSSP_NEGOTIATE_VERSION)
        (Wire.deserialize cfg : Parser Version) rest with
    | .error e => .error e
    | .ok (version, rest) =>
      match (Wire.deserialize cfg : Parser (Bytes 16)) rest with
      | .error e => .error e
      | .ok (mic, _) =>
        match body cfg h version mic input with
        | .error e => .error e
        | .ok m => .ok (m, [])

end Authenticate

/-- messages/authenticate.rs:71-185. -/
instance : Wire Authenticate where
  serializeInto := Authenticate.serializeInto
  deserialize := Authenticate.deserialize

/-- messages/authenticate.rs:57-68 `compute_mic`. -/
def Authenticate.computeMic (P : Prims) (cfg : Cfg) (m : Authenticate) (neg : Negotiate) (chal : Challenge) :
    Except Panic Authenticate :=
  match m.exportedSessionKey with
  | some key =>
    let m := { m with mic := Bytes.zero 16 }
    match (do
      let _ ← Wire.serializeInto cfg neg
      let _ ← Wire.serializeInto cfg chal
      let _ ← Wire.serializeInto cfg m : W Unit) [] with
    | .ok (_, buffer) => .ok { m with mic := P.hmacMd5 key.val buffer }
    | .error e => .error e
  | none => .ok m

/-- messages/authenticate.rs:57-68 `compute_mic` again, with the message it leaves behind: `&mut self` is still there if the call panics
    (the caller may catch the panic), and line 60 has then already cleared the MIC. -/
def Authenticate.computeMicEffect (P : Prims) (cfg : Cfg) (m : Authenticate) (neg : Negotiate) (chal : Challenge) :
    Authenticate × Except Panic Unit :=
  match m.exportedSessionKey with
  | some key =>
    let m := { m with mic := Bytes.zero 16 }
    match Wire.serializeInto cfg neg [] with
    | .error e => (m, .error e)
    | .ok (_, buffer) =>
      match Wire.serializeInto cfg chal buffer with
      | .error e => (m, .error e)
      | .ok (_, buffer) =>
        match Wire.serializeInto cfg m buffer with
        | .error e => (m, .error e)
        | .ok (_, buffer) => ({ m with mic := P.hmacMd5 key.val buffer }, .ok ())
  | none => (m, .ok ())

end Ntlm
