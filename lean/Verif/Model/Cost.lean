import Verif.Model.Messages
/-
  The decoders together with the work they do.  One unit of work is a call of a `nom` combinator or a look at one byte of the
  input; copying a byte, checking it as UTF-8 and appending it to a `Vec` or `String` (amortised) are one unit each.  Building
  error values and writing log lines are left out: both are a bounded number of constant steps per decoder.
-/
namespace Ntlm

namespace Cost

/-- A decoder with the work it does. -/
def CP (α : Type) := List UInt8 → Nat × Except PErr (α × List UInt8)

/-- Sequencing (`tuple`, `preceded`, `?`): the work adds up; nothing is done after an error. -/
instance : Monad CP where
  pure a := fun i => (0, .ok (a, i))
  bind p f := fun i => match p i with
    | (n, .ok (a, i')) => (n + (f a i').1, (f a i').2)
    | (n, .error e) => (n, .error e)

/-! ### `nom` combinators -/

/-- `take(n)` copied into a `[u8; n]` (messages/structures.rs:38-49): every byte is copied. -/
def takeBytes (n : Nat) : CP (Bytes n) := fun i =>
  if h : i.length < n then (1, .error .error)
  else (1 + n, .ok (⟨i.take n, by simp only [List.length_take]; omega⟩, i.drop n))

/-- `nom::bytes::complete::tag(t)`. -/
def tag (t : List UInt8) : CP Unit := fun i =>
  if i.take t.length = t then (1 + t.length, .ok ((), i.drop t.length)) else (1 + t.length, .error .error)

/-- `nom::number::complete::le_u*`. -/
def leNat (k : Nat) : CP Nat := fun i =>
  if i.length < k then (1, .error .error) else (1 + k, .ok (leVal (i.take k), i.drop k))

/-- `le_u8`. -/
def leU8 : CP UInt8 := do return UInt8.ofNat (← leNat 1)
/-- `le_u16`. -/
def leU16 : CP UInt16 := do return UInt16.ofNat (← leNat 2)
/-- `le_u24`. -/
def leU24 : CP UInt32 := do return UInt32.ofNat (← leNat 3)
/-- `le_u32`. -/
def leU32 : CP UInt32 := do return UInt32.ofNat (← leNat 4)
/-- `le_u64`. -/
def leU64 : CP UInt64 := do return UInt64.ofNat (← leNat 8)

/-- `nom::combinator::verify`. -/
def verify {α : Type} (p : CP α) (ok : α → Bool) : CP α := fun i =>
  match p i with
  | (n, .ok (a, r)) => if ok a then (n + 1, .ok (a, r)) else (n + 1, .error .error)
  | (n, .error e) => (n + 1, .error e)

/-- `nom::combinator::map_opt`; `work` is what the function does. -/
def mapOpt {α β : Type} (p : CP α) (f : α → Option β) (work : α → Nat) : CP β := fun i =>
  match p i with
  | (n, .ok (a, r)) => match f a with
    | some b => (n + 1 + work a, .ok (b, r))
    | none => (n + 1 + work a, .error .error)
  | (n, .error e) => (n + 1, .error e)

/-- `nom::combinator::map`. -/
def pmap {α β : Type} (p : CP α) (f : α → β) : CP β := fun i =>
  match p i with
  | (n, .ok (a, r)) => (n + 1, .ok (f a, r))
  | (n, .error e) => (n + 1, .error e)

/-- `nom::combinator::cond`. -/
def cond {α : Type} (b : Bool) (p : CP α) : CP (Option α) :=
  if b then pmap p some else pure none

/-- `nom::combinator::rest`. -/
def rest : CP (List UInt8) := fun i => (1, .ok (i, []))

/-- `nom::branch::alt` with two alternatives: if the first fails its work has been done all the same. -/
def alt {α : Type} (p q : CP α) : CP α := fun i =>
  match p i with
  | (n, .error .error) => (n + 1 + (q i).1, (q i).2)
  | (n, r) => (n + 1, r)

/-- `nom::multi::length_data` (nom 7): the bytes are not looked at. -/
def lengthData (p : CP UInt16) : CP (List UInt8) := fun i =>
  match p i with
  | (w, .ok (n, r)) =>
    if r.length < n.toNat then (w + 1, .error .incomplete) else (w + 1, .ok (r.take n.toNat, r.drop n.toNat))
  | (w, .error e) => (w + 1, .error e)

/-- Loop of `many0`, with fuel; each round is a call of the element parser and a `push`. -/
def many0Aux {α : Type} (p : CP α) : Nat → CP (List α)
  | 0, _ => (0, .error .error)
  | fuel + 1, i =>
    match p i with
    | (n, .error .error) => (n + 1, .ok ([], i))
    | (n, .error e) => (n + 1, .error e)
    | (n, .ok (a, r)) =>
      if r.length < i.length then
        match many0Aux p fuel r with
        | (m, .ok (as, r')) => (n + 1 + m, .ok (a :: as, r'))
        | (m, .error e) => (n + 1 + m, .error e)
      else (n + 1, .error .error)

/-- `nom::multi::many0`, `fold_many0`. -/
def many0 {α : Type} (p : CP α) : CP (List α) := fun i => many0Aux p (i.length + 1) i

/-! ### Structures -/

/-- messages/flags.rs:183-188, :207-286: thirteen conditions are looked at. -/
def flags (cfg : Cfg) : CP Flags := fun i =>
  let r := pmap (verify leU32 (Flags.validate cfg)) Flags.mk i
  (r.1 + 13, r.2)

/-- messages/unicode_string.rs:76-89: `from_utf8` and `to_owned` go over all bytes. -/
def oemString : CP OEMString := pmap (mapOpt rest fromUtf8 fun b => 2 * b.length) OEMString.mk

/-- messages/unicode_string.rs:104-128: `String::push` appends at most three bytes. -/
def unicodeString : CP UnicodeString := pmap (many0 (mapOpt leU16 decodeUnit fun _ => 3)) UnicodeString.mk

/-- structures/version.rs:38-65. -/
def version : CP Version := do
  let major ← leU8
  let minor ← leU8
  let build ← leU16
  let _reserved ← verify leU24 (fun r => r == 0)
  let revisionCount ← verify leU8 (fun rc => rc == NTLMSSP_REVISION_W2K3)
  return { major, minor, build, revisionCount }

/-- structures/filetime.rs:59-75. -/
def fileTime (cfg : Cfg) : CP FileTime := fun i =>
  match (do let low ← leU32; let high ← leU32; return ({ low, high } : FileTime) : CP FileTime) i with
  | (n, .ok (me, r)) => if (me.toSystemTime cfg).isNone then (n + 1, .error .error) else (n + 1, .ok (me, r))
  | (n, .error e) => (n, .error e)

/-- structures/single_host_data.rs:33-62. -/
def singleHostData : CP SingleHostData := do
  let size ← leU32
  let z4 ← verify leU32 (fun val => val == 0)
  let customData ← takeBytes 8
  let machineId ← takeBytes 32
  return { size, z4, customData, machineId }

/-- structures/signature.rs:31-54. -/
def messageSignature : CP MessageSignature := do
  let _version ← verify leU32 (fun v => v == 1)
  let randomPad ← takeBytes 4
  let checksum ← leU32
  let seqNum ← leU32
  return { randomPad, checksum, seqNum }

/-- structures/avid.rs:43-64: at most eleven values are compared with. -/
def avId : CP AvId := mapOpt leU16 AvId.ofU16 fun _ => 11

/-- structures/avid.rs:96-114. -/
def msvAvFlags : CP MsvAvFlags := do
  let flags ← verify leU32 (fun f => f &&& ~~~(0x7 : UInt32) == 0)
  return { accountAuthenticationConstrained := flags &&& 0x00000001 != 0
           micPresent := flags &&& 0x00000002 != 0
           generatedSpnFromUntrustedSource := flags &&& 0x00000004 != 0 }

/-- structures/avid.rs:242-246 and the similar arms. -/
def avValue {α : Type} (cfg : Cfg) (p : CP α) (mk : α → AvPair) (data after : List UInt8) :
    Nat × Except PErr (AvPair × List UInt8) :=
  match p data with
  | (n, .ok (a, r)) =>
    if cfg.debug && r.length != 0 then (n + 1, .error (.panic .debugAssert)) else (n + 1, .ok (mk a, after))
  | (n, .error e) => (n, .error e)

/-- structures/avid.rs:232-294. -/
def avPairValue (cfg : Cfg) (id : AvId) (data after : List UInt8) : Nat × Except PErr (AvPair × List UInt8) :=
  match id with
  | .eol => if !data.isEmpty then (1, .error .error) else (1, .ok (.eol, after))
  | .nbComputerName => avValue cfg unicodeString (fun u => .nbComputerName u.s) data after
  | .nbDomainName => avValue cfg unicodeString (fun u => .nbDomainName u.s) data after
  | .dnsComputerName => avValue cfg unicodeString (fun u => .dnsComputerName u.s) data after
  | .dnsDomainName => avValue cfg unicodeString (fun u => .dnsDomainName u.s) data after
  | .dnsTreeName => avValue cfg unicodeString (fun u => .dnsTreeName u.s) data after
  | .flags => avValue cfg msvAvFlags .flags data after
  | .timestamp => avValue cfg (fileTime cfg) .timestamp data after
  | .singleHost => avValue cfg singleHostData .singleHost data after
  | .targetName => avValue cfg unicodeString (fun u => .targetName u.s) data after
  | .channelBindings => avValue cfg (takeBytes 16) .channelBindings data after

/-- structures/avid.rs:226-295. -/
def avPair (cfg : Cfg) : CP AvPair := do
  let id ← avId
  let data ← lengthData leU16
  fun after => avPairValue cfg id data after

/-- structures/lm_challenge.rs:29-35. -/
def lmv1 : CP Lmv1Challenge := do
  let response ← takeBytes 24
  return { response }

/-- structures/lm_challenge.rs:81-98. -/
def lmv2 : CP Lmv2Challenge := do
  let response ← takeBytes 16
  let challengeFromClient ← takeBytes 8
  return { response, challengeFromClient }

/-- structures/nt_challenge.rs:28-34. -/
def ntv1 : CP Ntv1Challenge := do
  let response ← takeBytes 24
  return { response }

/-- structures/nt_challenge.rs:68-98. -/
def ntv2 (cfg : Cfg) : CP Ntv2Challenge := do
  let _respType ← verify leU8 (fun b => b == 1)
  let _hiRespType ← verify leU8 (fun b => b == 1)
  let _reserved1 ← verify leU16 (fun b => b == 0)
  let _reserved2 ← verify leU32 (fun b => b == 0)
  let timestamp ← fileTime cfg
  let challengeFromClient ← takeBytes 8
  let _reserved3 ← verify leU32 (fun b => b == 0)
  let targetInfos ← many0 (avPair cfg)
  return { timestamp, challengeFromClient, targetInfos }

/-- structures/nt_challenge.rs:136-144. -/
def ntChallenge (cfg : Cfg) : CP NtChallenge :=
  alt (pmap (ntv2 cfg) .v2) (pmap ntv1 .v1)

/-! ### Fields -/

/-- messages/field.rs:33-48. -/
def field : CP Field := do
  let len ← leU16
  let maxLen ← leU16
  let offset ← leU32
  return { len, maxLen, offset }

/-- messages/field.rs:58-88 `get_data_if`: taking the slice is one unit. -/
def getDataIf {α : Type} (p : CP α) (f : Field) (input : List UInt8) (cond : Bool) : Nat × Except PErr (Option α) :=
  if cond then
    if f.len = 0 then (1, .ok none)
    else
      match f.slice input with
      | .error e => (1, .error e)
      | .ok data =>
        match p data with
        | (n, .ok (value, _)) => (n + 1, .ok (some value))
        | (n, .error e) => (n + 1, .error e)
  else (1, .ok none)

/-- messages/field.rs:90-119 `get_many_if`. -/
def getManyIf {α : Type} (p : CP α) (f : Field) (input : List UInt8) (cond : Bool) : Nat × Except PErr (List α) :=
  if cond then
    if f.len = 0 then (1, .ok [])
    else
      match f.slice input with
      | .error e => (1, .error e)
      | .ok data =>
        match many0 p data with
        | (n, .ok (value, _)) => (n + 1, .ok value)
        | (n, .error e) => (n + 1, .error e)
  else (1, .ok [])

/-! ### Messages -/

/-- messages/negotiate.rs:93-103. -/
def negotiateHeader (cfg : Cfg) : CP (Flags × Field × Field) := do
  tag signature
  let _ ← verify leU32 (fun mt => mt == 0x00000001)
  let negotiateFlags ← flags cfg
  let domainNameField ← field
  let workstationField ← field
  return (negotiateFlags, domainNameField, workstationField)

/-- messages/negotiate.rs:89-130. -/
def negotiate (cfg : Cfg) : CP Negotiate := fun input =>
  match negotiateHeader cfg input with
  | (n, .error e) => (n, .error e)
  | (n, .ok ((negotiateFlags, domainNameField, workstationField), rest)) =>
    match cond (negotiateFlags.hasFlag Flags.NTLMSSP_NEGOTIATE_VERSION) version rest with
    | (v, .error e) => (n + v, .error e)
    | (v, .ok (version, _)) =>
      match getDataIf oemString domainNameField input
          (negotiateFlags.hasFlag Flags.NTLMSSP_NEGOTIATE_OEM_DOMAIN_SUPPLIED || true) with
      | (d, .error e) => (n + v + d, .error e)
      | (d, .ok domainName) =>
        match getDataIf oemString workstationField input
            (negotiateFlags.hasFlag Flags.NTLMSSP_NEGOTIATE_OEM_WORKSTATION_SUPPLIED || true) with
        | (w, .error e) => (n + v + d + w, .error e)
        | (w, .ok workstation) => (n + v + d + w, .ok ({ negotiateFlags, domainName, workstation, version }, []))

/-- messages/challenge.rs:160-163. -/
def parseReserved (cfg : Cfg) : CP UInt64 :=
  if cfg.strict then verify leU64 (fun reserved => reserved == 0) else leU64

/-- messages/challenge.rs:164-179. -/
def challengeHeader (cfg : Cfg) : CP (Field × Flags × Bytes 8 × Field) := do
  tag signature
  let _ ← verify leU32 (fun mt => mt == 0x00000002)
  let targetNameField ← field
  let negotiateFlags ← flags cfg
  let serverChallenge ← takeBytes 8
  let _reserved ← parseReserved cfg
  let targetInfosField ← field
  return (targetNameField, negotiateFlags, serverChallenge, targetInfosField)

/-- messages/challenge.rs:156-213. -/
def challenge (cfg : Cfg) : CP Challenge := fun input =>
  match challengeHeader cfg input with
  | (n, .error e) => (n, .error e)
  | (n, .ok ((targetNameField, negotiateFlags, serverChallenge, targetInfosField), rest)) =>
    match cond (negotiateFlags.hasFlag Flags.NTLMSSP_NEGOTIATE_VERSION) version rest with
    | (v, .error e) => (n + v, .error e)
    | (v, .ok (version, _)) =>
      match getDataIf unicodeString targetNameField input (negotiateFlags.hasFlag Flags.NTLMSSP_REQUEST_TARGET || true) with
      | (t, .error e) => (n + v + t, .error e)
      | (t, .ok targetName) =>
        match getManyIf (avPair cfg) targetInfosField input true with
        | (m, .error e) => (n + v + t + m, .error e)
        | (m, .ok targetInfos) =>
          if Challenge.lastIsEol targetInfos then
            (n + v + t + m + 1, .ok ({ targetName, negotiateFlags, serverChallenge, targetInfos, version }, []))
          else (n + v + t + m + 1, .error .error)

/-- messages/authenticate.rs:113-138. -/
def authenticateHeader (cfg : Cfg) : CP Authenticate.Header := do
  tag signature
  let _ ← verify leU32 (fun mt => mt == 0x00000003)
  let lm ← field
  let nt ← field
  let domain ← field
  let user ← field
  let workstation ← field
  let ersk ← field
  let flags ← flags cfg
  return { lm, nt, domain, user, workstation, ersk, flags }

/-- messages/authenticate.rs:145-157. -/
def lmResponse (h : Authenticate.Header) (input : List UInt8) : Nat × Except PErr (Option LmChallenge) :=
  if h.flags.hasFlag Flags.NTLMSSP_NEGOTIATE_NTLM then
    match getDataIf lmv1 h.lm input true with
    | (n, r) => match Authenticate.okFlatten r with
      | .ok c => (n, .ok (c.map .v1))
      | .error e => (n, .error e)
  else
    match getDataIf lmv2 h.lm input true with
    | (n, r) => match Authenticate.okFlatten r with
      | .ok c => (n, .ok (c.map .v2))
      | .error e => (n, .error e)

/-- messages/authenticate.rs:145-183. -/
def authenticateBody (cfg : Cfg) (h : Authenticate.Header) (version : Option Version) (mic : Bytes 16) (input : List UInt8) :
    Nat × Except PErr Authenticate :=
  match lmResponse h input with
  | (l, .error e) => (l, .error e)
  | (l, .ok lmChallengeResponse) =>
    match getDataIf (ntChallenge cfg) h.nt input true with
    | (n, .error e) => (l + n, .error e)
    | (n, .ok ntChallengeResponse) =>
      match getDataIf unicodeString h.domain input true with
      | (d, .error e) => (l + n + d, .error e)
      | (d, .ok domain) =>
        match getDataIf unicodeString h.user input true with
        | (u, .error e) => (l + n + d + u, .error e)
        | (u, .ok user) =>
          match getDataIf unicodeString h.workstation input true with
          | (w, .error e) => (l + n + d + u + w, .error e)
          | (w, .ok workstation) =>
            match getDataIf (takeBytes 16) h.ersk input (h.flags.hasFlag Flags.NTLMSSP_NEGOTIATE_KEY_EXCH) with
            | (k, .error e) => (l + n + d + u + w + k, .error e)
            | (k, .ok encryptedRandomSessionKey) =>
              (l + n + d + u + w + k, .ok
                { lmChallengeResponse, ntChallengeResponse, domain, user, workstation,
                  encryptedRandomSessionKey, negotiateFlags := h.flags, version, mic,
                  exportedSessionKey := none })

/-- messages/authenticate.rs:109-184. -/
def authenticate (cfg : Cfg) : CP Authenticate := fun input =>
  match authenticateHeader cfg input with
  | (n, .error e) => (n, .error e)
  | (n, .ok (h, rest)) =>
    match cond (h.flags.hasFlag Flags.NTLMSSP_NEGOTIATE_VERSION) version rest with
    | (v, .error e) => (n + v, .error e)
    | (v, .ok (version, rest)) =>
      match takeBytes 16 rest with
      | (m, .error e) => (n + v + m, .error e)
      | (m, .ok (mic, _)) =>
        match authenticateBody cfg h version mic input with
        | (b, .error e) => (n + v + m + b, .error e)
        | (b, .ok a) => (n + v + m + b, .ok (a, []))

end Cost

end Ntlm
