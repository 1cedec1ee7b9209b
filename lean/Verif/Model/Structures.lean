import Verif.Model.Text
import Verif.Model.Flags
/-
  messages/structures.rs and messages/structures/*.rs.
-/
namespace Ntlm

/-- messages/structures.rs:24-89 `buffer_aliases!`: all instances (`ServerChallenge`, `ClientChallenge`: 8;
    `SessionBaseKey`, `KeyExchangeKey`, `ExportedSessionKey`, `EncryptedRandomSessionKey`, `NtProofStr`,
    `Response16`, `Mic`: 16; `Response24`: 24; `RandomPad`: 4) are `Bytes n`. -/
instance {n : Nat} : Wire (Bytes n) where
  serializeInto _ b := do
    writeAll b.val
    return n
  deserialize _ := takeBytes n

/-! ### version.rs -/

/-- structures/version.rs:13-19. -/
structure Version where
  major : UInt8
  minor : UInt8
  build : UInt16
  revisionCount : UInt8
  deriving DecidableEq, Repr

/-- structures/version.rs:21. -/
def NTLMSSP_REVISION_W2K3 : UInt8 := 0x0f

/-- structures/version.rs:23-66. -/
instance : Wire Version where
  serializeInto _ v := do
    let a ← writeU8 v.major
    let b ← writeU8 v.minor
    let c ← writeU16 v.build
    let d ← writeU8 0
    let e ← writeU16 0
    let f ← writeU8 v.revisionCount
    return a + b + c + d + e + f
  deserialize _ := do
    let major ← leU8
    let minor ← leU8
    let build ← leU16
    let _reserved ← verify leU24 (fun r => r == 0)
    let revisionCount ← verify leU8 (fun rc => rc == NTLMSSP_REVISION_W2K3)
    return { major, minor, build, revisionCount }

/-- structures/version.rs:68-77 `From<(u8, u8, u16)>`. -/
def Version.ofTriple (major minor : UInt8) (build : UInt16) : Version :=
  { major, minor, build, revisionCount := NTLMSSP_REVISION_W2K3 }

/-- structures/version.rs:79-88 `TryFrom<[u8; 8]>`; the parser cannot panic, see `Props`. -/
def Version.tryFrom (cfg : Cfg) (value : Bytes 8) : Except Unit Version :=
  match (Wire.deserialize cfg : Parser Version) value.val with
  | .ok (v, _) => .ok v
  | .error _ => .error ()

/-! ### filetime.rs -/

/-- structures/filetime.rs:9-13. -/
structure FileTime where
  low : UInt32
  high : UInt32
  deriving DecidableEq, Repr

/-- structures/filetime.rs:14. -/
def NANO_TO_MILLI : Nat := 1000000

/-- `std::time::SystemTime`, as whole seconds relative to `UNIX_EPOCH` (rounded down) and nanoseconds. -/
structure SystemTime where
  secs : Int
  nanos : Nat
  deriving DecidableEq, Repr

/-- Largest `ts` for which `UNIX_EPOCH.checked_add(Duration::from_secs(ts))` is `Some`: on Unix the
    seconds are an `i64`; on Windows the time is an `i64` count of 100 ns since 1601. -/
def Platform.maxSecs : Platform → Nat
  | .unix => 2 ^ 63 - 1
  | .windows => (2 ^ 63 - 1 - 116444736000000000) / 10000000

namespace FileTime

/-- structures/filetime.rs:35-37. -/
def asU64 (f : FileTime) : UInt64 := (f.high.toUInt64 <<< 32) ||| f.low.toUInt64

/-- structures/filetime.rs:30-33. -/
def toSystemTime (cfg : Cfg) (f : FileTime) : Option SystemTime :=
  let ts := f.asU64.toNat / NANO_TO_MILLI
  if ts ≤ cfg.platform.maxSecs then some { secs := ts, nanos := 0 } else none

/-- structures/filetime.rs:16-27 `TryFrom<SystemTime>`: `error (some ())` is `Some(SystemTimeError)` (before
    the epoch), `error none` is the overflow of `checked_mul`. -/
def tryFrom (value : SystemTime) : Except (Option Unit) FileTime :=
  if value.secs < 0 then .error (some ())
  else
    let seconds := value.secs.toNat
    if seconds * NANO_TO_MILLI < 2 ^ 64 then
      let nsec := UInt64.ofNat (seconds * NANO_TO_MILLI)
      .ok { high := (nsec >>> 32).toUInt32, low := (nsec &&& 0xffffffff).toUInt32 }
    else .error none

/-- structures/filetime.rs:39-43; the clock reading is an argument. -/
def now (clock : SystemTime) : Except Panic FileTime :=
  match tryFrom clock with
  | .ok f => .ok f
  | .error _ => .error .clock

end FileTime

/-- structures/filetime.rs:46-75. -/
instance : Wire FileTime where
  serializeInto _ f := do
    let a ← writeU32 f.low
    let b ← writeU32 f.high
    return a + b
  deserialize cfg := fun input =>
    match (do let low ← leU32; let high ← leU32; return ({ low, high } : FileTime) : Parser FileTime) input with
    | .ok (me, r) => if (me.toSystemTime cfg).isNone then .error .error else .ok (me, r)
    | .error e => .error e

/-! ### single_host_data.rs -/

/-- structures/single_host_data.rs:9-15. -/
structure SingleHostData where
  size : UInt32
  z4 : UInt32
  customData : Bytes 8
  machineId : Bytes 32
  deriving DecidableEq, Repr

/-- structures/single_host_data.rs:17-63. -/
instance : Wire SingleHostData where
  serializeInto _ x := do
    let a ← writeU32 x.size
    let b ← writeU32 x.z4
    let c ← writeLen x.customData.val
    let d ← writeLen x.machineId.val
    return a + b + c + d
  deserialize _ := do
    let size ← leU32
    let z4 ← verify leU32 (fun val => val == 0)
    let customData ← takeBytes 8
    let machineId ← takeBytes 32
    return { size, z4, customData, machineId }

/-! ### signature.rs -/

/-- structures/signature.rs:10-15. -/
structure MessageSignature where
  randomPad : Bytes 4
  checksum : UInt32
  seqNum : UInt32
  deriving DecidableEq, Repr

/-- structures/signature.rs:17-55 (`VERSION = 1`, line 8). -/
instance : Wire MessageSignature where
  serializeInto cfg x := do
    let a ← writeU32 1
    let b ← Wire.serializeInto cfg x.randomPad
    let c ← writeU32 x.checksum
    let d ← writeU32 x.seqNum
    return a + b + c + d
  deserialize cfg := do
    let _version ← verify leU32 (fun v => v == 1)
    let randomPad ← (Wire.deserialize cfg : Parser (Bytes 4))
    let checksum ← leU32
    let seqNum ← leU32
    return { randomPad, checksum, seqNum }

/-! ### avid.rs -/

/-- structures/avid.rs:18-33. -/
inductive AvId where
  | eol | nbComputerName | nbDomainName | dnsComputerName | dnsDomainName | dnsTreeName
  | flags | timestamp | singleHost | targetName | channelBindings
  deriving DecidableEq, Repr

/-- structures/avid.rs:22-32: `*self as u16`. -/
def AvId.toU16 : AvId → UInt16
  | .eol => 0x0000
  | .nbComputerName => 0x0001
  | .nbDomainName => 0x0002
  | .dnsComputerName => 0x0003
  | .dnsDomainName => 0x0004
  | .dnsTreeName => 0x0005
  | .flags => 0x0006
  | .timestamp => 0x0007
  | .singleHost => 0x0008
  | .targetName => 0x0009
  | .channelBindings => 0x000a

/-- structures/avid.rs:49-62. -/
def AvId.ofU16 (val : UInt16) : Option AvId :=
  if val = 0x0000 then some .eol
  else if val = 0x0001 then some .nbComputerName
  else if val = 0x0002 then some .nbDomainName
  else if val = 0x0003 then some .dnsComputerName
  else if val = 0x0004 then some .dnsDomainName
  else if val = 0x0005 then some .dnsTreeName
  else if val = 0x0006 then some .flags
  else if val = 0x0007 then some .timestamp
  else if val = 0x0008 then some .singleHost
  else if val = 0x0009 then some .targetName
  else if val = 0x000a then some .channelBindings
  else none

/-- structures/avid.rs:35-65. -/
instance : Wire AvId where
  serializeInto _ x := writeU16 x.toU16
  deserialize _ := mapOpt leU16 AvId.ofU16

/-- structures/avid.rs:67-75. -/
structure MsvAvFlags where
  accountAuthenticationConstrained : Bool
  micPresent : Bool
  generatedSpnFromUntrustedSource : Bool
  deriving DecidableEq, Repr

/-- structures/avid.rs:82-92. -/
def MsvAvFlags.toU32 (x : MsvAvFlags) : UInt32 :=
  let flags : UInt32 := 0
  let flags := if x.accountAuthenticationConstrained then flags ||| 0x00000001 else flags
  let flags := if x.micPresent then flags ||| 0x00000002 else flags
  if x.generatedSpnFromUntrustedSource then flags ||| 0x00000004 else flags

/-- structures/avid.rs:77-115. -/
instance : Wire MsvAvFlags where
  serializeInto _ x := writeU32 x.toU32
  deserialize _ := do
    let flags ← verify leU32 (fun f => f &&& ~~~(0x7 : UInt32) == 0)
    return { accountAuthenticationConstrained := flags &&& 0x00000001 != 0
             micPresent := flags &&& 0x00000002 != 0
             generatedSpnFromUntrustedSource := flags &&& 0x00000004 != 0 }

/-- structures/avid.rs:117-142. -/
inductive AvPair where
  | eol
  | nbComputerName (s : Str)
  | nbDomainName (s : Str)
  | dnsComputerName (s : Str)
  | dnsDomainName (s : Str)
  | dnsTreeName (s : Str)
  | flags (f : MsvAvFlags)
  | timestamp (t : FileTime)
  | singleHost (d : SingleHostData)
  | targetName (s : Str)
  | channelBindings (h : Bytes 16)
  deriving DecidableEq, Repr

/-- structures/avid.rs:145-159 `get_id`. -/
def AvPair.getId : AvPair → AvId
  | .eol => .eol
  | .nbComputerName _ => .nbComputerName
  | .nbDomainName _ => .nbDomainName
  | .dnsComputerName _ => .dnsComputerName
  | .dnsDomainName _ => .dnsDomainName
  | .dnsTreeName _ => .dnsTreeName
  | .flags _ => .flags
  | .timestamp _ => .timestamp
  | .singleHost _ => .singleHost
  | .targetName _ => .targetName
  | .channelBindings _ => .channelBindings

/-- structures/avid.rs:162-173 `encode_string`. -/
def encodeString (s : Str) : W Nat := do
  let data := u16sAsBytes (encodeUtf16 s)
  if data.length < 65536 then
    let a ← writeU16 (UInt16.ofNat data.length)
    let b ← writeLen data
    return a + b
  else W.panic .stringTooLong

/-- structures/avid.rs:182-221: the `match self` of `AvPair::serialize_into`.
    `size_of::<u32>() = 4`, and `size_of_val(shd) = 48` (asserted by the test single_host_data.rs:69-72). -/
def AvPair.serializeBody (cfg : Cfg) : AvPair → W Nat
  | .eol => writeU16 0
  | .nbComputerName s => encodeString s
  | .nbDomainName s => encodeString s
  | .dnsComputerName s => encodeString s
  | .dnsDomainName s => encodeString s
  | .dnsTreeName s => encodeString s
  | .flags f => do
    let a ← writeU16 4
    let b ← Wire.serializeInto cfg f
    return a + b
  | .timestamp t => do
    let a ← writeU16 8
    let b ← Wire.serializeInto cfg t
    return a + b
  | .singleHost d => do
    let a ← writeU16 48
    let b ← Wire.serializeInto cfg d
    return a + b
  | .targetName s => encodeString s
  | .channelBindings h => do
    let a ← writeU16 16
    writeAll h.val
    return a + 16

/-- structures/avid.rs:242-246 and the similar arms: decode the value, `debug_assert_eq!(r.len(), 0)`, return the
    constructor applied to it with the input after the pair (`after`). -/
def avValue {α : Type} (cfg : Cfg) (p : Parser α) (mk : α → AvPair) (data after : List UInt8) :
    Except PErr (AvPair × List UInt8) :=
  match p data with
  | .ok (a, r) =>
    if cfg.debug && r.length != 0 then .error (.panic .debugAssert) else .ok (mk a, after)
  | .error e => .error e

/-- structures/avid.rs:232-294: the `match id` of `AvPair::deserialize`. -/
def AvPair.deserializeValue (cfg : Cfg) (id : AvId) (data after : List UInt8) :
    Except PErr (AvPair × List UInt8) :=
  match id with
  | .eol => if !data.isEmpty then .error .error else .ok (.eol, after)
  | .nbComputerName =>
    avValue cfg (Wire.deserialize cfg : Parser UnicodeString) (fun u => .nbComputerName u.s) data after
  | .nbDomainName =>
    avValue cfg (Wire.deserialize cfg : Parser UnicodeString) (fun u => .nbDomainName u.s) data after
  | .dnsComputerName =>
    avValue cfg (Wire.deserialize cfg : Parser UnicodeString) (fun u => .dnsComputerName u.s) data after
  | .dnsDomainName =>
    avValue cfg (Wire.deserialize cfg : Parser UnicodeString) (fun u => .dnsDomainName u.s) data after
  | .dnsTreeName =>
    avValue cfg (Wire.deserialize cfg : Parser UnicodeString) (fun u => .dnsTreeName u.s) data after
  | .flags => avValue cfg (Wire.deserialize cfg : Parser MsvAvFlags) .flags data after
  | .timestamp => avValue cfg (Wire.deserialize cfg : Parser FileTime) .timestamp data after
  | .singleHost => avValue cfg (Wire.deserialize cfg : Parser SingleHostData) .singleHost data after
  | .targetName =>
    avValue cfg (Wire.deserialize cfg : Parser UnicodeString) (fun u => .targetName u.s) data after
  | .channelBindings => avValue cfg (takeBytes 16) .channelBindings data after

/-- structures/avid.rs:175-296. -/
instance : Wire AvPair where
  serializeInto cfg x := do
    let a ← Wire.serializeInto cfg x.getId
    let b ← x.serializeBody cfg
    return a + b
  deserialize cfg := do
    let id ← (Wire.deserialize cfg : Parser AvId)
    let data ← lengthData leU16
    fun after => AvPair.deserializeValue cfg id data after

/-! ### lm_challenge.rs -/

/-- structures/lm_challenge.rs:16-19. -/
structure Lmv1Challenge where
  response : Bytes 24
  deriving DecidableEq, Repr

/-- structures/lm_challenge.rs:21-36. -/
instance : Wire Lmv1Challenge where
  serializeInto cfg x := Wire.serializeInto cfg x.response
  deserialize cfg := do
    let response ← (Wire.deserialize cfg : Parser (Bytes 24))
    return { response }

/-- structures/lm_challenge.rs:39-43: the client challenge followed by 16 zero bytes. -/
def Lmv1Challenge.fromClientChallenge (cc : Bytes 8) : Lmv1Challenge :=
  { response := cc.append (Bytes.zero 16) }

/-- structures/lm_challenge.rs:46-50. -/
structure Lmv2Challenge where
  response : Bytes 16
  challengeFromClient : Bytes 8
  deriving DecidableEq, Repr

/-- structures/lm_challenge.rs:72-99. -/
instance : Wire Lmv2Challenge where
  serializeInto cfg x := do
    let a ← Wire.serializeInto cfg x.response
    let b ← Wire.serializeInto cfg x.challengeFromClient
    return a + b
  deserialize cfg := do
    let response ← (Wire.deserialize cfg : Parser (Bytes 16))
    let challengeFromClient ← (Wire.deserialize cfg : Parser (Bytes 8))
    return { response, challengeFromClient }

/-- structures/lm_challenge.rs:101-105. -/
inductive LmChallenge where
  | v1 (c : Lmv1Challenge)
  | v2 (c : Lmv2Challenge)
  deriving DecidableEq, Repr

/-- structures/lm_challenge.rs:125-145. -/
instance : Wire LmChallenge where
  serializeInto cfg
    | .v1 c => Wire.serializeInto cfg c
    | .v2 c => Wire.serializeInto cfg c
  deserialize cfg :=
    alt (pmap (Wire.deserialize cfg : Parser Lmv2Challenge) .v2)
        (pmap (Wire.deserialize cfg : Parser Lmv1Challenge) .v1)

/-! ### nt_challenge.rs -/

/-- structures/nt_challenge.rs:15-18. -/
structure Ntv1Challenge where
  response : Bytes 24
  deriving DecidableEq, Repr

/-- structures/nt_challenge.rs:20-35. -/
instance : Wire Ntv1Challenge where
  serializeInto cfg x := Wire.serializeInto cfg x.response
  deserialize cfg := do
    let response ← (Wire.deserialize cfg : Parser (Bytes 24))
    return { response }

/-- structures/nt_challenge.rs:37-42. -/
structure Ntv2Challenge where
  timestamp : FileTime
  challengeFromClient : Bytes 8
  targetInfos : List AvPair
  deriving DecidableEq, Repr

/-- structures/nt_challenge.rs:44-99. -/
instance : Wire Ntv2Challenge where
  serializeInto cfg x := do
    let a ← writeU8 1
    let b ← writeU8 1
    let c ← writeU16 0
    let d ← writeU32 0
    let e ← Wire.serializeInto cfg x.timestamp
    let f ← Wire.serializeInto cfg x.challengeFromClient
    let g ← writeU32 0
    let size := a + b + c + d + e + f + g
    if cfg.debug && size != 28 then W.panic .debugAssert
    else
      let h ← Wire.serializeInto cfg x.targetInfos
      return size + h
  deserialize cfg := do
    let _respType ← verify leU8 (fun b => b == 1)
    let _hiRespType ← verify leU8 (fun b => b == 1)
    let _reserved1 ← verify leU16 (fun b => b == 0)
    let _reserved2 ← verify leU32 (fun b => b == 0)
    let timestamp ← (Wire.deserialize cfg : Parser FileTime)
    let challengeFromClient ← (Wire.deserialize cfg : Parser (Bytes 8))
    let _reserved3 ← verify leU32 (fun b => b == 0)
    let targetInfos ← (Wire.deserialize cfg : Parser (List AvPair))
    return { timestamp, challengeFromClient, targetInfos }

/-- structures/nt_challenge.rs:101-105. -/
inductive NtChallenge where
  | v1 (c : Ntv1Challenge)
  | v2 (c : Ntv2Challenge)
  deriving DecidableEq, Repr

/-- structures/nt_challenge.rs:125-145. -/
instance : Wire NtChallenge where
  serializeInto cfg
    | .v1 c => Wire.serializeInto cfg c
    | .v2 c => Wire.serializeInto cfg c
  deserialize cfg :=
    alt (pmap (Wire.deserialize cfg : Parser Ntv2Challenge) .v2)
        (pmap (Wire.deserialize cfg : Parser Ntv1Challenge) .v1)

end Ntlm
