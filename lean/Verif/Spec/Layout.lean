import Verif.Model.Messages
/-
  Specification: the byte layout of every wire structure, as plain functions from values to bytes, written
  from the protocol tables and not from the encoder.  It uses the model's data types only.
-/
namespace Ntlm.Spec

/-- `k`-byte little-endian representation: byte `i` is `n / 256^i mod 256`. -/
def le (k n : Nat) : List UInt8 := (List.range k).map fun i => UInt8.ofNat (n / 256 ^ i % 256)

/-- UTF-16 code units of one scalar value. -/
def utf16Units (c : Char) : List Nat :=
  let cp := c.toNat
  if cp ≤ 0xFFFF then [cp]
  else [0xD800 + ((cp - 0x10000) >>> 10), 0xDC00 + ((cp - 0x10000) &&& 0x3FF)]

/-- UTF-16LE. -/
def utf16le (s : Str) : List UInt8 := (s.flatMap utf16Units).flatMap (le 2)

/-- UTF-8 (Lean core's encoder). -/
def utf8Bytes (s : Str) : List UInt8 := (String.ofList s).toUTF8.data.toList

/-- VERSION: major, minor, build, three reserved zero bytes, revision. -/
def versionBytes (v : Version) : List UInt8 :=
  le 1 v.major.toNat ++ le 1 v.minor.toNat ++ le 2 v.build.toNat ++ [0, 0, 0] ++ le 1 v.revisionCount.toNat

/-- FILETIME: low word, high word. -/
def fileTimeBytes (t : FileTime) : List UInt8 := le 4 t.low.toNat ++ le 4 t.high.toNat

/-- Single_Host_Data: size, Z4, custom data, machine id. -/
def singleHostBytes (d : SingleHostData) : List UInt8 :=
  le 4 d.size.toNat ++ le 4 d.z4.toNat ++ d.customData.val ++ d.machineId.val

/-- MsvAvFlags: bit 0 constrained, bit 1 MIC present, bit 2 untrusted SPN. -/
def avFlagsValue (f : MsvAvFlags) : Nat :=
  f.accountAuthenticationConstrained.toNat + 2 * f.micPresent.toNat +
    4 * f.generatedSpnFromUntrustedSource.toNat

/-- NTLMSSP_MESSAGE_SIGNATURE: version 1, random pad, checksum, sequence number. -/
def signatureBytes (x : MessageSignature) : List UInt8 :=
  le 4 1 ++ x.randomPad.val ++ le 4 x.checksum.toNat ++ le 4 x.seqNum.toNat

/-- AV_PAIR identifiers. -/
def avIdValue : AvPair → Nat
  | .eol => 0
  | .nbComputerName _ => 1
  | .nbDomainName _ => 2
  | .dnsComputerName _ => 3
  | .dnsDomainName _ => 4
  | .dnsTreeName _ => 5
  | .flags _ => 6
  | .timestamp _ => 7
  | .singleHost _ => 8
  | .targetName _ => 9
  | .channelBindings _ => 10

/-- AV_PAIR values. -/
def avValueBytes : AvPair → List UInt8
  | .eol => []
  | .nbComputerName s => utf16le s
  | .nbDomainName s => utf16le s
  | .dnsComputerName s => utf16le s
  | .dnsDomainName s => utf16le s
  | .dnsTreeName s => utf16le s
  | .flags f => le 4 (avFlagsValue f)
  | .timestamp t => fileTimeBytes t
  | .singleHost d => singleHostBytes d
  | .targetName s => utf16le s
  | .channelBindings h => h.val

/-- AV_PAIR: identifier, length, value. -/
def avPairBytes (p : AvPair) : List UInt8 :=
  le 2 (avIdValue p) ++ le 2 (avValueBytes p).length ++ avValueBytes p

/-- A list of AV_PAIRs. -/
def avListBytes (l : List AvPair) : List UInt8 := l.flatMap avPairBytes

/-- LM response. -/
def lmBytes : LmChallenge → List UInt8
  | .v1 c => c.response.val
  | .v2 c => c.response.val ++ c.challengeFromClient.val

/-- NTLMv2 client challenge (the blob, without proof string). -/
def ntv2Bytes (c : Ntv2Challenge) : List UInt8 :=
  [1, 1, 0, 0, 0, 0, 0, 0] ++ fileTimeBytes c.timestamp ++ c.challengeFromClient.val ++ [0, 0, 0, 0] ++
    avListBytes c.targetInfos

/-- NT response as this crate puts it on the wire. -/
def ntBytes : NtChallenge → List UInt8
  | .v1 c => c.response.val
  | .v2 c => ntv2Bytes c

/-- A field descriptor: length, maximum length (equal), offset from the start of the message; all zero if absent. -/
def descriptor (value : Option (List UInt8)) (offset : Nat) : List UInt8 :=
  match value with
  | some b => le 2 b.length ++ le 2 b.length ++ le 4 offset
  | none => [0, 0, 0, 0, 0, 0, 0, 0]

/-- Bytes an optional field occupies in the payload. -/
def payload (value : Option (List UInt8)) : List UInt8 := value.getD []

/-- `"NTLMSSP\0"`. -/
def ntlmssp : List UInt8 := "NTLMSSP".toUTF8.data.toList ++ [0]

/-- NEGOTIATE_MESSAGE: a 32-byte header, then version, domain, workstation. -/
def negotiateBytes (m : Negotiate) : List UInt8 :=
  let v := payload (m.version.map versionBytes)
  let d := m.domainName.map fun s => utf8Bytes s.s
  let w := m.workstation.map fun s => utf8Bytes s.s
  let o1 := 32 + v.length
  let o2 := o1 + (payload d).length
  ntlmssp ++ le 4 1 ++ le 4 m.negotiateFlags.bits.toNat ++ descriptor d o1 ++ descriptor w o2 ++
    v ++ payload d ++ payload w

/-- The target-info list as a field: absent when empty. -/
def infosField (l : List AvPair) : Option (List UInt8) := if l = [] then none else some (avListBytes l)

/-- CHALLENGE_MESSAGE: a 48-byte header, then version, target name, target infos. -/
def challengeBytes (m : Challenge) : List UInt8 :=
  let v := payload (m.version.map versionBytes)
  let t := m.targetName.map fun s => utf16le s.s
  let i := infosField m.targetInfos
  let o1 := 48 + v.length
  let o2 := o1 + (payload t).length
  ntlmssp ++ le 4 2 ++ descriptor t o1 ++ le 4 m.negotiateFlags.bits.toNat ++ m.serverChallenge.val ++
    le 8 0 ++ descriptor i o2 ++ v ++ payload t ++ payload i

/-- AUTHENTICATE_MESSAGE: a 64-byte header, then version, MIC, and the six fields. -/
def authenticateBytes (m : Authenticate) : List UInt8 :=
  let v := payload (m.version.map versionBytes)
  let lm := m.lmChallengeResponse.map lmBytes
  let nt := m.ntChallengeResponse.map ntBytes
  let d := m.domain.map fun s => utf16le s.s
  let u := m.user.map fun s => utf16le s.s
  let w := m.workstation.map fun s => utf16le s.s
  let k := m.encryptedRandomSessionKey.map fun b => b.val
  let o1 := 64 + v.length + 16
  let o2 := o1 + (payload lm).length
  let o3 := o2 + (payload nt).length
  let o4 := o3 + (payload d).length
  let o5 := o4 + (payload u).length
  let o6 := o5 + (payload w).length
  ntlmssp ++ le 4 3 ++ descriptor lm o1 ++ descriptor nt o2 ++ descriptor d o3 ++ descriptor u o4 ++
    descriptor w o5 ++ descriptor k o6 ++ le 4 m.negotiateFlags.bits.toNat ++
    v ++ m.mic.val ++ payload lm ++ payload nt ++ payload d ++ payload u ++ payload w ++ payload k

/-! ### When does everything fit its 16-bit length? -/

/-- An AV pair's value fits a 16-bit length. -/
def avPairFits (p : AvPair) : Prop := (avValueBytes p).length ≤ 65535

/-- Each pair and the whole list fit. -/
def avListFits (l : List AvPair) : Prop := (∀ p ∈ l, avPairFits p) ∧ (avListBytes l).length ≤ 65535

/-- An NT response fits its descriptor and its AV pairs fit theirs. -/
def ntFits : NtChallenge → Prop
  | .v1 _ => True
  | .v2 c => (∀ p ∈ c.targetInfos, avPairFits p) ∧ (ntv2Bytes c).length ≤ 65535

/-- An optional string encoded by `enc` fits a 16-bit length. -/
def strFits (enc : Str → List UInt8) (s : Option Str) : Prop := ∀ x, s = some x → (enc x).length ≤ 65535

def negotiateFits (m : Negotiate) : Prop :=
  strFits utf8Bytes (m.domainName.map (·.s)) ∧ strFits utf8Bytes (m.workstation.map (·.s))

def challengeFits (m : Challenge) : Prop :=
  strFits utf16le (m.targetName.map (·.s)) ∧ avListFits m.targetInfos

def authenticateFits (m : Authenticate) : Prop :=
  (∀ c, m.ntChallengeResponse = some c → ntFits c) ∧ strFits utf16le (m.domain.map (·.s)) ∧
    strFits utf16le (m.user.map (·.s)) ∧ strFits utf16le (m.workstation.map (·.s))

end Ntlm.Spec
