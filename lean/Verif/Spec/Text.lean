import Verif.Spec.Layout
/-
  Specification: which texts and values survive a trip over the wire.
-/
namespace Ntlm.Spec

/-- A character the UTF-16 text decoder can return: not NUL and in the Basic Multilingual Plane. -/
def plainChar (c : Char) : Bool := decide (c ≠ '\x00') && decide (c.toNat ≤ 0xFFFF)

/-- Text made of such characters only. -/
def plain (s : Str) : Prop := ∀ c ∈ s, plainChar c = true

/-- The 64-bit count a FILETIME stands for. -/
def fileTimeValue (t : FileTime) : Nat := 2 ^ 32 * t.high.toNat + t.low.toNat

/-- The platform's clock type can represent the file time (read as microseconds since 1970, as the crate does). -/
def timeOk (cfg : Cfg) (t : FileTime) : Prop := fileTimeValue t / 1000000 ≤ cfg.platform.maxSecs

/-- The AV pair survives encoding and decoding. -/
def pairOk (cfg : Cfg) : AvPair → Prop
  | .eol => True
  | .nbComputerName s => plain s
  | .nbDomainName s => plain s
  | .dnsComputerName s => plain s
  | .dnsDomainName s => plain s
  | .dnsTreeName s => plain s
  | .flags _ => True
  | .timestamp t => timeOk cfg t
  | .singleHost d => d.z4 = 0
  | .targetName s => plain s
  | .channelBindings _ => True

/-- An optional text field is absent or not empty. -/
def notEmptyText (s : Option Str) : Prop := s ≠ some []

/-- An optional UTF-16 field is absent, or plain and not empty. -/
def plainField (s : Option Str) : Prop := ∀ x, s = some x → x ≠ [] ∧ plain x

/-- Presence of the version agrees with the VERSION flag, and its revision is the only one in use. -/
def versionOk (f : Flags) (v : Option Version) : Prop :=
  (f.bits.toNat.testBit 25 = true ↔ v.isSome) ∧ ∀ x, v = some x → x.revisionCount = 15

/-- A NEGOTIATE message that decoding its own encoding gives back. -/
def negotiateOk (m : Negotiate) : Prop :=
  versionOk m.negotiateFlags m.version ∧
    notEmptyText (m.domainName.map (·.s)) ∧ notEmptyText (m.workstation.map (·.s))

/-- A CHALLENGE message that decoding its own encoding gives back: in addition to the version, the target name is plain
    text, and the target infos are absent or terminated by the end-of-list pair. -/
def challengeOk (cfg : Cfg) (m : Challenge) : Prop :=
  versionOk m.negotiateFlags m.version ∧ plainField (m.targetName.map (·.s)) ∧
    (m.targetInfos = [] ∨ m.targetInfos.getLast? = some .eol) ∧ ∀ p ∈ m.targetInfos, pairOk cfg p

/-- The LM response variant is the one the reader will choose: v1 with the NTLM flag (bit 9), v2 without. -/
def lmOk (f : Flags) : Option LmChallenge → Prop
  | none => True
  | some (.v1 _) => f.bits.toNat.testBit 9 = true
  | some (.v2 _) => f.bits.toNat.testBit 9 = false

/-- The NT response survives: v1 always, v2 if its time and AV pairs do. -/
def ntOk (cfg : Cfg) : Option NtChallenge → Prop
  | none => True
  | some (.v1 _) => True
  | some (.v2 c) => timeOk cfg c.timestamp ∧ ∀ p ∈ c.targetInfos, pairOk cfg p

/-- An AUTHENTICATE message that decoding its own encoding gives back (except for the exported session key, which is
    not transmitted); bit 30 is KEY_EXCH. -/
def authenticateOk (cfg : Cfg) (m : Authenticate) : Prop :=
  versionOk m.negotiateFlags m.version ∧ lmOk m.negotiateFlags m.lmChallengeResponse ∧
    ntOk cfg m.ntChallengeResponse ∧ plainField (m.domain.map (·.s)) ∧ plainField (m.user.map (·.s)) ∧
    plainField (m.workstation.map (·.s)) ∧
    (m.encryptedRandomSessionKey.isSome → m.negotiateFlags.bits.toNat.testBit 30 = true)

end Ntlm.Spec
