import Verif.Model.Debug
import Verif.Model.Messages
/-
  `Debug` of the public message types: the derived implementations, on top of `core::fmt::builders` and `Debug for str`.
  A formatter is modelled by the flag `#` (`{:#?}`), the table of printable characters and the text written; write errors
  of the formatter and the other flags of a format specification (width, `{:x?}`) are not modelled.
-/
namespace Ntlm

/-- `fmt::Formatter`: the flag `#`, and which characters from code 127 on are printed as they are (tables of
    `core::unicode`, which depend on the version of the compiler). -/
structure Fmt where
  alternate : Bool
  table : Char → Bool

/-- `core::unicode::printable::is_printable` and the test for combining characters, which starts above ASCII. -/
def Fmt.printable (f : Fmt) (c : Char) : Bool :=
  if c.toNat < 32 then false else if c.toNat < 127 then true else f.table c

/-- `char::escape_debug_ext` as called by `Debug for str`: the single quote is not escaped. -/
def escapeChar (f : Fmt) (c : Char) : Str :=
  if c = Char.ofNat 0 then ['\\', '0']
  else if c = '\t' then ['\\', 't']
  else if c = '\r' then ['\\', 'r']
  else if c = '\n' then ['\\', 'n']
  else if c = '\\' then ['\\', '\\']
  else if c = '"' then ['\\', '"']
  else if f.printable c then [c]
  else ['\\', 'u', '{'] ++ Nat.toDigits 16 c.toNat ++ ['}']

/-- `Debug for str`. -/
def debugStr (f : Fmt) (s : Str) : Str := '"' :: s.flatMap (escapeChar f) ++ ['"']

/-- `core::fmt::builders::PadAdapter::write_str`: four spaces in front of every line; the state is `on_newline`. -/
def pad (onNewline : Bool) : Str → Str
  | [] => []
  | c :: s => (if onNewline then "    ".toList else []) ++ c :: pad (c == '\n') s

/-- `DebugStruct::field` for all fields but the first, one line. -/
def moreFields : List (Str × Str) → Str
  | [] => []
  | (n, v) :: l => ", ".toList ++ n ++ ": ".toList ++ v ++ moreFields l

/-- `DebugStruct::field` with `{:#?}`: a line of its own. -/
def fieldLine (x : Str × Str) : Str := pad true (x.1 ++ ": ".toList ++ x.2 ++ ",\n".toList)

/-- `DebugTuple::field` and `DebugInner::entry` with `{:#?}`: a line of its own. -/
def itemLine (v : Str) : Str := pad true (v ++ ",\n".toList)

/-- `DebugInner::entry`, but the first, one line. -/
def nextItem (v : Str) : Str := ", ".toList ++ v

/-- `Formatter::debug_struct_field*_finish` for a struct that has fields. -/
def debugStruct (f : Fmt) (name : Str) (fields : List (Str × Str)) : Str :=
  if f.alternate then
    name ++ " {\n".toList ++ fields.flatMap fieldLine ++ "}".toList
  else match fields with
    | [] => name
    | (n, v) :: l => name ++ " { ".toList ++ n ++ ": ".toList ++ v ++ moreFields l ++ " }".toList

/-- `Formatter::debug_tuple_field1_finish`: an enum variant or struct with one unnamed field. -/
def debugTuple (f : Fmt) (name : Str) (v : Str) : Str :=
  if f.alternate then name ++ "(\n".toList ++ itemLine v ++ ")".toList
  else name ++ "(".toList ++ v ++ ")".toList

/-- `DebugList::entries(..).finish()`. -/
def debugList (f : Fmt) : List Str → Str
  | [] => "[]".toList
  | v :: l =>
    if f.alternate then "[\n".toList ++ (v :: l).flatMap itemLine ++ "]".toList
    else "[".toList ++ v ++ l.flatMap nextItem ++ "]".toList

/-- `std::fmt::Debug`. -/
class Debug (α : Type) where
  debug : Fmt → α → Str

open Debug (debug)

/-- `Debug` for integers is `Display`: decimal digits. -/
instance : Debug UInt8 := ⟨fun _ x => Nat.toDigits 10 x.toNat⟩
instance : Debug UInt16 := ⟨fun _ x => Nat.toDigits 10 x.toNat⟩
instance : Debug UInt32 := ⟨fun _ x => Nat.toDigits 10 x.toNat⟩

/-- `Debug for bool`. -/
instance : Debug Bool := ⟨fun _ x => if x then "true".toList else "false".toList⟩

/-- `Debug for String`, and messages/unicode_string.rs:55-59 for the two string types. -/
instance : Debug Str := ⟨debugStr⟩
instance : Debug UnicodeString := ⟨fun f x => debugStr f x.s⟩
instance : Debug OEMString := ⟨fun f x => debugStr f x.s⟩

/-- `#[derive(Debug)]` of `Option`. -/
instance {α : Type} [Debug α] : Debug (Option α) where
  debug f
    | none => "None".toList
    | some x => debugTuple f "Some".toList (debug f x)

/-- `Debug for Vec<AvPair>` (an element type with its own instance). -/
def debugVec {α : Type} [Debug α] (f : Fmt) (l : List α) : Str := debugList f (l.map (debug f))

/-- `Debug for [u8; N]`, the plain arrays of structures/avid.rs:141 and structures/single_host_data.rs:13-14. -/
def debugArray {n : Nat} (f : Fmt) (b : Bytes n) : Str := debugVec f b.val

/-- messages/structures.rs:52-59. -/
instance {n : Nat} : Debug (Bytes n) := ⟨fun _ b => b.debug⟩

/-- messages/flags.rs:289-550. -/
instance : Debug Flags := ⟨fun _ x => x.debug⟩

/-- structures/version.rs:13-19. -/
instance : Debug Version where
  debug f x := debugStruct f "Version".toList
    [("major".toList, debug f x.major), ("minor".toList, debug f x.minor), ("build".toList, debug f x.build),
     ("revision_count".toList, debug f x.revisionCount)]

/-- structures/filetime.rs:9-13. -/
instance : Debug FileTime where
  debug f x := debugStruct f "FileTime".toList [("low".toList, debug f x.low), ("high".toList, debug f x.high)]

/-- structures/single_host_data.rs:9-15. -/
instance : Debug SingleHostData where
  debug f x := debugStruct f "SingleHostData".toList
    [("size".toList, debug f x.size), ("z4".toList, debug f x.z4), ("custom_data".toList, debugArray f x.customData),
     ("machine_id".toList, debugArray f x.machineId)]

/-- structures/signature.rs:10-15. -/
instance : Debug MessageSignature where
  debug f x := debugStruct f "MessageSignature".toList
    [("random_pad".toList, debug f x.randomPad), ("checksum".toList, debug f x.checksum),
     ("seq_num".toList, debug f x.seqNum)]

/-- structures/avid.rs:18-33. -/
instance : Debug AvId where
  debug _
    | .eol => "MsvAvEOL".toList
    | .nbComputerName => "MsvAvNbComputerName".toList
    | .nbDomainName => "MsvAvNbDomainName".toList
    | .dnsComputerName => "MsvAvDnsComputerName".toList
    | .dnsDomainName => "MsvAvDnsDomainName".toList
    | .dnsTreeName => "MsvAvDnsTreeName".toList
    | .flags => "MsvAvFlags".toList
    | .timestamp => "MsvAvTimestamp".toList
    | .singleHost => "MsvAvSingleHost".toList
    | .targetName => "MsvAvTargetName".toList
    | .channelBindings => "MsvAvChannelBindings".toList

/-- structures/avid.rs:67-75. -/
instance : Debug MsvAvFlags where
  debug f x := debugStruct f "MsvAvFlags".toList
    [("account_authentication_constrained".toList, debug f x.accountAuthenticationConstrained),
     ("mic_present".toList, debug f x.micPresent),
     ("generated_spn_from_untrusted_source".toList, debug f x.generatedSpnFromUntrustedSource)]

/-- structures/avid.rs:117-142. -/
instance : Debug AvPair where
  debug f
    | .eol => "MsvAvEOL".toList
    | .nbComputerName s => debugTuple f "MsvAvNbComputerName".toList (debugStr f s)
    | .nbDomainName s => debugTuple f "MsvAvNbDomainName".toList (debugStr f s)
    | .dnsComputerName s => debugTuple f "MsvAvDnsComputerName".toList (debugStr f s)
    | .dnsDomainName s => debugTuple f "MsvAvDnsDomainName".toList (debugStr f s)
    | .dnsTreeName s => debugTuple f "MsvAvDnsTreeName".toList (debugStr f s)
    | .flags x => debugTuple f "MsvAvFlags".toList (debug f x)
    | .timestamp x => debugTuple f "MsvAvTimestamp".toList (debug f x)
    | .singleHost x => debugTuple f "MsvAvSingleHost".toList (debug f x)
    | .targetName s => debugTuple f "MsvAvTargetName".toList (debugStr f s)
    | .channelBindings b => debugTuple f "MsvAvChannelBindings".toList (debugArray f b)

/-- structures/lm_challenge.rs:16-19. -/
instance : Debug Lmv1Challenge where
  debug f x := debugStruct f "Lmv1Challenge".toList [("response".toList, debug f x.response)]

/-- structures/lm_challenge.rs:46-50. -/
instance : Debug Lmv2Challenge where
  debug f x := debugStruct f "Lmv2Challenge".toList
    [("response".toList, debug f x.response), ("challenge_from_client".toList, debug f x.challengeFromClient)]

/-- structures/lm_challenge.rs:101-105. -/
instance : Debug LmChallenge where
  debug f
    | .v1 c => debugTuple f "V1".toList (debug f c)
    | .v2 c => debugTuple f "V2".toList (debug f c)

/-- structures/nt_challenge.rs:15-18. -/
instance : Debug Ntv1Challenge where
  debug f x := debugStruct f "Ntv1Challenge".toList [("response".toList, debug f x.response)]

/-- structures/nt_challenge.rs:37-42. -/
instance : Debug Ntv2Challenge where
  debug f x := debugStruct f "Ntv2Challenge".toList
    [("timestamp".toList, debug f x.timestamp), ("challenge_from_client".toList, debug f x.challengeFromClient),
     ("target_infos".toList, debugVec f x.targetInfos)]

/-- structures/nt_challenge.rs:101-105. -/
instance : Debug NtChallenge where
  debug f
    | .v1 c => debugTuple f "V1".toList (debug f c)
    | .v2 c => debugTuple f "V2".toList (debug f c)

/-- messages/negotiate.rs:17-23. -/
instance : Debug Negotiate where
  debug f x := debugStruct f "Negotiate".toList
    [("negotiate_flags".toList, debug f x.negotiateFlags), ("domain_name".toList, debug f x.domainName),
     ("workstation".toList, debug f x.workstation), ("version".toList, debug f x.version)]

/-- messages/challenge.rs:19-26. -/
instance : Debug Challenge where
  debug f x := debugStruct f "Challenge".toList
    [("target_name".toList, debug f x.targetName), ("negotiate_flags".toList, debug f x.negotiateFlags),
     ("server_challenge".toList, debug f x.serverChallenge), ("target_infos".toList, debugVec f x.targetInfos),
     ("version".toList, debug f x.version)]

/-- messages/authenticate.rs:23-35. -/
instance : Debug Authenticate where
  debug f x := debugStruct f "Authenticate".toList
    [("lm_challenge_response".toList, debug f x.lmChallengeResponse),
     ("nt_challenge_response".toList, debug f x.ntChallengeResponse), ("domain".toList, debug f x.domain),
     ("user".toList, debug f x.user), ("workstation".toList, debug f x.workstation),
     ("encrypted_random_session_key".toList, debug f x.encryptedRandomSessionKey),
     ("negotiate_flags".toList, debug f x.negotiateFlags), ("version".toList, debug f x.version),
     ("mic".toList, debug f x.mic), ("exported_session_key".toList, debug f x.exportedSessionKey)]

end Ntlm
