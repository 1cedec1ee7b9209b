import Verif.Model.Messages
/-
  The decoders together with the error value they build.  Every `deserialize` of the crate is generic in the error
  type `E` (messages.rs:55-63); `Model/Messages.lean` only says that a decoder failed.  Here the error type is a
  parameter, slices carry their position in the buffer the caller passed, and each decoder calls the operations of
  the error type as `nom` 7 and the code do.
-/
namespace Ntlm

namespace Trace

/-- A `&[u8]` that borrows from the caller's buffer: where it starts in it, and its bytes. -/
structure Slice where
  off : Nat
  data : List UInt8
  deriving DecidableEq, Repr

namespace Slice

/-- `&s[..n]`. -/
def take (s : Slice) (n : Nat) : Slice := ⟨s.off, s.data.take n⟩
/-- `&s[n..]`. -/
def drop (s : Slice) (n : Nat) : Slice := ⟨s.off + n, s.data.drop n⟩

end Slice

/-- The `nom::error::ErrorKind`s that the combinators used by the crate produce. -/
inductive Kind where
  | tag | eof | verify | mapOpt | many0 | alt
  deriving DecidableEq, Repr

/-- messages.rs:55-63: an error type, with the methods of `nom::error::ParseError` and `ContextError` that
    the parsers call. -/
class NomError (E : Type) where
  /-- `ParseError::from_error_kind`. -/
  fromKind : Slice → Kind → E
  /-- `ParseError::append`. -/
  append : Slice → Kind → E → E
  /-- `ParseError::or`. -/
  or : E → E → E
  /-- `ContextError::add_context`. -/
  addContext : Slice → String → E → E

/-- What an entry of a `VerboseError` says (`nom::error::VerboseErrorKind`). -/
inductive What where
  | nom (k : Kind)
  | context (name : String)
  deriving DecidableEq, Repr

/-- `nom::error::VerboseError<&[u8]>` (used in win.rs:194, :209), innermost entry first. -/
abbrev Verbose := List (Slice × What)

/-- `impl ParseError/ContextError for VerboseError`: each step pushes an entry; `or` keeps the second. -/
instance : NomError Verbose where
  fromKind s k := [(s, .nom k)]
  append s k e := e ++ [(s, .nom k)]
  or _ e := e
  addContext s n e := e ++ [(s, .context n)]

/-- `impl ParseError/ContextError for ()` (used in client.rs:327, :347, :371). -/
instance : NomError Unit where
  fromKind _ _ := ()
  append _ _ _ := ()
  or _ _ := ()
  addContext _ _ _ := ()

/-- `nom::error::Error<&[u8]>`: the innermost position and kind. -/
structure Plain where
  input : Slice
  code : Kind
  deriving DecidableEq, Repr

/-- `impl ParseError/ContextError for nom::error::Error`: contexts and later kinds are ignored. -/
instance : NomError Plain where
  fromKind s k := ⟨s, k⟩
  append _ _ e := e
  or _ e := e
  addContext _ _ e := e

/-- What the message of a panic in a decoder is made from. -/
inductive Msg where
  /-- `&input[start..stop]` on a slice of `len` bytes (messages/field.rs:73, :105). -/
  | outOfRange (start stop len : Nat)
  /-- `debug_assert_eq!(r.len(), 0)` with `left` bytes in `r` (structures/avid.rs:244 ff.). -/
  | leftOver (left : Nat)
  deriving DecidableEq, Repr

/-- `nom::Err<E>`, and panics.  (`Err::Failure` is never produced: there is no `cut`.) -/
inductive TErr (E : Type) where
  | error (e : E)
  | incomplete
  | panic (p : Panic) (m : Msg)
  deriving DecidableEq, Repr

/-- `FnMut(&[u8]) -> IResult<&[u8], α, E>`. -/
def TP (E α : Type) := Slice → Except (TErr E) (α × Slice)

/-- Sequencing (`tuple`, `preceded`, `?`). -/
instance {E : Type} : Monad (TP E) where
  pure a := fun s => .ok (a, s)
  bind p f := fun s => match p s with
    | .ok (a, s') => f a s'
    | .error e => .error e

variable {E : Type} [NomError E]

/-! ### `nom` combinators -/

/-- `nom::bytes::complete::take(n)`: `ErrorKind::Eof` at the input. -/
def take (n : Nat) : TP E Slice := fun s =>
  if s.data.length < n then .error (.error (NomError.fromKind s .eof)) else .ok (s.take n, s.drop n)

/-- `take(n)` copied into a `[u8; n]`. -/
def takeBytes (n : Nat) : TP E (Bytes n) := fun s =>
  if h : s.data.length < n then .error (.error (NomError.fromKind s .eof))
  else .ok (⟨s.data.take n, by simp only [List.length_take]; omega⟩, s.drop n)

/-- `nom::bytes::complete::tag(t)`: `ErrorKind::Tag` at the input. -/
def tag (t : List UInt8) : TP E Unit := fun s =>
  if s.data.take t.length = t then .ok ((), s.drop t.length) else .error (.error (NomError.fromKind s .tag))

/-- `nom::number::complete::le_u*`: `ErrorKind::Eof` at the input. -/
def leNat (k : Nat) : TP E Nat := do
  let b ← take k
  return leVal b.data

/-- `le_u8`. -/
def leU8 : TP E UInt8 := do return UInt8.ofNat (← leNat 1)
/-- `le_u16`. -/
def leU16 : TP E UInt16 := do return UInt16.ofNat (← leNat 2)
/-- `le_u24`. -/
def leU24 : TP E UInt32 := do return UInt32.ofNat (← leNat 3)
/-- `le_u32`. -/
def leU32 : TP E UInt32 := do return UInt32.ofNat (← leNat 4)
/-- `le_u64`. -/
def leU64 : TP E UInt64 := do return UInt64.ofNat (← leNat 8)

/-- `nom::combinator::verify`: `ErrorKind::Verify` at the input given to it. -/
def verify {α : Type} (p : TP E α) (ok : α → Bool) : TP E α := fun s =>
  match p s with
  | .ok (a, r) => if ok a then .ok (a, r) else .error (.error (NomError.fromKind s .verify))
  | .error e => .error e

/-- `nom::combinator::map_opt`: `ErrorKind::MapOpt` at the input given to it. -/
def mapOpt {α β : Type} (p : TP E α) (f : α → Option β) : TP E β := fun s =>
  match p s with
  | .ok (a, r) => match f a with
    | some b => .ok (b, r)
    | none => .error (.error (NomError.fromKind s .mapOpt))
  | .error e => .error e

/-- `nom::combinator::map`. -/
def pmap {α β : Type} (p : TP E α) (f : α → β) : TP E β := fun s =>
  match p s with
  | .ok (a, r) => .ok (f a, r)
  | .error e => .error e

/-- `nom::combinator::cond`. -/
def cond {α : Type} (b : Bool) (p : TP E α) : TP E (Option α) :=
  if b then pmap p some else pure none

/-- `nom::combinator::rest`. -/
def rest : TP E (List UInt8) := fun s => .ok (s.data, s.drop s.data.length)

/-- `nom::branch::alt` with two alternatives: if both fail, `append(input, Alt, e1.or(e2))`. -/
def alt {α : Type} (p q : TP E α) : TP E α := fun s =>
  match p s with
  | .error (.error e₁) =>
    match q s with
    | .error (.error e₂) => .error (.error (NomError.append s .alt (NomError.or e₁ e₂)))
    | r => r
  | r => r

/-- `nom::multi::length_data` (nom 7). -/
def lengthData (p : TP E UInt16) : TP E Slice := fun s =>
  match p s with
  | .ok (n, r) => if r.data.length < n.toNat then .error .incomplete else .ok (r.take n.toNat, r.drop n.toNat)
  | .error e => .error e

/-- Loop of `many0`, with fuel: the error that ends it is dropped. -/
def many0Aux {α : Type} (p : TP E α) : Nat → TP E (List α)
  | 0, s => .error (.error (NomError.fromKind s .many0))
  | fuel + 1, s =>
    match p s with
    | .error (.error _) => .ok ([], s)
    | .error e => .error e
    | .ok (a, r) =>
      if r.data.length < s.data.length then
        match many0Aux p fuel r with
        | .ok (as, r') => .ok (a :: as, r')
        | .error e => .error e
      else .error (.error (NomError.fromKind s .many0))

/-- `nom::multi::many0`, and `fold_many0` into a `Vec` or `String`. -/
def many0 {α : Type} (p : TP E α) : TP E (List α) := fun s => many0Aux p (s.data.length + 1) s

/-- `nom::error::context(name, p)`. -/
def context {α : Type} (name : String) (p : TP E α) : TP E α := fun s =>
  match p s with
  | .error (.error e) => .error (.error (NomError.addContext s name e))
  | r => r

/-! ### Structures -/

/-- messages/structures.rs:38-49 (`buffer_aliases!`); `name` is the literal given at lines 91-105. -/
def bytes (name : String) (n : Nat) : TP E (Bytes n) := context name (takeBytes n)

/-- messages/flags.rs:183-188. -/
def flags (cfg : Cfg) : TP E Flags := context "Flags" (pmap (verify leU32 (Flags.validate cfg)) Flags.mk)

/-- messages/unicode_string.rs:76-89. -/
def oemString : TP E OEMString := context "OEM string" (pmap (mapOpt rest fromUtf8) OEMString.mk)

/-- messages/unicode_string.rs:104-128. -/
def unicodeString : TP E UnicodeString :=
  context "Unicode string" (pmap (many0 (mapOpt leU16 decodeUnit)) UnicodeString.mk)

/-- structures/version.rs:38-65. -/
def version : TP E Version :=
  context "Version" do
    let major ← context "major" leU8
    let minor ← context "minor" leU8
    let build ← context "build" leU16
    let _reserved ← context "reserved" (verify leU24 (fun r => r == 0))
    let revisionCount ← context "revision_count" (verify leU8 (fun rc => rc == NTLMSSP_REVISION_W2K3))
    return { major, minor, build, revisionCount }

/-- structures/filetime.rs:59-75: the check of the value is outside the context. -/
def fileTime (cfg : Cfg) : TP E FileTime := fun s =>
  match (context "FileTime" (do let low ← leU32; let high ← leU32; return ({ low, high } : FileTime)) :
      TP E FileTime) s with
  | .ok (me, r) =>
    if (me.toSystemTime cfg).isNone then .error (.error (NomError.fromKind s .verify)) else .ok (me, r)
  | .error e => .error e

/-- structures/single_host_data.rs:33-62. -/
def singleHostData : TP E SingleHostData :=
  context "SingleHostData" do
    let size ← leU32
    let z4 ← verify leU32 (fun val => val == 0)
    let customData ← takeBytes 8
    let machineId ← takeBytes 32
    return { size, z4, customData, machineId }

/-- structures/signature.rs:31-54. -/
def messageSignature : TP E MessageSignature :=
  context "MessageSignature" do
    let _version ← context "version" (verify leU32 (fun v => v == 1))
    let randomPad ← bytes "random_pad" 4
    let checksum ← context "checksum" leU32
    let seqNum ← context "seq_num" leU32
    return { randomPad, checksum, seqNum }

/-- structures/avid.rs:43-64. -/
def avId : TP E AvId := context "AvId" (mapOpt leU16 AvId.ofU16)

/-- structures/avid.rs:96-114. -/
def msvAvFlags : TP E MsvAvFlags := do
  let flags ← context "MsvAvFlags" (verify leU32 (fun f => f &&& ~~~(0x7 : UInt32) == 0))
  return { accountAuthenticationConstrained := flags &&& 0x00000001 != 0
           micPresent := flags &&& 0x00000002 != 0
           generatedSpnFromUntrustedSource := flags &&& 0x00000004 != 0 }

/-- structures/avid.rs:242-246 and the similar arms. -/
def avValue {α : Type} (cfg : Cfg) (p : TP E α) (mk : α → AvPair) (data after : Slice) :
    Except (TErr E) (AvPair × Slice) :=
  match p data with
  | .ok (a, r) =>
    if cfg.debug && r.data.length != 0 then .error (.panic .debugAssert (.leftOver r.data.length)) else .ok (mk a, after)
  | .error e => .error e

/-- structures/avid.rs:232-294. -/
def avPairValue (cfg : Cfg) (id : AvId) (data after : Slice) : Except (TErr E) (AvPair × Slice) :=
  match id with
  | .eol =>
    if !data.data.isEmpty then .error (.error (NomError.fromKind data .verify)) else .ok (.eol, after)
  | .nbComputerName => avValue cfg unicodeString (fun u => .nbComputerName u.s) data after
  | .nbDomainName => avValue cfg unicodeString (fun u => .nbDomainName u.s) data after
  | .dnsComputerName => avValue cfg unicodeString (fun u => .dnsComputerName u.s) data after
  | .dnsDomainName => avValue cfg unicodeString (fun u => .dnsDomainName u.s) data after
  | .dnsTreeName => avValue cfg unicodeString (fun u => .dnsTreeName u.s) data after
  | .flags => avValue cfg msvAvFlags .flags data after
  | .timestamp => avValue cfg (fileTime cfg) .timestamp data after
  | .singleHost => avValue cfg singleHostData .singleHost data after
  | .targetName => avValue cfg unicodeString (fun u => .targetName u.s) data after
  | .channelBindings => avValue cfg (takeBytes 16) .channelBindings data after

/-- structures/avid.rs:226-295. -/
def avPair (cfg : Cfg) : TP E AvPair := do
  let (id, data) ← context "AvPair" (do
    let id ← avId
    let data ← lengthData leU16
    return (id, data))
  fun after => avPairValue cfg id data after

/-- structures/lm_challenge.rs:29-35. -/
def lmv1 : TP E Lmv1Challenge := do
  let response ← context "Lmv1Challenge" (bytes "response" 24)
  return { response }

/-- structures/lm_challenge.rs:81-98. -/
def lmv2 : TP E Lmv2Challenge :=
  context "Lmv2Challenge" do
    let response ← bytes "response" 16
    let challengeFromClient ← bytes "client_challenge" 8
    return { response, challengeFromClient }

/-- structures/nt_challenge.rs:28-34. -/
def ntv1 : TP E Ntv1Challenge := do
  let response ← context "Ntv1Challenge" (bytes "response" 24)
  return { response }

/-- structures/nt_challenge.rs:68-98. -/
def ntv2 (cfg : Cfg) : TP E Ntv2Challenge :=
  context "Ntv2Challenge" do
    let _respType ← context "RespType" (verify leU8 (fun b => b == 1))
    let _hiRespType ← context "HiRespType" (verify leU8 (fun b => b == 1))
    let _reserved1 ← context "Reserved1" (verify leU16 (fun b => b == 0))
    let _reserved2 ← context "Reserved2" (verify leU32 (fun b => b == 0))
    let timestamp ← fileTime cfg
    let challengeFromClient ← bytes "client_challenge" 8
    let _reserved3 ← verify leU32 (fun b => b == 0)
    let targetInfos ← many0 (avPair cfg)
    return { timestamp, challengeFromClient, targetInfos }

/-- structures/nt_challenge.rs:136-144. -/
def ntChallenge (cfg : Cfg) : TP E NtChallenge :=
  alt (pmap (ntv2 cfg) .v2) (pmap ntv1 .v1)

/-- structures/lm_challenge.rs:136-144. -/
def lmChallenge : TP E LmChallenge :=
  alt (pmap lmv2 .v2) (pmap lmv1 .v1)

/-! ### Fields -/

/-- messages/field.rs:33-48. -/
def field : TP E Field :=
  context "Field" do
    let len ← leU16
    let maxLen ← leU16
    let offset ← leU32
    return { len, maxLen, offset }

/-- messages/field.rs:52-56 and the indexing `&input[..]` (lines 73, 105; challenge.rs:194). -/
def slice (f : Field) (input : Slice) : Except (TErr E) Slice :=
  if f.offset.toNat + f.len.toNat ≤ input.data.length then
    .ok ((input.drop f.offset.toNat).take f.len.toNat)
  else .error (.panic .sliceIndex (.outOfRange f.offset.toNat (f.offset.toNat + f.len.toNat) input.data.length))

/-- messages/field.rs:58-88 `get_data_if`. -/
def getDataIf {α : Type} (p : TP E α) (typename : String) (f : Field) (input : Slice) (cond : Bool) :
    Except (TErr E) (Option α) :=
  if cond then
    if f.len = 0 then .ok none
    else
      match slice f input with
      | .error e => .error e
      | .ok data =>
        match context typename (context "Field::get_data" p) data with
        | .ok (value, _) => .ok (some value)
        | .error e => .error e
  else .ok none

/-- messages/field.rs:90-119 `get_many_if`: the name of the field is not added as a context. -/
def getManyIf {α : Type} (p : TP E α) (f : Field) (input : Slice) (cond : Bool) :
    Except (TErr E) (List α) :=
  if cond then
    if f.len = 0 then .ok []
    else
      match slice f input with
      | .error e => .error e
      | .ok data =>
        match context "Field::get_data" (many0 p) data with
        | .ok (value, _) => .ok value
        | .error e => .error e
  else .ok []

/-! ### Messages -/

/-- messages/negotiate.rs:93-103. -/
def negotiateHeader (cfg : Cfg) : TP E (Flags × Field × Field) :=
  context "Negotiate" do
    tag signature
    let _ ← verify leU32 (fun mt => mt == 0x00000001)
    let negotiateFlags ← flags cfg
    let domainNameField ← context "domain_name_field" field
    let workstationField ← context "workstation_field" field
    return (negotiateFlags, domainNameField, workstationField)

/-- messages/negotiate.rs:89-130; the remaining input is `&b""[..]`, which is not part of the caller's buffer: only
    its being empty matters. -/
def negotiate (cfg : Cfg) : TP E Negotiate := fun input =>
  match (negotiateHeader cfg : TP E _) input with
  | .error e => .error e
  | .ok ((negotiateFlags, domainNameField, workstationField), rest) =>
    match (cond (negotiateFlags.hasFlag Flags.NTLMSSP_NEGOTIATE_VERSION)
        (context "Negotiate/version" version) : TP E _) rest with
    | .error e => .error e
    | .ok (version, _) =>
      match getDataIf oemString "domain" domainNameField input
          (negotiateFlags.hasFlag Flags.NTLMSSP_NEGOTIATE_OEM_DOMAIN_SUPPLIED || true) with
      | .error e => .error e
      | .ok domainName =>
        match getDataIf oemString "workstation" workstationField input
            (negotiateFlags.hasFlag Flags.NTLMSSP_NEGOTIATE_OEM_WORKSTATION_SUPPLIED || true) with
        | .error e => .error e
        | .ok workstation => .ok ({ negotiateFlags, domainName, workstation, version }, ⟨0, []⟩)

/-- messages/challenge.rs:160-163. -/
def parseReserved (cfg : Cfg) : TP E UInt64 :=
  if cfg.strict then verify leU64 (fun reserved => reserved == 0) else leU64

/-- messages/challenge.rs:164-179. -/
def challengeHeader (cfg : Cfg) : TP E (Field × Flags × Bytes 8 × Field) :=
  context "Challenge" do
    tag signature
    let _ ← verify leU32 (fun mt => mt == 0x00000002)
    let targetNameField ← context "target_name_field" field
    let negotiateFlags ← context "negotiate_flags" (flags cfg)
    let serverChallenge ← bytes "server_challenge" 8
    let _reserved ← context "reserved" (parseReserved cfg)
    let targetInfosField ← context "target_infos_field" field
    return (targetNameField, negotiateFlags, serverChallenge, targetInfosField)

/-- messages/challenge.rs:156-213. -/
def challenge (cfg : Cfg) : TP E Challenge := fun input =>
  match (challengeHeader cfg : TP E _) input with
  | .error e => .error e
  | .ok ((targetNameField, negotiateFlags, serverChallenge, targetInfosField), rest) =>
    match (cond (negotiateFlags.hasFlag Flags.NTLMSSP_NEGOTIATE_VERSION)
        (context "version" version) : TP E _) rest with
    | .error e => .error e
    | .ok (version, _) =>
      match getDataIf unicodeString "target_name" targetNameField input
          (negotiateFlags.hasFlag Flags.NTLMSSP_REQUEST_TARGET || true) with
      | .error e => .error e
      | .ok targetName =>
        match getManyIf (avPair cfg) targetInfosField input true with
        | .error e => .error e
        | .ok targetInfos =>
          if Challenge.lastIsEol targetInfos then
            .ok ({ targetName, negotiateFlags, serverChallenge, targetInfos, version }, ⟨0, []⟩)
          else
            match slice targetInfosField input with
            | .error e => .error e
            | .ok data => .error (.error (NomError.addContext data "Challenge/TargetInfos/EOL"
                (NomError.fromKind data .verify)))

/-- messages/authenticate.rs:113-138. -/
def authenticateHeader (cfg : Cfg) : TP E Authenticate.Header :=
  context "Authenticate" do
    tag signature
    let _ ← verify leU32 (fun mt => mt == 0x00000003)
    let lm ← context "lm_challenge" field
    let nt ← context "nt_challenge" field
    let domain ← context "domain_field" field
    let user ← context "user_field" field
    let workstation ← context "workstation_field" field
    let ersk ← context "encrypted_random_session_key_field" field
    let flags ← flags cfg
    return { lm, nt, domain, user, workstation, ersk, flags }

/-- `result.ok().flatten()` (messages/authenticate.rs:148-149, :154-155). -/
def okFlatten {α : Type} (r : Except (TErr E) (Option α)) : Except (TErr E) (Option α) :=
  match r with
  | .ok x => .ok x
  | .error (.panic p m) => .error (.panic p m)
  | .error _ => .ok none

/-- messages/authenticate.rs:145-157. -/
def lmResponse (h : Authenticate.Header) (input : Slice) : Except (TErr E) (Option LmChallenge) :=
  if h.flags.hasFlag Flags.NTLMSSP_NEGOTIATE_NTLM then
    match okFlatten (getDataIf lmv1 "lmv1_challenge_response" h.lm input true) with
    | .ok c => .ok (c.map .v1)
    | .error e => .error e
  else
    match okFlatten (getDataIf lmv2 "lmv2_challenge_response" h.lm input true) with
    | .ok c => .ok (c.map .v2)
    | .error e => .error e

/-- messages/authenticate.rs:145-183. -/
def authenticateBody (cfg : Cfg) (h : Authenticate.Header) (version : Option Version) (mic : Bytes 16)
    (input : Slice) : Except (TErr E) Authenticate := do
  let lmChallengeResponse ← lmResponse h input
  let ntChallengeResponse ← getDataIf (ntChallenge cfg) "nt_challenge_response" h.nt input true
  let domain ← getDataIf unicodeString "domain" h.domain input true
  let user ← getDataIf unicodeString "user" h.user input true
  let workstation ← getDataIf unicodeString "workstation" h.workstation input true
  let encryptedRandomSessionKey ←
    getDataIf (bytes "encrypted_random_session_key" 16) "encrypted_random_session_key" h.ersk input
      (h.flags.hasFlag Flags.NTLMSSP_NEGOTIATE_KEY_EXCH)
  return { lmChallengeResponse, ntChallengeResponse, domain, user, workstation,
           encryptedRandomSessionKey, negotiateFlags := h.flags, version, mic,
           exportedSessionKey := none }

/-- messages/authenticate.rs:109-184. -/
def authenticate (cfg : Cfg) : TP E Authenticate := fun input =>
  match (authenticateHeader cfg : TP E _) input with
  | .error e => .error e
  | .ok (h, rest) =>
    match (cond (h.flags.hasFlag Flags.NTLMSSP_NEGOTIATE_VERSION)
        (context "Authenticate/version" version) : TP E _) rest with
    | .error e => .error e
    | .ok (version, rest) =>
      match (context "Authenticate/mic" (bytes "mic" 16) : TP E _) rest with
      | .error e => .error e
      | .ok (mic, _) =>
        match authenticateBody cfg h version mic input with
        | .error e => .error e
        | .ok m => .ok (m, ⟨0, []⟩)

/-- A decoder called on the caller's buffer. -/
def run {α : Type} (p : TP E α) (input : List UInt8) : Except (TErr E) (α × Slice) := p ⟨0, input⟩

end Trace

end Ntlm
