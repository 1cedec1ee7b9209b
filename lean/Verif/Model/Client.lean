import Verif.Model.Messages
/-
  client.rs: the NTLM client state machine.
-/
namespace Ntlm

/-- client.rs:13-20. -/
inductive ClientState where
  | new
  | negociateSent (n : Negotiate)
  | challengeReceived (n : Negotiate) (c : Challenge)
  | authenticateSent (n : Negotiate) (c : Challenge) (a : Authenticate)
  deriving DecidableEq, Repr

/-- client.rs:22-34.  The type parameter `V` becomes the argument `ver` of the methods (`V::version()`,
    assumed constant over calls). -/
structure Client where
  state : ClientState
  username : Str
  lmHash : Bytes 16
  ntHash : Bytes 16
  ntlmv2Hash : Bytes 16
  domain : Str
  workstation : Option Str
  target : Str
  buffer : List UInt8
  version : Option Version
  deriving DecidableEq, Repr

/-- What `new_with_domain` reads from the machine: the variable `COMPUTERNAME` and the content of `/etc/hostname`
    (`none`: unset, unreadable or not Unicode). -/
structure HostEnv where
  computerName : Option Str
  hostnameFile : Option Str
  deriving DecidableEq, Repr

/-- Everything non-deterministic that `send_authenticate` consumes: client.rs:271 (client challenge),
    crypto.rs:103 (random exported session key), structures/filetime.rs:40 (the clock). -/
structure AuthRand where
  clientChallenge : Bytes 8
  exportedKey : Bytes 16
  clock : SystemTime
  deriving DecidableEq, Repr

namespace Client

/-- client.rs:257-268 `get_workstation_name`. -/
def getWorkstationName (cm : CaseMap) (env : HostEnv) : Except Panic (Option Str) :=
  match env.computerName with
  | some n => .ok (some n)
  | none =>
    match env.hostnameFile with
    | none => .ok none
    | some hostname =>
      match firstLine hostname with
      | none => .error .emptyHostname
      | some line =>
        match splitOnce '.' line with
        | some (cn, _) => .ok (some (cm.upper (trim cn)))
        | none => .ok (some (cm.upper (trim line)))

/-- client.rs:74-84 `compute_ntlm_hashes`. -/
def computeNtlmHashes (P : Prims) (cm : CaseMap) (username password domain : Str) :
    Except Panic (Bytes 16 × Bytes 16 × Bytes 16) := do
  let lmHash ← lmowfv1 P cm password
  let ntHash := ntowfv1 P password
  let ntlmv2Hash := ntowfv2 P cm username ntHash domain
  return (lmHash, ntHash, ntlmv2Hash)

/-- client.rs:51-72 `new_with_domain`. -/
def newWithDomain (P : Prims) (cm : CaseMap) (env : HostEnv) (username domain password target : Str) :
    Except Panic Client := do
  let (lmHash, ntHash, ntlmv2Hash) ← computeNtlmHashes P cm username password domain
  let workstation ← getWorkstationName cm env
  return { state := .new, username, lmHash, ntHash, ntlmv2Hash, domain, workstation, target,
           buffer := [], version := none }

/-- client.rs:40-49 `new`. -/
def new (P : Prims) (cm : CaseMap) (env : HostEnv) (username password target : Str) : Except Panic Client :=
  match splitOnce '\\' username with
  | some (domain, user) => newWithDomain P cm env user domain password target
  | none =>
    match splitOnce '@' username with
    | some (user, domain) => newWithDomain P cm env user domain password target
    | none => newWithDomain P cm env username [] password target

/-- client.rs:99-123: the flags that depend on the NTLM level. -/
def versionFlags (ver : UInt32) (f : Flags) : Except Panic Flags :=
  if ver = 0 then
    .ok (((f.setFlag Flags.NTLMSSP_NEGOTIATE_NTLM).setFlag Flags.NTLMSSP_NEGOTIATE_LM_KEY).setFlag
      Flags.NTLMSSP_NEGOTIATE_KEY_EXCH)
  else if ver = 1 then
    .ok ((f.setFlag Flags.NTLMSSP_NEGOTIATE_NTLM).setFlag Flags.NTLMSSP_NEGOTIATE_EXTENDED_SESSIONSECURITY)
  else if ver = 2 ∨ ver = 3 ∨ ver = 4 ∨ ver = 5 then
    .ok (((f.setFlag Flags.NTLMSSP_NEGOTIATE_EXTENDED_SESSIONSECURITY).setFlag
      Flags.NTLMSSP_NEGOTIATE_KEY_EXCH).setFlag Flags.NTLMSSP_NEGOTIATE_TARGET_INFO)
  else .error .unsupportedVersion

/-- client.rs:87-132: the message built by `send_negociate`. -/
def negotiateMessage (ver : UInt32) (c : Client) : Except Panic Negotiate := do
  let msg := Negotiate.default
  let f := msg.negotiateFlags
  let f := f.setFlag Flags.NTLM_NEGOTIATE_OEM
  let f := f.setFlag Flags.NTLMSSP_NEGOTIATE_128
  let f := f.setFlag Flags.NTLMSSP_NEGOTIATE_ALWAYS_SIGN
  let f := f.setFlag Flags.NTLMSSP_NEGOTIATE_SEAL
  let f := f.setFlag Flags.NTLMSSP_NEGOTIATE_SIGN
  let f := f.setFlag Flags.NTLMSSP_NEGOTIATE_UNICODE
  let f := f.setFlag Flags.NTLMSSP_TARGET_TYPE_SERVER
  let f ← versionFlags ver f
  let msg := { msg with negotiateFlags := f }
  let msg := match c.version with
    | some v =>
      { msg with
        negotiateFlags := msg.negotiateFlags.setFlag Flags.NTLMSSP_NEGOTIATE_VERSION
        version := some v }
    | none => msg
  let msg := if !c.domain.isEmpty then msg.setDomainName (some c.domain) else msg
  return { msg with negotiateFlags := msg.negotiateFlags.setFlag Flags.NTLMSSP_REQUEST_TARGET }

/-- client.rs:86-139 `send_negociate`: new client and the returned bytes.  If serialization panics the buffer has
    been cleared and holds some prefix of the message; `junk` stands for whatever is there. -/
def sendNegociate (cfg : Cfg) (ver : UInt32) (junk : List UInt8) (c : Client) :
    Client × Except Panic (List UInt8) :=
  match negotiateMessage ver c with
  | .error e => (c, .error e)
  | .ok msg =>
    match Wire.serializeInto cfg msg [] with
    | .error e => ({ c with buffer := junk }, .error e)
    | .ok (size, buffer) =>
      let c := { c with buffer := buffer, state := .negociateSent msg }
      if size ≤ buffer.length then (c, .ok (buffer.take size)) else (c, .error .sliceIndex)

/-- client.rs:141-151 `recv_challenge`. -/
def recvChallenge (challenge : Challenge) (c : Client) : Client :=
  match c.state with
  | .negociateSent n => { c with state := .challengeReceived n challenge }
  | _ => c

/-- client.rs:153-159 `get_challenge`. -/
def getChallenge (c : Client) : Except Panic Challenge :=
  match c.state with
  | .challengeReceived _ ch => .ok ch
  | .authenticateSent _ ch _ => .ok ch
  | _ => .error .invalidState

/-- client.rs:161-167 `get_negotiate`. -/
def getNegotiate (c : Client) : Except Panic Negotiate :=
  match c.state with
  | .challengeReceived n _ => .ok n
  | .authenticateSent n _ _ => .ok n
  | _ => .error .invalidState

/-- client.rs:169-202 `send_authenticate_ntlmv1`. -/
def authenticateNtlmv1 (P : Prims) (ver : UInt32) (rnd : AuthRand) (c : Client) :
    Except Panic Authenticate := do
  let challenge ← getChallenge c
  let (lm, nt, sessionBaseKey) := ntlmv1Response P challenge.negotiateFlags c.ntHash c.lmHash
    challenge.serverChallenge rnd.clientChallenge (ver != 0)
  let kek := kxkey P challenge.negotiateFlags sessionBaseKey (lm.response.sub 0 8 (by omega)) c.lmHash
    (some challenge.serverChallenge)
  let (exported, encrypted) := encryptRandomSessionKey P challenge.negotiateFlags kek none rnd.exportedKey
  let auth : Authenticate :=
    { Authenticate.default with
      negotiateFlags := challenge.negotiateFlags
      lmChallengeResponse := some (.v1 lm)
      ntChallengeResponse := some (.v1 nt)
      domain := some ⟨c.domain⟩
      user := some ⟨c.username⟩
      workstation := none }
  let auth := auth.setEncryptedRandomSessionKey (some encrypted)
  return { auth with exportedSessionKey := some exported }

/-- client.rs:207-216: the first timestamp of the target infos. -/
def firstTimestamp : List AvPair → Option FileTime
  | [] => none
  | .timestamp t :: _ => some t
  | _ :: rest => firstTimestamp rest

/-- client.rs:204-243 `send_authenticate_ntlmv2`. -/
def authenticateNtlmv2 (P : Prims) (cfg : Cfg) (rnd : AuthRand) (c : Client) :
    Except Panic Authenticate := do
  let negotiate ← getNegotiate c
  let challenge ← getChallenge c
  let time := firstTimestamp challenge.targetInfos
  let (_ntProofStr, lm, nt, sessionBaseKey) ← ntlmv2Response P cfg challenge.negotiateFlags c.ntlmv2Hash
    c.ntlmv2Hash challenge.serverChallenge rnd.clientChallenge time challenge.targetInfos rnd.clock
  let kek := sessionBaseKey
  let (exported, encrypted) := encryptRandomSessionKey P challenge.negotiateFlags kek none rnd.exportedKey
  let auth : Authenticate :=
    { Authenticate.default with
      lmChallengeResponse := some (.v2 lm)
      ntChallengeResponse := some (.v2 nt)
      domain := some ⟨c.domain⟩
      user := some ⟨c.username⟩
      workstation := none }
  let auth := auth.setEncryptedRandomSessionKey (some encrypted)
  let auth := { auth with exportedSessionKey := some exported }
  auth.computeMic P cfg negotiate challenge

/-- client.rs:277-290: the edits `send_authenticate` makes to the message before serializing it. -/
def finishAuthenticate (c : Client) (auth : Authenticate) : Authenticate :=
  let auth := match c.workstation with
    | some w => { auth with workstation := some ⟨w⟩ }
    | none => auth
  let auth := match c.version with
    | some v =>
      { auth with
        negotiateFlags := auth.negotiateFlags.setFlag Flags.NTLMSSP_NEGOTIATE_VERSION
        version := some v }
    | none => auth
  let f := auth.negotiateFlags
  let f := f.clearFlag Flags.NTLMSSP_TARGET_TYPE_SERVER
  let f := f.clearFlag Flags.NTLM_NEGOTIATE_OEM
  let f := f.setFlag Flags.NTLMSSP_NEGOTIATE_TARGET_INFO
  let f := f.setFlag Flags.NTLMSSP_REQUEST_TARGET
  { auth with negotiateFlags := f }

/-- client.rs:270-290: the message built by `send_authenticate`. -/
def authenticateMessage (P : Prims) (cfg : Cfg) (ver : UInt32) (rnd : AuthRand) (c : Client) :
    Except Panic Authenticate := do
  let auth ←
    if ver = 0 ∨ ver = 1 ∨ ver = 2 then authenticateNtlmv1 P ver rnd c
    else if ver = 3 ∨ ver = 4 ∨ ver = 5 then authenticateNtlmv2 P cfg rnd c
    else .error .invalidVersion
  return finishAuthenticate c auth

/-- client.rs:245-255 `set_authenticated_state`. -/
def setAuthenticatedState (auth : Authenticate) (c : Client) : Client :=
  match c.state with
  | .challengeReceived n ch => { c with state := .authenticateSent n ch auth }
  | _ => c

/-- client.rs:270-295 `send_authenticate`: new client and the returned bytes (`junk` as in `sendNegociate`). -/
def sendAuthenticate (P : Prims) (cfg : Cfg) (ver : UInt32) (rnd : AuthRand) (junk : List UInt8) (c : Client) :
    Client × Except Panic (List UInt8) :=
  match authenticateMessage P cfg ver rnd c with
  | .error e => (c, .error e)
  | .ok auth =>
    match Wire.serializeInto cfg auth [] with
    | .error e => ({ c with buffer := junk }, .error e)
    | .ok (_, buffer) =>
      let c := setAuthenticatedState auth { c with buffer := buffer }
      (c, .ok c.buffer)

/-- One call of a public method of an existing client, with the non-determinism it meets. -/
inductive Op where
  | sendNegociate (junk : List UInt8)
  | recvChallenge (ch : Challenge)
  | sendAuthenticate (rnd : AuthRand) (junk : List UInt8)
  deriving DecidableEq, Repr

/-- The effect and result of one call (`recv_challenge` returns nothing: `ok []`). -/
def step (P : Prims) (cfg : Cfg) (ver : UInt32) (c : Client) : Op → Client × Except Panic (List UInt8)
  | .sendNegociate junk => sendNegociate cfg ver junk c
  | .recvChallenge ch => (recvChallenge ch c, .ok [])
  | .sendAuthenticate rnd junk => sendAuthenticate P cfg ver rnd junk c

/-- A history of calls; panics of individual calls are caught by the caller and the client is used again. -/
def run (P : Prims) (cfg : Cfg) (ver : UInt32) (c : Client) (ops : List Op) : Client :=
  ops.foldl (fun c op => (step P cfg ver c op).1) c

end Client

end Ntlm
