import Verif.Model.Client
/-
  Clients on a machine that fails them: a random number source that cannot deliver (`OsRng.fill_bytes` panics then,
  messages/structures.rs:82-86) and a standard error that cannot be written (`dbg!` panics then, client.rs:136-137).
  `Model/Client.lean` is for a machine on which both work.
-/
namespace Ntlm.Client

/-- Why a call aborts: a panic of the crate's own code, of the random number source, or of `dbg!`. -/
inductive Abort where
  | own (p : Panic)
  | random
  | stderr
  deriving DecidableEq, Repr

/-- One call of a public method, with what the machine does during it (client.rs:86-151, 270-295).  The two draws of
    `send_authenticate` are its client challenge (client.rs:271) and the session key (crypto.rs:103); `none` is a failing source, and
    the second draw matters only if it is made. -/
inductive OpF where
  | sendNegociate (junk : List UInt8) (firstLine secondLine : Bool)
  | recvChallenge (ch : Challenge)
  | sendAuthenticate (challenge : Option (Bytes 8)) (key : Option (Bytes 16)) (clock : SystemTime) (junk : List UInt8)
  deriving DecidableEq, Repr

/-- messages/structures.rs:82-86 `random`. -/
def draw {n : Nat} (source : Option (Bytes n)) : Except Abort (Bytes n) :=
  match source with
  | some b => .ok b
  | none => .error .random

/-- A panic of the crate's own code, which ends any of the functions below (client.rs:169-295). -/
def own {α : Type} (r : Except Panic α) : Except Abort α :=
  match r with
  | .ok a => .ok a
  | .error e => .error (.own e)

/-- crypto.rs:92-118 `encrypt_random_session_key`. -/
def encryptRandomSessionKeyF (P : Prims) (flags : Flags) (kek : Bytes 16) (exported : Option (Bytes 16))
    (source : Option (Bytes 16)) : Except Abort (Bytes 16 × Bytes 16) :=
  if flags.hasFlag Flags.NTLMSSP_NEGOTIATE_KEY_EXCH
      && (flags.hasFlag Flags.NTLMSSP_NEGOTIATE_SIGN || flags.hasFlag Flags.NTLMSSP_NEGOTIATE_SEAL) then do
    let e ← match exported with
      | some e => pure e
      | none => draw source
    return (e, P.rc4 kek e)
  else return (kek, Bytes.zero 16)

/-- client.rs:169-202 `send_authenticate_ntlmv1`. -/
def authenticateNtlmv1F (P : Prims) (ver : UInt32) (clientChallenge : Bytes 8) (key : Option (Bytes 16)) (c : Client) :
    Except Abort Authenticate := do
  let challenge ← own (getChallenge c)
  let (lm, nt, sessionBaseKey) := ntlmv1Response P challenge.negotiateFlags c.ntHash c.lmHash
    challenge.serverChallenge clientChallenge (ver != 0)
  let kek := kxkey P challenge.negotiateFlags sessionBaseKey (lm.response.sub 0 8 (by omega)) c.lmHash
    (some challenge.serverChallenge)
  let (exported, encrypted) ← encryptRandomSessionKeyF P challenge.negotiateFlags kek none key
  let auth : Authenticate :=
    { Authenticate.default with
      negotiateFlags := challenge.negotiateFlags
      lmChallengeResponse := some (.v1 lm)
      ntChallengeResponse := some (.v1 nt)
      domain := some ⟨c.domain⟩
      user := some ⟨c.username⟩
      workstation := none }
  let auth := auth.setEncryptedRandomSessionKey (some encrypted)
  return { auth with exportedSessionKey := some exported }

/-- client.rs:204-243 `send_authenticate_ntlmv2`. -/
def authenticateNtlmv2F (P : Prims) (cfg : Cfg) (clientChallenge : Bytes 8) (key : Option (Bytes 16)) (clock : SystemTime)
    (c : Client) : Except Abort Authenticate := do
  let negotiate ← own (getNegotiate c)
  let challenge ← own (getChallenge c)
  let time := firstTimestamp challenge.targetInfos
  let (_ntProofStr, lm, nt, sessionBaseKey) ← own (ntlmv2Response P cfg challenge.negotiateFlags c.ntlmv2Hash
    c.ntlmv2Hash challenge.serverChallenge clientChallenge time challenge.targetInfos clock)
  let kek := sessionBaseKey
  let (exported, encrypted) ← encryptRandomSessionKeyF P challenge.negotiateFlags kek none key
  let auth : Authenticate :=
    { Authenticate.default with
      lmChallengeResponse := some (.v2 lm)
      ntChallengeResponse := some (.v2 nt)
      domain := some ⟨c.domain⟩
      user := some ⟨c.username⟩
      workstation := none }
  let auth := auth.setEncryptedRandomSessionKey (some encrypted)
  let auth := { auth with exportedSessionKey := some exported }
  own (auth.computeMic P cfg negotiate challenge)

/-- client.rs:270-290: the message built by `send_authenticate`.  The client challenge is drawn before anything is looked at. -/
def authenticateMessageF (P : Prims) (cfg : Cfg) (ver : UInt32) (challenge : Option (Bytes 8)) (key : Option (Bytes 16))
    (clock : SystemTime) (c : Client) : Except Abort Authenticate := do
  let clientChallenge ← draw challenge
  let auth ←
    if ver = 0 ∨ ver = 1 ∨ ver = 2 then authenticateNtlmv1F P ver clientChallenge key c
    else if ver = 3 ∨ ver = 4 ∨ ver = 5 then authenticateNtlmv2F P cfg clientChallenge key clock c
    else .error (.own .invalidVersion)
  return finishAuthenticate c auth

/-- client.rs:270-295 `send_authenticate`. -/
def sendAuthenticateF (P : Prims) (cfg : Cfg) (ver : UInt32) (challenge : Option (Bytes 8)) (key : Option (Bytes 16))
    (clock : SystemTime) (junk : List UInt8) (c : Client) : Client × Except Abort (List UInt8) :=
  match authenticateMessageF P cfg ver challenge key clock c with
  | .error e => (c, .error e)
  | .ok auth =>
    match Wire.serializeInto cfg auth [] with
    | .error e => ({ c with buffer := junk }, .error (.own e))
    | .ok (_, buffer) =>
      let c := setAuthenticatedState auth { c with buffer := buffer }
      (c, .ok c.buffer)

/-- client.rs:86-139 `send_negociate`.  Both lines are printed (client.rs:136-137) after the state has been set. -/
def sendNegociateF (cfg : Cfg) (ver : UInt32) (junk : List UInt8) (firstLine secondLine : Bool) (c : Client) :
    Client × Except Abort (List UInt8) :=
  match negotiateMessage ver c with
  | .error e => (c, .error (.own e))
  | .ok msg =>
    match Wire.serializeInto cfg msg [] with
    | .error e => ({ c with buffer := junk }, .error (.own e))
    | .ok (size, buffer) =>
      let c := { c with buffer := buffer, state := .negociateSent msg }
      if !firstLine then (c, .error .stderr)
      else if !secondLine then (c, .error .stderr)
      else if size ≤ buffer.length then (c, .ok (buffer.take size)) else (c, .error (.own .sliceIndex))

/-- One call (client.rs:86-151, 270-295). -/
def stepF (P : Prims) (cfg : Cfg) (ver : UInt32) (c : Client) : OpF → Client × Except Abort (List UInt8)
  | .sendNegociate junk l l' => sendNegociateF cfg ver junk l l' c
  | .recvChallenge ch => (recvChallenge ch c, .ok [])
  | .sendAuthenticate challenge key clock junk => sendAuthenticateF P cfg ver challenge key clock junk c

/-- A history of calls (client.rs:86-151, 270-295), the aborts being caught by the caller. -/
def runF (P : Prims) (cfg : Cfg) (ver : UInt32) (c : Client) (h : List OpF) : Client :=
  h.foldl (fun c op => (stepF P cfg ver c op).1) c

end Ntlm.Client
