import Verif.Model.Client
/-
  The client with the calls it makes of the cryptographic primitives: which, in what order and on how many bytes.
-/
namespace Ntlm

namespace Calls

/-- A call of a primitive, with the lengths of what it is given. -/
inductive Call where
  /-- crypto.rs:24-29 `md4` -/
  | md4 (n : Nat)
  /-- crypto.rs:31-36 `md5` -/
  | md5 (n : Nat)
  /-- crypto.rs:38-44 `hmac_md5`, and HMAC-MD5 in `kxkey` (crypto.rs:71-74): length of the key, length of the data -/
  | hmacMd5 (key n : Nat)
  /-- crypto/des.rs:33-40 `des_encrypt`: one block -/
  | des
  /-- crypto.rs:110-111: RC4 with a key and data of these lengths -/
  | rc4 (key n : Nat)
  deriving DecidableEq, Repr

/-- A computation that may panic, with the calls it has made. -/
structure T (α : Type) where
  calls : List Call
  result : Except Panic α

instance : Monad T where
  pure a := ⟨[], .ok a⟩
  bind x f := match x with
    | ⟨l, .ok a⟩ => ⟨l ++ (f a).calls, (f a).result⟩
    | ⟨l, .error e⟩ => ⟨l, .error e⟩

/-- A computation without calls. -/
def T.lift {α : Type} (x : Except Panic α) : T α := ⟨[], x⟩

/-- crypto.rs:24-29. -/
def md4 (P : Prims) (b : List UInt8) : T (Bytes 16) := ⟨[.md4 b.length], .ok (P.md4 b)⟩
/-- crypto.rs:31-36. -/
def md5 (P : Prims) (b : List UInt8) : T (Bytes 16) := ⟨[.md5 b.length], .ok (P.md5 b)⟩
/-- crypto.rs:38-44. -/
def hmacMd5 (P : Prims) (key b : List UInt8) : T (Bytes 16) := ⟨[.hmacMd5 key.length b.length], .ok (P.hmacMd5 key b)⟩
/-- crypto/des.rs:33-40. -/
def desBlock (P : Prims) (key plain : Bytes 8) : T (Bytes 8) := ⟨[.des], .ok (P.desBlock key plain)⟩
/-- crypto.rs:110-111. -/
def rc4 (P : Prims) (key data : Bytes 16) : T (Bytes 16) := ⟨[.rc4 16 16], .ok (P.rc4 key data)⟩

/-- crypto/des.rs:28-31 `des7_encrypt`. -/
def des7Encrypt (P : Prims) (key7 : List UInt8) (plain : Bytes 8) : T (Bytes 8) := do
  let key8 ← T.lift (des56To64 key7)
  desBlock P key8 plain

/-- crypto.rs:46-58 `desl`. -/
def desl (P : Prims) (key : Bytes 16) (data : Bytes 8) : T (Bytes 24) := do
  let extended : Bytes 21 := key.append (Bytes.zero 5)
  let a ← des7Encrypt P (extended.sub 0 7 (by omega)).val data
  let b ← des7Encrypt P (extended.sub 7 7 (by omega)).val data
  let c ← des7Encrypt P (extended.sub 14 7 (by omega)).val data
  return (a.append b).append c

/-- crypto.rs:60-90 `kxkey`. -/
def kxkey (P : Prims) (flags : Flags) (sessionBaseKey : Bytes 16) (lmResponseFirst8 : Bytes 8) (hash : Bytes 16)
    (serverChallenge : Option (Bytes 8)) : T (Bytes 16) :=
  match serverChallenge with
  | some sc => hmacMd5 P sessionBaseKey.val (sc.val ++ lmResponseFirst8.val)
  | none =>
    if flags.hasFlag Flags.NTLMSSP_NEGOTIATE_LM_KEY then do
      let a ← des7Encrypt P (hash.sub 0 7 (by omega)).val lmResponseFirst8
      let second : Bytes 7 := (hash.sub 7 1 (by omega)).append (m := 6) ⟨List.replicate 6 0xbd, by simp⟩
      let b ← des7Encrypt P second.val lmResponseFirst8
      return a.append b
    else if flags.hasFlag Flags.NTLMSSP_REQUEST_NON_NT_SESSION_KEY then
      pure ((hash.sub 0 8 (by omega)).append (Bytes.zero 8))
    else pure sessionBaseKey

/-- crypto.rs:92-118 `encrypt_random_session_key`. -/
def encryptRandomSessionKey (P : Prims) (flags : Flags) (kek : Bytes 16) (exported : Option (Bytes 16)) (random : Bytes 16) :
    T (Bytes 16 × Bytes 16) :=
  if flags.hasFlag Flags.NTLMSSP_NEGOTIATE_KEY_EXCH
      && (flags.hasFlag Flags.NTLMSSP_NEGOTIATE_SIGN || flags.hasFlag Flags.NTLMSSP_NEGOTIATE_SEAL) then do
    let e := match exported with
      | some e => e
      | none => random
    let encrypted ← rc4 P kek e
    return (e, encrypted)
  else pure (kek, Bytes.zero 16)

/-- crypto/lm.rs:17-27 `lmowfv1`. -/
def lmowfv1 (P : Prims) (cm : CaseMap) (password : Str) : T (Bytes 16) := do
  let p ← T.lift (preparePassword cm password)
  let (key1, key2) ← T.lift (match splitAtByte p 7 with
    | some ks => .ok ks
    | none => .error .charBoundary)
  let a ← des7Encrypt P (utf8 key1) lmMagic
  let b ← des7Encrypt P (utf8 key2) lmMagic
  return a.append b

/-- crypto/nt.rs:5-15 `ntowfv1`. -/
def ntowfv1 (P : Prims) (password : Str) : T (Bytes 16) := md4 P (u16sAsBytes (encodeUtf16 password))

/-- crypto/nt.rs:17-28 `ntowfv2`. -/
def ntowfv2 (P : Prims) (cm : CaseMap) (username : Str) (hash : Bytes 16) (domain : Str) : T (Bytes 16) :=
  hmacMd5 P hash.val (u16sAsBytes (encodeUtf16 (cm.upper username ++ domain)))

/-- crypto/ntlmv1.rs:14-53 `compute_response`. -/
def ntlmv1Response (P : Prims) (flags : Flags) (keyNt keyLm : Bytes 16) (serverChallenge clientChallenge : Bytes 8)
    (lmResponseNtlmV1 : Bool) : T (Lmv1Challenge × Ntv1Challenge × Bytes 16) := do
  let sessionBaseKey ← md4 P keyNt.val
  if flags.hasFlag Flags.NTLMSSP_NEGOTIATE_EXTENDED_SESSIONSECURITY then
    let data ← md5 P (serverChallenge.val ++ clientChallenge.val)
    let response ← desl P keyNt (data.sub 0 8 (by omega))
    return (Lmv1Challenge.fromClientChallenge clientChallenge, { response }, sessionBaseKey)
  else
    let response ← desl P keyNt serverChallenge
    if lmResponseNtlmV1 then return ({ response }, { response }, sessionBaseKey)
    else
      let lm ← desl P keyLm serverChallenge
      return ({ response := lm }, { response }, sessionBaseKey)

/-- crypto/ntlmv2.rs:15-57 `compute_response`. -/
def ntlmv2Response (P : Prims) (cfg : Cfg) (keyNt keyLm : Bytes 16) (serverChallenge clientChallenge : Bytes 8)
    (time : Option FileTime) (serverName : List AvPair) (clock : SystemTime) :
    T (Bytes 16 × Lmv2Challenge × Ntv2Challenge × Bytes 16) := do
  let timestamp ← T.lift (match time with
    | some t => .ok t
    | none => FileTime.now clock)
  let nt : Ntv2Challenge := { timestamp, challengeFromClient := clientChallenge, targetInfos := serverName }
  let temp ← T.lift (Wire.serialize cfg nt)
  let ntProofStr ← hmacMd5 P keyNt.val (serverChallenge.val ++ (temp ++ [0, 0, 0, 0]))
  let response ← hmacMd5 P keyLm.val (serverChallenge.val ++ clientChallenge.val)
  let sessionBaseKey ← hmacMd5 P keyNt.val ntProofStr.val
  return (ntProofStr, { response, challengeFromClient := clientChallenge }, nt, sessionBaseKey)

/-- messages/authenticate.rs:57-68 `compute_mic`. -/
def computeMic (P : Prims) (cfg : Cfg) (m : Authenticate) (neg : Negotiate) (chal : Challenge) : T Authenticate :=
  match m.exportedSessionKey with
  | some key => do
    let m := { m with mic := Bytes.zero 16 }
    let (_, buffer) ← T.lift ((do
      let _ ← Wire.serializeInto cfg neg
      let _ ← Wire.serializeInto cfg chal
      let _ ← Wire.serializeInto cfg m : W Unit) [])
    let mic ← hmacMd5 P key.val buffer
    return { m with mic }
  | none => pure m

/-- client.rs:74-84 `compute_ntlm_hashes`. -/
def computeNtlmHashes (P : Prims) (cm : CaseMap) (username password domain : Str) : T (Bytes 16 × Bytes 16 × Bytes 16) := do
  let lmHash ← lmowfv1 P cm password
  let ntHash ← ntowfv1 P password
  let ntlmv2Hash ← ntowfv2 P cm username ntHash domain
  return (lmHash, ntHash, ntlmv2Hash)

/-- client.rs:51-72 `new_with_domain`. -/
def newWithDomain (P : Prims) (cm : CaseMap) (env : HostEnv) (username domain password target : Str) : T Client := do
  let (lmHash, ntHash, ntlmv2Hash) ← computeNtlmHashes P cm username password domain
  let workstation ← T.lift (Client.getWorkstationName cm env)
  return { state := .new, username, lmHash, ntHash, ntlmv2Hash, domain, workstation, target, buffer := [], version := none }

/-- client.rs:169-202 `send_authenticate_ntlmv1`. -/
def authenticateNtlmv1 (P : Prims) (ver : UInt32) (rnd : AuthRand) (c : Client) : T Authenticate := do
  let challenge ← T.lift c.getChallenge
  let (lm, nt, sessionBaseKey) ← ntlmv1Response P challenge.negotiateFlags c.ntHash c.lmHash challenge.serverChallenge
    rnd.clientChallenge (ver != 0)
  let kek ← kxkey P challenge.negotiateFlags sessionBaseKey (lm.response.sub 0 8 (by omega)) c.lmHash
    (some challenge.serverChallenge)
  let (exported, encrypted) ← encryptRandomSessionKey P challenge.negotiateFlags kek none rnd.exportedKey
  let auth : Authenticate :=
    { Authenticate.default with
      negotiateFlags := challenge.negotiateFlags
      lmChallengeResponse := some (.v1 lm)
      ntChallengeResponse := some (.v1 nt)
      domain := some ⟨c.domain⟩
      user := some ⟨c.username⟩
      workstation := none }
  let auth := auth.setEncryptedRandomSessionKey (some encrypted)
  return { auth with exportedSessionKey := some exported }

/-- client.rs:204-243 `send_authenticate_ntlmv2`. -/
def authenticateNtlmv2 (P : Prims) (cfg : Cfg) (rnd : AuthRand) (c : Client) : T Authenticate := do
  let negotiate ← T.lift c.getNegotiate
  let challenge ← T.lift c.getChallenge
  let time := Client.firstTimestamp challenge.targetInfos
  let (_ntProofStr, lm, nt, sessionBaseKey) ← ntlmv2Response P cfg c.ntlmv2Hash c.ntlmv2Hash challenge.serverChallenge
    rnd.clientChallenge time challenge.targetInfos rnd.clock
  let kek := sessionBaseKey
  let (exported, encrypted) ← encryptRandomSessionKey P challenge.negotiateFlags kek none rnd.exportedKey
  let auth : Authenticate :=
    { Authenticate.default with
      lmChallengeResponse := some (.v2 lm)
      ntChallengeResponse := some (.v2 nt)
      domain := some ⟨c.domain⟩
      user := some ⟨c.username⟩
      workstation := none }
  let auth := auth.setEncryptedRandomSessionKey (some encrypted)
  let auth := { auth with exportedSessionKey := some exported }
  computeMic P cfg auth negotiate challenge

/-- client.rs:270-290: the message built by `send_authenticate`. -/
def authenticateMessage (P : Prims) (cfg : Cfg) (ver : UInt32) (rnd : AuthRand) (c : Client) : T Authenticate := do
  let auth ←
    if ver = 0 ∨ ver = 1 ∨ ver = 2 then authenticateNtlmv1 P ver rnd c
    else if ver = 3 ∨ ver = 4 ∨ ver = 5 then authenticateNtlmv2 P cfg rnd c
    else T.lift (.error .invalidVersion)
  return Client.finishAuthenticate c auth

/-- client.rs:270-295 `send_authenticate`: the calls it makes; the new client and the returned bytes.  Encoding the message and
    storing it makes no calls. -/
def sendAuthenticate (P : Prims) (cfg : Cfg) (ver : UInt32) (rnd : AuthRand) (junk : List UInt8) (c : Client) :
    List Call × Client × Except Panic (List UInt8) :=
  match authenticateMessage P cfg ver rnd c with
  | ⟨l, .error e⟩ => (l, c, .error e)
  | ⟨l, .ok auth⟩ =>
    match Wire.serializeInto cfg auth [] with
    | .error e => (l, { c with buffer := junk }, .error e)
    | .ok (_, buffer) =>
      let c := Client.setAuthenticatedState auth { c with buffer := buffer }
      (l, c, .ok c.buffer)

/-- client.rs:86-295: one call of a method of an existing client, with the calls of primitives it makes.  `send_negociate` and
    `recv_challenge` make none. -/
def step (P : Prims) (cfg : Cfg) (ver : UInt32) (c : Client) : Client.Op → List Call × Client × Except Panic (List UInt8)
  | .sendNegociate junk => ([], Client.sendNegociate cfg ver junk c)
  | .recvChallenge ch => ([], Client.recvChallenge ch c, .ok [])
  | .sendAuthenticate rnd junk => sendAuthenticate P cfg ver rnd junk c

/-- client.rs:86-295: a history of calls of the methods, and all calls of primitives made. -/
def run (P : Prims) (cfg : Cfg) (ver : UInt32) : Client → List Client.Op → List Call × Client
  | c, [] => ([], c)
  | c, op :: ops => ((step P cfg ver c op).1 ++ (run P cfg ver (step P cfg ver c op).2.1 ops).1,
      (run P cfg ver (step P cfg ver c op).2.1 ops).2)

end Calls

end Ntlm
