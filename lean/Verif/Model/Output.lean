import Verif.Model.Client
import Verif.Model.Log
/-
  The calls of a client together with what they print: `dbg!` on standard error, `log::warn!` in the log.
  `Model/Client.lean` leaves both out.  Messages of panics are not modelled.
-/
namespace Ntlm

namespace Client

/-- The source positions `dbg!` prints for client.rs:136 and :137.  How they look depends on the compiler and on where
    the crate is built. -/
structure Places where
  first : Str
  second : Str

/-- `dbg!` of a number: one line on standard error. -/
def dbgLine (place expr : Str) (n : Nat) : Str :=
  "[".toList ++ place ++ "] ".toList ++ expr ++ " = ".toList ++ Nat.toDigits 10 n ++ "\n".toList

/-- What a call prints. -/
structure Printed where
  stderr : Str
  log : List Log.Warn

/-- client.rs:86-139 `send_negociate`, with client.rs:136-137. -/
def sendNegociateP (pl : Places) (cfg : Cfg) (ver : UInt32) (junk : List UInt8) (c : Client) :
    (Client × Except Panic (List UInt8)) × Printed :=
  match negotiateMessage ver c with
  | .error e => ((c, .error e), ⟨[], []⟩)
  | .ok msg =>
    match Wire.serializeInto cfg msg [] with
    | .error e => (({ c with buffer := junk }, .error e), ⟨[], []⟩)
    | .ok (size, buffer) =>
      let c := { c with buffer := buffer, state := .negociateSent msg }
      let out := dbgLine pl.first "self.buffer.len()".toList c.buffer.length ++ dbgLine pl.second "size".toList size
      if size ≤ buffer.length then ((c, .ok (buffer.take size)), ⟨out, []⟩) else ((c, .error .sliceIndex), ⟨out, []⟩)

/-- client.rs:204-243 `send_authenticate_ntlmv2`; `compute_mic` (:240) may log. -/
def authenticateNtlmv2P (P : Prims) (cfg : Cfg) (rnd : AuthRand) (c : Client) :
    Except Panic Authenticate × List Log.Warn :=
  match getNegotiate c with
  | .error e => (.error e, [])
  | .ok negotiate =>
    match getChallenge c with
    | .error e => (.error e, [])
    | .ok challenge =>
      let time := firstTimestamp challenge.targetInfos
      match ntlmv2Response P cfg challenge.negotiateFlags c.ntlmv2Hash c.ntlmv2Hash challenge.serverChallenge
          rnd.clientChallenge time challenge.targetInfos rnd.clock with
      | .error e => (.error e, [])
      | .ok (_ntProofStr, lm, nt, sessionBaseKey) =>
        let (exported, encrypted) :=
          encryptRandomSessionKey P challenge.negotiateFlags sessionBaseKey none rnd.exportedKey
        let auth : Authenticate :=
          { Authenticate.default with
            lmChallengeResponse := some (.v2 lm)
            ntChallengeResponse := some (.v2 nt)
            domain := some ⟨c.domain⟩
            user := some ⟨c.username⟩
            workstation := none }
        let auth := auth.setEncryptedRandomSessionKey (some encrypted)
        let auth := { auth with exportedSessionKey := some exported }
        Log.computeMic P cfg auth negotiate challenge

/-- client.rs:270-290: the message built by `send_authenticate`, and what is logged meanwhile. -/
def authenticateMessageP (P : Prims) (cfg : Cfg) (ver : UInt32) (rnd : AuthRand) (c : Client) :
    Except Panic Authenticate × List Log.Warn :=
  let (auth, log) :=
    if ver = 0 ∨ ver = 1 ∨ ver = 2 then (authenticateNtlmv1 P ver rnd c, [])
    else if ver = 3 ∨ ver = 4 ∨ ver = 5 then authenticateNtlmv2P P cfg rnd c
    else (.error .invalidVersion, [])
  match auth with
  | .error e => (.error e, log)
  | .ok auth => (.ok (finishAuthenticate c auth), log)

/-- client.rs:270-295 `send_authenticate`. -/
def sendAuthenticateP (P : Prims) (cfg : Cfg) (ver : UInt32) (rnd : AuthRand) (junk : List UInt8) (c : Client) :
    (Client × Except Panic (List UInt8)) × Printed :=
  let (auth, log) := authenticateMessageP P cfg ver rnd c
  match auth with
  | .error e => ((c, .error e), ⟨[], log⟩)
  | .ok auth =>
    match Wire.serializeInto cfg auth [] with
    | .error e => (({ c with buffer := junk }, .error e), ⟨[], log⟩)
    | .ok (_, buffer) =>
      let c := setAuthenticatedState auth { c with buffer := buffer }
      ((c, .ok c.buffer), ⟨[], log⟩)

/-- One call (client.rs:141-151 `recv_challenge` prints nothing). -/
def stepP (P : Prims) (pl : Places) (cfg : Cfg) (ver : UInt32) (c : Client) :
    Op → (Client × Except Panic (List UInt8)) × Printed
  | .sendNegociate junk => sendNegociateP pl cfg ver junk c
  | .recvChallenge ch => ((recvChallenge ch c, .ok []), ⟨[], []⟩)
  | .sendAuthenticate rnd junk => sendAuthenticateP P cfg ver rnd junk c

/-- The results and the output of a history of calls. -/
def runP (P : Prims) (pl : Places) (cfg : Cfg) (ver : UInt32) (c : Client) :
    List Op → List (Except Panic (List UInt8)) × Printed
  | [] => ([], ⟨[], []⟩)
  | op :: ops =>
    let ((c, r), p) := stepP P pl cfg ver c op
    let (rs, p') := runP P pl cfg ver c ops
    (r :: rs, ⟨p.stderr ++ p'.stderr, p.log ++ p'.log⟩)

end Client

end Ntlm
