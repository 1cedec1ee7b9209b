import Verif.Model.Client
/-
  Clients of a level type whose `NtlmVersion::version` does not always give the same answer (lib.rs:1-3: the trait is public
  and `version` is an ordinary function, so an implementation may read a setting, a counter or the environment).
  `Model/Client.lean` is for a fixed level.
-/
namespace Ntlm.Client

/-- What `V::version()` answers during one call of a client method.  `send_negociate` asks once (client.rs:99).
    `send_authenticate` asks once to choose between NTLMv1 and NTLMv2 (client.rs:272), and the NTLMv1 branch asks again
    (client.rs:177).  Answers that are not asked for have no effect.  For a `version` that panics see
    `VersionOutcomes`. -/
structure VersionAnswers where
  /-- the answer at client.rs:99 or client.rs:272 -/
  first : UInt32
  /-- the answer at client.rs:177 -/
  second : UInt32
  deriving DecidableEq, Repr

/-- client.rs:270-290: the message built by `send_authenticate`, with an answer for each of the two questions. -/
def authenticateMessageV (P : Prims) (cfg : Cfg) (v : VersionAnswers) (rnd : AuthRand) (c : Client) :
    Except Panic Authenticate := do
  let auth ←
    if v.first = 0 ∨ v.first = 1 ∨ v.first = 2 then authenticateNtlmv1 P v.second rnd c
    else if v.first = 3 ∨ v.first = 4 ∨ v.first = 5 then authenticateNtlmv2 P cfg rnd c
    else .error .invalidVersion
  return finishAuthenticate c auth

/-- client.rs:270-295 `send_authenticate`. -/
def sendAuthenticateV (P : Prims) (cfg : Cfg) (v : VersionAnswers) (rnd : AuthRand) (junk : List UInt8) (c : Client) :
    Client × Except Panic (List UInt8) :=
  match authenticateMessageV P cfg v rnd c with
  | .error e => (c, .error e)
  | .ok auth =>
    match Wire.serializeInto cfg auth [] with
    | .error e => ({ c with buffer := junk }, .error e)
    | .ok (_, buffer) =>
      let c := setAuthenticatedState auth { c with buffer := buffer }
      (c, .ok c.buffer)

/-- One call (client.rs:86-151, 270-295) and the answers given during it. -/
def stepV (P : Prims) (cfg : Cfg) (v : VersionAnswers) (c : Client) : Op → Client × Except Panic (List UInt8)
  | .sendNegociate junk => sendNegociate cfg v.first junk c
  | .recvChallenge ch => (recvChallenge ch c, .ok [])
  | .sendAuthenticate rnd junk => sendAuthenticateV P cfg v rnd junk c

/-- A history of calls (client.rs:86-151, 270-295), each with the answers given during it. -/
def runV (P : Prims) (cfg : Cfg) (c : Client) (h : List (VersionAnswers × Op)) : Client :=
  h.foldl (fun c x => (stepV P cfg x.1 c x.2).1) c

/-- What `V::version()` does during one call: an answer, or `none` if it panics.  The questions are those of
    `VersionAnswers`. -/
structure VersionOutcomes where
  /-- at client.rs:99 or client.rs:272 -/
  first : Option UInt32
  /-- at client.rs:177 -/
  second : Option UInt32
  deriving DecidableEq, Repr

/-- client.rs:270-295 `send_authenticate`; the result is `none` if the call ends in a panic of `V::version()`.  The second question
    comes after `get_challenge` (client.rs:170) and before anything of the client is changed. -/
def sendAuthenticateO (P : Prims) (cfg : Cfg) (v : VersionOutcomes) (rnd : AuthRand) (junk : List UInt8) (c : Client) :
    Client × Option (Except Panic (List UInt8)) :=
  match v.first with
  | none => (c, none)
  | some a =>
    if a = 0 ∨ a = 1 ∨ a = 2 then
      match getChallenge c with
      | .error e => (c, some (.error e))
      | .ok _ =>
        match v.second with
        | none => (c, none)
        | some b =>
          let r := sendAuthenticateV P cfg ⟨a, b⟩ rnd junk c
          (r.1, some r.2)
    else
      let r := sendAuthenticateV P cfg ⟨a, 0⟩ rnd junk c
      (r.1, some r.2)

/-- One call (client.rs:86-151, 270-295) of a client whose `V::version()` may panic.  In `send_negociate` the question
    (client.rs:99) comes before anything of the client is changed. -/
def stepO (P : Prims) (cfg : Cfg) (v : VersionOutcomes) (c : Client) : Op → Client × Option (Except Panic (List UInt8))
  | .sendNegociate junk =>
    match v.first with
    | none => (c, none)
    | some a =>
      let r := sendNegociate cfg a junk c
      (r.1, some r.2)
  | .recvChallenge ch => (recvChallenge ch c, some (.ok []))
  | .sendAuthenticate rnd junk => sendAuthenticateO P cfg v rnd junk c

/-- A history of such calls (client.rs:86-151, 270-295), the panics being caught by the caller. -/
def runO (P : Prims) (cfg : Cfg) (c : Client) (h : List (VersionOutcomes × Op)) : Client :=
  h.foldl (fun c x => (stepO P cfg x.1 c x.2).1) c

end Ntlm.Client
