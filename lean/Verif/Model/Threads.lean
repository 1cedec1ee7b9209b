import Verif.Model.Client
/-
  Several clients, each used by a thread of its own.  The methods take `&mut self`, so the calls of one client follow one another;
  calls of different clients overlap.  The only thing they share is the random number source of the machine: `OsRng`, which is
  modelled as one sequence of bytes from which every draw takes the next ones.  Whatever a call does between two draws touches only
  its own client, so the draws are the points at which overlapping calls are interleaved.  Printing and logging are left out
  (`Model/Output.lean`, `Model/Log.lean`).
-/
namespace Ntlm.Client

/-- A computation that draws random bytes (messages/structures.rs:82-86) and goes on with them. -/
inductive Prog (α : Type) where
  | done (a : α)
  | ask (n : Nat) (next : Bytes n → Prog α)

/-- One computation after another. -/
def Prog.bind {α β : Type} : Prog α → (α → Prog β) → Prog β
  | .done a, f => f a
  | .ask n next, f => .ask n fun b => (next b).bind f

/-- crypto.rs:92-118 `encrypt_random_session_key`. -/
def encryptRandomSessionKeyI (P : Prims) (flags : Flags) (kek : Bytes 16) (exported : Option (Bytes 16)) :
    Prog (Bytes 16 × Bytes 16) :=
  if flags.hasFlag Flags.NTLMSSP_NEGOTIATE_KEY_EXCH
      && (flags.hasFlag Flags.NTLMSSP_NEGOTIATE_SIGN || flags.hasFlag Flags.NTLMSSP_NEGOTIATE_SEAL) then
    match exported with
    | some e => .done (e, P.rc4 kek e)
    | none => .ask 16 fun e => .done (e, P.rc4 kek e)
  else .done (kek, Bytes.zero 16)

/-- client.rs:169-202 `send_authenticate_ntlmv1`. -/
def authenticateNtlmv1I (P : Prims) (ver : UInt32) (clientChallenge : Bytes 8) (c : Client) : Prog (Except Panic Authenticate) :=
  match getChallenge c with
  | .error e => .done (.error e)
  | .ok challenge =>
    let (lm, nt, sessionBaseKey) := ntlmv1Response P challenge.negotiateFlags c.ntHash c.lmHash
      challenge.serverChallenge clientChallenge (ver != 0)
    let kek := kxkey P challenge.negotiateFlags sessionBaseKey (lm.response.sub 0 8 (by omega)) c.lmHash
      (some challenge.serverChallenge)
    (encryptRandomSessionKeyI P challenge.negotiateFlags kek none).bind fun (exported, encrypted) =>
      let auth : Authenticate :=
        { Authenticate.default with
          negotiateFlags := challenge.negotiateFlags
          lmChallengeResponse := some (.v1 lm)
          ntChallengeResponse := some (.v1 nt)
          domain := some ⟨c.domain⟩
          user := some ⟨c.username⟩
          workstation := none }
      let auth := auth.setEncryptedRandomSessionKey (some encrypted)
      .done (.ok { auth with exportedSessionKey := some exported })

/-- client.rs:204-243 `send_authenticate_ntlmv2`. -/
def authenticateNtlmv2I (P : Prims) (cfg : Cfg) (clientChallenge : Bytes 8) (clock : SystemTime) (c : Client) :
    Prog (Except Panic Authenticate) :=
  match getNegotiate c with
  | .error e => .done (.error e)
  | .ok negotiate =>
    match getChallenge c with
    | .error e => .done (.error e)
    | .ok challenge =>
      let time := firstTimestamp challenge.targetInfos
      match ntlmv2Response P cfg challenge.negotiateFlags c.ntlmv2Hash c.ntlmv2Hash challenge.serverChallenge clientChallenge time
          challenge.targetInfos clock with
      | .error e => .done (.error e)
      | .ok (_ntProofStr, lm, nt, sessionBaseKey) =>
        let kek := sessionBaseKey
        (encryptRandomSessionKeyI P challenge.negotiateFlags kek none).bind fun (exported, encrypted) =>
          let auth : Authenticate :=
            { Authenticate.default with
              lmChallengeResponse := some (.v2 lm)
              ntChallengeResponse := some (.v2 nt)
              domain := some ⟨c.domain⟩
              user := some ⟨c.username⟩
              workstation := none }
          let auth := auth.setEncryptedRandomSessionKey (some encrypted)
          let auth := { auth with exportedSessionKey := some exported }
          .done (auth.computeMic P cfg negotiate challenge)

/-- client.rs:270-276: the client challenge is drawn before anything is looked at. -/
def authenticateMessageI (P : Prims) (cfg : Cfg) (ver : UInt32) (clock : SystemTime) (c : Client) :
    Prog (Except Panic Authenticate) :=
  .ask 8 fun clientChallenge =>
    if ver = 0 ∨ ver = 1 ∨ ver = 2 then authenticateNtlmv1I P ver clientChallenge c
    else if ver = 3 ∨ ver = 4 ∨ ver = 5 then authenticateNtlmv2I P cfg clientChallenge clock c
    else .done (.error .invalidVersion)

/-- client.rs:270-295 `send_authenticate`. -/
def sendAuthenticateI (P : Prims) (cfg : Cfg) (ver : UInt32) (clock : SystemTime) (junk : List UInt8) (c : Client) :
    Prog (Client × Except Panic (List UInt8)) :=
  (authenticateMessageI P cfg ver clock c).bind fun r =>
    .done (match r with
      | .error e => (c, .error e)
      | .ok auth =>
        match Wire.serializeInto cfg (finishAuthenticate c auth) [] with
        | .error e => ({ c with buffer := junk }, .error e)
        | .ok (_, buffer) =>
          let c := setAuthenticatedState (finishAuthenticate c auth) { c with buffer := buffer }
          (c, .ok c.buffer))

/-- A call of a public method (client.rs:86-151, 270-295); its random bytes come from the source. -/
inductive Call where
  | sendNegociate (junk : List UInt8)
  | recvChallenge (ch : Challenge)
  | sendAuthenticate (clock : SystemTime) (junk : List UInt8)
  deriving DecidableEq, Repr

/-- What a call does (client.rs:86-151, 270-295). -/
def callP (P : Prims) (cfg : Cfg) (ver : UInt32) (c : Client) : Call → Prog (Client × Except Panic (List UInt8))
  | .sendNegociate junk => .done (sendNegociate cfg ver junk c)
  | .recvChallenge ch => .done (recvChallenge ch c, .ok [])
  | .sendAuthenticate clock junk => sendAuthenticateI P cfg ver clock junk c

/-- The thread that owns a client: between calls, or inside a call that is about to draw.  `draws` tells what the call has drawn so
    far: the places in the source, and how many bytes. -/
inductive Thread where
  | idle (c : Client)
  | busy (call : Call) (draws : List (Nat × Nat)) (rest : Prog (Client × Except Panic (List UInt8)))

/-- A call that has ended: whose it was, what it has drawn, and its result. -/
structure Finished where
  thread : Nat
  call : Call
  draws : List (Nat × Nat)
  result : Except Panic (List UInt8)

/-- The threads, how much of the random number source has been used, and the calls that have ended, in the order in which they did. -/
structure Machine where
  threads : Nat → Thread
  used : Nat
  finished : List Finished

/-- `n` bytes of the source from a place on (messages/structures.rs:84 `OsRng.fill_bytes`). -/
def fill (source : Nat → UInt8) (place n : Nat) : Bytes n :=
  ⟨(List.range n).map fun i => source (place + i), by simp⟩

/-- What the scheduler lets happen next: a thread begins a call, or goes on to make its draw. -/
inductive Event where
  | start (k : Nat) (call : Call)
  | draw (k : Nat)
  deriving DecidableEq, Repr

/-- A thread goes on up to its next draw or to the end of the call. -/
def Machine.proceed (m : Machine) (k : Nat) (call : Call) (draws : List (Nat × Nat)) :
    Prog (Client × Except Panic (List UInt8)) → Machine
  | .done (c, r) =>
    { m with threads := fun j => if j = k then .idle c else m.threads j, finished := m.finished ++ [⟨k, call, draws, r⟩] }
  | p => { m with threads := fun j => if j = k then .busy call draws p else m.threads j }

/-- One step of the machine; the scheduler cannot make a busy thread begin a call or an idle one draw.  Each client may have its own
    level. -/
def Machine.step (P : Prims) (cfg : Cfg) (ver : Nat → UInt32) (source : Nat → UInt8) (m : Machine) : Event → Machine
  | .start k call =>
    match m.threads k with
    | .idle c => m.proceed k call [] (callP P cfg (ver k) c call)
    | .busy .. => m
  | .draw k =>
    match m.threads k with
    | .busy call draws (.ask n next) =>
      { m with used := m.used + n }.proceed k call (draws ++ [(m.used, n)]) (next (fill source m.used n))
    | _ => m

/-- A schedule. -/
def Machine.run (P : Prims) (cfg : Cfg) (ver : Nat → UInt32) (source : Nat → UInt8) (m : Machine) (es : List Event) : Machine :=
  es.foldl (Machine.step P cfg ver source) m

/-- The machine before any call. -/
def Machine.fresh (clients : Nat → Client) : Machine := ⟨fun k => .idle (clients k), 0, []⟩

end Ntlm.Client
