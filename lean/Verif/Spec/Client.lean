import Verif.Spec.Crypto
import Verif.Spec.Decode
import Verif.Model.Client
/-
  Specification vocabulary for clients: histories of API calls, the exchange they amount to, and what a server does
  with the messages.
-/
namespace Ntlm.Spec

open Client (Op)

/-- The arguments a client is created with, and the machine it is created on. -/
structure Login where
  user : Str
  domain : Str
  password : Str
  target : Str
  env : HostEnv

/-- `c` is what `Client::new_with_domain` returns. -/
def created (P : Prims) (cm : CaseMap) (l : Login) (c : Client) : Prop :=
  Client.newWithDomain P cm l.env l.user l.domain l.password l.target = .ok c

/-- How a user name given as one text is read: `DOMAIN\\user` at the first backslash, otherwise `user@domain` at the first
    `@`, otherwise a user without domain. -/
def splits (given domain user : Str) : Prop :=
  (given = domain ++ '\\' :: user ∧ '\\' ∉ domain) ∨
  ('\\' ∉ given ∧ given = user ++ '@' :: domain ∧ '@' ∉ user) ∨
  ('\\' ∉ given ∧ '@' ∉ given ∧ user = given ∧ domain = [])

/-- The call is a `send_negociate`. -/
def isNegotiate (op : Op) : Prop := ∃ junk, op = .sendNegociate junk

/-- The call is a `recv_challenge`. -/
def isReceive (op : Op) : Prop := ∃ ch, op = .recvChallenge ch

/-- A `send_negociate` was made and no challenge received since. -/
def pending (h : List Op) : Prop :=
  ∃ before junk after, h = before ++ .sendNegociate junk :: after ∧ ∀ op ∈ after, ¬ isNegotiate op ∧ ¬ isReceive op

/-- `ch` is the first challenge received after the latest `send_negociate`. -/
def accepted (h : List Op) (ch : Challenge) : Prop :=
  ∃ before junk between after, h = before ++ .sendNegociate junk :: (between ++ .recvChallenge ch :: after) ∧
    (∀ op ∈ between, ¬ isNegotiate op ∧ ¬ isReceive op) ∧ ∀ op ∈ after, ¬ isNegotiate op

/-- A client with this domain can negotiate at this protocol level. -/
def negotiable (ver : UInt32) (domain : Str) : Prop := ver.toNat ≤ 5 ∧ (utf8Bytes domain).length ≤ 65535

/-- The flags a client advertises at a protocol level, by bit number: UNICODE 0, OEM 1, REQUEST_TARGET 2, SIGN 4, SEAL 5,
    ALWAYS_SIGN 15, TARGET_TYPE_SERVER 17, 128 bits 29; at level 0 also NTLM 9, LM_KEY 7 and KEY_EXCH 30; at level 1 NTLM 9 and
    EXTENDED_SESSIONSECURITY 19; from level 2 on EXTENDED_SESSIONSECURITY 19, KEY_EXCH 30 and TARGET_INFO 23. -/
def advertised (ver : UInt32) : List Nat :=
  [0, 1, 2, 4, 5, 15, 17, 29] ++
    (if ver = 0 then [9, 7, 30] else if ver = 1 then [9, 19] else [19, 30, 23])

/-- The session key the client holds after an exchange. -/
def exportsKey (c : Client) (k : Bytes 16) : Prop :=
  ∃ n ch a, c.state = .authenticateSent n ch a ∧ a.exportedSessionKey = some k

/-- The result of a call made after a history of calls. -/
def resultOf (P : Prims) (cfg : Cfg) (ver : UInt32) (c : Client) (h : List Op) (op : Op) : Except Panic (List UInt8) :=
  (Client.step P cfg ver (Client.run P cfg ver c h) op).2

/-- After the history `h`, in which `ch` was accepted, `send_authenticate` returns `b` (with the randomness `rnd`). -/
structure Answers (P : Prims) (cm : CaseMap) (cfg : Cfg) (ver : UInt32) (l : Login) (h : List Op) (ch : Challenge)
    (rnd : AuthRand) (b : List UInt8) : Prop where
  /-- the exchange -/
  exchange : accepted h ch
  /-- the message -/
  sent : ∃ c junk, created P cm l c ∧ resultOf P cfg ver c h (.sendAuthenticate rnd junk) = .ok b

/-- `ch` has been accepted, and no `send_authenticate` of this exchange has returned a message yet. -/
def unanswered (P : Prims) (cfg : Cfg) (ver : UInt32) (c : Client) (h : List Op) (ch : Challenge) : Prop :=
  accepted h ch ∧ ∀ before rnd junk after, h = before ++ .sendAuthenticate rnd junk :: after →
    (∀ op ∈ after, ¬ isNegotiate op) → ∃ e, resultOf P cfg ver c before (.sendAuthenticate rnd junk) = .error e

/-- `b` is the first authenticate message returned in the current exchange, made with the randomness `rnd`. -/
def firstAnswer (P : Prims) (cfg : Cfg) (ver : UInt32) (c : Client) (h : List Op) (ch : Challenge) (rnd : AuthRand)
    (b : List UInt8) : Prop :=
  ∃ before junk after, h = before ++ .sendAuthenticate rnd junk :: after ∧ (∀ op ∈ after, ¬ isNegotiate op) ∧
    unanswered P cfg ver c before ch ∧ resultOf P cfg ver c before (.sendAuthenticate rnd junk) = .ok b

/-- The calls of one exchange, made after any other calls `h`: negotiate, receive the challenge. -/
def exchange (h : List Op) (junk : List UInt8) (ch : Challenge) : List Op := h ++ [.sendNegociate junk, .recvChallenge ch]

/-- The same call, whatever bytes an aborted call leaves in the buffer. -/
def sameCall (op op' : Op) : Prop :=
  op = op' ∨ (isNegotiate op ∧ isNegotiate op') ∨ ∃ rnd j j', op = .sendAuthenticate rnd j ∧ op' = .sendAuthenticate rnd j'

/-- The same calls in the same order. -/
inductive SameCalls : List Op → List Op → Prop where
  | nil : SameCalls [] []
  | cons {op op' h h'} : sameCall op op' → SameCalls h h' → SameCalls (op :: h) (op' :: h')

/-- The first timestamp of a target-info list. -/
def hasTimestamp (infos : List AvPair) (t : FileTime) : Prop :=
  ∃ before after, infos = before ++ .timestamp t :: after ∧ ∀ x, AvPair.timestamp x ∉ before

/-- The time an NTLMv2 client uses: the server's, otherwise the clock's. -/
def clientTime (infos : List AvPair) (clock : SystemTime) (t : FileTime) : Prop :=
  hasTimestamp infos t ∨ ((∀ x, AvPair.timestamp x ∉ infos) ∧ clockTime clock t)

/-- `line` is the first line of a file, without the line feed (or carriage return and line feed) that ends it. -/
def firstLineOf (file line : Str) : Prop :=
  ('\n' ∉ file ∧ line = file) ∨
    ∃ rest, '\n' ∉ line ∧ (file = line ++ '\r' :: '\n' :: rest ∨ (file = line ++ '\n' :: rest ∧ line.getLast? ≠ some '\r'))

/-- `label` is the part of a line before its first dot, or all of it. -/
def firstLabel (line label : Str) : Prop := '.' ∉ label ∧ (line = label ∨ ∃ rest, line = label ++ '.' :: rest)

/-- White space: the 25 characters with the Unicode property `White_Space`. -/
def whiteSpace (c : Char) : Prop :=
  c.toNat ∈ [0x09, 0x0a, 0x0b, 0x0c, 0x0d, 0x20, 0x85, 0xa0, 0x1680, 0x2000, 0x2001, 0x2002, 0x2003, 0x2004, 0x2005, 0x2006, 0x2007,
    0x2008, 0x2009, 0x200a, 0x2028, 0x2029, 0x202f, 0x205f, 0x3000]

instance (c : Char) : Decidable (whiteSpace c) := inferInstanceAs (Decidable (c.toNat ∈ _))

/-- `t` is `s` without the white space at both ends. -/
def trimmed (s t : Str) : Prop :=
  ∃ l r, s = l ++ t ++ r ∧ (∀ c ∈ l, whiteSpace c) ∧ (∀ c ∈ r, whiteSpace c) ∧
    (∀ c, t.head? = some c → ¬ whiteSpace c) ∧ (∀ c, t.getLast? = some c → ¬ whiteSpace c)

/-- The workstation name of a machine: `COMPUTERNAME`, otherwise the trimmed upper-case first label of the first line of
    `/etc/hostname`, if that can be read. -/
def workstationIs (cm : CaseMap) (env : HostEnv) (w : Option Str) : Prop :=
  (∃ n, env.computerName = some n ∧ w = some n) ∨
  (env.computerName = none ∧ env.hostnameFile = none ∧ w = none) ∨
  (env.computerName = none ∧ ∃ file line label name, env.hostnameFile = some file ∧ firstLineOf file line ∧
    firstLabel line label ∧ trimmed label name ∧ w = some (cm.upper name))

/-- The NTLM levels with NTLMv1 responses: 0 to 2. -/
def isV1 (ver : UInt32) : Prop := ver.toNat ≤ 2

/-- The NTLM levels with NTLMv2 responses: 3 to 5. -/
def isV2 (ver : UInt32) : Prop := 3 ≤ ver.toNat ∧ ver.toNat ≤ 5

/-- The descriptor at `pos` names a range inside the message, which holds exactly `v`. -/
def fieldHolds (b : List UInt8) (pos : Nat) (v : List UInt8) : Prop :=
  fieldBytes b pos = v ∧ (emptyField b pos ↔ v = []) ∧ ¬ outOfRange b pos

/-- What a peer reads where a client has written a text: nothing for the empty text, otherwise the text up to the first character
    that does not survive. -/
def readText (s : Str) : Option UnicodeString := if s = [] then none else some ⟨s.takeWhile plainChar⟩

/-- All names of a login fit their length fields. -/
def namesFit (cm : CaseMap) (l : Login) : Prop :=
  (utf8Bytes l.domain).length ≤ 65535 ∧ (utf16le l.domain).length ≤ 65535 ∧ (utf16le l.user).length ≤ 65535 ∧
    ∀ w, workstationIs cm l.env (some w) → (utf16le w).length ≤ 65535

/-- The NTLMv2 hash of a login: HMAC-MD5 under MD4 of the UTF-16LE password, of the UTF-16LE of the upper-case user and
    the domain. -/
def ntlmv2Hash (P : Prims) (cm : CaseMap) (l : Login) : Bytes 16 :=
  P.hmacMd5 (P.md4 (utf16le l.password)).val (utf16le (l.user.flatMap cm.up ++ l.domain))

/-- The key-exchange key behind an authenticate message `b`.  NTLMv1: HMAC-MD5 under the session base key (MD4 of the NT
    hash) of the server challenge and the first 8 bytes of the LM response.  NTLMv2: the session base key, HMAC-MD5 of the
    proof string. -/
def keyExchangeKey (P : Prims) (cm : CaseMap) (ver : UInt32) (l : Login) (ch : Challenge) (rnd : AuthRand)
    (b : List UInt8) (kek : Bytes 16) : Prop :=
  (isV1 ver ∧ kek = P.hmacMd5 (P.md4 (P.md4 (utf16le l.password)).val).val
    (ch.serverChallenge.val ++ (fieldBytes b 12).take 8)) ∨
  (isV2 ver ∧ ∃ t, clientTime ch.targetInfos rnd.clock t ∧
    kek = P.hmacMd5 (ntlmv2Hash P cm l).val (P.hmacMd5 (ntlmv2Hash P cm l).val
      (ch.serverChallenge.val ++ ntlmv2Temp t rnd.clientChallenge ch.targetInfos)).val)

/-- The session key a server arrives at: with KEY_EXCH in the authenticate message, the decryption of the encrypted
    session key; otherwise the key-exchange key. -/
def serverKey (P : Prims) (b : List UInt8) (kek : Bytes 16) (k : List UInt8) : Prop :=
  (flagAt b 60 30 ∧ ∃ e : Bytes 16, e.val = fieldBytes b 52 ∧ k = rc4k P kek e) ∨ (¬ flagAt b 60 30 ∧ k = kek.val)

/-- The message with the 16 bytes at offset `p` zeroed. -/
def zeroAt (b : List UInt8) (p : Nat) : List UInt8 := b.take p ++ List.replicate 16 0 ++ b.drop (p + 16)

/-- The message with its MIC zeroed (16 bytes at offset 64 in a message without version block). -/
def zeroMic (b : List UInt8) : List UInt8 := zeroAt b 64

/-- Where the MIC of an AUTHENTICATE message is: after the version block, if there is one. -/
def micOffset (m : Authenticate) : Nat := if m.version = none then 64 else 72

end Ntlm.Spec
