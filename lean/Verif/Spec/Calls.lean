import Verif.Model.Calls
import Verif.Spec.Client
/-
  How often, in what order and on how many bytes a client calls the cryptographic primitives.
-/
namespace Ntlm

namespace Spec

open Calls

/-- A session key is exchanged: KEY_EXCH (bit 30) with SIGN (bit 4) or SEAL (bit 5). -/
def exchangesKey (flags : Flags) : Bool :=
  flags.bits.toNat.testBit 30 && (flags.bits.toNat.testBit 4 || flags.bits.toNat.testBit 5)

/-- The calls made to build an answer to a challenge with these flags and target infos; `signed` is the number of bytes under the
    message integrity code.

    NTLMv1: MD4 of the NT hash; with EXTENDED_SESSIONSECURITY (bit 19) MD5 of the two challenges and three DES blocks, otherwise three
    DES blocks, and three more at level 0; HMAC-MD5 for the key-exchange key.  NTLMv2: HMAC-MD5 of the server challenge and the
    blob, of the two challenges, and of the proof.  Then RC4 of the session key, if there is one; at last, in NTLMv2, the message integrity
    code. -/
def answerCalls (ver : UInt32) (flags : Flags) (infos : List AvPair) (signed : Nat) : List Call :=
  if ver.toNat ≤ 2 then
    [.md4 16] ++
      (if flags.bits.toNat.testBit 19 then [.md5 16, .des, .des, .des]
        else if ver = 0 then [.des, .des, .des, .des, .des, .des] else [.des, .des, .des]) ++
      [.hmacMd5 16 16] ++ (if exchangesKey flags then [.rc4 16 16] else [])
  else
    [.hmacMd5 16 (8 + 32 + (avListBytes infos).length), .hmacMd5 16 16, .hmacMd5 16 16] ++
      (if exchangesKey flags then [.rc4 16 16] else []) ++ [.hmacMd5 16 signed]

/-- The calls made to create a client: two DES blocks for the LM hash, MD4 of the password for the NT hash, HMAC-MD5 of the upper-case
    user and the domain. -/
def createCalls (cm : CaseMap) (l : Login) : List Call :=
  [.des, .des, .md4 (utf16le l.password).length, .hmacMd5 16 (utf16le (l.user.flatMap cm.up ++ l.domain)).length]

/-- The same call, up to random values: the client's random bytes may differ, and so may the server's challenge.  The clock and
    the rest of the challenge message are the same. -/
def sameButRandom : Client.Op → Client.Op → Prop
  | .sendNegociate _, .sendNegociate _ => True
  | .recvChallenge ch, .recvChallenge ch' => ch' = { ch with serverChallenge := ch'.serverChallenge }
  | .sendAuthenticate rnd _, .sendAuthenticate rnd' _ => rnd.clock = rnd'.clock
  | _, _ => False

/-- The same calls in the same order, up to random values. -/
inductive SameButRandom : List Client.Op → List Client.Op → Prop where
  | nil : SameButRandom [] []
  | cons {op op' h h'} : sameButRandom op op' → SameButRandom h h' → SameButRandom (op :: h) (op' :: h')

/-- The same login with another password. -/
def samePerson (l l' : Login) : Prop := l'.user = l.user ∧ l'.domain = l.domain

end Spec

end Ntlm
