import Verif.Spec.Client
/-
  How a server that knows the hash of the user's password checks an authenticate message, after MS-NLMP 3.2.5.1.2 and 3.3.  The
  server looks only at the bytes of the message, its own challenge and the hash.
-/
namespace Ntlm.Spec

/-- The NT response of `b` is an NTLMv1 response to `server` under the NT hash.  With extended session security (flag 19 of the
    message), the challenge is mixed with the client challenge, the first 8 bytes of the LM response field. -/
def verifiesNtlmv1 (P : Prims) (ntHash : Bytes 16) (server : Bytes 8) (b : List UInt8) : Prop :=
  (flagAt b 60 19 ∧ ∃ d : Bytes 8, d.val = (P.md5 (server.val ++ (fieldBytes b 12).take 8)).val.take 8 ∧
    isDesl P ntHash.val d (fieldBytes b 20)) ∨
  (¬ flagAt b 60 19 ∧ isDesl P ntHash.val server (fieldBytes b 20))

/-- Under one key, different blocks have different encryptions. -/
def desInjective (P : Prims) : Prop := ∀ k x y : Bytes 8, P.desBlock k x = P.desBlock k y → x = y

/-- The LM response of `b` is an LMv1 response to `server` under the LM hash. -/
def verifiesLmv1 (P : Prims) (lmHash : Bytes 16) (server : Bytes 8) (b : List UInt8) : Prop :=
  isDesl P lmHash.val server (fieldBytes b 12)

/-- The LM response of `b` is an LMv2 response to `server` under the NTLMv2 hash: a proof followed by the client challenge. -/
def verifiesLmv2 (P : Prims) (hash : Bytes 16) (server : Bytes 8) (b : List UInt8) : Prop :=
  ∃ client : List UInt8, client.length = 8 ∧ fieldBytes b 12 = (P.hmacMd5 hash.val (server.val ++ client)).val ++ client

/-- The NT response of `b` is an NTLMv2 response to `server` under the NTLMv2 hash: a proof followed by the client's blob. -/
def verifiesNtlmv2 (P : Prims) (hash : Bytes 16) (server : Bytes 8) (b : List UInt8) : Prop :=
  ∃ blob : List UInt8, fieldBytes b 20 = (P.hmacMd5 hash.val (server.val ++ blob)).val ++ blob

/-- The session key a server arrives at after an NTLMv1 message, from the hashes of the password, its challenge and the flags
    negotiated: key-exchange key by KXKEY, then the encrypted session key field if the message has the KEY_EXCH flag. -/
def serverSessionKeyV1 (P : Prims) (flags : Flags) (ntHash lmHash : Bytes 16) (server : Bytes 8) (b k : List UInt8) : Prop :=
  ∃ kek : Bytes 16, isKxkey P flags (P.md4 ntHash.val) (fieldBytes b 12) lmHash server kek.val ∧ serverKey P b kek k

/-- The session key a server arrives at after an NTLMv2 message: the key-exchange key is HMAC-MD5 of the proof, the first 16 bytes of
    the NT response. -/
def serverSessionKeyV2 (P : Prims) (hash : Bytes 16) (b k : List UInt8) : Prop :=
  serverKey P b (P.hmacMd5 hash.val ((fieldBytes b 20).take 16)) k

end Ntlm.Spec
