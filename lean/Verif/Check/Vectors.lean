import Verif.Model.Client
import Verif.Spec.Client
import Verif.Prims.Cipher
/-
  The unit tests of /repo, replayed on the model with the standard primitives (`Prims.std`).  These are tests of the model, not
  proofs of properties: they compare the transcription with the outputs the authors of the code expected.  A test
  the model says must fail is stated as what the model gives instead.
-/
namespace Ntlm.Check

open Ntlm.Spec

/-- A case table that knows ASCII only. -/
def asciiMap : CaseMap := ⟨fun c => [c.toUpper], fun _ _ => rfl⟩

/-- The result is this value. -/
def gives {ε α : Type} [DecidableEq α] : Except ε α → α → Bool
  | .ok a, b => decide (a = b)
  | .error _, _ => false

/-- A release build. -/
def cfg : Cfg := ⟨false, false, .unix⟩

/-- A debug build. -/
def cfgDebug : Cfg := ⟨true, true, .unix⟩

/-! ### crypto.rs:120-160: the constants of the tests -/

/-- crypto.rs:126-136 -/
def FLAGS : Flags := ⟨0xe2028233⟩
/-- crypto.rs:138-141 -/
def LM_HASH : Bytes 16 := ⟨[0xe5, 0x2c, 0xac, 0x67, 0x41, 0x9a, 0x9a, 0x22, 0x4a, 0x3b, 0x10, 0x8f, 0x3f, 0xa6, 0xcb, 0x6d], rfl⟩
/-- crypto.rs:142-145 -/
def NT_HASH : Bytes 16 := ⟨[0xa4, 0xf4, 0x9c, 0x40, 0x65, 0x10, 0xbd, 0xca, 0xb6, 0x82, 0x4e, 0xe7, 0xc3, 0x0f, 0xd8, 0x52], rfl⟩
/-- crypto.rs:146 -/
def SERVER_CHALLENGE : Bytes 8 := ⟨[0x01, 0x23, 0x45, 0x67, 0x89, 0xab, 0xcd, 0xef], rfl⟩
/-- crypto.rs:147 -/
def CLIENT_CHALLENGE : Bytes 8 := ⟨[0xaa, 0xaa, 0xaa, 0xaa, 0xaa, 0xaa, 0xaa, 0xaa], rfl⟩
/-- crypto.rs:148-151 -/
def SESSION_BASE_KEY : Bytes 16 :=
  ⟨[0xd8, 0x72, 0x62, 0xb0, 0xcd, 0xe4, 0xb1, 0xcb, 0x74, 0x99, 0xbe, 0xcc, 0xcd, 0xf1, 0x07, 0x84], rfl⟩
/-- crypto.rs:152-155 -/
def RANDOM_SESSION_KEY : Bytes 16 := ⟨List.replicate 16 0x55, rfl⟩

/-- crypto.rs:126-136: the flags as written there. -/
example : FLAGS.bits = (1 <<< Flags.NTLMSSP_NEGOTIATE_KEY_EXCH) ||| (1 <<< Flags.NTLMSSP_NEGOTIATE_56) |||
    (1 <<< Flags.NTLMSSP_NEGOTIATE_128) ||| (1 <<< Flags.NTLMSSP_NEGOTIATE_VERSION) |||
    (1 <<< Flags.NTLMSSP_TARGET_TYPE_SERVER) ||| (1 <<< Flags.NTLMSSP_NEGOTIATE_ALWAYS_SIGN) |||
    (1 <<< Flags.NTLMSSP_NEGOTIATE_NTLM) ||| (1 <<< Flags.NTLMSSP_NEGOTIATE_SEAL) ||| (1 <<< Flags.NTLMSSP_NEGOTIATE_SIGN) |||
    (1 <<< Flags.NTLM_NEGOTIATE_OEM) ||| (1 <<< Flags.NTLMSSP_NEGOTIATE_UNICODE) := by decide

/-- crypto/lm.rs:34 `hash_password`. -/
example : gives (lmowfv1 Prims.std asciiMap "password".toList) LM_HASH := by decide +kernel

/-- crypto/nt.rs:37 `ntowfv1`. -/
example : ntowfv1 Prims.std "Password".toList = NT_HASH := by decide +kernel

/-- crypto/nt.rs:46 `ntowfv2`. -/
example : (ntowfv2 Prims.std asciiMap "User".toList (ntowfv1 Prims.std "Password".toList) "Domain".toList).val =
    [0x0c, 0x86, 0x8a, 0x40, 0x3b, 0xfd, 0x7a, 0x93, 0xa3, 0x00, 0x1e, 0xf2, 0x2e, 0xf0, 0x2e, 0x3f] := by decide +kernel

/-- crypto/ntlmv1.rs:64 `without_extented_session_security`. -/
example : ntlmv1Response Prims.std FLAGS NT_HASH LM_HASH SERVER_CHALLENGE CLIENT_CHALLENGE false =
    ({ response := ⟨[0x98, 0xde, 0xf7, 0xb8, 0x7f, 0x88, 0xaa, 0x5d, 0xaf, 0xe2, 0xdf, 0x77, 0x96, 0x88, 0xa1, 0x72, 0xde, 0xf1,
        0x1c, 0x7d, 0x5c, 0xcd, 0xef, 0x13], rfl⟩ },
     { response := ⟨[0x67, 0xc4, 0x30, 0x11, 0xf3, 0x02, 0x98, 0xa2, 0xad, 0x35, 0xec, 0xe6, 0x4f, 0x16, 0x33, 0x1c, 0x44, 0xbd,
        0xbe, 0xd9, 0x27, 0x84, 0x1f, 0x94], rfl⟩ }, SESSION_BASE_KEY) := by decide +kernel

/-- crypto/ntlmv1.rs:97 `with_extented_session_security`. -/
example : ntlmv1Response Prims.std (FLAGS.setFlag Flags.NTLMSSP_NEGOTIATE_EXTENDED_SESSIONSECURITY) NT_HASH LM_HASH
      SERVER_CHALLENGE CLIENT_CHALLENGE false =
    ({ response := ⟨[0xaa, 0xaa, 0xaa, 0xaa, 0xaa, 0xaa, 0xaa, 0xaa, 0, 0, 0, 0, 0, 0, 0, 0, 0, 0, 0, 0, 0, 0, 0, 0], rfl⟩ },
     { response := ⟨[0x75, 0x37, 0xf8, 0x03, 0xae, 0x36, 0x71, 0x28, 0xca, 0x45, 0x82, 0x04, 0xbd, 0xe7, 0xca, 0xf8, 0x1e, 0x97,
        0xed, 0x26, 0x83, 0x26, 0x72, 0x32], rfl⟩ }, SESSION_BASE_KEY) := by decide +kernel

/-- crypto/ntlmv1.rs:130 `negociate_lm_key`. -/
example : (kxkey Prims.std (FLAGS.setFlag Flags.NTLMSSP_NEGOTIATE_LM_KEY) SESSION_BASE_KEY
      ⟨[0x98, 0xde, 0xf7, 0xb8, 0x7f, 0x88, 0xaa, 0x5d], rfl⟩ LM_HASH none).val =
    [0xb0, 0x9e, 0x37, 0x9f, 0x7f, 0xbe, 0xcb, 0x1e, 0xaf, 0x0a, 0xfd, 0xcb, 0x03, 0x83, 0xc8, 0xa0] := by decide +kernel

/-- crypto/ntlmv1.rs:158 `encrypted_session_key`, first assertion. -/
example : (encryptRandomSessionKey Prims.std FLAGS SESSION_BASE_KEY (some RANDOM_SESSION_KEY) (Bytes.zero 16)).2.val =
    [0x51, 0x88, 0x22, 0xb1, 0xb3, 0xf3, 0x50, 0xc8, 0x95, 0x86, 0x82, 0xec, 0xbb, 0x3e, 0x3c, 0xb7] := by decide +kernel

/-- crypto/ntlmv1.rs:158 `encrypted_session_key`, second assertion. -/
example : (encryptRandomSessionKey Prims.std (FLAGS.setFlag Flags.NTLMSSP_REQUEST_NON_NT_SESSION_KEY)
      ⟨[0xe5, 0x2c, 0xac, 0x67, 0x41, 0x9a, 0x9a, 0x22, 0, 0, 0, 0, 0, 0, 0, 0], rfl⟩ (some RANDOM_SESSION_KEY)
      (Bytes.zero 16)).2.val =
    [0x74, 0x52, 0xca, 0x55, 0xc2, 0x25, 0xa1, 0xca, 0x04, 0xb4, 0x8f, 0xae, 0x32, 0xcf, 0x56, 0xfc] := by decide +kernel

/-- crypto/ntlmv2.rs:91-96, :135-140: the target infos of the tests. -/
def serverName : List AvPair := [.nbDomainName "Domain".toList, .nbComputerName "Server".toList, .eol]

/-- crypto/ntlmv2.rs:82 `compute_test`. -/
example : gives (Wire.serialize cfg ({ timestamp := ⟨0, 0⟩, challengeFromClient := CLIENT_CHALLENGE, targetInfos := serverName } :
      Ntv2Challenge)) [
    0x01, 0x01, 0x00, 0x00, 0x00, 0x00, 0x00, 0x00, 0x00, 0x00, 0x00, 0x00, 0x00, 0x00, 0x00, 0x00, 0xaa, 0xaa, 0xaa, 0xaa,
    0xaa, 0xaa, 0xaa, 0xaa, 0x00, 0x00, 0x00, 0x00, 0x02, 0x00, 0x0c, 0x00, 0x44, 0x00, 0x6f, 0x00, 0x6d, 0x00, 0x61, 0x00,
    0x69, 0x00, 0x6e, 0x00, 0x01, 0x00, 0x0c, 0x00, 0x53, 0x00, 0x65, 0x00, 0x72, 0x00, 0x76, 0x00, 0x65, 0x00, 0x72, 0x00,
    0x00, 0x00, 0x00, 0x00] := by decide +kernel

/-- crypto/ntlmv2.rs:107-112 -/
def V2_HASH : Bytes 16 := ⟨[0x0c, 0x86, 0x8a, 0x40, 0x3b, 0xfd, 0x7a, 0x93, 0xa3, 0x00, 0x1e, 0xf2, 0x2e, 0xf0, 0x2e, 0x3f], rfl⟩
/-- crypto/ntlmv2.rs:126-130 -/
def V2_SESSION_BASE_KEY : Bytes 16 :=
  ⟨[0x8d, 0xe4, 0x0c, 0xca, 0xdb, 0xc1, 0x4a, 0x82, 0xf1, 0x5c, 0xb0, 0xad, 0x0d, 0xe9, 0x5c, 0xa3], rfl⟩

/-- crypto/ntlmv2.rs:105 `lmv2_response`, the response. -/
example : gives (ntlmv2Response Prims.std cfg ⟨0xe28a8233⟩ V2_HASH V2_HASH SERVER_CHALLENGE CLIENT_CHALLENGE (some ⟨0, 0⟩)
      serverName ⟨0, 0⟩)
    (⟨[0x68, 0xcd, 0x0a, 0xb8, 0x51, 0xe5, 0x1c, 0x96, 0xaa, 0xbc, 0x92, 0x7b, 0xeb, 0xef, 0x6a, 0x1c], rfl⟩,
      { response := ⟨[0x86, 0xc3, 0x50, 0x97, 0xac, 0x9c, 0xec, 0x10, 0x25, 0x54, 0x76, 0x4a, 0x57, 0xcc, 0xcc, 0x19], rfl⟩
        challengeFromClient := CLIENT_CHALLENGE },
      { timestamp := ⟨0, 0⟩, challengeFromClient := CLIENT_CHALLENGE, targetInfos := serverName },
      V2_SESSION_BASE_KEY) := by decide +kernel

/-- crypto/ntlmv2.rs:105 `lmv2_response`, the session key. -/
example : (encryptRandomSessionKey Prims.std ⟨0xe28a8233⟩ V2_SESSION_BASE_KEY (some RANDOM_SESSION_KEY) (Bytes.zero 16)).2.val =
    [0xc5, 0xda, 0xd2, 0x54, 0x4f, 0xc9, 0x79, 0x90, 0x94, 0xce, 0x1c, 0xe9, 0x0b, 0xc9, 0xd0, 0x3e] := by decide +kernel

/-! ### messages -/

/-- messages/flags.rs:581 `ntlmv1`. -/
example : gives ((Wire.deserialize cfgDebug : Parser Flags) [0x33, 0x82, 0x0a, 0x82])
    (⟨0x820a8233⟩, []) := by decide +kernel

/-- messages/flags.rs:589 `ntlmv2`. -/
example : gives ((Wire.deserialize cfgDebug : Parser Flags) [0x33, 0x82, 0x8a, 0xe2])
    (⟨0xe28a8233⟩, []) := by decide +kernel

/-- messages/negotiate.rs:162 `encode` (the version decodes because 0x0f is the expected revision). -/
def negotiateMessage : Negotiate :=
  { negotiateFlags := ⟨0xe28a8233⟩, domainName := some ⟨"CONTOSIO".toList⟩, workstation := some ⟨"PC1".toList⟩
    version := some ⟨6, 0, 0x7017, 0x0f⟩ }

/-- messages/negotiate.rs:162 `encode`. -/
example : gives (do (Wire.deserialize cfgDebug : Parser Negotiate) (← (Wire.serialize cfgDebug negotiateMessage).mapError PErr.panic))
    (negotiateMessage, []) := by decide +kernel

/-- messages/structures/nt_challenge.rs:169-175. -/
def rawNtv2 : List UInt8 := [
  0x01, 0x01, 0x00, 0x00, 0x00, 0x00, 0x00, 0x00, 0x00, 0x00, 0x00, 0x00, 0x00, 0x00, 0x00, 0x00, 0xaa, 0xaa, 0xaa, 0xaa,
  0xaa, 0xaa, 0xaa, 0xaa, 0x00, 0x00, 0x00, 0x00, 0x02, 0x00, 0x0c, 0x00, 0x44, 0x00, 0x6f, 0x00, 0x6d, 0x00, 0x61, 0x00,
  0x69, 0x00, 0x6e, 0x00, 0x01, 0x00, 0x0c, 0x00, 0x53, 0x00, 0x65, 0x00, 0x72, 0x00, 0x76, 0x00, 0x65, 0x00, 0x72, 0x00,
  0x00, 0x00, 0x00, 0x00, 0x00, 0x00, 0x00, 0x00]

/-- messages/structures/nt_challenge.rs:159 `decode_ntv2`: decoding, then encoding. -/
example : gives ((Wire.deserialize cfgDebug : Parser Ntv2Challenge) rawNtv2)
    ({ timestamp := ⟨0, 0⟩, challengeFromClient := CLIENT_CHALLENGE, targetInfos := serverName ++ [.eol] }, []) ∧
    gives (Wire.serialize cfgDebug (⟨⟨0, 0⟩, CLIENT_CHALLENGE, serverName ++ [.eol]⟩ : Ntv2Challenge)) rawNtv2 := by decide +kernel

/-- messages/challenge.rs:223-229. -/
def rawChallengeV1 : List UInt8 := [
  0x4e, 0x54, 0x4c, 0x4d, 0x53, 0x53, 0x50, 0x00, 0x02, 0x00, 0x00, 0x00, 0x0c, 0x00, 0x0c, 0x00, 0x38, 0x00, 0x00, 0x00,
  0x33, 0x82, 0x0a, 0x82, 0x01, 0x23, 0x45, 0x67, 0x89, 0xab, 0xcd, 0xef, 0x00, 0x00, 0x00, 0x00, 0x00, 0x00, 0x00, 0x00,
  0x00, 0x00, 0x00, 0x00, 0x00, 0x00, 0x00, 0x00, 0x06, 0x00, 0x70, 0x17, 0x00, 0x00, 0x00, 0x0f, 0x53, 0x00, 0x65, 0x00,
  0x72, 0x00, 0x76, 0x00, 0x65, 0x00, 0x72, 0x00]

/-- messages/challenge.rs:222 `decode_ntlmv1`. -/
example : gives ((Wire.deserialize cfgDebug : Parser Challenge) rawChallengeV1)
    ({ targetName := some ⟨"Server".toList⟩, negotiateFlags := ⟨0x820a8233⟩, serverChallenge := SERVER_CHALLENGE,
           targetInfos := [], version := some ⟨6, 0, 0x1770, 0x0f⟩ }, []) := by decide +kernel

/-- messages/challenge.rs:252-261. -/
def rawChallengeV2 : List UInt8 := [
  0x4e, 0x54, 0x4c, 0x4d, 0x53, 0x53, 0x50, 0x00, 0x02, 0x00, 0x00, 0x00, 0x0c, 0x00, 0x0c, 0x00, 0x38, 0x00, 0x00, 0x00,
  0x33, 0x82, 0x8a, 0xe2, 0x01, 0x23, 0x45, 0x67, 0x89, 0xab, 0xcd, 0xef, 0x00, 0x00, 0x00, 0x00, 0x00, 0x00, 0x00, 0x00,
  0x24, 0x00, 0x24, 0x00, 0x44, 0x00, 0x00, 0x00, 0x06, 0x00, 0x70, 0x17, 0x00, 0x00, 0x00, 0x0f, 0x53, 0x00, 0x65, 0x00,
  0x72, 0x00, 0x76, 0x00, 0x65, 0x00, 0x72, 0x00, 0x02, 0x00, 0x0c, 0x00, 0x44, 0x00, 0x6f, 0x00, 0x6d, 0x00, 0x61, 0x00,
  0x69, 0x00, 0x6e, 0x00, 0x01, 0x00, 0x0c, 0x00, 0x53, 0x00, 0x65, 0x00, 0x72, 0x00, 0x76, 0x00, 0x65, 0x00, 0x72, 0x00,
  0x00, 0x00, 0x00, 0x00]

/-- messages/challenge.rs:251 `decode_ntlmv2`. -/
example : gives ((Wire.deserialize cfgDebug : Parser Challenge) rawChallengeV2)
    ({ targetName := some ⟨"Server".toList⟩, negotiateFlags := ⟨0xe28a8233⟩, serverChallenge := SERVER_CHALLENGE,
           targetInfos := serverName, version := some ⟨6, 0, 0x1770, 0x0f⟩ }, []) := by decide +kernel

/-- messages/challenge.rs:287 `encode`: the message built there. -/
def builtChallenge : Challenge :=
  { (((((Challenge.default.setTargetName (some "CISCOLAB".toList)).addDomainname "CISCOLAB".toList).addComputername
      "POSEIDON".toList).addDnsdomainname "ciscolab.com".toList).addDnscomputername "poseidon.ciscolab.com".toList) with
    serverChallenge := ⟨[0x9d, 0x65, 0xc1, 0x1b, 0x45, 0x40, 0xda, 0x2e], rfl⟩ }

/-- messages/challenge.rs:287 `encode`. -/
example : gives (do (Wire.deserialize cfgDebug : Parser Challenge) (← (Wire.serialize cfgDebug builtChallenge).mapError PErr.panic))
    (builtChallenge, []) := by decide +kernel

/-- messages/authenticate.rs:229: the message of the test (base 64 there). -/
def rawAuthenticate : List UInt8 := [
  0x4e, 0x54, 0x4c, 0x4d, 0x53, 0x53, 0x50, 0x00, 0x03, 0x00, 0x00, 0x00, 0x18, 0x00, 0x18, 0x00, 0x58, 0x00, 0x00, 0x00,
  0x1c, 0x00, 0x1c, 0x00, 0x70, 0x00, 0x00, 0x00, 0x0e, 0x00, 0x0e, 0x00, 0x8c, 0x00, 0x00, 0x00, 0x1a, 0x00, 0x1a, 0x00,
  0x9a, 0x00, 0x00, 0x00, 0x18, 0x00, 0x18, 0x00, 0xb4, 0x00, 0x00, 0x00, 0x00, 0x00, 0x00, 0x00, 0x00, 0x00, 0x00, 0x00,
  0x05, 0x82, 0x88, 0xa2, 0x05, 0x01, 0x28, 0x0a, 0x00, 0x00, 0x00, 0x0f, 0x65, 0x00, 0x78, 0x00, 0x61, 0x00, 0x6d, 0x00,
  0x70, 0x00, 0x6c, 0x00, 0x65, 0x00, 0x61, 0x00, 0x65, 0xaa, 0x7b, 0x6e, 0x67, 0xf8, 0x4a, 0xa3, 0x00, 0x00, 0x00, 0x00,
  0x00, 0x00, 0x00, 0x00, 0x00, 0x00, 0x00, 0x00, 0x00, 0x00, 0x00, 0x00, 0x01, 0x01, 0x00, 0x00, 0x00, 0x00, 0x00, 0x00,
  0x80, 0xe8, 0x77, 0x4d, 0x33, 0xee, 0x05, 0x00, 0x00, 0x01, 0x02, 0x03, 0x04, 0x05, 0x06, 0x07, 0x00, 0x00, 0x00, 0x00,
  0x65, 0x00, 0x78, 0x00, 0x61, 0x00, 0x6d, 0x00, 0x70, 0x00, 0x6c, 0x00, 0x65, 0x00, 0x61, 0x00, 0x64, 0x00, 0x6d, 0x00,
  0x69, 0x00, 0x6e, 0x00, 0x69, 0x00, 0x73, 0x00, 0x74, 0x00, 0x72, 0x00, 0x61, 0x00, 0x74, 0x00, 0x6f, 0x00, 0x72, 0x00,
  0x57, 0x00, 0x41, 0x00, 0x4e, 0x00, 0x47, 0x00, 0x5f, 0x00, 0x57, 0x00, 0x45, 0x00, 0x4e, 0x00, 0x43, 0x00, 0x48, 0x00,
  0x41, 0x00, 0x4f, 0x00]

/-- messages/authenticate.rs:194-227, with the LM response the model reads. -/
def readAuthenticate : Authenticate :=
  { lmChallengeResponse := some (.v1 { response :=
      ⟨[101, 170, 123, 110, 103, 248, 74, 163, 0, 0, 0, 0, 0, 0, 0, 0, 0, 0, 0, 0, 0, 0, 0, 0], rfl⟩ })
    ntChallengeResponse := some (.v2 { timestamp := ⟨1299703936, 388659⟩
                                       challengeFromClient := ⟨[0, 1, 2, 3, 4, 5, 6, 7], rfl⟩, targetInfos := [] })
    domain := some ⟨"example".toList⟩, user := some ⟨"administrator".toList⟩, workstation := some ⟨"WANG_WENCHAO".toList⟩
    encryptedRandomSessionKey := none, negotiateFlags := ⟨0xa2888205⟩, version := some ⟨5, 1, 0x0a28, 0x0f⟩
    mic := ⟨[0x65, 0x0, 0x78, 0x0, 0x61, 0x0, 0x6d, 0x0, 0x70, 0x0, 0x6c, 0x0, 0x65, 0x0, 0x61, 0x0], rfl⟩
    exportedSessionKey := none }

/-- messages/authenticate.rs:193 `decode`: everything is as the test expects except the LM response, which the test expects as the
    other variant (`V2`); flag bit 9 is set in this message, so `V1` is read (authenticate.rs:145-150). -/
example : gives ((Wire.deserialize cfgDebug : Parser Authenticate) rawAuthenticate)
    (readAuthenticate, []) := by decide +kernel

/-! ### client.rs:310: the client test -/

/-- client.rs:320-326. -/
def clientChallengeBytes : List UInt8 := [
  0x4e, 0x54, 0x4c, 0x4d, 0x53, 0x53, 0x50, 0x00, 0x02, 0x00, 0x00, 0x00, 0x0c, 0x00, 0x0c, 0x00, 0x38, 0x00, 0x00, 0x00,
  0x33, 0x82, 0x02, 0xe2, 0x01, 0x23, 0x45, 0x67, 0x89, 0xab, 0xcd, 0xef, 0x00, 0x00, 0x00, 0x00, 0x00, 0x00, 0x00, 0x00,
  0x00, 0x00, 0x00, 0x00, 0x00, 0x00, 0x00, 0x00, 0x06, 0x00, 0x70, 0x17, 0x00, 0x00, 0x00, 0x0f, 0x53, 0x00, 0x65, 0x00,
  0x72, 0x00, 0x76, 0x00, 0x65, 0x00, 0x72, 0x00]

/-- client.rs:330-344. -/
def clientExpected : List UInt8 := [
  0x4e, 0x54, 0x4c, 0x4d, 0x53, 0x53, 0x50, 0x00, 0x03, 0x00, 0x00, 0x00, 0x18, 0x00, 0x18, 0x00, 0x6c, 0x00, 0x00, 0x00,
  0x18, 0x00, 0x18, 0x00, 0x84, 0x00, 0x00, 0x00, 0x0c, 0x00, 0x0c, 0x00, 0x48, 0x00, 0x00, 0x00, 0x08, 0x00, 0x08, 0x00,
  0x54, 0x00, 0x00, 0x00, 0x10, 0x00, 0x10, 0x00, 0x5c, 0x00, 0x00, 0x00, 0x10, 0x00, 0x10, 0x00, 0x9c, 0x00, 0x00, 0x00,
  0x35, 0x82, 0x80, 0xe2, 0x05, 0x01, 0x28, 0x0a, 0x00, 0x00, 0x00, 0x0f, 0x44, 0x00, 0x6f, 0x00, 0x6d, 0x00, 0x61, 0x00,
  0x69, 0x00, 0x6e, 0x00, 0x55, 0x00, 0x73, 0x00, 0x65, 0x00, 0x72, 0x00, 0x43, 0x00, 0x4f, 0x00, 0x4d, 0x00, 0x50, 0x00,
  0x55, 0x00, 0x54, 0x00, 0x45, 0x00, 0x52, 0x00, 0x98, 0xde, 0xf7, 0xb8, 0x7f, 0x88, 0xaa, 0x5d, 0xaf, 0xe2, 0xdf, 0x77,
  0x96, 0x88, 0xa1, 0x72, 0xde, 0xf1, 0x1c, 0x7d, 0x5c, 0xcd, 0xef, 0x13, 0x67, 0xc4, 0x30, 0x11, 0xf3, 0x02, 0x98, 0xa2,
  0xad, 0x35, 0xec, 0xe6, 0x4f, 0x16, 0x33, 0x1c, 0x44, 0xbd, 0xbe, 0xd9, 0x27, 0x84, 0x1f, 0x94, 0x51, 0x88, 0x22, 0xb1,
  0xb3, 0xf3, 0x50, 0xc8, 0x95, 0x86, 0x82, 0xec, 0xbb, 0x3e, 0x3c, 0xb7]

/-- client.rs:311-319, :327: the client of the test, at level 0, with the randomness of MS-NLMP 4.2.2. -/
def clientAnswer : Option (List UInt8) :=
  match Client.newWithDomain Prims.std asciiMap ⟨none, none⟩ "User".toList "Domain".toList "Password".toList [],
      (Wire.deserialize cfg : Parser Challenge) clientChallengeBytes with
  | .ok c, .ok (ch, _) =>
    let c := { c with workstation := some "COMPUTER".toList, version := some (Version.ofTriple 5 1 2600) }
    let c := (Client.sendNegociate cfg 0 [] c).1
    let c := Client.recvChallenge ch c
    match (Client.sendAuthenticate Prims.std cfg 0 ⟨CLIENT_CHALLENGE, RANDOM_SESSION_KEY, ⟨0, 0⟩⟩ [] c).2 with
    | .ok b => some b
    | .error _ => none
  | _, _ => none

/-- client.rs:310 `ntlmv1`: the model says that this test fails, and where: the responses, the names, the flags and the version are
    the expected ones, but the key exchange key is another one (so the encrypted session key differs), and a MIC that the
    expected message does not have shifts every offset. -/
example : (clientAnswer.map fun b => decide
    (fieldBytes b 12 = fieldBytes clientExpected 12 ∧ fieldBytes b 20 = fieldBytes clientExpected 20 ∧
     fieldBytes b 28 = fieldBytes clientExpected 28 ∧ fieldBytes b 36 = fieldBytes clientExpected 36 ∧
     fieldBytes b 44 = fieldBytes clientExpected 44 ∧ fieldBytes b 52 ≠ fieldBytes clientExpected 52 ∧
     b.length = clientExpected.length + 16 ∧ bytesAt b 60 12 = bytesAt clientExpected 60 12)) = some true := by
  decide +kernel

end Ntlm.Check
