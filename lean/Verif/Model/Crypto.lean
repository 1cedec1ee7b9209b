import Verif.Model.Structures
/-
  crypto.rs and crypto/*.rs.  The primitives MD4, MD5, HMAC-MD5, DES and RC4 come from external crates; they are
  a parameter of the model (`Prims`).
-/
namespace Ntlm

/-- The external primitives, as used through crypto.rs:24-44 (`md4`, `md5`, `hmac_md5`), crypto/des.rs:33-40
    (`des_encrypt`: one DES block under an 8-byte key) and crypto.rs:110-111 (RC4 with a 16-byte key: the
    first 16 bytes of its key stream).  Fixed-size results are types, so `copy_from_slice` size
    mismatches cannot occur. -/
structure Prims where
  md4 : List UInt8 → Bytes 16
  md5 : List UInt8 → Bytes 16
  hmacMd5 : List UInt8 → List UInt8 → Bytes 16
  desBlock : Bytes 8 → Bytes 8 → Bytes 8
  rc4Keystream : Bytes 16 → Bytes 16

/-- Byte-wise exclusive or. -/
def xorBytes {n : Nat} (a b : Bytes n) : Bytes n :=
  ⟨List.zipWith (· ^^^ ·) a.val b.val, by simp [a.property, b.property]⟩

/-- crypto.rs:110-111: `Rc4::new(key).apply_keystream(data)`. -/
def Prims.rc4 (P : Prims) (key data : Bytes 16) : Bytes 16 := xorBytes data (P.rc4Keystream key)

/-! ### crypto/des.rs -/

/-- `u8::count_ones`. -/
def countOnes (v : UInt8) : Nat := ((List.range 8).filter fun i => v.toNat.testBit i).length

/-- crypto/des.rs:6-14: the seven key bits of output byte `b`, in the upper bits.
    `k i` is `key7[i]`; shift amounts are below 8 on every path. -/
def desRaw (k : Nat → UInt8) (b : Nat) : UInt8 :=
  if b = 0 then k 0
  else if b = 7 then k 6 <<< 1
  else (k (b - 1) <<< UInt8.ofNat (8 - b)) ||| (k b >>> UInt8.ofNat b)

/-- crypto/des.rs:15-22: clear the last bit, then set it if the number of set bits is even. -/
def desParity (v : UInt8) : UInt8 :=
  let v := v &&& ~~~1
  if countOnes v % 2 = 0 then v ||| 1 else v

/-- crypto/des.rs:1-26 `des_56bits_to_64bits`. -/
def des56To64 (key7 : List UInt8) : Except Panic (Bytes 8) :=
  if key7.length = 7 then
    .ok ⟨(List.range 8).map fun b => desParity (desRaw (fun i => key7.getD i 0) b), by simp⟩
  else .error .desKeyLen

/-- crypto/des.rs:28-31 `des7_encrypt`. -/
def des7Encrypt (P : Prims) (key7 : List UInt8) (plain : Bytes 8) : Except Panic (Bytes 8) :=
  match des56To64 key7 with
  | .ok key8 => .ok (P.desBlock key8 plain)
  | .error e => .error e

/-- `des7_encrypt` on a key whose length is known to be 7 (all uses except crypto/lm.rs). -/
def des7 (P : Prims) (key7 : Bytes 7) (plain : Bytes 8) : Bytes 8 :=
  match des7Encrypt P key7.val plain with
  | .ok c => c
  | .error _ => Bytes.zero 8

/-! ### crypto.rs -/

/-- crypto.rs:46-58 `desl`. -/
def desl (P : Prims) (key : Bytes 16) (data : Bytes 8) : Bytes 24 :=
  let extended : Bytes 21 := key.append (Bytes.zero 5)
  ((des7 P (extended.sub 0 7 (by omega)) data).append
    (des7 P (extended.sub 7 7 (by omega)) data)).append
      (des7 P (extended.sub 14 7 (by omega)) data)

/-- crypto.rs:60-90 `kxkey`. -/
def kxkey (P : Prims) (flags : Flags) (sessionBaseKey : Bytes 16) (lmResponseFirst8 : Bytes 8)
    (hash : Bytes 16) (serverChallenge : Option (Bytes 8)) : Bytes 16 :=
  match serverChallenge with
  | some sc => P.hmacMd5 sessionBaseKey.val (sc.val ++ lmResponseFirst8.val)
  | none =>
    if flags.hasFlag Flags.NTLMSSP_NEGOTIATE_LM_KEY then
      let second : Bytes 7 := (hash.sub 7 1 (by omega)).append (m := 6) ⟨List.replicate 6 0xbd, by simp⟩
      (des7 P (hash.sub 0 7 (by omega)) lmResponseFirst8).append (des7 P second lmResponseFirst8)
    else if flags.hasFlag Flags.NTLMSSP_REQUEST_NON_NT_SESSION_KEY then
      (hash.sub 0 8 (by omega)).append (Bytes.zero 8)
    else sessionBaseKey

/-- crypto.rs:92-118 `encrypt_random_session_key`: `(exported, encrypted)`.  `random` is what
    `ExportedSessionKey::random()` returns. -/
def encryptRandomSessionKey (P : Prims) (flags : Flags) (kek : Bytes 16) (exported : Option (Bytes 16))
    (random : Bytes 16) : Bytes 16 × Bytes 16 :=
  if flags.hasFlag Flags.NTLMSSP_NEGOTIATE_KEY_EXCH
      && (flags.hasFlag Flags.NTLMSSP_NEGOTIATE_SIGN || flags.hasFlag Flags.NTLMSSP_NEGOTIATE_SEAL) then
    let e := match exported with
      | some e => e
      | none => random
    (e, P.rc4 kek e)
  else (kek, Bytes.zero 16)

/-! ### crypto/lm.rs -/

/-- crypto/lm.rs:3-13 `prepare_password`.  Pushing NULs until the length is at least 14 appends
    `14 - len` of them (each is one byte). -/
def preparePassword (cm : CaseMap) (password : Str) : Except Panic Str :=
  if strLen password < 14 then
    let p := cm.upper password
    .ok (p ++ List.replicate (14 - strLen p) '\x00')
  else
    match splitAtByte password 14 with
    | some (p, _) => .ok (cm.upper p)
    | none => .error .charBoundary

/-- crypto/lm.rs:19: `b"KGS!@#$%"`. -/
def lmMagic : Bytes 8 := ⟨[0x4b, 0x47, 0x53, 0x21, 0x40, 0x23, 0x24, 0x25], rfl⟩

/-- crypto/lm.rs:17-27 `lmowfv1`. -/
def lmowfv1 (P : Prims) (cm : CaseMap) (password : Str) : Except Panic (Bytes 16) :=
  match preparePassword cm password with
  | .error e => .error e
  | .ok p =>
    match splitAtByte p 7 with
    | none => .error .charBoundary
    | some (key1, key2) =>
      match des7Encrypt P (utf8 key1) lmMagic with
      | .error e => .error e
      | .ok a =>
        match des7Encrypt P (utf8 key2) lmMagic with
        | .error e => .error e
        | .ok b => .ok (a.append b)

/-! ### crypto/nt.rs -/

/-- crypto/nt.rs:5-15 `ntowfv1`. -/
def ntowfv1 (P : Prims) (password : Str) : Bytes 16 := P.md4 (u16sAsBytes (encodeUtf16 password))

/-- crypto/nt.rs:17-28 `ntowfv2`. -/
def ntowfv2 (P : Prims) (cm : CaseMap) (username : Str) (hash : Bytes 16) (domain : Str) : Bytes 16 :=
  P.hmacMd5 hash.val (u16sAsBytes (encodeUtf16 (cm.upper username ++ domain)))

/-! ### crypto/ntlmv1.rs -/

/-- crypto/ntlmv1.rs:14-53 `compute_response`. -/
def ntlmv1Response (P : Prims) (flags : Flags) (keyNt keyLm : Bytes 16) (serverChallenge clientChallenge : Bytes 8)
    (lmResponseNtlmV1 : Bool) : Lmv1Challenge × Ntv1Challenge × Bytes 16 :=
  let sessionBaseKey := P.md4 keyNt.val
  if flags.hasFlag Flags.NTLMSSP_NEGOTIATE_EXTENDED_SESSIONSECURITY then
    let data := P.md5 (serverChallenge.val ++ clientChallenge.val)
    let nt : Ntv1Challenge := { response := desl P keyNt (data.sub 0 8 (by omega)) }
    (Lmv1Challenge.fromClientChallenge clientChallenge, nt, sessionBaseKey)
  else
    let nt : Ntv1Challenge := { response := desl P keyNt serverChallenge }
    let lm : Lmv1Challenge :=
      if lmResponseNtlmV1 then { response := nt.response }
      else { response := desl P keyLm serverChallenge }
    (lm, nt, sessionBaseKey)

/-! ### crypto/ntlmv2.rs -/

/-- crypto/ntlmv2.rs:15-57 `compute_response`: `(nt_proof_str, lm, nt, session_base_key)`.  `clock` is the system time read by
    `FileTime::now` when no timestamp is given. -/
def ntlmv2Response (P : Prims) (cfg : Cfg) (_flags : Flags) (keyNt keyLm : Bytes 16)
    (serverChallenge clientChallenge : Bytes 8) (time : Option FileTime) (serverName : List AvPair)
    (clock : SystemTime) : Except Panic (Bytes 16 × Lmv2Challenge × Ntv2Challenge × Bytes 16) := do
  let timestamp ← match time with
    | some t => pure t
    | none => FileTime.now clock
  let nt : Ntv2Challenge :=
    { timestamp, challengeFromClient := clientChallenge, targetInfos := serverName }
  let temp ← Wire.serialize cfg nt
  let ntProofStr := P.hmacMd5 keyNt.val (serverChallenge.val ++ (temp ++ [0, 0, 0, 0]))
  let lm : Lmv2Challenge :=
    { response := P.hmacMd5 keyLm.val (serverChallenge.val ++ clientChallenge.val)
      challengeFromClient := clientChallenge }
  let sessionBaseKey := P.hmacMd5 keyNt.val ntProofStr.val
  return (ntProofStr, lm, nt, sessionBaseKey)

/-- structures/lm_challenge.rs:53-69 `Lmv2Challenge::from_server_challenge`. -/
def Lmv2Challenge.fromServerChallenge (P : Prims) (serverChallenge : Bytes 8) (ntHash : List UInt8)
    (clientChallenge : Bytes 8) : Lmv2Challenge :=
  { response := P.hmacMd5 ntHash (serverChallenge.val ++ clientChallenge.val)
    challengeFromClient := clientChallenge }

end Ntlm
