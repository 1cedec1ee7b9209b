import Verif.Model.Messages
/-
  `serialize_into` over an arbitrary `W: std::io::Write` (messages.rs:66-68).  `Model/Basic.lean` models the
  encoders on a `Vec<u8>`, which never fails and always takes everything it is offered.  Here the same
  encoders are programs that call an unknown writer: every call may take only part of the bytes, be
  interrupted, or fail, and the writer may stop answering at any point.
-/
namespace Ntlm

namespace Writer

/-- A program writing to a `W: io::Write`: the calls it makes, in order. -/
inductive Prog (α : Type) where
  /-- `Ok(a)` -/
  | done (a : α)
  /-- a panic -/
  | panic (p : Panic)
  /-- `writer.write_all(bytes)?; ..` -/
  | writeAll (bytes : List UInt8) (next : Prog α)
  /-- `let n = writer.write(bytes)?; ..` -/
  | write (bytes : List UInt8) (next : Nat → Prog α)

/-- Sequencing: the rest of the function body after a call. -/
def Prog.bind {α β : Type} : Prog α → (α → Prog β) → Prog β
  | .done a, f => f a
  | .panic p, _ => .panic p
  | .writeAll bs k, f => .writeAll bs (k.bind f)
  | .write bs k, f => .write bs (fun n => (k n).bind f)

instance : Monad Prog where
  pure := .done
  bind := Prog.bind

/-- One answer of the writer to one call of `Write::write(buf)` (std::io::Write). -/
inductive Answer where
  /-- `Ok(min(n, buf.len()))`: that many bytes of the buffer were taken.  (`write` must not return more
      than it was offered.) -/
  | takes (n : Nat)
  /-- `Err(e)` with `e.kind() == ErrorKind::Interrupted`. -/
  | interrupted
  /-- any other `Err(e)`. -/
  | fails
  deriving DecidableEq, Repr

/-- How a program ends. -/
inductive Outcome (α : Type) where
  /-- `Ok(a)` -/
  | ok (a : α)
  /-- `Err(io::Error)` -/
  | ioError
  /-- a panic -/
  | panic (p : Panic)
  /-- the writer has not answered (yet): the program is still waiting in a call of `write`, for instance at
      the moment of a crash -/
  | waiting
  deriving DecidableEq, Repr

/-- The default `Write::write_all` (std::io::Write): call `write` until everything is taken, again after an
    interruption, and give up on an error or when nothing is taken (`ErrorKind::WriteZero`).  Nothing is called
    for an empty buffer.  Returns the outcome, the answers not used, and what the writer has received
    after having received `got`. -/
def writeAllLoop : List UInt8 → List Answer → List UInt8 → Outcome Unit × List Answer × List UInt8
  | [], as, got => (.ok (), as, got)
  | _ :: _, [], got => (.waiting, [], got)
  | b :: bs, .interrupted :: as, got => writeAllLoop (b :: bs) as got
  | _ :: _, .fails :: as, got => (.ioError, as, got)
  | _ :: _, .takes 0 :: as, got => (.ioError, as, got)
  | b :: bs, .takes (n + 1) :: as, got =>
    writeAllLoop ((b :: bs).drop (n + 1)) as (got ++ (b :: bs).take (n + 1))

/-- A program run with a writer that gives the answers `as` to the calls of `write` it gets, in order: the
    outcome, and what the writer has received after having received `got`. -/
def run {α : Type} : Prog α → List Answer → List UInt8 → Outcome α × List UInt8
  | .done a, _, got => (.ok a, got)
  | .panic p, _, got => (.panic p, got)
  | .writeAll bs k, as, got =>
    match writeAllLoop bs as got with
    | (.ok _, as, got) => run k as got
    | (.ioError, _, got) => (.ioError, got)
    | (.panic p, _, got) => (.panic p, got)
    | (.waiting, _, got) => (.waiting, got)
  | .write _ _, [], got => (.waiting, got)
  | .write _ _, .interrupted :: _, got => (.ioError, got)
  | .write _ _, .fails :: _, got => (.ioError, got)
  | .write bs k, .takes n :: as, got => run (k (min n bs.length)) as (got ++ bs.take n)

/-- A program run with a `Vec<u8>` as the writer: `write` and `write_all` both append everything. -/
def toVec {α : Type} : Prog α → W α
  | .done a => pure a
  | .panic p => W.panic p
  | .writeAll bs k => fun w => toVec k (w ++ bs)
  | .write bs k => fun w => toVec (k bs.length) (w ++ bs)

/-! ### The encoders -/

/-- `writer.write_all(bytes)?`. -/
def writeAll (bs : List UInt8) : Prog Unit := .writeAll bs (.done ())

/-- `let n = writer.write(bytes)?`. -/
def write (bs : List UInt8) : Prog Nat := .write bs .done

/-- `writer.write_all(bytes)?; Ok(bytes.len())`. -/
def writeLen (bs : List UInt8) : Prog Nat := do
  writeAll bs
  return bs.length

/-- messages/utils.rs:1-10 `write_u8`. -/
def writeU8 (n : UInt8) : Prog Nat := writeLen (leBytes 1 n.toNat)
/-- messages/utils.rs:1-11 `write_u16`. -/
def writeU16 (n : UInt16) : Prog Nat := writeLen (leBytes 2 n.toNat)
/-- messages/utils.rs:1-12 `write_u32`. -/
def writeU32 (n : UInt32) : Prog Nat := writeLen (leBytes 4 n.toNat)
/-- messages/utils.rs:1-13 `write_u64`. -/
def writeU64 (n : UInt64) : Prog Nat := writeLen (leBytes 8 n.toNat)

/-- messages.rs:66-68 `Wire::serialize_into`, for any writer. -/
class Encode (α : Type) where
  encode : Cfg → α → Prog Nat

export Encode (encode)

/-- messages/structures.rs:28-36 (`buffer_aliases!`). -/
instance {n : Nat} : Encode (Bytes n) where
  encode _ b := do
    writeAll b.val
    return n

/-- structures/version.rs:24-38. -/
instance : Encode Version where
  encode _ v := do
    let a ← writeU8 v.major
    let b ← writeU8 v.minor
    let c ← writeU16 v.build
    let d ← writeU8 0
    let e ← writeU16 0
    let f ← writeU8 v.revisionCount
    return a + b + c + d + e + f

/-- structures/filetime.rs:47-55. -/
instance : Encode FileTime where
  encode _ f := do
    let a ← writeU32 f.low
    let b ← writeU32 f.high
    return a + b

/-- structures/single_host_data.rs:18-32. -/
instance : Encode SingleHostData where
  encode _ x := do
    let a ← writeU32 x.size
    let b ← writeU32 x.z4
    let c ← writeLen x.customData.val
    let d ← writeLen x.machineId.val
    return a + b + c + d

/-- structures/signature.rs:18-29. -/
instance : Encode MessageSignature where
  encode cfg x := do
    let a ← writeU32 1
    let b ← encode cfg x.randomPad
    let c ← writeU32 x.checksum
    let d ← writeU32 x.seqNum
    return a + b + c + d

/-- messages/flags.rs:176-181. -/
instance : Encode Flags where
  encode _ f := writeU32 f.bits

/-- messages/unicode_string.rs:67-75. -/
instance : Encode OEMString where
  encode _ x := writeLen (utf8 x.s)

/-- messages/unicode_string.rs:97-101, the loop of `UnicodeString::serialize_into`. -/
def writeUnits : List UInt16 → Nat → Prog Nat
  | [], size => pure size
  | b :: bs, size => do
    let n ← writeU16 b
    writeUnits bs (size + n)

/-- messages/unicode_string.rs:93-104. -/
instance : Encode UnicodeString where
  encode _ x := writeUnits (encodeUtf16 x.s) 0

/-- structures/avid.rs:36-41. -/
instance : Encode AvId where
  encode _ x := writeU16 x.toU16

/-- structures/avid.rs:78-95. -/
instance : Encode MsvAvFlags where
  encode _ x := writeU32 x.toU32

/-- structures/avid.rs:162-173 `encode_string`: the text goes through `write`, not `write_all` (line 170). -/
def encodeString (s : Str) : Prog Nat := do
  let data := u16sAsBytes (encodeUtf16 s)
  if data.length < 65536 then
    let a ← writeU16 (UInt16.ofNat data.length)
    let b ← write data
    return a + b
  else .panic .stringTooLong

/-- structures/avid.rs:182-221: the `match self` of `AvPair::serialize_into`. -/
def encodeBody (cfg : Cfg) : AvPair → Prog Nat
  | .eol => writeU16 0
  | .nbComputerName s => encodeString s
  | .nbDomainName s => encodeString s
  | .dnsComputerName s => encodeString s
  | .dnsDomainName s => encodeString s
  | .dnsTreeName s => encodeString s
  | .flags f => do
    let a ← writeU16 4
    let b ← encode cfg f
    return a + b
  | .timestamp t => do
    let a ← writeU16 8
    let b ← encode cfg t
    return a + b
  | .singleHost d => do
    let a ← writeU16 48
    let b ← encode cfg d
    return a + b
  | .targetName s => encodeString s
  | .channelBindings h => do
    let a ← writeU16 16
    writeAll h.val
    return a + 16

/-- structures/avid.rs:176-224. -/
instance : Encode AvPair where
  encode cfg x := do
    let a ← encode cfg x.getId
    let b ← encodeBody cfg x
    return a + b

/-- messages.rs:91-96, the loop of `Vec<T>::serialize_into`. -/
def encodeVecLoop {α : Type} [Encode α] (cfg : Cfg) : List α → Nat → Prog Nat
  | [], size => pure size
  | x :: xs, size => do
    let n ← encode cfg x
    encodeVecLoop cfg xs (size + n)

/-- messages.rs:87-96. -/
instance {α : Type} [Encode α] : Encode (List α) where
  encode cfg xs := encodeVecLoop cfg xs 0

/-- structures/lm_challenge.rs:22-27. -/
instance : Encode Lmv1Challenge where
  encode cfg x := encode cfg x.response

/-- structures/lm_challenge.rs:73-82. -/
instance : Encode Lmv2Challenge where
  encode cfg x := do
    let a ← encode cfg x.response
    let b ← encode cfg x.challengeFromClient
    return a + b

/-- structures/lm_challenge.rs:126-134. -/
instance : Encode LmChallenge where
  encode cfg
    | .v1 c => encode cfg c
    | .v2 c => encode cfg c

/-- structures/nt_challenge.rs:21-26. -/
instance : Encode Ntv1Challenge where
  encode cfg x := encode cfg x.response

/-- structures/nt_challenge.rs:45-66. -/
instance : Encode Ntv2Challenge where
  encode cfg x := do
    let a ← writeU8 1
    let b ← writeU8 1
    let c ← writeU16 0
    let d ← writeU32 0
    let e ← encode cfg x.timestamp
    let f ← encode cfg x.challengeFromClient
    let g ← writeU32 0
    let size := a + b + c + d + e + f + g
    if cfg.debug && size != 28 then .panic .debugAssert
    else
      let h ← encode cfg x.targetInfos
      return size + h

/-- structures/nt_challenge.rs:126-134. -/
instance : Encode NtChallenge where
  encode cfg
    | .v1 c => encode cfg c
    | .v2 c => encode cfg c

/-- messages/field.rs:22-32. -/
instance : Encode Field where
  encode _ f := do
    let a ← writeU16 f.len
    let b ← writeU16 f.maxLen
    let c ← writeU32 f.offset
    return a + b + c

/-- messages/field.rs:156-181 `append`: the value goes into the payload, which is a `Vec` whatever the writer is
    (`data: &mut Vec<u8>`), and only its descriptor goes to the writer. -/
def append {α : Type} [Wire α] (cfg : Cfg) (value : Option α) (data : List UInt8) :
    Prog (Nat × List UInt8) :=
  match value with
  | some v =>
    match Field.place cfg v data with
    | .ok (field, data') => do
      let n ← encode cfg field
      return (n, data')
    | .error e => .panic e
  | none => do
    let n ← encode cfg Field.zeroed
    return (n, data)

/-- messages/field.rs:129-154 `append_many`. -/
def appendMany {α : Type} [Wire α] (cfg : Cfg) (values : List α) (data : List UInt8) :
    Prog (Nat × List UInt8) :=
  match values with
  | [] => do
    let n ← encode cfg Field.zeroed
    return (n, data)
  | _ :: _ =>
    match Field.place cfg values data with
    | .ok (field, data') => do
      let n ← encode cfg field
      return (n, data')
    | .error e => .panic e

/-- `if let Some(ref version) = self.version { version.serialize_into(&mut payload) }`, into a `Vec`
    (negotiate.rs:69-71, challenge.rs:136-138, authenticate.rs:81-83). -/
def pushVersion (cfg : Cfg) (version : Option Version) (payload : List UInt8) : Prog (List UInt8) :=
  match Ntlm.pushVersion cfg version payload with
  | .ok p => .done p
  | .error e => .panic e

/-- messages/negotiate.rs:60-87. -/
instance : Encode Negotiate where
  encode cfg m := do
    let payload ← pushVersion cfg m.version (List.replicate 32 0)
    writeAll signature
    let written := signature.length
    let a ← writeU32 0x00000001
    let b ← encode cfg m.negotiateFlags
    let (c, payload) ← append cfg m.domainName payload
    let (d, payload) ← append cfg m.workstation payload
    let written := written + a + b + c + d
    if written != 32 then .panic .headerAssert
    else
      writeAll (payload.drop 32)
      return written + (payload.drop 32).length

/-- messages/challenge.rs:126-154. -/
instance : Encode Challenge where
  encode cfg m := do
    let payload ← pushVersion cfg m.version (List.replicate 48 0)
    writeAll signature
    let written := signature.length
    let a ← writeU32 0x00000002
    let (b, payload) ← append cfg m.targetName payload
    let c ← encode cfg m.negotiateFlags
    let d ← encode cfg m.serverChallenge
    let e ← writeU64 0
    let (f, payload) ← appendMany cfg m.targetInfos payload
    let written := written + a + b + c + d + e + f
    if written != 48 then .panic .headerAssert
    else
      writeAll (payload.drop 48)
      return written + (payload.drop 48).length

/-- messages/authenticate.rs:72-107. -/
instance : Encode Authenticate where
  encode cfg m := do
    let payload ← pushVersion cfg m.version (List.replicate 64 0)
    let payload := payload ++ m.mic.val
    writeAll signature
    let written := signature.length
    let a ← writeU32 0x00000003
    let (b, payload) ← append cfg m.lmChallengeResponse payload
    let (c, payload) ← append cfg m.ntChallengeResponse payload
    let (d, payload) ← append cfg m.domain payload
    let (e, payload) ← append cfg m.user payload
    let (f, payload) ← append cfg m.workstation payload
    let (g, payload) ← append cfg m.encryptedRandomSessionKey payload
    let h ← encode cfg m.negotiateFlags
    let written := written + a + b + c + d + e + f + g + h
    if written != 64 then .panic .headerAssert
    else
      writeAll (payload.drop 64)
      return written + (payload.drop 64).length

end Writer

end Ntlm
