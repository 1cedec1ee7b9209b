/-
  Foundations of the model: panics, build configuration, writing into a `Vec<u8>`,
  and the `nom` 7 parser combinators used by the crate.
-/
namespace Ntlm

/-- Every panic site of the crate that the model distinguishes.  A panic is an explicit
    error value, so "this call never panics" is a statement about results. -/
inductive Panic where
  /-- `&input[self.get_range()]` out of bounds: messages/field.rs:73, :105 -/
  | sliceIndex
  /-- a failing `debug_assert!` (debug builds only): structures/avid.rs:244 ff., messages.rs:74,
      structures/nt_challenge.rs:62, messages/flags.rs:193 ff. -/
  | debugAssert
  /-- `expect("Cannot fit usize into u16")`: messages/field.rs:146, :171 -/
  | fieldLen
  /-- `expect("Cannot fit usize into u32")`: messages/field.rs:141, :166 -/
  | fieldOffset
  /-- `expect("String too long")`: structures/avid.rs:169 -/
  | stringTooLong
  /-- `assert_eq!(written, PAYLOAD_OFFSET)`: negotiate.rs:81, challenge.rs:149, authenticate.rs:102 -/
  | headerAssert
  /-- `unreachable!("Invalid client state")`: client.rs:157, :165 -/
  | invalidState
  /-- `unreachable!("Invalid version")`: client.rs:275 -/
  | invalidVersion
  /-- `panic!("Only 0 to 5 are supported ...")`: client.rs:121 -/
  | unsupportedVersion
  /-- `assert_eq!(key7.len(), 7)`: crypto/des.rs:2 -/
  | desKeyLen
  /-- string slicing off a `char` boundary or out of range: crypto/lm.rs:11, :21 -/
  | charBoundary
  /-- `hostname.lines().next().unwrap()`: client.rs:262 -/
  | emptyHostname
  /-- `expect("now should be after UNIX_EPOCH")`: structures/filetime.rs:42 -/
  | clock
  deriving DecidableEq, Repr

/-- Target platform; it only determines the range of `SystemTime` (see `FileTime`). -/
inductive Platform where
  | unix
  | windows
  deriving DecidableEq, Repr

/-- Build configuration: `debug_assertions`, the Cargo feature `strict` (Cargo.toml:9), and the platform. -/
structure Cfg where
  debug : Bool
  strict : Bool
  platform : Platform
  deriving DecidableEq, Repr

/-- `[u8; n]`. -/
abbrev Bytes (n : Nat) := { l : List UInt8 // l.length = n }

/-- `[0u8; n]` / `Default` for the fixed-size buffers (messages/structures.rs:26). -/
def Bytes.zero (n : Nat) : Bytes n := ⟨List.replicate n 0, by simp⟩

/-- The sub-array `b[start..start+len]`, for ranges known to be in bounds. -/
def Bytes.sub {n : Nat} (b : Bytes n) (start len : Nat) (h : start + len ≤ n) : Bytes len :=
  ⟨(b.val.drop start).take len, by
    have := b.property
    simp only [List.length_take, List.length_drop]; omega⟩

/-- Two buffers one after the other. -/
def Bytes.append {n m : Nat} (a : Bytes n) (b : Bytes m) : Bytes (n + m) :=
  ⟨a.val ++ b.val, by simp [a.property, b.property]⟩

/-- `to_le_bytes` for a `k`-byte integer of value `n`. -/
def leBytes : Nat → Nat → List UInt8
  | 0, _ => []
  | k + 1, n => UInt8.ofNat (n % 256) :: leBytes k (n / 256)

/-- Value of a little-endian byte string. -/
def leVal : List UInt8 → Nat
  | [] => 0
  | b :: bs => b.toNat + 256 * leVal bs

/-! ### Writing into a `Vec<u8>` -/

/-- A computation that appends to a `Vec<u8>` (`writer: &mut W`; every writer in the crate is a
    `Vec`, for which `io::Write` never fails).  On a panic the partially written
    buffer is not represented here (the client model over-approximates it, see `Client`). -/
def W (α : Type) := List UInt8 → Except Panic (α × List UInt8)

instance : Monad W where
  pure a := fun w => .ok (a, w)
  bind x f := fun w => match x w with
    | .ok (a, w') => f a w'
    | .error e => .error e

/-- A panic while writing. -/
def W.panic {α : Type} (p : Panic) : W α := fun _ => .error p

/-- `writer.write_all(bytes)` on a `Vec` (also `writer.write(bytes)`, which on a `Vec` writes everything). -/
def writeAll (bs : List UInt8) : W Unit := fun w => .ok ((), w ++ bs)

/-- `writer.write_all(bytes)?; Ok(bytes.len())`. -/
def writeLen (bs : List UInt8) : W Nat := do
  writeAll bs
  return bs.length

/-- messages/utils.rs:1-10 `write_u8`. -/
def writeU8 (n : UInt8) : W Nat := writeLen (leBytes 1 n.toNat)
/-- messages/utils.rs:1-11 `write_u16`. -/
def writeU16 (n : UInt16) : W Nat := writeLen (leBytes 2 n.toNat)
/-- messages/utils.rs:1-12 `write_u32`. -/
def writeU32 (n : UInt32) : W Nat := writeLen (leBytes 4 n.toNat)
/-- messages/utils.rs:1-13 `write_u64`. -/
def writeU64 (n : UInt64) : W Nat := writeLen (leBytes 8 n.toNat)

/-! ### `nom` parsers over byte slices -/

/-- Why a parse did not produce a value.  `nom::Err::Failure` is never produced by the combinators the crate
    uses (there is no `cut`).  The payload of the generic error type is left out here, so
    `context(..)` (messages/*.rs) is the identity; `Model/Trace.lean` has the decoders with it. -/
inductive PErr where
  | error
  | incomplete
  | panic (p : Panic)
  deriving DecidableEq, Repr

/-- `FnMut(&[u8]) -> IResult<&[u8], α, E>`: the value and the remaining input. -/
def Parser (α : Type) := List UInt8 → Except PErr (α × List UInt8)

/-- Sequencing (`nom::sequence::tuple`, `preceded`, and the `?` operator on `IResult`). -/
instance : Monad Parser where
  pure a := fun i => .ok (a, i)
  bind p f := fun i => match p i with
    | .ok (a, i') => f a i'
    | .error e => .error e

/-- `nom::bytes::complete::take(n)`. -/
def take (n : Nat) : Parser (List UInt8) := fun i =>
  if i.length < n then .error .error else .ok (i.take n, i.drop n)

/-- `take(n)` copied into a `[u8; n]` (the `buffer_aliases!` decoder, messages/structures.rs:38-49). -/
def takeBytes (n : Nat) : Parser (Bytes n) := fun i =>
  if h : i.length < n then .error .error
  else .ok (⟨i.take n, by simp only [List.length_take]; omega⟩, i.drop n)

/-- `nom::bytes::complete::tag(t)`. -/
def tag (t : List UInt8) : Parser Unit := fun i =>
  if i.take t.length = t then .ok ((), i.drop t.length) else .error .error

/-- A `k`-byte little-endian integer as a natural number (`nom::number::complete::le_u*`). -/
def leNat (k : Nat) : Parser Nat := do
  let b ← take k
  return leVal b

/-- `nom::number::complete::le_u8`. -/
def leU8 : Parser UInt8 := do return UInt8.ofNat (← leNat 1)
/-- `nom::number::complete::le_u16`. -/
def leU16 : Parser UInt16 := do return UInt16.ofNat (← leNat 2)
/-- `nom::number::complete::le_u24` (a `u32` below 2^24). -/
def leU24 : Parser UInt32 := do return UInt32.ofNat (← leNat 3)
/-- `nom::number::complete::le_u32`. -/
def leU32 : Parser UInt32 := do return UInt32.ofNat (← leNat 4)
/-- `nom::number::complete::le_u64`. -/
def leU64 : Parser UInt64 := do return UInt64.ofNat (← leNat 8)

/-- `nom::combinator::verify`. -/
def verify {α : Type} (p : Parser α) (ok : α → Bool) : Parser α := fun i =>
  match p i with
  | .ok (a, r) => if ok a then .ok (a, r) else .error .error
  | .error e => .error e

/-- `nom::combinator::map_opt`. -/
def mapOpt {α β : Type} (p : Parser α) (f : α → Option β) : Parser β := fun i =>
  match p i with
  | .ok (a, r) => match f a with
    | some b => .ok (b, r)
    | none => .error .error
  | .error e => .error e

/-- `nom::combinator::map`. -/
def pmap {α β : Type} (p : Parser α) (f : α → β) : Parser β := fun i =>
  match p i with
  | .ok (a, r) => .ok (f a, r)
  | .error e => .error e

/-- `nom::combinator::cond`. -/
def cond {α : Type} (b : Bool) (p : Parser α) : Parser (Option α) :=
  if b then pmap p some else pure none

/-- `nom::combinator::rest`. -/
def rest : Parser (List UInt8) := fun i => .ok (i, [])

/-- `nom::branch::alt` with two alternatives: only `Err::Error` moves on to the second. -/
def alt {α : Type} (p q : Parser α) : Parser α := fun i =>
  match p i with
  | .error .error => q i
  | r => r

/-- `nom::multi::length_data` (nom 7): if the announced length exceeds the input the result is
    `Err::Incomplete`, even with a `complete` length parser. -/
def lengthData (p : Parser UInt16) : Parser (List UInt8) := fun i =>
  match p i with
  | .ok (n, r) =>
    if r.length < n.toNat then .error .incomplete else .ok (r.take n.toNat, r.drop n.toNat)
  | .error e => .error e

/-- Loop of `many0`, with fuel.  `nom::multi::many0` stops with success at the first `Err::Error`, propagates
    anything else, and reports `Err::Error` if the element parser succeeded without consuming input.
    (A `nom` parser returns a suffix of its input, so "did not consume" is "the rest is not shorter".) -/
def many0Aux {α : Type} (p : Parser α) : Nat → Parser (List α)
  | 0, _ => .error .error
  | fuel + 1, i =>
    match p i with
    | .error .error => .ok ([], i)
    | .error e => .error e
    | .ok (a, r) =>
      if r.length < i.length then
        match many0Aux p fuel r with
        | .ok (as, r') => .ok (a :: as, r')
        | .error e => .error e
      else .error .error

/-- `nom::multi::many0`.  Each round consumes at least one byte, so `length + 1` rounds always suffice
    (`many0_eq` below states the fuel-free equation). `nom::multi::fold_many0(p, Vec::new, push)` is the same. -/
def many0 {α : Type} (p : Parser α) : Parser (List α) := fun i => many0Aux p (i.length + 1) i

/-! ### The `Wire` trait -/

/-- messages.rs:65-81, trait `Wire`.  The `Cfg` argument carries the `cfg!` conditions. -/
class Wire (α : Type) where
  /-- `serialize_into`: appends to the writer and returns the number of bytes written. -/
  serializeInto : Cfg → α → W Nat
  /-- `deserialize`. -/
  deserialize : Cfg → Parser α

/-- messages.rs:69-76, the provided method `Wire::serialize`. -/
def Wire.serialize {α : Type} [Wire α] (cfg : Cfg) (x : α) : Except Panic (List UInt8) :=
  match Wire.serializeInto cfg x [] with
  | .ok (size, data) =>
    if cfg.debug && size != data.length then .error .debugAssert else .ok data
  | .error e => .error e

/-- messages.rs:87-96, the loop of `Vec<T>::serialize_into` (`size` is the accumulator). -/
def serializeVecLoop {α : Type} [Wire α] (cfg : Cfg) : List α → Nat → W Nat
  | [], size => pure size
  | x :: xs, size => do
    let n ← Wire.serializeInto cfg x
    serializeVecLoop cfg xs (size + n)

/-- messages.rs:83-104, `impl Wire for Vec<T>`. -/
instance {α : Type} [Wire α] : Wire (List α) where
  serializeInto cfg xs := serializeVecLoop cfg xs 0
  deserialize cfg := many0 (Wire.deserialize cfg)

/-- messages.rs:106 `SIGNATURE = b"NTLMSSP\0"`. -/
def signature : List UInt8 := [0x4e, 0x54, 0x4c, 0x4d, 0x53, 0x53, 0x50, 0x00]

end Ntlm
