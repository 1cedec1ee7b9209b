import Verif.Model.Basic
/-
  Rust strings and the two wire string types of messages/unicode_string.rs.
-/
namespace Ntlm

/-- A Rust `String`/`&str`: a sequence of Unicode scalar values (Lean's `Char`). -/
abbrev Str := List Char

/-- `str::encode_utf16` for one character. -/
def utf16Char (c : Char) : List UInt16 :=
  if c.toNat < 0x10000 then [UInt16.ofNat c.toNat]
  else
    [UInt16.ofNat (0xD800 + (c.toNat - 0x10000) / 0x400),
     UInt16.ofNat (0xDC00 + (c.toNat - 0x10000) % 0x400)]

/-- `str::encode_utf16`. -/
def encodeUtf16 (s : Str) : List UInt16 := s.flatMap utf16Char

/-- A `[u16]` seen as bytes: `slice::from_raw_parts(ptr.cast(), len * 2)` on a little-endian target
    (crypto/nt.rs:10, :24; structures/avid.rs:168). -/
def u16sAsBytes (us : List UInt16) : List UInt8 := us.flatMap fun u => leBytes 2 u.toNat

/-- `str::as_bytes`: the UTF-8 encoding. -/
def utf8 (s : Str) : List UInt8 := s.flatMap String.utf8EncodeChar

/-- `str::len`: the number of UTF-8 bytes. -/
def strLen (s : Str) : Nat := (utf8 s).length

/-- `std::str::from_utf8(b).map(|s| s.to_owned()).ok()`.  Uses the core UTF-8 decoder, which accepts exactly the
    encodings of sequences of Unicode scalar values, as Rust does. -/
def fromUtf8 (b : List UInt8) : Option Str :=
  (ByteArray.mk b.toArray).utf8Decode?.map Array.toList

/-- `str::split_at(n)` / `&s[..n]`: `none` (a panic in Rust) when byte `n` is not a character boundary of
    the UTF-8 encoding or is past the end. -/
def splitAtByte : Str → Nat → Option (Str × Str)
  | s, 0 => some ([], s)
  | [], _ + 1 => none
  | c :: cs, n + 1 =>
    if c.utf8Size ≤ n + 1 then
      match splitAtByte cs (n + 1 - c.utf8Size) with
      | some (a, b) => some (c :: a, b)
      | none => none
    else none

/-- `str::split_once(sep)`: text before and after the first occurrence. -/
def splitOnce (sep : Char) : Str → Option (Str × Str)
  | [] => none
  | c :: cs =>
    if c = sep then some ([], cs)
    else match splitOnce sep cs with
      | some (a, b) => some (c :: a, b)
      | none => none

/-- `char::is_whitespace`: the Unicode `White_Space` property. -/
def isWhitespace (c : Char) : Bool :=
  let n := c.toNat
  (0x9 ≤ n && n ≤ 0xd) || n == 0x20 || n == 0x85 || n == 0xa0 || n == 0x1680 ||
  (0x2000 ≤ n && n ≤ 0x200a) || n == 0x2028 || n == 0x2029 || n == 0x202f || n == 0x205f || n == 0x3000

/-- `str::trim`. -/
def trim (s : Str) : Str :=
  ((s.dropWhile isWhitespace).reverse.dropWhile isWhitespace).reverse

/-- `str::lines().next()`: the text up to the first `\n`, without a `\r` directly before that `\n`;
    `none` for the empty string. -/
def firstLine (s : Str) : Option Str :=
  if s.isEmpty then none
  else match splitOnce '\n' s with
    | none => some s
    | some (a, _) => some (if a.getLast? = some '\r' then a.dropLast else a)

/-- The Unicode upper-casing table behind `str::to_uppercase` (context free, one character may map to several).
    The only fact assumed about it is its behaviour on ASCII. -/
structure CaseMap where
  up : Char → Str
  ascii : ∀ c : Char, c.toNat < 128 → up c = [c.toUpper]

/-- `str::to_uppercase`. -/
def CaseMap.upper (cm : CaseMap) (s : Str) : Str := s.flatMap cm.up

/-- messages/unicode_string.rs:12-15, :63 `struct UnicodeString(String)`. -/
structure UnicodeString where
  s : Str
  deriving DecidableEq, Repr

/-- messages/unicode_string.rs:12-15, :64 `struct OEMString(String)`. -/
structure OEMString where
  s : Str
  deriving DecidableEq, Repr

/-- messages/unicode_string.rs:66-90. -/
instance : Wire OEMString where
  serializeInto _ x := writeLen (utf8 x.s)
  deserialize _ := pmap (mapOpt rest fromUtf8) OEMString.mk

/-- messages/unicode_string.rs:97-101, the loop of `UnicodeString::serialize_into`. -/
def writeUnits : List UInt16 → Nat → W Nat
  | [], size => pure size
  | b :: bs, size => do
    let n ← writeU16 b
    writeUnits bs (size + n)

/-- messages/unicode_string.rs:112-118: one code unit, stopping at NUL and at any surrogate (a single
    surrogate is never a valid UTF-16 string, so `decode_utf16(once(b)).next()` is an error for it). -/
def decodeUnit (b : UInt16) : Option Char :=
  if b = 0 then none
  else if h : b.toNat.isValidChar then some (Char.ofNatAux b.toNat h)
  else none

/-- messages/unicode_string.rs:92-129. `fold_many0(.., String::new, push)` is `many0`. -/
instance : Wire UnicodeString where
  serializeInto _ x := writeUnits (encodeUtf16 x.s) 0
  deserialize _ := pmap (many0 (mapOpt leU16 decodeUnit)) UnicodeString.mk

end Ntlm
