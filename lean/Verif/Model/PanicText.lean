import Verif.Model.Client
import Verif.Model.DebugText
/-
  The messages of panics: what the default panic hook prints on standard error when creating or using a client panics.  The texts
  are those of the standard library from Rust 1.73 on; the file name and line that the hook prints before them are left out.
-/
namespace Ntlm

/-- `Display` for `usize`: decimal digits. -/
def decimal (n : Nat) : Str := Nat.toDigits 10 n

/-- `Debug for char`: as inside a string, but the single quote is escaped and the double quote is not. -/
def debugChar (f : Fmt) (c : Char) : Str :=
  '\'' :: (if c = '\'' then ['\\', '\''] else if c = '"' then ['"'] else escapeChar f c) ++ ['\'']

/-- `&s[..s.floor_char_boundary(n)]`: the longest beginning of whole characters that takes at most `n` bytes. -/
def floorText : Str → Nat → Str
  | [], _ => []
  | c :: cs, n => if c.utf8Size ≤ n then c :: floorText cs (n - c.utf8Size) else []

/-- `core::str::slice_error_fail_rt(s, 0, stop)`: the message when `&s[..stop]` or `s.split_at(stop)` panics. -/
def sliceFail (f : Fmt) (s : Str) (stop : Nat) : Str :=
  let shown := floorText s 256
  let quoted := '`' :: shown ++ '`' :: (if strLen shown < strLen s then "[...]".toList else [])
  if strLen s < stop then "byte index ".toList ++ decimal stop ++ " is out of bounds of ".toList ++ quoted
  else
    let start := strLen (floorText s stop)
    match s.drop (floorText s stop).length with
    | [] => []
    | ch :: _ =>
      "byte index ".toList ++ decimal stop ++ " is not a char boundary; it is inside ".toList ++ debugChar f ch ++
        " (bytes ".toList ++ decimal start ++ "..".toList ++ decimal (start + ch.utf8Size) ++ ") of ".toList ++ quoted

/-- `assert_eq!(left, right)` on `usize` (core::panicking::assert_failed_inner). -/
def assertEqText (left right : Nat) : Str :=
  "assertion `left == right` failed\n  left: ".toList ++ decimal left ++ "\n right: ".toList ++ decimal right

namespace PanicText

/-- crypto/des.rs:2, reached from crypto/lm.rs:23-24: the message, or `none` if the key has seven bytes. -/
def ofKey (key : List UInt8) : Option Str := if key.length = 7 then none else some (assertEqText key.length 7)

/-- crypto/lm.rs:21-24 on the prepared password. -/
def ofPrepared (f : Fmt) (p : Str) : Option Str :=
  match splitAtByte p 7 with
  | none => some (sliceFail f p 7)
  | some (key1, key2) =>
    match ofKey (utf8 key1) with
    | some t => some t
    | none => ofKey (utf8 key2)

/-- crypto/lm.rs:3-27 `prepare_password` and `lmowfv1`. -/
def ofLm (f : Fmt) (cm : CaseMap) (password : Str) : Option Str :=
  if strLen password < 14 then
    let p := cm.upper password
    ofPrepared f (p ++ List.replicate (14 - strLen p) '\x00')
  else
    match splitAtByte password 14 with
    | none => some (sliceFail f password 14)
    | some (p, _) => ofPrepared f (cm.upper p)

/-- client.rs:262 `hostname.lines().next().unwrap()` inside `get_workstation_name`. -/
def ofWorkstation (env : HostEnv) : Option Str :=
  match env.computerName with
  | some _ => none
  | none =>
    match env.hostnameFile with
    | none => none
    | some hostname =>
      match firstLine hostname with
      | none => some "called `Option::unwrap()` on a `None` value".toList
      | some _ => none

/-- client.rs:51-72 `new_with_domain`: the message it panics with, or `none` if it returns. -/
def ofNew (f : Fmt) (cm : CaseMap) (env : HostEnv) (password : Str) : Option Str :=
  match ofLm f cm password with
  | some t => some t
  | none => ofWorkstation env

/-- client.rs:86-139, :270-295: the message of each panic the calls of a client end in, `none` for the others.  `d` is the
    `Debug` form of the error of structures/filetime.rs:19-21 (`None`, or how long before 1970 the clock is). -/
def ofCall (d : Str) : Panic → Option Str
  /- client.rs:121 -/
  | .unsupportedVersion => some "Only 0 to 5 are supported values for NTLM version".toList
  /- client.rs:275 -/
  | .invalidVersion => some "internal error: entered unreachable code: Invalid version".toList
  /- client.rs:157, :165 -/
  | .invalidState => some "internal error: entered unreachable code: Invalid client state".toList
  /- messages/field.rs:146, :171 -/
  | .fieldLen => some "Cannot fit usize into u16: TryFromIntError(())".toList
  /- structures/avid.rs:169 -/
  | .stringTooLong => some "String too long: TryFromIntError(())".toList
  /- structures/filetime.rs:42 -/
  | .clock => some ("now should be after UNIX_EPOCH: ".toList ++ d)
  | _ => none

end PanicText

end Ntlm
