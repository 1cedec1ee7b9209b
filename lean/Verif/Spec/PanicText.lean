import Verif.Spec.Client
/-
  Specification vocabulary for the messages of panics.
-/
namespace Ntlm.Spec

/-- Byte `n` of the text falls inside its character `ch`, which comes after `before`. -/
def cuts (s : Str) (n : Nat) (before : Str) (ch : Char) : Prop :=
  (∃ after, s = before ++ ch :: after) ∧ (utf8Bytes before).length < n ∧ n < (utf8Bytes (before ++ [ch])).length

/-- `p` is the text that is split for LM hashing: the first 14 bytes of the password, or all of a shorter one, in upper case, padded
    with NULs if the password has less than 14 bytes. -/
def lmText (cm : CaseMap) (pw p : Str) : Prop :=
  ((utf8Bytes pw).length < 14 ∧ p = cm.upper pw ++ List.replicate (14 - (utf8Bytes (cm.upper pw)).length) '\x00') ∨
  ∃ head tail, pw = head ++ tail ∧ (utf8Bytes head).length = 14 ∧ p = cm.upper head

/-- The message that quotes the text `s`, cut at byte `n` inside the character printed as `c`, from byte `i` to byte `j`: -/
def notBoundary (n : Nat) (c : Str) (i j : Nat) (s : Str) : Str :=
  "byte index ".toList ++ Nat.toDigits 10 n ++ " is not a char boundary; it is inside ".toList ++ c ++
    " (bytes ".toList ++ Nat.toDigits 10 i ++ "..".toList ++ Nat.toDigits 10 j ++ ") of `".toList ++ s ++ "`".toList

/-- A wrong number of bytes. -/
def wrongCount (n : Nat) : Str := "assertion `left == right` failed\n  left: ".toList ++ Nat.toDigits 10 n ++ "\n right: 7".toList

/-- The message about an empty host name file. -/
def noHostName : Str := "called `Option::unwrap()` on a `None` value".toList

/-- The messages of the calls of a client, but for the one about the clock. -/
def callMessages : List Str :=
  ["Only 0 to 5 are supported values for NTLM version".toList,
   "internal error: entered unreachable code: Invalid version".toList,
   "internal error: entered unreachable code: Invalid client state".toList,
   "Cannot fit usize into u16: TryFromIntError(())".toList,
   "String too long: TryFromIntError(())".toList]

end Ntlm.Spec
