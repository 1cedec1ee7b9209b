import Verif.Model.Writer
/-
  What it means for an encoder to serve any writer.
-/
namespace Ntlm

namespace Spec

open Writer

/-- An answer after which `write_all` gives up: an error other than an interruption, or nothing taken. -/
def stops : Answer → Prop
  | .fails => True
  | .takes n => n = 0
  | .interrupted => False

/-- How many of the answers take at least one byte. -/
def useful (as : List Answer) : Nat :=
  as.countP fun a => match a with
    | .takes n => n != 0
    | _ => false

/-- The call is over or under way, and the writer, which had `before`, now has `after`:
    - success is reported with the number of bytes of the encoding, all of which have arrived;
    - an error is reported only if the writer gave one (or took nothing), and then a part of the
      encoding is missing at the end, nothing else;
    - while the writer has not answered, it has the beginning of the encoding, and no more can be expected from
      the answers it has given;
    - there is no panic. -/
def Delivers (encoding : List UInt8) (as : List Answer) (before : List UInt8) (outcome : Outcome Nat)
    (after : List UInt8) : Prop :=
  match outcome with
  | .ok n => n = encoding.length ∧ after = before ++ encoding
  | .ioError => (∃ a ∈ as, stops a) ∧ ∃ got missing, missing ≠ [] ∧ got ++ missing = encoding ∧ after = before ++ got
  | .waiting => useful as < encoding.length ∧
      ∃ got missing, missing ≠ [] ∧ got ++ missing = encoding ∧ after = before ++ got
  | .panic _ => False

/-- The call cannot succeed, whatever the writer does: it panics, unless the writer stops it or keeps it waiting
    before.  At most `header` bytes go out. -/
def Refuses (header : Nat) (as : List Answer) (before : List UInt8) (outcome : Outcome Nat)
    (after : List UInt8) : Prop :=
  (∃ got, after = before ++ got ∧ got.length ≤ header) ∧
  match outcome with
  | .ok _ => False
  | .ioError => ∃ a ∈ as, stops a
  | .waiting => useful as < header
  | .panic _ => True

/-- The text an attribute pair carries, if it is one of the name pairs. -/
def textOf : AvPair → Option Str
  | .nbComputerName s | .nbDomainName s | .dnsComputerName s | .dnsDomainName s | .dnsTreeName s
  | .targetName s => some s
  | _ => none

end Spec

end Ntlm
