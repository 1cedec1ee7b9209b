import Verif.Model.Slice
import Verif.Spec.Writer
import Verif.Spec.Layout
/-
  Writing into a buffer of fixed size.
-/
namespace Ntlm

namespace Spec

open Writer

/-- The buffer `memory` after `bytes` have been written from its start: they are cut off where it ends, and what lies behind
    them is as before. -/
def overwritten (memory bytes : List UInt8) : Slice := ⟨bytes.take memory.length, memory.drop bytes.length⟩

/-- What is reported for an encoding that goes through `write_all` alone: its length if the buffer is long enough, and an
    error otherwise. -/
def allOrError (memory encoding : List UInt8) : Result Unit :=
  if encoding.length ≤ memory.length then .ok encoding.length else .err ()

/-- The length of the text at the very end of a list of pairs, 0 if the last pair is not a text. -/
def lastText (l : List AvPair) : Nat :=
  match l.getLast?.bind textOf with
  | some s => (utf16le s).length
  | none => 0

/-- What is reported for an encoding of which the last `loose` bytes may be cut off: the number of bytes that found room, if
    all others did. -/
def roomOrError (loose : Nat) (memory encoding : List UInt8) : Result Unit :=
  if encoding.length ≤ memory.length + loose then .ok (min encoding.length memory.length) else .err ()

end Spec

end Ntlm
