import Verif.Model.Trace
import Verif.Model.PanicText
/-
  The messages with which the decoders panic, as texts of the standard library.
-/
namespace Ntlm

namespace Trace

/-- messages/field.rs:73, :105 and structures/avid.rs:244-290: the text of a panic.  The standard library changed the check of
    slice ranges: from 1.92 on (`newer`) a start beyond the end of the slice is reported first (`core::slice::index`). -/
def Msg.text (newer : Bool) : Msg → Str
  | .outOfRange start stop len =>
    if newer && decide (len < start) then
      "range start index ".toList ++ decimal start ++ " out of range for slice of length ".toList ++ decimal len
    else "range end index ".toList ++ decimal stop ++ " out of range for slice of length ".toList ++ decimal len
  | .leftOver left => assertEqText left 0

end Trace

end Ntlm
