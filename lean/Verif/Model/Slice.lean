import Verif.Model.AnyWriter
/-
  Encoders over a buffer of fixed size: `&mut [u8]` as the writer (std::io, `impl Write for &mut [u8]`; a
  `Cursor<&mut [u8]>` behaves alike).
-/
namespace Ntlm

namespace Writer

/-- The memory behind a `&mut [u8]` that is used as a writer: the part written so far, and the part the slice still covers. -/
structure Slice where
  filled : List UInt8
  free : List UInt8
  deriving DecidableEq, Repr

/-- `write` of `&mut [u8]`: `min(data.len(), self.len())` bytes are copied and the slice moves behind them. -/
def Slice.put (s : Slice) (data : List UInt8) : Slice :=
  ⟨s.filled ++ data.take s.free.length, s.free.drop data.length⟩

/-- `impl Write for &mut [u8]`.  `write_all` is `write`, and an error (`ErrorKind::WriteZero`) if that took less than everything. -/
def sliceWriter : Object Slice Unit where
  write s data := (.ok (min data.length s.free.length), s.put data)
  writeAll s data := (if s.free.length < data.length then .err () else .ok (), s.put data)

end Writer

end Ntlm
