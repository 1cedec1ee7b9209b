import Verif.Model.AnyWriter
/-
  Pieces offered to a writer one after the other.
-/
namespace Ntlm

namespace Spec

open Writer

/-- Bytes cut into pieces of the given sizes and one with the rest. -/
def cut : List Nat → List UInt8 → List (List UInt8)
  | [], b => [b]
  | n :: ns, b => b.take n :: cut ns (b.drop n)

/-- The pieces given to `write_all` in order, up to the first that is not taken; `whenAll` if there is none.  The result is
    that of the last call made. -/
def offer {σ ε : Type} (w : Object σ ε) (whenAll : Result ε) : List (List UInt8) → σ → Result ε × σ
  | [], s => (whenAll, s)
  | piece :: pieces, s => match w.writeAll s piece with
    | (.ok _, s') => offer w whenAll pieces s'
    | (.err e, s') => (.err e, s')
    | (.panics, s') => (.writerPanics, s')
    | (.never, s') => (.never, s')

/-- A descriptor: length, length again, offset. -/
def descriptorSizes : List Nat := [2, 2, 4]

/-- NEGOTIATE: signature, type, flags, two descriptors; then the payload. -/
def negotiateSizes : List Nat := [8, 4, 4] ++ descriptorSizes ++ descriptorSizes

/-- CHALLENGE: signature, type, a descriptor, flags, server challenge, reserved, a descriptor; then the payload. -/
def challengeSizes : List Nat := [8, 4] ++ descriptorSizes ++ [4, 8, 8] ++ descriptorSizes

/-- AUTHENTICATE: signature, type, six descriptors, flags; then the payload. -/
def authenticateSizes : List Nat :=
  [8, 4] ++ descriptorSizes ++ descriptorSizes ++ descriptorSizes ++ descriptorSizes ++ descriptorSizes ++ descriptorSizes ++ [4]

/-- A writer that keeps what it is given by `write_all`, piece by piece, and always says it has taken it. -/
def recorder : Object (List (List UInt8)) Unit where
  writeAll s bs := (.ok (), s ++ [bs])
  write s bs := (.ok bs.length, s ++ [bs])

/-- A writer with the `write_all` of the standard library, on top of a `write` that gives the answers of a list: the
    answers to come, and what has arrived. -/
def stock : Object (List Answer × List UInt8) Unit where
  writeAll s bs := match writeAllLoop bs s.1 s.2 with
    | (.ok _, s') => (.ok (), s')
    | (.ioError, s') => (.err (), s')
    | (.panic _, s') => (.panics, s')
    | (.waiting, s') => (.never, s')
  write s bs := match s with
    | ([], got) => (.never, [], got)
    | (.takes n :: as, got) => (.ok (min n bs.length), as, got ++ bs.take n)
    | (_ :: as, got) => (.err (), as, got)

/-- The same results, in the words of `Model/Writer.lean`. -/
def asOutcome : Result Unit → Outcome Nat
  | .ok n => .ok n
  | .err _ => .ioError
  | .panic p => .panic p
  | .writerPanics => .waiting
  | .never => .waiting

end Spec

end Ntlm
