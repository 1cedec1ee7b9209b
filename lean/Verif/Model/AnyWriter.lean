import Verif.Model.Writer
/-
  Encoders over a writer with code of its own: one that implements `write_all` itself, that panics, that never returns, or
  that says it has taken more than it was offered.
-/
namespace Ntlm

namespace Writer

/-- What a call of a method of the writer comes to. -/
inductive Reply (α ε : Type) where
  /-- `Ok(a)` -/
  | ok (a : α)
  /-- `Err(e)` -/
  | err (e : ε)
  /-- the method panics -/
  | panics
  /-- the method never returns -/
  | never

/-- A writer: states of type `σ`, errors of type `ε`, and two methods of `std::io::Write`, which may do anything. -/
structure Object (σ ε : Type) where
  /-- `write_all(&mut self, buf)` -/
  writeAll : σ → List UInt8 → Reply Unit ε × σ
  /-- `write(&mut self, buf)` -/
  write : σ → List UInt8 → Reply Nat ε × σ

/-- How an encoder ends. -/
inductive Result (ε : Type) where
  /-- `Ok(n)` -/
  | ok (n : Nat)
  /-- `Err(e)` -/
  | err (e : ε)
  /-- a panic of the encoder -/
  | panic (p : Panic)
  /-- a panic of the writer, which goes through the encoder -/
  | writerPanics
  /-- the writer never returned -/
  | never

/-- An encoder run with a writer in a state: the result and the state the writer is left in.  Every call is followed by `?`,
    which returns the writer's own error. -/
def drive {σ ε : Type} (w : Object σ ε) : Prog Nat → σ → Result ε × σ
  | .done n, s => (.ok n, s)
  | .panic p, s => (.panic p, s)
  | .writeAll bs k, s => match w.writeAll s bs with
    | (.ok _, s') => drive w k s'
    | (.err e, s') => (.err e, s')
    | (.panics, s') => (.writerPanics, s')
    | (.never, s') => (.never, s')
  | .write bs k, s => match w.write s bs with
    | (.ok n, s') => drive w (k n) s'
    | (.err e, s') => (.err e, s')
    | (.panics, s') => (.writerPanics, s')
    | (.never, s') => (.never, s')

end Writer

end Ntlm
