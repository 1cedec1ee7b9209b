import Verif.Model.Output
/-
  What the calls of a client should print.
-/
namespace Ntlm.Spec

open Client

/-- The lines for a message of `n` bytes. -/
def sizeLines (pl : Places) (n : Nat) : Str :=
  ("[".toList ++ pl.first ++ "] self.buffer.len() = ".toList ++ (toString n).toList ++ "\n".toList) ++
  ("[".toList ++ pl.second ++ "] size = ".toList ++ (toString n).toList ++ "\n".toList)

/-- What one call prints on standard error, given its result: sizes after a successful `send_negociate`, and otherwise
    nothing. -/
def errorOutput (pl : Places) : Op → Except Panic (List UInt8) → Str
  | .sendNegociate _, .ok b => sizeLines pl b.length
  | _, _ => []

/-- The same for a history and its results. -/
def errorOutputs (pl : Places) : List Op → List (Except Panic (List UInt8)) → Str
  | op :: ops, r :: rs => errorOutput pl op r ++ errorOutputs pl ops rs
  | _, _ => []

end Ntlm.Spec
