import Verif.Model.Failing
import Verif.Spec.Client
import Verif.Spec.Layout
/-
  Specification vocabulary for machines that fail the client.
-/
namespace Ntlm.Spec

open Client (Op OpF Abort)

/-- The same call on a machine that works.  What stands for a draw that fails does not matter where this is used. -/
def working : OpF → Op
  | .sendNegociate junk _ _ => .sendNegociate junk
  | .recvChallenge ch => .recvChallenge ch
  | .sendAuthenticate challenge key clock junk =>
    .sendAuthenticate ⟨challenge.getD (Bytes.zero 8), key.getD (Bytes.zero 16), clock⟩ junk

/-- The calls of a history in which the random number source did not fail. -/
def callsMade (P : Prims) (cfg : Cfg) (ver : UInt32) (c : Client) : List OpF → List Op
  | [] => []
  | op :: rest =>
    match Client.stepF P cfg ver c op with
    | (c', .error .random) => callsMade P cfg ver c' rest
    | (c', _) => working op :: callsMade P cfg ver c' rest

/-- The result of a call made after a history of calls. -/
def resultF (P : Prims) (cfg : Cfg) (ver : UInt32) (c : Client) (h : List OpF) (op : OpF) : Except Abort (List UInt8) :=
  (Client.stepF P cfg ver (Client.runF P cfg ver c h) op).2

/-- An answer to this challenge carries a session key that has to be drawn: KEY_EXCH (bit 30) and SIGN (4) or SEAL (5). -/
def drawsKey (ch : Challenge) : Prop := bit ch.negotiateFlags 30 ∧ (bit ch.negotiateFlags 4 ∨ bit ch.negotiateFlags 5)

end Ntlm.Spec
