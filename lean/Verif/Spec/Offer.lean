import Verif.Spec.Client
import Verif.Spec.Decode
/-
  Specification for C89: what a client offered and what its answer claims, both read from the bytes sent.
-/
namespace Ntlm.Spec

/-- `nb` is a negotiate message of a client with this login, whatever the client did before. -/
def Offers (P : Prims) (cm : CaseMap) (cfg : Cfg) (ver : UInt32) (l : Login) (nb : List UInt8) : Prop :=
  ∃ c h junk, created P cm l c ∧ resultOf P cfg ver c h (.sendNegociate junk) = .ok nb

/-- Every flag set in the authenticate message `b` (word at 60) is set in the negotiate message `nb` (word at 12). -/
def claimsOnlyOffered (nb b : List UInt8) : Prop := ∀ k, flagAt b 60 k → flagAt nb 12 k

/-- The server has set no flag that the client did not offer. -/
def serverWithin (nb : List UInt8) (ch : Challenge) : Prop := ∀ k, bit ch.negotiateFlags k → flagAt nb 12 k

end Ntlm.Spec
