import Verif.Model.Trace
/-
  Specification: relations between the error values a decoder gives for different error types.
-/
namespace Ntlm.Spec

open Trace (Slice Kind NomError TErr)

/-- Change the error value. -/
def mapErr {E E' α : Type} (f : E → E') : Except (TErr E) α → Except (TErr E') α
  | .ok x => .ok x
  | .error (.error e) => .error (.error (f e))
  | .error .incomplete => .error .incomplete
  | .error (.panic p m) => .error (.panic p m)

/-- `f` respects the operations of error types. -/
structure IsHom {E E' : Type} [NomError E] [NomError E'] (f : E → E') : Prop where
  fromKind : ∀ s k, f (NomError.fromKind s k) = NomError.fromKind s k
  append : ∀ s k e, f (NomError.append s k e) = NomError.append s k (f e)
  or : ∀ e e', f (NomError.or e e') = NomError.or (f e) (f e')
  addContext : ∀ s n e, f (NomError.addContext s n e) = NomError.addContext s n (f e)

/-- The calls a decoder makes to build an error value, as data. -/
inductive Calls where
  | fromKind (s : Slice) (k : Kind)
  | append (s : Slice) (k : Kind) (e : Calls)
  | or (e e' : Calls)
  | addContext (s : Slice) (name : String) (e : Calls)

/-- Recording the calls. -/
instance : NomError Calls where
  fromKind := .fromKind
  append := .append
  or := .or
  addContext := .addContext

/-- Making them. -/
def Calls.replay (E : Type) [NomError E] : Calls → E
  | .fromKind s k => NomError.fromKind s k
  | .append s k e => NomError.append s k (e.replay E)
  | .or e e' => NomError.or (e.replay E) (e'.replay E)
  | .addContext s n e => NomError.addContext s n (e.replay E)

end Ntlm.Spec
