import Verif.Spec.Win
/-
  Vocabulary for a Windows client that is used more than once.
-/
namespace Ntlm.Spec.Win

open Ntlm.Win

/-- The operating system keeps its promises in each of the calls. -/
def allCorrect (capacity : Nat) (ops : List Op) : Prop := ∀ op ∈ ops, correct capacity (reply op)

/-- The handle stored by the last of the calls. -/
def lastHandle (ops : List Op) : Option Nat := ops.getLast?.bind fun op => (reply op).handle

/-- The call asks the security package for a new security context: it passes no handle of an earlier one. -/
def asksNew (cfg : Cfg) (c : WinClient) (op : Op) : Prop :=
  ∃ calls, (step cfg c op).2.1 = some calls ∧ calls.context = none

/-- The call goes on with the security context of this handle. -/
def goesOnWith (cfg : Cfg) (c : WinClient) (op : Op) (h : Nat) : Prop :=
  ∃ calls, (step cfg c op).2.1 = some calls ∧ calls.context = some h

end Ntlm.Spec.Win
