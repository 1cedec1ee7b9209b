import Verif.Model.Win
import Verif.Spec.Layout
/-
  Vocabulary for the Windows client: what the operating system's answers mean.
-/
namespace Ntlm.Spec.Win

open Ntlm.Win

/-- A status code with the severity bit set is a failure. -/
def fails (status : UInt32) : Prop := 0x80000000 ≤ status.toNat

/-- CONTINUE_NEEDED, COMPLETE_AND_CONTINUE: the peer must answer. -/
def continues (status : UInt32) : Prop := status.toNat = 0x90312 ∨ status.toNat = 0x90314

/-- COMPLETE_NEEDED, COMPLETE_AND_CONTINUE: the token must be completed before it is sent. -/
def completes (status : UInt32) : Prop := status.toNat = 0x90313 ∨ status.toNat = 0x90314

/-- The operating system's answer to a call. -/
def reply : Op → Reply
  | .negotiate r => r
  | .challenge _ r => r

/-- The token given to a call. -/
def token : Op → Option (List UInt8)
  | .negotiate _ => none
  | .challenge m _ => some m

/-- The operating system keeps its promises: it stores a handle, writes at most as many bytes as it was offered and says how
    many it wrote. -/
def correct (capacity : Nat) (r : Reply) : Prop :=
  r.handle.isSome ∧ r.output.length ≤ capacity ∧ r.cbBuffer.toNat = r.output.length

/-- The client `WinClient::new` returns, with an output buffer of the given capacity. -/
def created (target : Str) (capacity : Nat) (c : WinClient) : Prop :=
  MAX_MESSAGE_SIZE ≤ capacity ∧ ∃ creds, WinClient.new target creds capacity = some c

/-- The handle most recently stored by the operating system. -/
def latestHandle : List Op → Option Nat
  | [] => none
  | op :: ops => (latestHandle ops).or (reply op).handle

end Ntlm.Spec.Win
