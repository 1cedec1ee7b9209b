import Verif.Model.Level
import Verif.Spec.Client
/-
  Specification vocabulary for level types that change their answer.
-/
namespace Ntlm.Spec

open Client (Op VersionAnswers VersionOutcomes)

/-- A level type that always gives the answer `ver`. -/
def fixedAt (ver : UInt32) : VersionAnswers := ⟨ver, ver⟩

/-- The protocol level a call runs at.  `send_negociate`: the level answered.  `send_authenticate`: if the first answer is an
    NTLMv2 level (or none), that; otherwise 0 if the second answer is 0 and 1 if it is anything else. -/
def levelUsed (v : VersionAnswers) : Op → UInt32
  | .sendAuthenticate _ _ => if v.first.toNat ≤ 2 then (if v.second = 0 then 0 else 1) else v.first
  | _ => v.first

/-- The result of a call made after a history of calls. -/
def resultV (P : Prims) (cfg : Cfg) (c : Client) (h : List (VersionAnswers × Op)) (v : VersionAnswers) (op : Op) :
    Except Panic (List UInt8) :=
  (Client.stepV P cfg v (Client.runV P cfg c h) op).2

/-- The call is a `send_negociate` at one of the levels 0 to 5. -/
def isNegotiateV (x : VersionAnswers × Op) : Prop := isNegotiate x.2 ∧ x.1.first.toNat ≤ 5

/-- The latest `send_negociate` at one of the levels 0 to 5 was at level `ver`, and no challenge has been received since. -/
def pendingV (h : List (VersionAnswers × Op)) (ver : UInt32) : Prop :=
  ∃ before v junk after, h = before ++ (v, .sendNegociate junk) :: after ∧ v.first = ver ∧ ver.toNat ≤ 5 ∧
    ∀ x ∈ after, ¬ isNegotiateV x ∧ ¬ isReceive x.2

/-- The latest `send_negociate` at one of the levels 0 to 5 was at level `ver`, and `ch` is the first challenge received after
    it. -/
def acceptedV (h : List (VersionAnswers × Op)) (ver : UInt32) (ch : Challenge) : Prop :=
  ∃ before v junk between w after,
    h = before ++ (v, .sendNegociate junk) :: (between ++ (w, .recvChallenge ch) :: after) ∧ v.first = ver ∧ ver.toNat ≤ 5 ∧
      (∀ x ∈ between, ¬ isNegotiateV x ∧ ¬ isReceive x.2) ∧ ∀ x ∈ after, ¬ isNegotiateV x

/-- The two calls of an exchange: negotiate at level `ver` and receive `ch`. -/
def exchangeV (ver : UInt32) (ch : Challenge) : List (VersionAnswers × Op) :=
  [(fixedAt ver, .sendNegociate []), (fixedAt ver, .recvChallenge ch)]

/-- The answers given during a call, if none of the questions it asks ends in a panic: `send_negociate` asks once, `recv_challenge`
    not at all, `send_authenticate` once if the answer is an NTLMv2 level or none, and twice if it is an NTLMv1 level. -/
def answered (v : VersionOutcomes) : Op → Option VersionAnswers
  | .recvChallenge _ => some ⟨0, 0⟩
  | .sendNegociate _ => v.first.map fun a => ⟨a, 0⟩
  | .sendAuthenticate _ _ => v.first.bind fun a => if a.toNat ≤ 2 then v.second.map fun b => ⟨a, b⟩ else some ⟨a, 0⟩

/-- A history without the calls in which a question ends in a panic. -/
def withoutPanics (h : List (VersionOutcomes × Op)) : List (VersionAnswers × Op) :=
  h.filterMap fun x => (answered x.1 x.2).map fun v => (v, x.2)

/-- The result of a call made after a history of calls; `none` if it ends in a panic of the level type. -/
def resultO (P : Prims) (cfg : Cfg) (c : Client) (h : List (VersionOutcomes × Op)) (v : VersionOutcomes) (op : Op) :
    Option (Except Panic (List UInt8)) :=
  (Client.stepO P cfg v (Client.runO P cfg c h) op).2

end Ntlm.Spec
