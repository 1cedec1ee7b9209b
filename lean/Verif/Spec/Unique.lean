import Verif.Spec.Client
/-
  Specification: when two authenticate messages say the same on the wire.
-/
namespace Ntlm.Spec

/-- The two messages agree in everything that is sent, the MIC aside.  The exported session key is not sent, and an LM response is
    sent as 24 bytes that do not tell which of the two kinds it was. -/
def sameButMic (m n : Authenticate) : Prop :=
  m.negotiateFlags = n.negotiateFlags ∧ m.version = n.version ∧ m.domain = n.domain ∧ m.user = n.user ∧
    m.workstation = n.workstation ∧ m.ntChallengeResponse = n.ntChallengeResponse ∧
    m.lmChallengeResponse.map lmBytes = n.lmChallengeResponse.map lmBytes ∧
    m.encryptedRandomSessionKey = n.encryptedRandomSessionKey

/-- What the MIC is computed over: the three messages, the last one with zeros for the MIC. -/
def micInput (neg chal auth : List UInt8) (offset : Nat) : List UInt8 := neg ++ chal ++ zeroAt auth offset

end Ntlm.Spec
