import Verif.Spec.Client
/-
  Specification for C90: what MS-NLMP 3.1.5.1.2 asks of an NTLMv2 client beyond the responses themselves, read from the message sent.
-/
namespace Ntlm.Spec

/-- The attribute pairs in the NT response field of an authenticate message: what follows the 28 bytes of constants, time, nonce and
    reserved bytes. -/
def blobPairs (b : List UInt8) (infos : List AvPair) : Prop :=
  28 ≤ (fieldBytes b 20).length ∧ (fieldBytes b 20).drop 28 = avListBytes infos ∧ ∀ p ∈ infos, avPairFits p

/-- A pair occurs there. -/
def inBlob (b : List UInt8) (p : AvPair) : Prop := ∃ infos, blobPairs b infos ∧ p ∈ infos

/-- The message announces its MIC (bit 2 of the flags pair): servers check it only then. -/
def announcesMic (b : List UInt8) : Prop := ∃ f : MsvAvFlags, f.micPresent = true ∧ inBlob b (.flags f)

/-- The message names the service the client was created for. -/
def namesTarget (b : List UInt8) (target : Str) : Prop := inBlob b (.targetName target)

/-- The message carries channel bindings. -/
def bindsChannel (b : List UInt8) : Prop := ∃ x, inBlob b (.channelBindings x)

/-- The LM response is left out: 24 zero bytes. -/
def noLmResponse (b : List UInt8) : Prop := fieldBytes b 12 = List.replicate 24 0

end Ntlm.Spec
