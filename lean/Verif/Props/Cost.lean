import Verif.Lemmas.Cost
import Verif.Props.Log
import Verif.Props.Decode
/-
  C95: how long decoding takes.
-/
namespace Ntlm.Props

open Spec

/-- The decoders whose work is counted return what the decoders of the model return. -/
theorem C95_same_result (cfg : Cfg) (i : List UInt8) :
    (Cost.negotiate cfg i).2 = (Wire.deserialize cfg : Parser Negotiate) i ∧
    (Cost.challenge cfg i).2 = (Wire.deserialize cfg : Parser Challenge) i ∧
    (Cost.authenticate cfg i).2 = (Wire.deserialize cfg : Parser Authenticate) i ∧
    (Cost.messageSignature i).2 = (Wire.deserialize cfg : Parser MessageSignature) i ∧
    (Cost.avPair cfg i).2 = (Wire.deserialize cfg : Parser AvPair) i ∧
    (Cost.many0 (Cost.avPair cfg) i).2 = (Wire.deserialize cfg : Parser (List AvPair)) i ∧
    (Cost.ntChallenge cfg i).2 = (Wire.deserialize cfg : Parser NtChallenge) i ∧
    (Cost.unicodeString i).2 = (Wire.deserialize cfg : Parser UnicodeString) i ∧
    (Cost.oemString i).2 = (Wire.deserialize cfg : Parser OEMString) i :=
  ⟨Cost.same_negotiate cfg i, Cost.same_challenge cfg i, Cost.same_authenticate cfg i, Cost.same_messageSignature cfg i,
   Cost.same_avPair cfg i, Cost.same_many0 (Cost.same_avPair cfg) i, Cost.same_ntChallenge cfg i,
   Cost.same_unicodeString cfg i, Cost.same_oemString cfg i⟩

/-- A message that is decoded, one that is refused and one that aborts. -/
example (cfg : Cfg) : (Cost.negotiate cfg (negotiateBytes exNegotiate)).2 = .ok (exNegotiate, []) ∧
    (Cost.negotiate cfg [1, 2, 3]).2 = .error .error ∧
    (Cost.negotiate ⟨true, false, .unix⟩ badNegotiate).2 = .error (.panic .sliceIndex) := by
  rw [(C95_same_result cfg _).1, (C95_same_result cfg _).1]
  refine ⟨(C01_negotiate_roundtrip cfg exNegotiate _ ((serialize_negotiate cfg exNegotiate _).mpr ⟨exNegotiate_fits, rfl⟩)).mpr
    exNegotiate_ok, rfl, by rfl⟩

/-- Decoding a NEGOTIATE message takes at most 81 steps and 4 for each byte, and never more than 262221. -/
theorem C95_negotiate (cfg : Cfg) (i : List UInt8) :
    (Cost.negotiate cfg i).1 ≤ 81 + 4 * i.length ∧ (Cost.negotiate cfg i).1 ≤ 262221 := by
  have := Cost.work_negotiate cfg i
  omega

/-- Decoding a CHALLENGE message takes at most 126 steps and 14 for each byte, and never more than 917616. -/
theorem C95_challenge (cfg : Cfg) (i : List UInt8) :
    (Cost.challenge cfg i).1 ≤ 126 + 14 * i.length ∧ (Cost.challenge cfg i).1 ≤ 917616 := by
  have := Cost.work_challenge cfg i
  omega

/-- Decoding an AUTHENTICATE message takes at most 270 steps and 22 for each byte, and never more than 1442040. -/
theorem C95_authenticate (cfg : Cfg) (i : List UInt8) :
    (Cost.authenticate cfg i).1 ≤ 270 + 22 * i.length ∧ (Cost.authenticate cfg i).1 ≤ 1442040 := by
  have := Cost.work_authenticate cfg i
  omega

/-- The parts of a message: a signature takes a bounded number of steps; a text, an attribute-value pair, a list of them and
    an NT response take a number linear in the bytes given. -/
theorem C95_parts (cfg : Cfg) (i : List UInt8) :
    (Cost.messageSignature i).1 ≤ 21 ∧ (Cost.oemString i).1 ≤ 3 + 2 * i.length ∧
    (Cost.unicodeString i).1 ≤ 7 + 4 * i.length ∧ (Cost.avPair cfg i).1 ≤ 23 + 4 * i.length ∧
    (Cost.many0 (Cost.avPair cfg) i).1 ≤ 24 + 10 * i.length ∧ (Cost.ntChallenge cfg i).1 ≤ 66 + 10 * i.length :=
  ⟨Cost.const_messageSignature i, Cost.work_oemString i, Cost.work_unicodeString i, Cost.work_of_lin (Cost.lin_avPair cfg) i,
   Cost.work_avPairs cfg i, Cost.work_ntChallenge cfg i⟩

/-- What is counted is not less than what is built: every attribute-value pair and every character of the target name of a
    decoded challenge is at least one step. -/
theorem C95_counted (cfg : Cfg) (i : List UInt8) (m : Challenge) (r : List UInt8)
    (h : (Wire.deserialize cfg : Parser Challenge) i = .ok (m, r)) :
    ((m.targetName.map (·.s.length)).getD 0) + m.targetInfos.length ≤ (Cost.challenge cfg i).1 := by
  rw [← Cost.same_challenge cfg i] at h
  generalize hx : Cost.challenge cfg i = x at h
  obtain ⟨n, y⟩ := x
  simp only at h
  subst h
  exact Cost.length_challenge hx

/-- The challenge with a name of one character and one pair, 57 bytes long, is decoded in 119 steps. -/
example : (Cost.challenge ⟨true, false, .unix⟩ exLogChallenge).1 = 119 ∧ exLogChallenge.length = 57 ∧
    ∃ m, (Cost.challenge ⟨true, false, .unix⟩ exLogChallenge).2 = .ok (m, []) ∧
      (m.targetName.map (·.s.length)).getD 0 = 1 ∧ m.targetInfos.length = 1 := by
  refine ⟨by decide +kernel, by decide +kernel, ⟨some ⟨['A']⟩, ⟨0x00030001⟩, ⟨List.replicate 8 0, rfl⟩, [.eol], none⟩, ?_, rfl, rfl⟩
  rfl

end Ntlm.Props
