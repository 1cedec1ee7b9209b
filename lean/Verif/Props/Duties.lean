import Verif.Props.Session
import Verif.Lemmas.Unique
import Verif.Spec.Duties
/-
  C90: the duties of an NTLMv2 client besides the responses.
-/
namespace Ntlm.Props
open Spec Client

/-- C90: the pairs in an NTLMv2 answer are those of the challenge, no more and no less. -/
theorem C90_pairs (P : Prims) (cm : CaseMap) (cfg : Cfg) (ver : UInt32) (hver : isV2 ver) (l : Login) (h : List Op)
    (ch : Challenge) (rnd : AuthRand) (b : List UInt8) (hb : Answers P cm cfg ver l h ch rnd b) (infos : List AvPair) :
    blobPairs b infos ↔ infos = ch.targetInfos := by
  have hfit : ∀ p ∈ ch.targetInfos, avPairFits p := by
    obtain ⟨_, _, c, n, t, _, _, _, _, hf, _⟩ := (answers_v2 P cm cfg hver l h ch rnd b).mp hb
    exact hf.2.1
  obtain ⟨t, _, hblob, _⟩ := C42_blob P cm cfg ver hver l h ch rnd b hb
  have hlen : ([1, 1, 0, 0, 0, 0, 0, 0] ++ fileTimeBytes t ++ rnd.clientChallenge.val ++ [0, 0, 0, 0] : List UInt8).length = 28 := by
    simp [fileTimeBytes, length_le, rnd.clientChallenge.property]
  have hd : (fieldBytes b 20).drop 28 = avListBytes ch.targetInfos := by
    rw [hblob, ← hlen, List.drop_left]
  constructor
  · rintro ⟨_, he, hf⟩
    exact avListBytes_inj hf hfit (he.symm.trans hd)
  · rintro rfl
    refine ⟨?_, hd, hfit⟩
    rw [hblob, List.length_append, hlen]
    omega

theorem inBlob_iff (P : Prims) (cm : CaseMap) (cfg : Cfg) (ver : UInt32) (hver : isV2 ver) (l : Login) (h : List Op)
    (ch : Challenge) (rnd : AuthRand) (b : List UInt8) (hb : Answers P cm cfg ver l h ch rnd b) (p : AvPair) :
    inBlob b p ↔ p ∈ ch.targetInfos := by
  constructor
  · rintro ⟨infos, h1, h2⟩
    rw [(C90_pairs P cm cfg ver hver l h ch rnd b hb infos).mp h1] at h2
    exact h2
  · intro hp
    exact ⟨_, (C90_pairs P cm cfg ver hver l h ch rnd b hb _).mpr rfl, hp⟩

example (P : Prims) (cm : CaseMap) (cfg : Cfg) : ∃ b, Answers P cm cfg 3 exLogin (exHistory exChallenge) exChallenge exRand b ∧
    blobPairs b [.nbDomainName "DOM".toList, .timestamp ⟨5, 7⟩, .eol] := by
  obtain ⟨b, hb⟩ := exAnswers_v2 P cm cfg 3 (by simp [isV2])
  exact ⟨b, hb, (C90_pairs P cm cfg 3 (by simp [isV2]) _ _ _ _ b hb _).mpr rfl⟩

/-- C90, exactly: the MIC is announced, the service is named and the channel is bound only if the server's own list says so; the LM
    response is left out only if nonce and response happen to be zero. -/
theorem C90_exact_partial (P : Prims) (cm : CaseMap) (cfg : Cfg) (ver : UInt32) (hver : isV2 ver) (l : Login) (h : List Op)
    (ch : Challenge) (rnd : AuthRand) (b : List UInt8) (hb : Answers P cm cfg ver l h ch rnd b) :
    (announcesMic b ↔ ∃ f : MsvAvFlags, f.micPresent = true ∧ .flags f ∈ ch.targetInfos) ∧
    (namesTarget b l.target ↔ .targetName l.target ∈ ch.targetInfos) ∧
    (bindsChannel b ↔ ∃ x, .channelBindings x ∈ ch.targetInfos) ∧
    (noLmResponse b ↔ rnd.clientChallenge.val = List.replicate 8 0 ∧
      (P.hmacMd5 (Spec.ntlmv2Hash P cm l).val (ch.serverChallenge.val ++ rnd.clientChallenge.val)).val = List.replicate 16 0) := by
  have hi := inBlob_iff P cm cfg ver hver l h ch rnd b hb
  refine ⟨?_, hi _, ?_, ?_⟩
  · simp only [announcesMic, hi]
  · simp only [bindsChannel, hi]
  · have hlm := (C29_lmv2_partial P cm cfg ver hver l h ch rnd b hb).1
    simp only [noLmResponse, hlm]
    have e : (List.replicate 24 0 : List UInt8) = List.replicate 16 0 ++ List.replicate 8 0 := rfl
    rw [e]
    constructor
    · intro hh
      have := List.append_inj hh (by
        rw [List.length_replicate]
        exact (P.hmacMd5 (Spec.ntlmv2Hash P cm l).val (ch.serverChallenge.val ++ rnd.clientChallenge.val)).property)
      exact ⟨this.2, this.1⟩
    · rintro ⟨h1, h2⟩
      rw [h1, ← h1, h2, h1]

example (P : Prims) (cm : CaseMap) (cfg : Cfg) : ∃ b, Answers P cm cfg 3 exLogin (exHistory exChallenge) exChallenge exRand b ∧
    inBlob b (.timestamp ⟨5, 7⟩) ∧ ¬ inBlob b (.targetName exLogin.target) := by
  obtain ⟨b, hb⟩ := exAnswers_v2 P cm cfg 3 (by simp [isV2])
  refine ⟨b, hb, ?_, ?_⟩ <;> rw [inBlob_iff P cm cfg 3 (by simp [isV2]) _ _ _ _ b hb] <;> simp [exChallenge]

/-- C90 is false: to a challenge with a time stamp, which asks for all of these, a client answers with an unannounced MIC, without
    the service name, without channel bindings and with an LM response. -/
theorem C90_refuted (P : Prims) (cm : CaseMap) (cfg : Cfg) : ∃ (l : Login) (h : List Op) (ch : Challenge) (rnd : AuthRand) (b : List UInt8),
    Answers P cm cfg 3 l h ch rnd b ∧ (∃ t, .timestamp t ∈ ch.targetInfos) ∧
      ¬ announcesMic b ∧ ¬ namesTarget b l.target ∧ ¬ bindsChannel b ∧ ¬ noLmResponse b := by
  obtain ⟨b, hb⟩ := exAnswers_v2 P cm cfg 3 (by simp [isV2])
  obtain ⟨h1, h2, h3, h4⟩ := C90_exact_partial P cm cfg 3 (by simp [isV2]) _ _ _ _ b hb
  refine ⟨_, _, _, _, b, hb, ⟨⟨5, 7⟩, by simp [exChallenge]⟩, ?_, ?_, ?_, ?_⟩
  · rw [h1]; simp [exChallenge]
  · rw [h2]; simp [exChallenge]
  · rw [h3]; simp [exChallenge]
  · rw [h4]; simp [exRand, List.replicate]

end Ntlm.Props
