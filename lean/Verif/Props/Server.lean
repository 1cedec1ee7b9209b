import Verif.Props.Standard
import Verif.Props.Peer
import Verif.Spec.Server
/-
  C56: what a server that knows the password makes of the responses.
-/
namespace Ntlm.Props

open Spec Client

/-- C56: the LM and NT response fields of every NTLMv1 message are the responses of MS-NLMP 3.3.1 to the challenge accepted, under
    the hashes of the password; level 0 sends an LM response, levels 1 and 2 do not. -/
theorem C56_v1_responses (P : Prims) (cm : CaseMap) (cfg : Cfg) (ver : UInt32) (hver : isV1 ver) (l : Login) (h : List Op)
    (ch : Challenge) (rnd : AuthRand) (b : List UInt8) (hb : Answers P cm cfg ver l h ch rnd b) :
    ∃ (lmHash : Bytes 16) (nt lm sbk : List UInt8),
      isNtlmv1 P ch.negotiateFlags (P.md4 (utf16le l.password)) lmHash ch.serverChallenge rnd.clientChallenge (decide (ver ≠ 0)) nt lm sbk ∧
      (ascii l.password → isLmHash P (lmPassword l.password) lmHash.val) ∧ fieldHolds b 20 nt ∧ fieldHolds b 12 lm := by
  obtain ⟨_, _, c, hc, hf, rfl⟩ := (answers_v1 P cm cfg hver l h ch rnd b).mp hb
  obtain ⟨_, _, _, _, q12, q20, _⟩ := sent_layout _ hf rfl
  have hk := C27_ntlmv1 P ch.negotiateFlags c.ntHash c.lmHash ch.serverChallenge rnd.clientChallenge (ver != 0)
  have e : (ver != 0) = decide (ver ≠ 0) := by by_cases hv : ver = 0 <;> simp [hv]
  rw [e, (created_fields hc).2.2.2.1] at hk
  refine ⟨c.lmHash, _, _, _, hk, ?_, ?_, ?_⟩
  · intro ha
    obtain ⟨lm, w, hlm, _, rfl⟩ := (created_iff P cm l c).mp hc
    obtain ⟨r, hr, hh⟩ := C24_ascii_partial P cm l.password ha
    rw [hlm] at hr
    cases hr
    exact hh
  · rw [← e, ← (created_fields hc).2.2.2.1]
    exact q20
  · rw [← e, ← (created_fields hc).2.2.2.1]
    exact q12

example (P : Prims) (cm : CaseMap) (cfg : Cfg) : ∃ b lmHash nt lm sbk,
    Answers P cm cfg 2 exLogin (exHistory exChallenge) exChallenge exRand b ∧
    isNtlmv1 P exChallenge.negotiateFlags (P.md4 (utf16le exLogin.password)) lmHash exChallenge.serverChallenge
      exRand.clientChallenge true nt lm sbk ∧ fieldHolds b 20 nt ∧ fieldHolds b 12 lm := by
  obtain ⟨b, hb⟩ := exAnswers_v1 P cm cfg 2 (by simp [isV1])
  obtain ⟨lmHash, nt, lm, sbk, h, _, h1, h2⟩ := C56_v1_responses P cm cfg 2 (by simp [isV1]) _ _ _ _ b hb
  exact ⟨b, lmHash, nt, lm, sbk, hb, h, h1, h2⟩

/-- C56: a server that knows the NT hash accepts every NTLMv1 message. -/
theorem C56_v1_accepted (P : Prims) (cm : CaseMap) (cfg : Cfg) (ver : UInt32) (hver : isV1 ver) (l : Login) (h : List Op)
    (ch : Challenge) (rnd : AuthRand) (b : List UInt8) (hb : Answers P cm cfg ver l h ch rnd b) :
    verifiesNtlmv1 P (P.md4 (utf16le l.password)) ch.serverChallenge b := by
  have h19 : flagAt b 60 19 ↔ bit ch.negotiateFlags 19 := by
    rw [C38_v1 P cm cfg ver hver l h ch rnd b hb 19]; simp
  obtain ⟨lmHash, nt, lm, sbk, ⟨_, hk⟩, _, hnt, hlm⟩ := C56_v1_responses P cm cfg ver hver l h ch rnd b hb
  rw [verifiesNtlmv1, h19, hnt.1, hlm.1]
  rcases hk with ⟨hx, ⟨d, hd, hr⟩, rfl⟩ | ⟨hx, hr, _⟩
  · refine .inl ⟨hx, d, ?_, hr⟩
    rw [List.take_left' rnd.clientChallenge.property]
    exact hd
  · exact .inr ⟨hx, hr⟩

/-- With extended session security and without. -/
example (P : Prims) (cm : CaseMap) (cfg : Cfg) (ch : Challenge) (_ : ch = exChallenge ∨ ch = plainChallenge) :
    ∃ b, Answers P cm cfg 2 exLogin (exHistory ch) ch exRand b ∧
      verifiesNtlmv1 P (P.md4 (utf16le exLogin.password)) ch.serverChallenge b := by
  obtain ⟨b, hb⟩ := exAnswers_v1' P cm cfg 2 (by simp [isV1]) ch exRand
  exact ⟨b, hb, C56_v1_accepted P cm cfg 2 (by simp [isV1]) _ _ _ _ b hb⟩

/-- C56: without extended session security the LM response of level 0 is accepted by a server that knows the LM hash; that of levels
    1 and 2 is the NT response once more. -/
theorem C56_v1_lm (P : Prims) (cm : CaseMap) (cfg : Cfg) (ver : UInt32) (hver : isV1 ver) (l : Login) (h : List Op)
    (ch : Challenge) (hx : ¬ bit ch.negotiateFlags 19) (rnd : AuthRand) (b : List UInt8) (hb : Answers P cm cfg ver l h ch rnd b) :
    (ver = 0 → ascii l.password → ∀ lmHash : Bytes 16, isLmHash P (lmPassword l.password) lmHash.val →
      verifiesLmv1 P lmHash ch.serverChallenge b) ∧
    (ver ≠ 0 → fieldBytes b 12 = fieldBytes b 20) := by
  obtain ⟨lmHash, nt, lm, sbk, ⟨_, hk⟩, ha, hnt, hlm⟩ := C56_v1_responses P cm cfg ver hver l h ch rnd b hb
  rcases hk with ⟨hx', _⟩ | ⟨_, hr, hl⟩
  · exact absurd hx' hx
  · constructor
    · intro h0 hasc lmHash' hh
      rcases hl with ⟨h1, _⟩ | ⟨_, h1⟩
      · simp [h0] at h1
      · have e : lmHash = lmHash' := by
          obtain ⟨m, c1, c2, hm, h2, h3, h4⟩ := ha hasc
          obtain ⟨m', c1', c2', hm', h2', h3', h4'⟩ := hh
          obtain rfl : m = m' := Subtype.ext (hm.trans hm'.symm)
          rw [isDes_unique h2 h2', isDes_unique h3 h3'] at h4
          exact Subtype.ext (h4.trans h4'.symm)
        rw [verifiesLmv1, hlm.1, ← e]
        exact h1
    · intro h0
      rcases hl with ⟨_, h1⟩ | ⟨h1, _⟩
      · rw [hnt.1, hlm.1, h1]
      · simp [h0] at h1

example (P : Prims) (cm : CaseMap) (cfg : Cfg) : ∃ b b',
    Answers P cm cfg 0 exLogin (exHistory plainChallenge) plainChallenge exRand b ∧
    Answers P cm cfg 1 exLogin (exHistory plainChallenge) plainChallenge exRand b' ∧
    (∀ lmHash : Bytes 16, isLmHash P (lmPassword exLogin.password) lmHash.val → verifiesLmv1 P lmHash plainChallenge.serverChallenge b) ∧
    fieldBytes b' 12 = fieldBytes b' 20 := by
  have h19 : ¬ bit plainChallenge.negotiateFlags 19 := by simp only [bit]; decide
  obtain ⟨b, hb⟩ := exAnswers_v1' P cm cfg 0 (by simp [isV1]) plainChallenge exRand
  obtain ⟨b', hb'⟩ := exAnswers_v1' P cm cfg 1 (by simp [isV1]) plainChallenge exRand
  exact ⟨b, b', hb, hb', (C56_v1_lm P cm cfg 0 (by simp [isV1]) _ _ _ h19 _ b hb).1 rfl (by simp [ascii, exLogin]),
    (C56_v1_lm P cm cfg 1 (by simp [isV1]) _ _ _ h19 _ b' hb').2 (by decide)⟩

/-- C56: a server that knows the NTLMv2 hash accepts the LM response of every NTLMv2 message. -/
theorem C56_v2_lm_accepted (P : Prims) (cm : CaseMap) (cfg : Cfg) (ver : UInt32) (hver : isV2 ver) (l : Login) (h : List Op)
    (ch : Challenge) (rnd : AuthRand) (b : List UInt8) (hb : Answers P cm cfg ver l h ch rnd b) :
    verifiesLmv2 P (Spec.ntlmv2Hash P cm l) ch.serverChallenge b :=
  ⟨_, rnd.clientChallenge.property, (C29_lmv2_partial P cm cfg ver hver l h ch rnd b hb).1⟩

example (P : Prims) (cm : CaseMap) (cfg : Cfg) : ∃ b, Answers P cm cfg 3 exLogin (exHistory exChallenge) exChallenge exRand b ∧
    verifiesLmv2 P (Spec.ntlmv2Hash P cm exLogin) exChallenge.serverChallenge b := by
  obtain ⟨b, hb⟩ := exAnswers_v2 P cm cfg 3 (by simp [isV2])
  exact ⟨b, hb, C56_v2_lm_accepted P cm cfg 3 (by simp [isV2]) _ _ _ _ b hb⟩

/-- C29: a server that checks the NT response, as MS-NLMP prescribes, accepts an NTLMv2 message only if the 16 bytes it finds where
    the proof should be (constants and the time) are by accident the proof of the rest. -/
theorem C29_server_iff (P : Prims) (cm : CaseMap) (cfg : Cfg) (ver : UInt32) (hver : isV2 ver) (l : Login) (h : List Op)
    (ch : Challenge) (rnd : AuthRand) (b : List UInt8) (hb : Answers P cm cfg ver l h ch rnd b) :
    ∃ t, clientTime ch.targetInfos rnd.clock t ∧
      (verifiesNtlmv2 P (Spec.ntlmv2Hash P cm l) ch.serverChallenge b ↔
        [1, 1, 0, 0, 0, 0, 0, 0] ++ fileTimeBytes t =
          (P.hmacMd5 (Spec.ntlmv2Hash P cm l).val (ch.serverChallenge.val ++ (rnd.clientChallenge.val ++ [0, 0, 0, 0] ++
            avListBytes ch.targetInfos))).val) := by
  obtain ⟨_, _, c, n, t, hc, _, _, ht, _, hf, rfl⟩ := (answers_v2 P cm cfg hver l h ch rnd b).mp hb
  refine ⟨t, ht, ?_⟩
  have h20 : fieldBytes (authenticateBytes (v2Msg P rnd c n ch t)) 20 = ntv2Bytes (v2Blob rnd ch t) :=
    (sent_layout _ hf rfl).2.2.2.2.2.1.1
  have e : ntv2Bytes (v2Blob rnd ch t) = ([1, 1, 0, 0, 0, 0, 0, 0] ++ fileTimeBytes t) ++ (rnd.clientChallenge.val ++ [0, 0, 0, 0] ++
      avListBytes ch.targetInfos) := by
    simp [ntv2Bytes, v2Blob]
  have hl : ([1, 1, 0, 0, 0, 0, 0, 0] ++ fileTimeBytes t).length = 16 := by simp [fileTimeBytes, length_le]
  rw [verifiesNtlmv2, h20, e]
  generalize [1, 1, 0, 0, 0, 0, 0, 0] ++ fileTimeBytes t = p at hl
  constructor
  · rintro ⟨blob, hb⟩
    obtain ⟨h1, h2⟩ := List.append_inj hb (by rw [hl]; exact (P.hmacMd5 _ _).property.symm)
    rw [h2]; exact h1
  · intro h
    exact ⟨_, by rw [← h]⟩

/-- With primitives whose HMAC never starts with 1, no answer is accepted. -/
example (cm : CaseMap) (cfg : Cfg) : ∃ b, Answers toyPrims cm cfg 3 exLogin (exHistory exChallenge) exChallenge exRand b ∧
    ¬ verifiesNtlmv2 toyPrims (Spec.ntlmv2Hash toyPrims cm exLogin) exChallenge.serverChallenge b := by
  obtain ⟨b, hb⟩ := exAnswers_v2 toyPrims cm cfg 3 (by simp [isV2])
  obtain ⟨t, _, h⟩ := C29_server_iff toyPrims cm cfg 3 (by simp [isV2]) _ _ _ _ b hb
  refine ⟨b, hb, fun hv => ?_⟩
  have := congrArg List.head? (h.mp hv)
  simp [toyPrims] at this

/-- C29: with the standard primitives there is a message that such a server refuses although the password is right. -/
theorem C29_server_refuses (cm : CaseMap) (cfg : Cfg) : ∃ (l : Login) (h : List Op) (ch : Challenge) (rnd : AuthRand) (b : List UInt8),
    Answers Prims.std cm cfg 3 l h ch rnd b ∧
      ¬ verifiesNtlmv2 Prims.std (Spec.ntlmv2Hash Prims.std cm l) ch.serverChallenge b := by
  have hv3 : isV2 3 := by simp [isV2]
  obtain ⟨b, hb⟩ := exAnswers_v2 Prims.std cm cfg 3 hv3
  refine ⟨exLogin, _, exChallenge, exRand, b, hb, ?_⟩
  obtain ⟨t, ht, hiff⟩ := C29_server_iff Prims.std cm cfg 3 hv3 _ _ _ _ _ hb
  obtain rfl : t = ⟨5, 7⟩ := timeUsed_unique (timeUsed_client.mpr ht) (.inl rfl)
  have hu : exLogin.user.flatMap cm.up = "USER".toList := by
    have := upper_ascii cm (s := exLogin.user) (by simp [ascii, exLogin])
    simpa [CaseMap.upper] using this.trans (by decide)
  rw [hiff, Spec.ntlmv2Hash, hu]
  decide +kernel

/-- C57: after an NTLMv1 exchange with extended session security (flag 19) and key exchange, a server that knows the NT hash arrives
    at the session key the client holds, the random one, and at no other. -/
theorem C57_v1_agree (P : Prims) (cm : CaseMap) (cfg : Cfg) (ver : UInt32) (hver : isV1 ver) (l : Login) (c : Client)
    (hc : created P cm l c) (h : List Op) (ch : Challenge) (hs : bit ch.negotiateFlags 19) (hx : keyExchange ch.negotiateFlags)
    (rnd : AuthRand) (b : List UInt8) (hf : firstAnswer P cfg ver c h ch rnd b) (lmHash : Bytes 16) :
    exportsKey (run P cfg ver c h) rnd.exportedKey ∧
      ∀ k, serverSessionKeyV1 P ch.negotiateFlags (P.md4 (utf16le l.password)) lmHash ch.serverChallenge b k ↔ k = rnd.exportedKey.val := by
  have hk : ∀ kek : Bytes 16, isKxkey P ch.negotiateFlags (P.md4 (P.md4 (utf16le l.password)).val) (fieldBytes b 12) lmHash
      ch.serverChallenge kek.val → keyExchangeKey P cm ver l ch rnd b kek := fun kek hk => .inl ⟨hver, Subtype.ext (hk.1 hs)⟩
  have hex : isKxkey P ch.negotiateFlags (P.md4 (P.md4 (utf16le l.password)).val) (fieldBytes b 12) lmHash
      ch.serverChallenge (P.hmacMd5 (P.md4 (P.md4 (utf16le l.password)).val).val
        (ch.serverChallenge.val ++ (fieldBytes b 12).take 8)).val :=
    ⟨fun _ => rfl, fun h => absurd hs h, fun h => absurd hs h, fun h => absurd hs h⟩
  refine ⟨(C31_client_partial P cm cfg ver l c hc h ch hx rnd b hf _ (hk _ hex)).1, fun k => ⟨?_, ?_⟩⟩
  · rintro ⟨kek, h1, h2⟩
    exact ((C31_client_partial P cm cfg ver l c hc h ch hx rnd b hf kek (hk kek h1)).2 k).mp h2
  · rintro rfl
    exact ⟨_, hex, ((C31_client_partial P cm cfg ver l c hc h ch hx rnd b hf _ (hk _ hex)).2 _).mpr rfl⟩

/-- C31: after an NTLMv2 exchange a server that takes the proof from the message, as MS-NLMP prescribes, arrives at another key, even
    if a key exchange was negotiated. -/
theorem C31_v2_refuted (cm : CaseMap) (cfg : Cfg) : ∃ (l : Login) (c : Client) (h : List Op) (ch : Challenge) (rnd : AuthRand)
    (b : List UInt8), created Prims.std cm l c ∧ firstAnswer Prims.std cfg 3 c h ch rnd b ∧ keyExchange ch.negotiateFlags ∧
      exportsKey (run Prims.std cfg 3 c h) rnd.exportedKey ∧
      ¬ serverSessionKeyV2 Prims.std (Spec.ntlmv2Hash Prims.std cm l) b rnd.exportedKey.val := by
  have hv3 : isV2 3 := by simp [isV2]
  obtain ⟨b, hb⟩ := exAnswers_v2 Prims.std cm cfg 3 hv3
  obtain ⟨c, hc, hf⟩ := exFirstAnswer Prims.std cm cfg 3 (by decide) exChallenge exRand b hb [] (by simp)
  have hx : keyExchange exChallenge.negotiateFlags := ⟨by simp only [bit]; decide, .inl (by simp only [bit]; decide)⟩
  obtain ⟨kek, h1, _, h3, _⟩ := C31_field Prims.std cm cfg 3 _ _ _ _ _ hb
  have h52 := (h3 hx).1
  refine ⟨exLogin, c, _, exChallenge, exRand, b, hc, hf, hx, (C31_client_partial Prims.std cm cfg 3 _ c hc _ _ hx _ _ hf _ h1).1, ?_⟩
  have hu : exLogin.user.flatMap cm.up = "USER".toList := by
    have := upper_ascii cm (s := exLogin.user) (by simp [ascii, exLogin])
    simpa [CaseMap.upper] using this.trans (by decide)
  obtain ⟨t, ht, h20, _⟩ := C42_blob Prims.std cm cfg 3 hv3 _ _ _ _ _ hb
  obtain rfl : t = ⟨5, 7⟩ := timeUsed_unique (timeUsed_client.mpr ht) (.inl rfl)
  rcases h1 with ⟨hv1, _⟩ | ⟨_, t, ht', rfl⟩
  · exact absurd hv1 (not_isV1_of_isV2 hv3)
  · obtain rfl : t = ⟨5, 7⟩ := timeUsed_unique (timeUsed_client.mpr ht') (.inl rfl)
    rw [serverSessionKeyV2, h20]
    rintro (⟨_, e, he, hk⟩ | ⟨hn, _⟩)
    · rw [h52, Spec.ntlmv2Hash, hu] at he
      rw [rc4k, he, Spec.ntlmv2Hash, hu] at hk
      revert hk
      decide +kernel
    · exact hn (key_exch_set Prims.std cm cfg 3 _ _ _ _ _ hb)

/-- The hypotheses of C57 are met. -/
example (P : Prims) (cm : CaseMap) (cfg : Cfg) : ∃ c b, created P cm exLogin c ∧
    firstAnswer P cfg 2 c (exHistory exChallenge ++ [.sendAuthenticate exRand []]) exChallenge exRand b ∧
    keyExchange exChallenge.negotiateFlags ∧ bit exChallenge.negotiateFlags 19 := by
  obtain ⟨b, hb⟩ := exAnswers_v1 P cm cfg 2 (by simp [isV1])
  obtain ⟨c, hc, hf⟩ := exFirstAnswer P cm cfg 2 (by decide) exChallenge exRand b hb [] (by simp)
  exact ⟨c, b, hc, hf, ⟨by simp only [bit]; decide, .inl (by simp only [bit]; decide)⟩, by simp only [bit]; decide⟩

/-- The hypotheses are met for every level. -/
example (P : Prims) (cm : CaseMap) (cfg : Cfg) :
    (∃ b, Answers P cm cfg 0 exLogin (exHistory plainChallenge) plainChallenge exRand b) ∧ ascii exLogin.password ∧
    (∃ b, Answers P cm cfg 2 exLogin (exHistory exChallenge) exChallenge exRand b) ∧
    (∃ b, Answers P cm cfg 3 exLogin (exHistory exChallenge) exChallenge exRand b) ∧
    ¬ bit plainChallenge.negotiateFlags 19 ∧ bit exChallenge.negotiateFlags 19 :=
  ⟨exAnswers_v1' P cm cfg 0 (by simp [isV1]) plainChallenge exRand, by simp [ascii, exLogin],
    exAnswers_v1 P cm cfg 2 (by simp [isV1]), exAnswers_v2 P cm cfg 3 (by simp [isV2]), by simp only [bit]; decide,
    by simp only [bit]; decide⟩

end Ntlm.Props
