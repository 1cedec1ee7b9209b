import Verif.Props.Handshake
import Verif.Lemmas.Records
/-
  C29 to C32, C53: keys, proofs and integrity codes of the messages sent.
-/
namespace Ntlm.Props

open Spec Client

/-! ### C53 -/

/-- A challenge with key exchange but without extended session security, LM_KEY or REQUEST_NON_NT_SESSION_KEY. -/
def plainChallenge : Challenge := { exChallenge with negotiateFlags := ⟨0x40000211⟩ }

/-- A challenge without key exchange. -/
def quietChallenge : Challenge := { exChallenge with negotiateFlags := ⟨0x00080201⟩ }

theorem exAnswers_v1' (P : Prims) (cm : CaseMap) (cfg : Cfg) (ver : UInt32) (hver : isV1 ver) (ch : Challenge) (rnd : AuthRand) :
    ∃ b, Answers P cm cfg ver exLogin (exHistory ch) ch rnd b := by
  obtain ⟨c, hc⟩ := exLogin_created P cm
  have hw := exLogin_workstation hc
  obtain ⟨_, _, hd, hu⟩ := created_state hc
  have hver5 : ver.toNat ≤ 5 := by simp only [isV1] at hver; omega
  refine ⟨_, (answers_v1 P cm cfg hver _ _ _ _ _).mpr ⟨exHistory_accepted _, exLogin_negotiable ver hver5, c, hc, ?_, rfl⟩⟩
  refine ⟨?_, ?_, ?_, ?_⟩
  · intro x hx; simp [v1Msg] at hx; subst hx; trivial
  all_goals
    intro x hx
    simp [v1Msg, hd, hu, hw, exLogin] at hx
    subst hx
    decide

/-- A first answer exists: the usual exchange, with any of the six levels. -/
theorem exFirstAnswer (P : Prims) (cm : CaseMap) (cfg : Cfg) (ver : UInt32) (hver : ver.toNat ≤ 5) (ch : Challenge)
    (rnd : AuthRand) (b : List UInt8) (hb : Answers P cm cfg ver exLogin (exHistory ch) ch rnd b) (after : List Op)
    (ha : ∀ op ∈ after, ¬ isNegotiate op) :
    ∃ c, created P cm exLogin c ∧ firstAnswer P cfg ver c (exHistory ch ++ .sendAuthenticate rnd [] :: after) ch rnd b := by
  obtain ⟨_, c, junk, hc, hr⟩ := hb
  obtain ⟨n, h1, h2⟩ := (negotiable_iff P cm exLogin c hc ver).mp (exLogin_negotiable ver hver)
  refine ⟨c, hc, exHistory ch, [], after, rfl, ha, ?_, ?_⟩
  · exact unanswered_recv P cfg hver c (created_state hc).1 n h1 h2 [.sendNegociate []] ch ⟨[], [], [], rfl, by simp⟩
  · have hr' : (sendAuthenticate P cfg ver rnd junk (run P cfg ver c (exHistory ch))).2 = .ok b := hr
    rw [sendAuthenticate_result] at hr'
    exact (sendAuthenticate_result P cfg ver rnd [] _ b).mpr hr'

theorem exFirst_v1 (P : Prims) (cm : CaseMap) (cfg : Cfg) (ver : UInt32) (hver : isV1 ver) (ch : Challenge) (rnd : AuthRand) :
    ∃ c b, created P cm exLogin c ∧ firstAnswer P cfg ver c (exHistory ch ++ [.sendAuthenticate rnd []]) ch rnd b := by
  obtain ⟨b, hb⟩ := exAnswers_v1' P cm cfg ver hver ch rnd
  obtain ⟨c, hc, hf⟩ := exFirstAnswer P cm cfg ver (by simp only [isV1] at hver; omega) ch rnd b hb [] (by simp)
  exact ⟨c, b, hc, hf⟩

theorem exFirst_v2 (P : Prims) (cm : CaseMap) (cfg : Cfg) (ver : UInt32) (hver : isV2 ver) :
    ∃ c b, created P cm exLogin c ∧
      firstAnswer P cfg ver c (exHistory exChallenge ++ [.sendAuthenticate exRand []]) exChallenge exRand b := by
  obtain ⟨b, hb⟩ := exAnswers_v2 P cm cfg ver hver
  obtain ⟨c, hc, hf⟩ := exFirstAnswer P cm cfg ver hver.2 exChallenge exRand b hb [] (by simp)
  exact ⟨c, b, hc, hf⟩

theorem exChallenge_exchange : keyExchange exChallenge.negotiateFlags :=
  ⟨by simp only [bit]; decide, .inl (by simp only [bit]; decide)⟩

/-- C53: the message a client holds is the first one it returned in the current exchange. -/
theorem C53_first_recorded (P : Prims) (cm : CaseMap) (cfg : Cfg) (ver : UInt32) (l : Login) (c : Client)
    (hc : created P cm l c) (h : List Op) (ch : Challenge) (a : Authenticate) :
    (∀ n, (run P cfg ver c h).state = .authenticateSent n ch a →
      ∃ rnd b, firstAnswer P cfg ver c h ch rnd b ∧ Wire.serialize cfg a = .ok b) ∧
    (∀ rnd b, firstAnswer P cfg ver c h ch rnd b →
      ∃ n a', (run P cfg ver c h).state = .authenticateSent n ch a' ∧ Wire.serialize cfg a' = .ok b) := by
  have hs := (created_state hc).1
  constructor
  · intro n hst
    have hneg : negotiable ver l.domain := by
      apply Classical.byContradiction
      intro hn
      have := no_message_after P cm cfg ver l c hc h (fun h => hn h.1)
      rw [hst] at this; simp [sessionOf] at this
    obtain ⟨n', h1, h2⟩ := (negotiable_iff P cm l c hc ver).mp hneg
    have := run_record P cfg hneg.1 c hs n' h1 h2 h
    rw [hst] at this
    obtain ⟨_, rnd, b, h3, rfl, h4, _⟩ := this
    exact ⟨rnd, _, h3, (serialize_authenticate cfg a _).mpr ⟨h4, rfl⟩⟩
  · intro rnd b hf
    obtain ⟨n, a', _, _, h3, rfl, h5, _⟩ := firstAnswer_state P cm cfg ver l c hc h ch rnd b hf
    exact ⟨n, a', h3, (serialize_authenticate cfg a' _).mpr ⟨h5, rfl⟩⟩

example (P : Prims) (cm : CaseMap) (cfg : Cfg) : ∃ c b n a, created P cm exLogin c ∧
    firstAnswer P cfg 3 c (exHistory exChallenge ++ [.sendAuthenticate exRand []]) exChallenge exRand b ∧
    (run P cfg 3 c (exHistory exChallenge ++ [.sendAuthenticate exRand []])).state = .authenticateSent n exChallenge a ∧
    Wire.serialize cfg a = .ok b := by
  obtain ⟨c, b, hc, hf⟩ := exFirst_v2 P cm cfg 3 (by simp [isV2])
  obtain ⟨n, a, h⟩ := (C53_first_recorded P cm cfg 3 exLogin c hc _ exChallenge exAuthenticate).2 exRand b hf
  exact ⟨c, b, n, a, hc, hf, h⟩

/-- C53: the record is not in general the latest message: an NTLMv2 client that answers the same challenge twice, with different
    nonces, returns a second message different from the one it holds. -/
theorem C53_latest_refuted (P : Prims) (cm : CaseMap) (cfg : Cfg) :
    ∃ (c : Client) (h : List Op) (rnd : AuthRand) (b : List UInt8) (n : Negotiate) (ch : Challenge) (a : Authenticate),
      created P cm exLogin c ∧ resultOf P cfg 3 c h (.sendAuthenticate rnd []) = .ok b ∧
      (run P cfg 3 c (h ++ [.sendAuthenticate rnd []])).state = .authenticateSent n ch a ∧
      Wire.serialize cfg a ≠ .ok b := by
  have hv3 : isV2 3 := by simp [isV2]
  obtain ⟨b, hb⟩ := exAnswers_v2 P cm cfg 3 hv3
  let rnd' : AuthRand := { exRand with clientChallenge := ⟨[9, 9, 9, 9, 9, 9, 9, 9], rfl⟩ }
  have hnn : ∀ r j, ¬ isNegotiate (.sendAuthenticate r j) := by rintro r j ⟨_, h⟩; cases h
  obtain ⟨c, hc, hf⟩ := exFirstAnswer P cm cfg 3 (by decide) exChallenge exRand b hb [.sendAuthenticate rnd' []]
    (by intro op hop; simp at hop; subst hop; exact hnn _ _)
  obtain ⟨n, a, h1, h2, h3, h4, h5, _⟩ := firstAnswer_state P cm cfg 3 exLogin c hc _ _ _ _ hf
  -- the second answer
  have hacc : accepted (exHistory exChallenge ++ [.sendAuthenticate exRand []]) exChallenge :=
    (accepted_snoc _ _ _).mpr (.inr ⟨hnn _ _, exHistory_accepted _⟩)
  have h2nd : ∃ b', Answers P cm cfg 3 exLogin (exHistory exChallenge ++ [.sendAuthenticate exRand []]) exChallenge rnd' b' := by
    obtain ⟨c', hc'⟩ := exLogin_created P cm
    have hw := exLogin_workstation hc'
    obtain ⟨_, _, hd, hu⟩ := created_state hc'
    obtain ⟨n, h1, h2⟩ := (negotiable_iff P cm _ c' hc' 3).mp (exLogin_negotiable 3 (by decide))
    refine ⟨_, (answers_v2 P cm cfg hv3 _ _ _ _ _).mpr ⟨hacc, exLogin_negotiable 3 (by decide), c', n, ⟨5, 7⟩, hc', h1, h2,
      .inl ⟨[.nbDomainName "DOM".toList], [.eol], rfl, by simp⟩, exChallenge_fits, ?_, rfl⟩⟩
    refine ⟨?_, ?_, ?_, ?_⟩
    · intro x hx
      simp [v2Msg, v2Pre, v2Blob] at hx
      subst hx
      exact ⟨exChallenge_fits.2.1, by decide⟩
    all_goals
      intro x hx
      simp [v2Msg, v2Pre, hd, hu, hw, exLogin] at hx
      subst hx
      decide
  obtain ⟨b', hb'⟩ := h2nd
  have hne : b ≠ b' := C45_v2 P cm cfg 3 hv3 _ _ _ _ _ _ _ _ _ _ hb hb' (by decide)
  obtain ⟨_, c', junk, hc', hr⟩ := hb'
  have hcc : c' = c := by
    have h1 : Client.newWithDomain _ _ _ _ _ _ _ = _ := hc
    have h2 : Client.newWithDomain _ _ _ _ _ _ _ = _ := hc'
    rw [h1] at h2; exact (Except.ok.inj h2).symm
  subst hcc
  have hr' : (sendAuthenticate P cfg 3 rnd' junk (run P cfg 3 c' (exHistory exChallenge ++ [.sendAuthenticate exRand []]))).2 = .ok b' := hr
  rw [sendAuthenticate_result] at hr'
  refine ⟨c', exHistory exChallenge ++ [.sendAuthenticate exRand []], rnd', b', n, exChallenge, a, hc,
    (sendAuthenticate_result P cfg 3 rnd' [] _ b').mpr hr', ?_, ?_⟩
  · rw [← h3]; rfl
  · rw [(serialize_authenticate cfg a b).mpr ⟨h5, h4⟩]
    intro hx
    exact hne (Except.ok.inj hx)

/-! ### C29 -/

/-- C29 is false: no NTLMv2 message carries a proof string in front of the blob, whatever the proof string (the field is
    too short to hold both). -/
theorem C29_refuted (P : Prims) (cm : CaseMap) (cfg : Cfg) (ver : UInt32) (hver : isV2 ver) (l : Login) (h : List Op)
    (ch : Challenge) (rnd : AuthRand) (b : List UInt8) (hb : Answers P cm cfg ver l h ch rnd b) :
    ¬ ∃ (proof : Bytes 16) (t : FileTime),
      fieldBytes b 20 = proof.val ++ ntlmv2Temp t rnd.clientChallenge ch.targetInfos := by
  rintro ⟨proof, t, e⟩
  obtain ⟨t', _, h1, _⟩ := C42_blob P cm cfg ver hver l h ch rnd b hb
  rw [e] at h1
  have := congrArg List.length h1
  simp [ntlmv2Temp, proof.property, rnd.clientChallenge.property, fileTimeBytes] at this
  omega

example (P : Prims) (cm : CaseMap) (cfg : Cfg) : ∃ b, Answers P cm cfg 3 exLogin (exHistory exChallenge) exChallenge exRand b ∧
    ¬ ∃ (proof : Bytes 16) (t : FileTime),
      fieldBytes b 20 = proof.val ++ ntlmv2Temp t exRand.clientChallenge exChallenge.targetInfos := by
  obtain ⟨b, hb⟩ := exAnswers_v2 P cm cfg 3 (by simp [isV2])
  exact ⟨b, hb, C29_refuted P cm cfg 3 (by simp [isV2]) _ _ _ _ b hb⟩

/-- C29: the NT response field proves nothing: it is the same for every password, user and domain. -/
theorem C29_no_proof (P P' : Prims) (cm : CaseMap) (cfg : Cfg) (ver : UInt32) (hver : isV2 ver) (l l' : Login) (h h' : List Op)
    (ch : Challenge) (rnd : AuthRand) (b b' : List UInt8) (hb : Answers P cm cfg ver l h ch rnd b)
    (hb' : Answers P' cm cfg ver l' h' ch rnd b') : fieldBytes b 20 = fieldBytes b' 20 := by
  obtain ⟨t, ht, h1, _⟩ := C42_blob P cm cfg ver hver l h ch rnd b hb
  obtain ⟨t', ht', h2, _⟩ := C42_blob P' cm cfg ver hver l' h' ch rnd b' hb'
  rw [h1, h2, C42_time_unique _ _ _ _ ht ht']

/-- Even the primitives do not matter. -/
example (P : Prims) (cm : CaseMap) (cfg : Cfg) : ∃ b b', Answers P cm cfg 3 exLogin (exHistory exChallenge) exChallenge exRand b ∧
    Answers toyPrims cm cfg 3 exLogin (exHistory exChallenge) exChallenge exRand b' ∧ fieldBytes b 20 = fieldBytes b' 20 := by
  obtain ⟨b, hb⟩ := exAnswers_v2 P cm cfg 3 (by simp [isV2])
  obtain ⟨b', hb'⟩ := exAnswers_v2 toyPrims cm cfg 3 (by simp [isV2])
  exact ⟨b, b', hb, hb', C29_no_proof P toyPrims cm cfg 3 (by simp [isV2]) _ _ _ _ _ _ b b' hb hb'⟩

/-- C29: the part that holds: the LM response field is HMAC-MD5 under the NTLMv2 hash of both challenges, followed by the
    client's.  The full property asks for NTProofStr in the NT response field. -/
theorem C29_lmv2_partial (P : Prims) (cm : CaseMap) (cfg : Cfg) (ver : UInt32) (hver : isV2 ver) (l : Login) (h : List Op)
    (ch : Challenge) (rnd : AuthRand) (b : List UInt8) (hb : Answers P cm cfg ver l h ch rnd b) :
    fieldHolds b 12 ((P.hmacMd5 (ntlmv2Hash P cm l).val (ch.serverChallenge.val ++ rnd.clientChallenge.val)).val ++
      rnd.clientChallenge.val) := by
  obtain ⟨_, _, c, n, t, hc, _, _, _, _, hf, rfl⟩ := (answers_v2 P cm cfg hver l h ch rnd b).mp hb
  have h1 := (sent_layout _ hf rfl).2.2.2.2.1
  rw [← (created_fields hc).2.2.2.2.1]
  exact h1

example (P : Prims) (cm : CaseMap) (cfg : Cfg) : ∃ (b : List UInt8) (proof : Bytes 16),
    Answers P cm cfg 3 exLogin (exHistory exChallenge) exChallenge exRand b ∧
      fieldHolds b 12 (proof.val ++ [1, 2, 3, 4, 5, 6, 7, 8]) := by
  obtain ⟨b, hb⟩ := exAnswers_v2 P cm cfg 3 (by simp [isV2])
  exact ⟨b, _, hb, C29_lmv2_partial P cm cfg 3 (by simp [isV2]) _ _ _ _ b hb⟩

/-! ### C30 and C31 -/

theorem rc4_zipWith (P : Prims) (k d : Bytes 16) : (P.rc4 k d).val = rc4k P k d := rfl

/-- The keys behind a message. -/
theorem message_keys (P : Prims) (cm : CaseMap) (cfg : Cfg) {ver : UInt32} (hver : ver.toNat ≤ 5) (l : Login) (c : Client)
    (hc : created P cm l c) (n : Negotiate) (ch : Challenge) (rnd : AuthRand) (m : Authenticate)
    (hm : authenticateMessage P cfg ver rnd (reset c (.challengeReceived n ch) []) = .ok m) (hf : authenticateFits m) :
    ∃ kek, keyExchangeKey P cm ver l ch rnd (authenticateBytes m) kek ∧
      (∀ k, keyExchangeKey P cm ver l ch rnd (authenticateBytes m) k → k = kek) ∧
      fieldHolds (authenticateBytes m) 52 (encryptRandomSessionKey P ch.negotiateFlags kek none rnd.exportedKey).2.val ∧
      m.exportedSessionKey = some (encryptRandomSessionKey P ch.negotiateFlags kek none rnd.exportedKey).1 := by
  obtain ⟨_, _, _, hnt, hn2, hv⟩ := created_fields hc
  by_cases hv1 : isV1 ver
  · rw [v1_message P cfg hv1 rnd c hv] at hm
    cases hm
    obtain ⟨_, _, _, _, h12, _, _, _, _, h52⟩ := sent_layout _ hf rfl
    refine ⟨v1Kek P ver rnd c ch, .inl ⟨hv1, ?_⟩, ?_, h52, rfl⟩
    · rw [h12.1, ← hnt]; rfl
    · rintro k (⟨_, rfl⟩ | ⟨hx, _⟩)
      · rw [h12.1, ← hnt]; rfl
      · exact absurd hv1 (not_isV1_of_isV2 hx)
  · have hv2 : isV2 ver := by simp only [isV1, isV2] at *; omega
    obtain ⟨t, ht, _, _, _, rfl⟩ := (v2_message P cfg hv2 rnd c hv n ch [] m).mp hm
    obtain ⟨_, _, _, _, h12, _, _, _, _, h52⟩ := sent_layout _ hf rfl
    refine ⟨v2Kek P rnd c ch t, .inr ⟨hv2, t, ht, ?_⟩, ?_, h52, rfl⟩
    · rw [← hn2]; rfl
    · rintro k (⟨hx, _⟩ | ⟨_, t', ht', rfl⟩)
      · exact absurd hx (not_isV1_of_isV2 hv2)
      · rw [C42_time_unique _ _ _ _ ht' ht, ← hn2]; rfl

theorem exchange_keys (P : Prims) (flags : Flags) (hk : keyExchange flags) (kek random : Bytes 16) :
    encryptRandomSessionKey P flags kek none random = (random, P.rc4 kek random) := by
  simp only [encryptRandomSessionKey]
  have h30 := hasFlag_bit flags Flags.NTLMSSP_NEGOTIATE_KEY_EXCH
  have h4 := hasFlag_bit flags Flags.NTLMSSP_NEGOTIATE_SIGN
  have h5 := hasFlag_bit flags Flags.NTLMSSP_NEGOTIATE_SEAL
  simp only [show Flags.NTLMSSP_NEGOTIATE_KEY_EXCH.toNat % 32 = 30 from rfl] at h30
  simp only [show Flags.NTLMSSP_NEGOTIATE_SIGN.toNat % 32 = 4 from rfl] at h4
  simp only [show Flags.NTLMSSP_NEGOTIATE_SEAL.toNat % 32 = 5 from rfl] at h5
  rw [if_pos]
  rw [Bool.and_eq_true, Bool.or_eq_true, h30, h4, h5]
  exact hk

/-- C31: every message has exactly one key-exchange key behind it.  If the challenge negotiates a key exchange (KEY_EXCH and SIGN
    or SEAL), the encrypted session key field is the random session key encrypted under it; otherwise 16 zero bytes. -/
theorem C31_field (P : Prims) (cm : CaseMap) (cfg : Cfg) (ver : UInt32) (l : Login) (h : List Op) (ch : Challenge)
    (rnd : AuthRand) (b : List UInt8) (hb : Answers P cm cfg ver l h ch rnd b) :
    ∃ kek, keyExchangeKey P cm ver l ch rnd b kek ∧ (∀ k, keyExchangeKey P cm ver l ch rnd b k → k = kek) ∧
      (keyExchange ch.negotiateFlags → fieldHolds b 52 (rc4k P kek rnd.exportedKey)) ∧
      (¬ keyExchange ch.negotiateFlags → fieldHolds b 52 (List.replicate 16 0)) := by
  obtain ⟨_, hneg, c, n, m, hc, _, _, hm, hf, rfl⟩ := (answers_iff P cm cfg ver l h ch rnd b).mp hb
  obtain ⟨kek, h1, h2, h3, _⟩ := message_keys P cm cfg hneg.1 l c hc n ch rnd m hm hf
  refine ⟨kek, h1, h2, fun hk => ?_, fun hk => ?_⟩
  · rw [exchange_keys P _ hk] at h3
    exact h3
  · rw [C31_no_exchange P _ _ _ _ hk] at h3
    exact h3

/-- Without a key exchange the field is zero. -/
example (P : Prims) (cm : CaseMap) (cfg : Cfg) : ∃ b, Answers P cm cfg 1 exLogin (exHistory quietChallenge) quietChallenge exRand b ∧
    fieldHolds b 52 (List.replicate 16 0) := by
  obtain ⟨b, hb⟩ := exAnswers_v1' P cm cfg 1 (by simp [isV1]) quietChallenge exRand
  obtain ⟨_, _, _, _, h⟩ := C31_field P cm cfg 1 _ _ _ _ b hb
  exact ⟨b, hb, h (by simp only [keyExchange, bit]; decide)⟩

/-- KEY_EXCH is set in every authenticate message. -/
theorem key_exch_set (P : Prims) (cm : CaseMap) (cfg : Cfg) (ver : UInt32) (l : Login) (h : List Op) (ch : Challenge)
    (rnd : AuthRand) (b : List UInt8) (hb : Answers P cm cfg ver l h ch rnd b) : flagAt b 60 30 := by
  have hver : ver.toNat ≤ 5 := ((answers_iff P cm cfg ver l h ch rnd b).mp hb).2.1.1
  by_cases hv1 : isV1 ver
  · exact (C38_v1 P cm cfg ver hv1 l h ch rnd b hb 30).mpr (by omega)
  · exact (C38_v2 P cm cfg ver (by simp only [isV1, isV2] at *; omega) l h ch rnd b hb 30).mpr (by omega)

/-- A first answer is an answer. -/
theorem firstAnswer_answers (P : Prims) (cm : CaseMap) (cfg : Cfg) (ver : UInt32) (l : Login) (c : Client)
    (hc : created P cm l c) (h : List Op) (ch : Challenge) (rnd : AuthRand) (b : List UInt8)
    (hf : firstAnswer P cfg ver c h ch rnd b) : ∃ h', Answers P cm cfg ver l h' ch rnd b := by
  obtain ⟨before, junk, after, _, _, hu, hr⟩ := hf
  exact ⟨before, hu.1, c, junk, hc, hr⟩

/-- C31, the part that holds: if the challenge negotiates a key exchange, the session key the client holds is the random
    one, and it is the one the server recovers.  The full property covers all challenges. -/
theorem C31_client_partial (P : Prims) (cm : CaseMap) (cfg : Cfg) (ver : UInt32) (l : Login) (c : Client)
    (hc : created P cm l c) (h : List Op) (ch : Challenge) (hx : keyExchange ch.negotiateFlags) (rnd : AuthRand) (b : List UInt8)
    (hf : firstAnswer P cfg ver c h ch rnd b) (kek : Bytes 16) (hk : keyExchangeKey P cm ver l ch rnd b kek) :
    exportsKey (run P cfg ver c h) rnd.exportedKey ∧ ∀ k, serverKey P b kek k ↔ k = rnd.exportedKey.val := by
  obtain ⟨h', hA⟩ := firstAnswer_answers P cm cfg ver l c hc h ch rnd b hf
  have h30 := key_exch_set P cm cfg ver l h' ch rnd b hA
  have hver : ver.toNat ≤ 5 := ((answers_iff P cm cfg ver l h' ch rnd b).mp hA).2.1.1
  obtain ⟨n, a, hn, hnf, hst, rfl, haf, hm⟩ := firstAnswer_state P cm cfg ver l c hc h ch rnd b hf
  obtain ⟨kek', h1, h2, h3, h4⟩ := message_keys P cm cfg hver l c hc n ch rnd a hm haf
  obtain rfl := h2 kek hk
  rw [exchange_keys P _ hx] at h3 h4
  refine ⟨⟨n, ch, a, hst, h4⟩, fun k => ?_⟩
  have hdec : rc4k P kek (P.rc4 kek rnd.exportedKey) = rnd.exportedKey.val := by
    have := (C31_exchange P ch.negotiateFlags kek none rnd.exportedKey hx).2
    rw [exchange_keys P _ hx] at this
    exact this
  constructor
  · rintro (⟨_, e, he, rfl⟩ | ⟨hx', _⟩)
    · rw [h3.1] at he
      rw [Subtype.ext he, hdec]
    · exact absurd h30 hx'
  · rintro rfl
    exact .inl ⟨h30, P.rc4 kek rnd.exportedKey, h3.1.symm, hdec.symm⟩

example (P : Prims) (cm : CaseMap) (cfg : Cfg) : ∃ c b kek, created P cm exLogin c ∧
    exportsKey (run P cfg 3 c (exHistory exChallenge ++ [.sendAuthenticate exRand []])) exRand.exportedKey ∧
    keyExchangeKey P cm 3 exLogin exChallenge exRand b kek ∧ serverKey P b kek exRand.exportedKey.val := by
  obtain ⟨c, b, hc, hf⟩ := exFirst_v2 P cm cfg 3 (by simp [isV2])
  obtain ⟨h', hA⟩ := firstAnswer_answers P cm cfg 3 _ c hc _ _ _ b hf
  obtain ⟨kek, hk, _⟩ := C31_field P cm cfg 3 _ _ _ _ b hA
  have h := C31_client_partial P cm cfg 3 exLogin c hc _ _ exChallenge_exchange _ b hf kek hk
  exact ⟨c, b, kek, hc, h.1, hk, (h.2 _).mpr rfl⟩

/-- C31: if no key exchange is negotiated, the client holds the key-exchange key, but tells the server that a key exchange took
    place: the server arrives at the RC4 keystream. -/
theorem C31_quiet (P : Prims) (cm : CaseMap) (cfg : Cfg) (ver : UInt32) (l : Login) (c : Client)
    (hc : created P cm l c) (h : List Op) (ch : Challenge) (hx : ¬ keyExchange ch.negotiateFlags) (rnd : AuthRand) (b : List UInt8)
    (hf : firstAnswer P cfg ver c h ch rnd b) (kek : Bytes 16) (hk : keyExchangeKey P cm ver l ch rnd b kek) :
    exportsKey (run P cfg ver c h) kek ∧ ∀ k, serverKey P b kek k ↔ k = (P.rc4Keystream kek).val := by
  obtain ⟨h', hA⟩ := firstAnswer_answers P cm cfg ver l c hc h ch rnd b hf
  have h30 := key_exch_set P cm cfg ver l h' ch rnd b hA
  have hver : ver.toNat ≤ 5 := ((answers_iff P cm cfg ver l h' ch rnd b).mp hA).2.1.1
  obtain ⟨n, a, hn, hnf, hst, rfl, haf, hm⟩ := firstAnswer_state P cm cfg ver l c hc h ch rnd b hf
  obtain ⟨kek', h1, h2, h3, h4⟩ := message_keys P cm cfg hver l c hc n ch rnd a hm haf
  obtain rfl := h2 kek hk
  rw [C31_no_exchange P _ _ _ _ hx] at h3 h4
  refine ⟨⟨n, ch, a, hst, h4⟩, fun k => ?_⟩
  have hdec : rc4k P kek (Bytes.zero 16) = (P.rc4Keystream kek).val := by
    have hl := (P.rc4Keystream kek).property
    simp only [rc4k, Bytes.zero]
    generalize (P.rc4Keystream kek).val = s at hl
    apply List.ext_getElem
    · simp [hl]
    · intro i h1 h2
      rw [List.getElem_zipWith, List.getElem_replicate, UInt8.zero_xor]
  constructor
  · rintro (⟨_, e, he, rfl⟩ | ⟨hx', _⟩)
    · rw [h3.1] at he
      rw [Subtype.ext he, hdec]
    · exact absurd h30 hx'
  · rintro rfl
    exact .inl ⟨h30, Bytes.zero 16, h3.1.symm, hdec.symm⟩

example (P : Prims) (cm : CaseMap) (cfg : Cfg) : ∃ c b kek, created P cm exLogin c ∧
    exportsKey (run P cfg 1 c (exHistory quietChallenge ++ [.sendAuthenticate exRand []])) kek ∧
    keyExchangeKey P cm 1 exLogin quietChallenge exRand b kek ∧ serverKey P b kek (P.rc4Keystream kek).val := by
  obtain ⟨c, b, hc, hf⟩ := exFirst_v1 P cm cfg 1 (by simp [isV1]) quietChallenge exRand
  obtain ⟨h', hA⟩ := firstAnswer_answers P cm cfg 1 _ c hc _ _ _ b hf
  obtain ⟨kek, hk, _⟩ := C31_field P cm cfg 1 _ _ _ _ b hA
  have h := C31_quiet P cm cfg 1 exLogin c hc _ _ (by simp only [keyExchange, bit]; decide) _ b hf kek hk
  exact ⟨c, b, kek, hc, h.1, hk, (h.2 _).mpr rfl⟩

/-- C30, exactly: the key-exchange key behind an NTLMv1 message is always HMAC-MD5 under the session base key of the server
    challenge and the first 8 bytes of the LM response field, whatever was negotiated: it encrypts the session key if a key
    exchange was negotiated and is the session key otherwise. -/
theorem C30_key_used (P : Prims) (cm : CaseMap) (cfg : Cfg) (ver : UInt32) (hver : isV1 ver) (l : Login) (c : Client)
    (hc : created P cm l c) (h : List Op) (ch : Challenge) (rnd : AuthRand) (b : List UInt8)
    (hf : firstAnswer P cfg ver c h ch rnd b) (kek : Bytes 16)
    (hk : kek = P.hmacMd5 (P.md4 (P.md4 (utf16le l.password)).val).val (ch.serverChallenge.val ++ (fieldBytes b 12).take 8)) :
    (keyExchange ch.negotiateFlags → fieldHolds b 52 (rc4k P kek rnd.exportedKey) ∧ exportsKey (run P cfg ver c h) rnd.exportedKey) ∧
    (¬ keyExchange ch.negotiateFlags → exportsKey (run P cfg ver c h) kek) := by
  have hkk : keyExchangeKey P cm ver l ch rnd b kek := .inl ⟨hver, hk⟩
  obtain ⟨h', hA⟩ := firstAnswer_answers P cm cfg ver l c hc h ch rnd b hf
  obtain ⟨kek', _, h2, h3, _⟩ := C31_field P cm cfg ver l h' ch rnd b hA
  obtain rfl := h2 kek hkk
  exact ⟨fun hx => ⟨h3 hx, (C31_client_partial P cm cfg ver l c hc h ch hx rnd b hf kek hkk).1⟩,
    fun hx => (C31_quiet P cm cfg ver l c hc h ch hx rnd b hf kek hkk).1⟩

/-- Without extended session security too. -/
example (P : Prims) (cm : CaseMap) (cfg : Cfg) : ∃ c b kek, created P cm exLogin c ∧
    firstAnswer P cfg 1 c (exHistory plainChallenge ++ [.sendAuthenticate exRand []]) plainChallenge exRand b ∧
    fieldHolds b 52 (rc4k P kek exRand.exportedKey) := by
  obtain ⟨c, b, hc, hf⟩ := exFirst_v1 P cm cfg 1 (by simp [isV1]) plainChallenge exRand
  exact ⟨c, b, _, hc, hf, ((C30_key_used P cm cfg 1 (by simp [isV1]) exLogin c hc _ _ _ b hf _ rfl).1
    ⟨by simp only [bit]; decide, .inl (by simp only [bit]; decide)⟩).1⟩

/-- C30: with extended session security the key-exchange key KXKEY prescribes, computed from the LM response field actually sent, is
    the one that encrypts the session key, or is the session key if no key exchange was negotiated.  The full property also covers
    challenges without extended session security, where it is false. -/
theorem C30_client_partial (P : Prims) (cm : CaseMap) (cfg : Cfg) (ver : UInt32) (hver : isV1 ver) (l : Login) (c : Client)
    (hc : created P cm l c) (h : List Op) (ch : Challenge) (hs : bit ch.negotiateFlags 19) (rnd : AuthRand) (b : List UInt8)
    (hf : firstAnswer P cfg ver c h ch rnd b) (kek lmowf : Bytes 16)
    (hk : isKxkey P ch.negotiateFlags (P.md4 (P.md4 (utf16le l.password)).val) (fieldBytes b 12) lmowf ch.serverChallenge kek.val) :
    (keyExchange ch.negotiateFlags → fieldHolds b 52 (rc4k P kek rnd.exportedKey) ∧ exportsKey (run P cfg ver c h) rnd.exportedKey) ∧
    (¬ keyExchange ch.negotiateFlags → exportsKey (run P cfg ver c h) kek) :=
  C30_key_used P cm cfg ver hver l c hc h ch rnd b hf kek (Subtype.ext (hk.1 hs))

example (P : Prims) (cm : CaseMap) (cfg : Cfg) (lmowf : Bytes 16) : ∃ c b kek, created P cm exLogin c ∧
    firstAnswer P cfg 2 c (exHistory exChallenge ++ [.sendAuthenticate exRand []]) exChallenge exRand b ∧
    isKxkey P exChallenge.negotiateFlags (P.md4 (P.md4 (utf16le exLogin.password)).val) (fieldBytes b 12) lmowf
      exChallenge.serverChallenge kek ∧ bit exChallenge.negotiateFlags 19 := by
  have h19 : bit exChallenge.negotiateFlags 19 := by simp only [bit]; decide
  obtain ⟨c, b, hc, hf⟩ := exFirst_v1 P cm cfg 2 (by simp [isV1]) exChallenge exRand
  exact ⟨c, b, _, hc, hf, ⟨fun _ => rfl, fun h => absurd h19 h, fun h => absurd h19 h, fun h => absurd h19 h⟩, h19⟩

/-- C31, exactly: client and server agree if and only if a key exchange is negotiated or the keystream of the key happens to be the
    key itself. -/
theorem C31_agree_iff (P : Prims) (cm : CaseMap) (cfg : Cfg) (ver : UInt32) (l : Login) (c : Client)
    (hc : created P cm l c) (h : List Op) (ch : Challenge) (rnd : AuthRand) (b : List UInt8)
    (hf : firstAnswer P cfg ver c h ch rnd b) (kek : Bytes 16) (hk : keyExchangeKey P cm ver l ch rnd b kek) :
    (∃ k, exportsKey (run P cfg ver c h) k ∧ serverKey P b kek k.val) ↔
      keyExchange ch.negotiateFlags ∨ P.rc4Keystream kek = kek := by
  have hfun : ∀ k k', exportsKey (run P cfg ver c h) k → exportsKey (run P cfg ver c h) k' → k = k' := by
    rintro k k' ⟨n, ch, a, h1, h2⟩ ⟨n', ch', a', h1', h2'⟩
    rw [h1] at h1'
    cases h1'
    rw [h2] at h2'
    exact Option.some.inj h2'
  by_cases hx : keyExchange ch.negotiateFlags
  · obtain ⟨h1, h2⟩ := C31_client_partial P cm cfg ver l c hc h ch hx rnd b hf kek hk
    exact ⟨fun _ => .inl hx, fun _ => ⟨_, h1, (h2 _).mpr rfl⟩⟩
  · obtain ⟨h1, h2⟩ := C31_quiet P cm cfg ver l c hc h ch hx rnd b hf kek hk
    constructor
    · rintro ⟨k, h3, h4⟩
      obtain rfl := hfun _ _ h1 h3
      exact .inr (Subtype.ext ((h2 _).mp h4).symm)
    · rintro (h | h)
      · exact absurd h hx
      · exact ⟨kek, h1, (h2 _).mpr (by rw [h])⟩

/-- The positive case exists too. -/
example (P : Prims) (cm : CaseMap) (cfg : Cfg) : ∃ c b, created P cm exLogin c ∧
    firstAnswer P cfg 3 c (exHistory exChallenge ++ [.sendAuthenticate exRand []]) exChallenge exRand b ∧
    keyExchange exChallenge.negotiateFlags := by
  obtain ⟨b, hb⟩ := exAnswers_v2 P cm cfg 3 (by simp [isV2])
  obtain ⟨c, hc, hf⟩ := exFirstAnswer P cm cfg 3 (by decide) exChallenge exRand b hb [] (by simp)
  exact ⟨c, b, hc, hf, by simp only [bit]; decide, .inl (by simp only [bit]; decide)⟩

/-! ### C32 -/

theorem micOffset_eq (m : Authenticate) : micOffset m = (auH m ++ auV m).length := by
  rw [List.length_append, length_auH, micOffset]
  cases h : m.version with
  | none => simp [auV, h, payload]
  | some v => simp [auV, h, payload, versionBytes, le]

/-- Zeroing the MIC of an encoded message. -/
theorem zeroAt_bytes (m : Authenticate) :
    zeroAt (authenticateBytes m) (micOffset m) = authenticateBytes { m with mic := Bytes.zero 16 } := by
  have h1 : ∀ m : Authenticate, authenticateBytes m = ((auH m ++ auV m) ++ m.mic.val) ++ (payload (auL m) ++ (payload (auN m) ++
      (payload (auD m) ++ (payload (auU m) ++ (payload (auW m) ++ payload (auK m)))))) := by
    intro m
    rw [authenticateBytes_eq]
    simp only [List.append_assoc]
  have hl : (auH m ++ auV m).length = micOffset m := (micOffset_eq m).symm
  have hmic := m.mic.property
  rw [h1 m, h1 { m with mic := Bytes.zero 16 }, zeroAt]
  have e1 : ∀ r : List UInt8, (((auH m ++ auV m) ++ m.mic.val) ++ r).take (micOffset m) = auH m ++ auV m := by
    intro r
    rw [List.append_assoc, List.take_left' hl]
  have e2 : ∀ r : List UInt8, (((auH m ++ auV m) ++ m.mic.val) ++ r).drop (micOffset m + 16) = r := by
    intro r
    rw [List.drop_left' (by rw [List.length_append, hl, hmic])]
  rw [e1, e2]
  have e3 : auH { m with mic := Bytes.zero 16 } = auH m := by
    simp only [auH, auO1, auO2, auO3, auO4, auO5, auO6, auV, auL, auN, auD, auU, auW, auK]
  rw [e3]
  rfl

/-- The MIC of an encoded message. -/
theorem micAt_bytes (m : Authenticate) : bytesAt (authenticateBytes m) (micOffset m) 16 = m.mic.val := by
  rw [authenticateBytes_eq, ← List.append_assoc (auH m), micOffset_eq, bytesAt,
    List.drop_left' rfl, List.take_left' m.mic.property]

theorem zeroMic_bytes (m : Authenticate) (hv : m.version = none) :
    zeroMic (authenticateBytes m) = authenticateBytes { m with mic := Bytes.zero 16 } := by
  rw [← zeroAt_bytes m, zeroMic, micOffset, if_pos hv]

/-- C32, the part that holds: `compute_mic` computes the integrity code of the message it is called on.  The full property is about
    the message sent. -/
theorem C32_compute_mic_partial (P : Prims) (cfg : Cfg) (m r : Authenticate) (key : Bytes 16)
    (hk : m.exportedSessionKey = some key) (n : Negotiate) (ch : Challenge) (hr : m.computeMic P cfg n ch = .ok r) :
    ∃ neg chal b, Wire.serialize cfg n = .ok neg ∧ Wire.serialize cfg ch = .ok chal ∧ Wire.serialize cfg r = .ok b ∧
      bytesAt b (micOffset m) 16 = (P.hmacMd5 key.val (neg ++ chal ++ zeroAt b (micOffset m))).val := by
  obtain ⟨h1, h2, h3, hre⟩ := (computeMic_eq P cfg m key hk n ch r).mp hr
  have hrf : authenticateFits r := by rw [hre]; exact h3
  have ho : micOffset m = micOffset r := by rw [hre]; rfl
  refine ⟨_, _, _, (serialize_negotiate cfg n _).mpr ⟨h1, rfl⟩, (serialize_challenge cfg ch _).mpr ⟨h2, rfl⟩,
    (serialize_authenticate cfg _ _).mpr ⟨hrf, rfl⟩, ?_⟩
  rw [ho, zeroAt_bytes r, micAt_bytes, hre]

example (P : Prims) (cfg : Cfg) : ∃ r, exAuthenticate.computeMic P cfg exNegotiate exChallenge = .ok r ∧
    exAuthenticate.exportedSessionKey = some (Bytes.zero 16) :=
  ⟨_, (computeMic_eq P cfg exAuthenticate (Bytes.zero 16) rfl exNegotiate exChallenge _).mpr
    ⟨exNegotiate_fits, exChallenge_fits, exAuthenticate_fits, rfl⟩, rfl⟩

/-- C32: what the MIC of an NTLMv2 message covers: the negotiate message sent, the encoding of the challenge, and not the message
    sent but one that lacks the workstation and the flags set last. -/
theorem C32_mic_covers (P : Prims) (cm : CaseMap) (cfg : Cfg) (ver : UInt32) (hver : isV2 ver) (l : Login) (c : Client)
    (hc : created P cm l c) (h : List Op) (ch : Challenge) (rnd : AuthRand) (b : List UInt8)
    (hf : firstAnswer P cfg ver c h ch rnd b) (k : Bytes 16) (hk : exportsKey (run P cfg ver c h) k) :
    ∃ neg chal other, (∀ h' junk, resultOf P cfg ver c h' (.sendNegociate junk) = .ok neg) ∧ Wire.serialize cfg ch = .ok chal ∧
      bytesAt b 64 16 = (P.hmacMd5 k.val (neg ++ chal ++ other)).val ∧ other ≠ zeroMic b ∧
      (∀ i, flagAt other 60 i ↔ i = 0 ∨ i = 30) ∧ emptyField other 44 ∧
      ∀ p ∈ [12, 20, 28, 36, 52], fieldBytes other p = fieldBytes b p := by
  obtain ⟨n, a, hn, hnf, hst, rfl, haf, hm⟩ := firstAnswer_state P cm cfg ver l c hc h ch rnd b hf
  obtain ⟨_, _, _, _, _, hv⟩ := created_fields hc
  obtain ⟨t, ht, _, hcf, hpf, rfl⟩ := (v2_message P cfg hver rnd c hv n ch [] a).mp hm
  obtain ⟨n', ch', a', hst', hk'⟩ := hk
  rw [hst] at hst'
  cases hst'
  cases hk'
  obtain ⟨_, _, p3, _, p12, p20, p28, p36, p44, p52⟩ := sent_layout (v2Pre P rnd c ch t) hpf rfl
  obtain ⟨_, _, q3, q4, q12, q20, q28, q36, _, q52⟩ := sent_layout (v2Msg P rnd c n ch t) haf rfl
  have hbits : ∀ i, flagAt (authenticateBytes (v2Pre P rnd c ch t)) 60 i ↔ i = 0 ∨ i = 30 := by
    intro i
    rw [flagAt_bit p3]
    show bit (Flags.default.setFlag Flags.NTLMSSP_NEGOTIATE_KEY_EXCH) i ↔ _
    rw [setFlag_bit, default_bit]
    simp only [show Flags.NTLMSSP_NEGOTIATE_KEY_EXCH.toNat % 32 = 30 from rfl]
  refine ⟨negotiateBytes n, challengeBytes ch, authenticateBytes (v2Pre P rnd c ch t), ?_,
    (serialize_challenge cfg ch _).mpr ⟨hcf, rfl⟩, q4, ?_, hbits, ?_, ?_⟩
  · intro h' junk
    obtain ⟨s, b', e⟩ := run_reset P cfg ver c h'
    simp only [resultOf, step, sendNegociate_eq, e, negotiateMessage_reset, hn,
      (serialize_negotiate cfg n _).mpr ⟨hnf, rfl⟩]
  · intro e
    have h2 := hbits 2
    have hl := (sent_layout { v2Msg P rnd c n ch t with mic := Bytes.zero 16 } haf rfl).2.2.1
    rw [e, zeroMic_bytes _ rfl, flagAt_bit hl] at h2
    have : bit (finalFlags Flags.default) 2 := (finalFlags_bit _ 2).mpr (.inl rfl)
    have := h2.mp this
    omega
  · exact p44.2.1.mpr rfl
  · intro p hp
    simp only [List.mem_cons, List.not_mem_nil, or_false] at hp
    rcases hp with rfl | rfl | rfl | rfl | rfl
    · rw [p12.1, q12.1]; rfl
    · rw [p20.1, q20.1]; rfl
    · rw [p28.1, q28.1]; rfl
    · rw [p36.1, q36.1]; rfl
    · rw [p52.1, q52.1]; rfl

example (P : Prims) (cm : CaseMap) (cfg : Cfg) : ∃ c b k, created P cm exLogin c ∧
    firstAnswer P cfg 3 c (exHistory exChallenge ++ [.sendAuthenticate exRand []]) exChallenge exRand b ∧
    exportsKey (run P cfg 3 c (exHistory exChallenge ++ [.sendAuthenticate exRand []])) k := by
  obtain ⟨c, b, hc, hf⟩ := exFirst_v2 P cm cfg 3 (by simp [isV2])
  obtain ⟨h', hA⟩ := firstAnswer_answers P cm cfg 3 _ c hc _ _ _ b hf
  obtain ⟨kek, hk, _⟩ := C31_field P cm cfg 3 _ _ _ _ b hA
  exact ⟨c, b, _, hc, hf, (C31_client_partial P cm cfg 3 exLogin c hc _ _ exChallenge_exchange _ b hf kek hk).1⟩

/-- C32: an NTLMv1 message carries no MIC: 16 zero bytes. -/
theorem C32_v1_zero (P : Prims) (cm : CaseMap) (cfg : Cfg) (ver : UInt32) (hver : isV1 ver) (l : Login) (h : List Op)
    (ch : Challenge) (rnd : AuthRand) (b : List UInt8) (hb : Answers P cm cfg ver l h ch rnd b) :
    bytesAt b 64 16 = List.replicate 16 0 := by
  obtain ⟨_, _, c, _, hf, rfl⟩ := (answers_v1 P cm cfg hver l h ch rnd b).mp hb
  exact (sent_layout _ hf rfl).2.2.2.1

example (P : Prims) (cm : CaseMap) (cfg : Cfg) : ∃ b, Answers P cm cfg 2 exLogin (exHistory exChallenge) exChallenge exRand b ∧
    bytesAt b 64 16 = List.replicate 16 0 := by
  obtain ⟨b, hb⟩ := exAnswers_v1 P cm cfg 2 (by simp [isV1])
  exact ⟨b, hb, C32_v1_zero P cm cfg 2 (by simp [isV1]) _ _ _ _ b hb⟩

end Ntlm.Props
