import Verif.Spec.Unique
import Verif.Lemmas.Unique
import Verif.Props.Mic
/-
  C75: an encoding determines what was encoded, and a MIC covers all of the three messages.
  C76: the NTLMv2 proof covers the server challenge, the time, the client challenge and the target information.
-/
namespace Ntlm.Props

open Spec

/-- C75: two negotiate messages with the same encoding are the same message. -/
theorem C75_negotiate (cfg cfg' : Cfg) (m n : Negotiate) (b : List UInt8) (hm : Wire.serialize cfg m = .ok b)
    (hn : Wire.serialize cfg' n = .ok b) : m = n := by
  obtain ⟨fm, rfl⟩ := (serialize_negotiate cfg m _).mp hm
  obtain ⟨fn, e⟩ := (serialize_negotiate cfg' n _).mp hn
  exact (negotiate_split fm fn (r := []) (s := []) (.inl rfl) (by rw [e])).1

/-- A domain that is absent and one that is empty are told apart, although no byte of either is sent. -/
example (cfg : Cfg) : ∃ b b', Wire.serialize cfg ({ exNegotiate with domainName := none } : Negotiate) = .ok b ∧
    Wire.serialize cfg ({ exNegotiate with domainName := some ⟨[]⟩ } : Negotiate) = .ok b' ∧ b ≠ b' := by
  have h1 := (serialize_negotiate cfg { exNegotiate with domainName := none } _).mpr
    ⟨⟨by intro x hx; simp at hx, exNegotiate_fits.2⟩, rfl⟩
  have h2 := (serialize_negotiate cfg { exNegotiate with domainName := some ⟨[]⟩ } _).mpr
    ⟨⟨by intro x hx; simp at hx; subst hx; decide, exNegotiate_fits.2⟩, rfl⟩
  refine ⟨_, _, h1, h2, fun e => ?_⟩
  have := congrArg Negotiate.domainName (C75_negotiate cfg cfg _ _ _ h1 (e ▸ h2))
  simp at this

/-- C75: two challenge messages with the same encoding are the same message. -/
theorem C75_challenge (cfg cfg' : Cfg) (m n : Challenge) (b : List UInt8) (hm : Wire.serialize cfg m = .ok b)
    (hn : Wire.serialize cfg' n = .ok b) : m = n := by
  obtain ⟨fm, rfl⟩ := (serialize_challenge cfg m _).mp hm
  obtain ⟨fn, e⟩ := (serialize_challenge cfg' n _).mp hn
  exact (challenge_split fm fn (r := []) (s := []) (.inl rfl) (by rw [e])).1

/-- Two challenges that differ in the server challenge only. -/
example (cfg : Cfg) : ∃ b b', Wire.serialize cfg exChallenge = .ok b ∧
    Wire.serialize cfg ({ exChallenge with serverChallenge := Bytes.zero 8 } : Challenge) = .ok b' ∧ b ≠ b' := by
  have h1 := (serialize_challenge cfg exChallenge _).mpr ⟨exChallenge_fits, rfl⟩
  have h2 := (serialize_challenge cfg { exChallenge with serverChallenge := Bytes.zero 8 } _).mpr ⟨exChallenge_fits, rfl⟩
  refine ⟨_, _, h1, h2, fun e => ?_⟩
  have := congrArg Challenge.serverChallenge (C75_challenge cfg cfg _ _ _ h1 (e ▸ h2))
  exact absurd this (by decide)

theorem authenticateBytes_congr {m n : Authenticate} (h : sameButMic m n) (hmic : m.mic = n.mic) :
    authenticateBytes m = authenticateBytes n := by
  obtain ⟨h1, h2, h3, h4, h5, h6, h7, h8⟩ := h
  simp only [authenticateBytes, h1, h2, h3, h4, h5, h6, h7, h8, hmic]

theorem authenticateFits_congr {m n : Authenticate} (h : sameButMic m n) (hm : authenticateFits m) : authenticateFits n := by
  obtain ⟨_, _, h3, h4, h5, h6, _, _⟩ := h
  simpa only [authenticateFits, h3, h4, h5, h6] using hm

/-- C75: two authenticate messages have the same encoding exactly when they agree in all that is sent. -/
theorem C75_authenticate (cfg cfg' : Cfg) (m n : Authenticate) (b : List UInt8) (hm : Wire.serialize cfg m = .ok b) :
    Wire.serialize cfg' n = .ok b ↔ sameButMic m n ∧ m.mic = n.mic := by
  obtain ⟨fm, rfl⟩ := (serialize_authenticate cfg m _).mp hm
  rw [serialize_authenticate]
  constructor
  · rintro ⟨fn, e⟩
    obtain ⟨h1, h2, h3, h4, h5, h6, h7, h8, h9⟩ := authenticate_inj fm fn e
    exact ⟨⟨h7, h8, h3, h4, h5, h2, h1, h6⟩, h9⟩
  · rintro ⟨h, hmic⟩
    exact ⟨authenticateFits_congr h fm, authenticateBytes_congr h hmic⟩

/-- The two kinds of LM response, with the same 24 bytes, and different session keys: one encoding. -/
example (cfg : Cfg) : ∃ b, Wire.serialize cfg { exAuthenticate with lmChallengeResponse := some (.v1 ⟨Bytes.zero 24⟩) } = .ok b ∧
    Wire.serialize cfg ({ exAuthenticate with lmChallengeResponse := some (.v2 ⟨Bytes.zero 16, Bytes.zero 8⟩), exportedSessionKey := none } : Authenticate) = .ok b := by
  have h := (serialize_authenticate cfg { exAuthenticate with lmChallengeResponse := some (.v1 ⟨Bytes.zero 24⟩) } _).mpr
    ⟨exAuthenticate_fits, rfl⟩
  exact ⟨_, h, (C75_authenticate cfg cfg _ _ _ h).mpr ⟨⟨rfl, rfl, rfl, rfl, rfl, rfl, rfl, rfl⟩, rfl⟩⟩

/-- C75: the bytes a MIC is computed over determine the three messages: they are equal exactly when the negotiate messages are,
    the challenge messages are, and the authenticate messages agree in all that is sent but the MIC.  No byte can move from one
    message into the next. -/
theorem C75_mic_input (cfg cfg' : Cfg) (n n' : Negotiate) (ch ch' : Challenge) (m m' : Authenticate)
    (neg neg' chal chal' auth auth' : List UInt8)
    (hn : Wire.serialize cfg n = .ok neg) (hc : Wire.serialize cfg ch = .ok chal) (hm : Wire.serialize cfg m = .ok auth)
    (hn' : Wire.serialize cfg' n' = .ok neg') (hc' : Wire.serialize cfg' ch' = .ok chal')
    (hm' : Wire.serialize cfg' m' = .ok auth') :
    micInput neg chal auth (micOffset m) = micInput neg' chal' auth' (micOffset m') ↔
      n = n' ∧ ch = ch' ∧ sameButMic m m' := by
  obtain ⟨fn, rfl⟩ := (serialize_negotiate cfg n _).mp hn
  obtain ⟨fc, rfl⟩ := (serialize_challenge cfg ch _).mp hc
  obtain ⟨fm, rfl⟩ := (serialize_authenticate cfg m _).mp hm
  obtain ⟨fn', rfl⟩ := (serialize_negotiate cfg' n' _).mp hn'
  obtain ⟨fc', rfl⟩ := (serialize_challenge cfg' ch' _).mp hc'
  obtain ⟨fm', rfl⟩ := (serialize_authenticate cfg' m' _).mp hm'
  have hcp (x : Challenge) : ntlmssp <+: challengeBytes x := by
    simp only [challengeBytes, List.append_assoc]
    exact List.prefix_append _ _
  have hap (x : Authenticate) : ntlmssp <+: authenticateBytes x := by
    simp only [authenticateBytes, List.append_assoc]
    exact List.prefix_append _ _
  simp only [micInput, zeroAt_bytes, List.append_assoc]
  constructor
  · intro h
    obtain ⟨e1, h⟩ := negotiate_split fn fn' (.inr ⟨(hcp ch).trans (List.prefix_append _ _),
      (hcp ch').trans (List.prefix_append _ _)⟩) h
    obtain ⟨e2, h⟩ := challenge_split fc fc' (.inr ⟨hap _, hap _⟩) h
    obtain ⟨h1, h2, h3, h4, h5, h6, h7, h8, _⟩ := authenticate_inj (by exact fm) (by exact fm') h
    exact ⟨e1, e2, h7, h8, h3, h4, h5, h2, h1, h6⟩
  · rintro ⟨rfl, rfl, h⟩
    rw [authenticateBytes_congr (m := { m with mic := Bytes.zero 16 }) (n := { m' with mic := Bytes.zero 16 }) h rfl]

/-- A negotiate message with nothing but a version block, and one with nothing at all: the version block cannot pass for the
    beginning of the challenge. -/
example (cfg : Cfg) (ch' : Challenge) (m' : Authenticate) (chal' auth' : List UInt8)
    (hc' : Wire.serialize cfg ch' = .ok chal') (hm' : Wire.serialize cfg m' = .ok auth') :
    ∃ neg neg' chal auth, Wire.serialize cfg ({ Negotiate.default with version := some ⟨10, 0, 19041, 15⟩ } : Negotiate) = .ok neg ∧
      Wire.serialize cfg Negotiate.default = .ok neg' ∧ Wire.serialize cfg exChallenge = .ok chal ∧
      Wire.serialize cfg micSample = .ok auth ∧
      micInput neg chal auth 72 ≠ micInput neg' chal' auth' (micOffset m') := by
  have h1 := (serialize_negotiate cfg { Negotiate.default with version := some ⟨10, 0, 19041, 15⟩ } _).mpr
    ⟨⟨by intro x hx; simp [Negotiate.default] at hx, by intro x hx; simp [Negotiate.default] at hx⟩, rfl⟩
  have h1' := (serialize_negotiate cfg Negotiate.default _).mpr
    ⟨⟨by intro x hx; simp [Negotiate.default] at hx, by intro x hx; simp [Negotiate.default] at hx⟩, rfl⟩
  have h2 := (serialize_challenge cfg exChallenge _).mpr ⟨exChallenge_fits, rfl⟩
  have h3 := (serialize_authenticate cfg micSample _).mpr ⟨exAuthenticate_fits, rfl⟩
  refine ⟨_, _, _, _, h1, h1', h2, h3, fun e => ?_⟩
  have := congrArg Negotiate.version ((C75_mic_input cfg cfg _ _ _ _ micSample m' _ _ _ _ _ _ h1 h2 h3 h1' hc' hm').mp e).1
  simp [Negotiate.default] at this

/-- C75: messages that differ and get the same MIC under the same key are a collision of HMAC-MD5, and the two colliding
    strings are the ones below. -/
theorem C75_mic_binds (P : Prims) (cfg : Cfg) (n n' : Negotiate) (ch ch' : Challenge) (m m' r r' : Authenticate)
    (key : Bytes 16) (hk : m.exportedSessionKey = some key) (hk' : m'.exportedSessionKey = some key)
    (hr : m.computeMic P cfg n ch = .ok r) (hr' : m'.computeMic P cfg n' ch' = .ok r') (hmic : r.mic = r'.mic) :
    ∃ neg neg' chal chal' auth auth', Wire.serialize cfg n = .ok neg ∧ Wire.serialize cfg n' = .ok neg' ∧
      Wire.serialize cfg ch = .ok chal ∧ Wire.serialize cfg ch' = .ok chal' ∧
      Wire.serialize cfg m = .ok auth ∧ Wire.serialize cfg m' = .ok auth' ∧
      P.hmacMd5 key.val (micInput neg chal auth (micOffset m)) =
        P.hmacMd5 key.val (micInput neg' chal' auth' (micOffset m')) ∧
      (¬ (n = n' ∧ ch = ch' ∧ sameButMic m m') →
        micInput neg chal auth (micOffset m) ≠ micInput neg' chal' auth' (micOffset m')) := by
  obtain ⟨h1, h2, h3, hre⟩ := (computeMic_eq P cfg m key hk n ch r).mp hr
  obtain ⟨h1', h2', h3', hre'⟩ := (computeMic_eq P cfg m' key hk' n' ch' r').mp hr'
  have s1 := (serialize_negotiate cfg n _).mpr ⟨h1, rfl⟩
  have s2 := (serialize_challenge cfg ch _).mpr ⟨h2, rfl⟩
  have s3 := (serialize_authenticate cfg m _).mpr ⟨h3, rfl⟩
  have s1' := (serialize_negotiate cfg n' _).mpr ⟨h1', rfl⟩
  have s2' := (serialize_challenge cfg ch' _).mpr ⟨h2', rfl⟩
  have s3' := (serialize_authenticate cfg m' _).mpr ⟨h3', rfl⟩
  refine ⟨_, _, _, _, _, _, s1, s1', s2, s2', s3, s3', ?_, ?_⟩
  · rw [hre, hre'] at hmic
    simp only [micInput, zeroAt_bytes]
    exact hmic
  · intro hd e
    exact hd ((C75_mic_input cfg cfg n n' ch ch' m m' _ _ _ _ _ _ s1 s2 s3 s1' s2' s3').mp e)

/-- With a keyed hash that is constant, a changed challenge goes unnoticed, and the theorem shows where: two different strings with
    the same hash. -/
example (P : Prims) (cfg : Cfg) (hP : P.hmacMd5 = fun _ _ => Bytes.zero 16) : ∃ neg chal chal' auth,
    Wire.serialize cfg exNegotiate = .ok neg ∧ Wire.serialize cfg exChallenge = .ok chal ∧
    Wire.serialize cfg plainChallenge = .ok chal' ∧ Wire.serialize cfg exAuthenticate = .ok auth ∧
    micInput neg chal auth 64 ≠ micInput neg chal' auth 64 := by
  have hr (ch : Challenge) (hc : challengeFits ch) := (computeMic_eq P cfg exAuthenticate (Bytes.zero 16) rfl exNegotiate ch _).mpr
    ⟨exNegotiate_fits, hc, exAuthenticate_fits, rfl⟩
  obtain ⟨neg, neg', chal, chal', auth, auth', h1, h2, h3, h4, h5, h6, _, h8⟩ := C75_mic_binds P cfg _ _ exChallenge plainChallenge
    _ _ _ _ (Bytes.zero 16) rfl rfl (hr _ exChallenge_fits) (hr plainChallenge exChallenge_fits) (by simp only [hP])
  rw [h1] at h2
  rw [h5] at h6
  cases h2
  cases h6
  refine ⟨neg, chal, chal', auth, h1, h3, h4, h5, h8 fun h => ?_⟩
  exact absurd (congrArg Challenge.negotiateFlags h.2.1) (by decide)

/-! ### C76 -/

theorem temp_inj {t t' : FileTime} {c c' : Bytes 8} {l l' : List AvPair} (hl : ∀ p ∈ l, avPairFits p)
    (hl' : ∀ p ∈ l', avPairFits p) (h : ntlmv2Temp t c l = ntlmv2Temp t' c' l') : t = t' ∧ c = c' ∧ l = l' := by
  simp only [ntlmv2Temp, List.append_assoc] at h
  obtain ⟨_, h⟩ := split_eq h rfl
  obtain ⟨_, h⟩ := split_eq h rfl
  obtain ⟨h1, h⟩ := split_eq h (by simp only [fileTimeBytes, List.length_append, length_le])
  obtain ⟨h2, h⟩ := split_eq h (by rw [c.property, c'.property])
  obtain ⟨_, h⟩ := split_eq h rfl
  exact ⟨fileTimeBytes_inj h1, Subtype.ext h2, avListBytes_inj hl hl' (List.append_cancel_right h)⟩

/-- C76: the string under the NTLMv2 proof determines the server challenge, the time, the client challenge and the target
    information. -/
theorem C76_proof_input (server server' client client' : Bytes 8) (t t' : FileTime) (infos infos' : List AvPair)
    (hf : ∀ p ∈ infos, avPairFits p) (hf' : ∀ p ∈ infos', avPairFits p) :
    server.val ++ ntlmv2Temp t client infos = server'.val ++ ntlmv2Temp t' client' infos' ↔
      server = server' ∧ t = t' ∧ client = client' ∧ infos = infos' := by
  constructor
  · intro h
    obtain ⟨h1, h⟩ := split_eq h (by rw [server.property, server'.property])
    exact ⟨Subtype.ext h1, temp_inj hf hf' h⟩
  · rintro ⟨rfl, rfl, rfl, rfl⟩
    rfl

/-- Dropping the terminator is noticed, although four zero bytes follow it anyway. -/
example (s c : Bytes 8) (t : FileTime) : s.val ++ ntlmv2Temp t c [.eol] ≠ s.val ++ ntlmv2Temp t c [] := by
  intro e
  have := ((C76_proof_input s s c c t t [.eol] [] (by simp [avPairFits, avValueBytes]) (by simp)).mp e).2.2.2
  simp at this

/-- C76: two responses with the same proof, under the same key, to different server challenges or with different contents, are a
    collision of HMAC-MD5. -/
theorem C76_binds (P : Prims) (cfg : Cfg) (flags flags' : Flags) (keyNt keyLm keyLm' : Bytes 16)
    (server server' client client' : Bytes 8) (given given' : Option FileTime) (infos infos' : List AvPair)
    (clock clock' : SystemTime) (proof sbk sbk' : Bytes 16) (lm lm' : Lmv2Challenge) (nt nt' : Ntv2Challenge)
    (h : ntlmv2Response P cfg flags keyNt keyLm server client given infos clock = .ok (proof, lm, nt, sbk))
    (h' : ntlmv2Response P cfg flags' keyNt keyLm' server' client' given' infos' clock' = .ok (proof, lm', nt', sbk')) :
    let x := server.val ++ ntlmv2Temp nt.timestamp nt.challengeFromClient nt.targetInfos
    let x' := server'.val ++ ntlmv2Temp nt'.timestamp nt'.challengeFromClient nt'.targetInfos
    proof = P.hmacMd5 keyNt.val x ∧ proof = P.hmacMd5 keyNt.val x' ∧ (x = x' ↔ server = server' ∧ nt = nt') := by
  have key : ∀ {flags keyLm server client given infos clock proof lm nt sbk},
      ntlmv2Response P cfg flags keyNt keyLm server client given infos clock = .ok (proof, lm, nt, sbk) →
      (∀ p ∈ nt.targetInfos, avPairFits p) ∧
        proof = P.hmacMd5 keyNt.val (server.val ++ ntlmv2Temp nt.timestamp nt.challengeFromClient nt.targetInfos) := by
    intro flags keyLm server client given infos clock proof lm nt sbk h
    have ht : ∃ t, timeUsed given clock t := Classical.byContradiction fun hc => by
      rw [(C28_failure P cfg flags keyNt keyLm server client given infos clock).1 hc] at h
      cases h
    have hf : ∀ p ∈ infos, avPairFits p := Classical.byContradiction fun hc => by
      rw [(C28_failure P cfg flags keyNt keyLm server client given infos clock).2 ht hc] at h
      cases h
    obtain ⟨t, ht⟩ := ht
    obtain ⟨p, l, n, s, e, e1, _, _, _, e2, e3, e4⟩ := C28_ntlmv2 P cfg flags keyNt keyLm server client given infos clock t ht hf
    rw [e] at h
    cases h
    rw [e2, e3, e4]
    exact ⟨hf, e1⟩
  obtain ⟨f, e⟩ := key h
  obtain ⟨f', e'⟩ := key h'
  refine ⟨e, e', ?_⟩
  rw [C76_proof_input _ _ _ _ _ _ _ _ f f']
  obtain ⟨a, b, c⟩ := nt
  obtain ⟨a', b', c'⟩ := nt'
  simp only [Ntv2Challenge.mk.injEq]

/-- Two answers that differ in the time only. -/
example (P : Prims) (cfg : Cfg) (hP : P.hmacMd5 = fun _ _ => Bytes.zero 16) (k : Bytes 16) (s c : Bytes 8) :
    ∃ x x' : List UInt8, x ≠ x' ∧ P.hmacMd5 k.val x = P.hmacMd5 k.val x' ∧ x.take 8 = s.val ∧ x'.take 8 = s.val := by
  have hf : ∀ p ∈ [AvPair.eol], avPairFits p := by simp [avPairFits, avValueBytes]
  obtain ⟨p, lm, nt, sbk, h, e, _, _, _, e1, _⟩ := C28_ntlmv2 P cfg ⟨0⟩ k k s c (some ⟨1, 2⟩) [.eol] ⟨0, 0⟩ _ (.inl rfl) hf
  obtain ⟨p', lm', nt', sbk', h', e', _, _, _, e1', _⟩ := C28_ntlmv2 P cfg ⟨0⟩ k k s c (some ⟨2, 2⟩) [.eol] ⟨0, 0⟩ _ (.inl rfl) hf
  have hp : p = p' := by rw [e, e', hP]
  subst hp
  obtain ⟨h1, h2, h3⟩ := C76_binds P cfg _ _ k k k s s c c _ _ _ _ _ _ p sbk sbk' lm lm' nt nt' h h'
  refine ⟨_, _, fun hx => ?_, h1.symm.trans h2, List.take_left' s.property, List.take_left' s.property⟩
  have := (h3.mp hx).2
  rw [this, e1'] at e1
  cases e1

end Ntlm.Props
