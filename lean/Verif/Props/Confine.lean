import Verif.Props.Session
/-
  C63 to C67: what the messages of a client depend on, and what they do not.
-/
namespace Ntlm.Props

open Spec Client

/-! ### Helper lemmas -/

theorem negotiateMessage_congr (ver : UInt32) {c c' : Client} (hd : c.domain = c'.domain) (hv : c.version = c'.version) :
    negotiateMessage ver c = negotiateMessage ver c' := by
  simp only [negotiateMessage, hd, hv]

theorem sendNegociate_result (P : Prims) (cfg : Cfg) (ver : UInt32) (c : Client) (h : List Op) (junk : List UInt8) :
    resultOf P cfg ver c h (.sendNegociate junk) =
      match negotiateMessage ver c with
      | .error e => .error e
      | .ok n => Wire.serialize cfg n := by
  obtain ⟨s, b, e⟩ := run_reset P cfg ver c h
  simp only [resultOf, step, sendNegociate_eq, e, negotiateMessage_reset]
  cases negotiateMessage ver c with
  | error e => rfl
  | ok n => simp only []; cases Wire.serialize cfg n <;> rfl

/-- The message keys depend on the flags only through whether a key exchange is negotiated, and on the random key only
    then. -/
theorem keys_congr (P : Prims) {f f' : Flags} (kek : Bytes 16) {r r' : Bytes 16} (hf : keyExchange f ↔ keyExchange f')
    (hr : keyExchange f → r = r') :
    encryptRandomSessionKey P f kek none r = encryptRandomSessionKey P f' kek none r' := by
  by_cases h : keyExchange f
  · rw [exchange_keys P f h, exchange_keys P f' (hf.mp h), hr h]
  · rw [C31_no_exchange P f _ _ _ h, C31_no_exchange P f' _ _ _ (fun x => h (hf.mpr x))]

theorem v1Resp_congr (P : Prims) {ver ver' : UInt32} {rnd rnd' : AuthRand} {c c' : Client} {ch ch' : Challenge}
    (hf : ch.negotiateFlags = ch'.negotiateFlags) (hs : ch.serverChallenge = ch'.serverChallenge)
    (hv : ver = 0 ↔ ver' = 0) (hnt : c.ntHash = c'.ntHash)
    (hlm : ver = 0 → ¬ bit ch.negotiateFlags 19 → c.lmHash = c'.lmHash)
    (hr : bit ch.negotiateFlags 19 → rnd.clientChallenge = rnd'.clientChallenge) :
    v1Resp P ver rnd c ch = v1Resp P ver' rnd' c' ch' := by
  have hb := hasFlag_bit ch.negotiateFlags Flags.NTLMSSP_NEGOTIATE_EXTENDED_SESSIONSECURITY
  simp only [show Flags.NTLMSSP_NEGOTIATE_EXTENDED_SESSIONSECURITY.toNat % 32 = 19 from rfl] at hb
  simp only [v1Resp, ntlmv1Response, ← hf, ← hs, ← hnt]
  by_cases h : bit ch.negotiateFlags 19
  · simp only [hb.mpr h, if_true, hr h]
  · have h' : ¬ ch.negotiateFlags.hasFlag Flags.NTLMSSP_NEGOTIATE_EXTENDED_SESSIONSECURITY = true := fun x => h (hb.mp x)
    simp only [if_neg h']
    by_cases h0 : ver = 0
    · obtain rfl := hv.mp h0
      subst h0
      simp only [bne_self_eq_false, Bool.false_eq_true, if_false, hlm rfl h]
    · have h0' : ¬ ver' = 0 := fun x => h0 (hv.mpr x)
      have e : (ver != 0) = true := by simpa using h0
      have e' : (ver' != 0) = true := by simpa using h0'
      simp only [e, e', if_true]

/-- Everything an NTLMv1 answer is made of. -/
theorem v1Msg_congr (P : Prims) {ver ver' : UInt32} {rnd rnd' : AuthRand} {c c' : Client} {ch ch' : Challenge}
    (hf : ch.negotiateFlags = ch'.negotiateFlags) (hs : ch.serverChallenge = ch'.serverChallenge)
    (hv : ver = 0 ↔ ver' = 0) (hnt : c.ntHash = c'.ntHash)
    (hlm : ver = 0 → ¬ bit ch.negotiateFlags 19 → c.lmHash = c'.lmHash)
    (hr : bit ch.negotiateFlags 19 → rnd.clientChallenge = rnd'.clientChallenge)
    (hk : keyExchange ch.negotiateFlags → rnd.exportedKey = rnd'.exportedKey)
    (hd : c.domain = c'.domain) (hu : c.username = c'.username) (hw : c.workstation = c'.workstation) :
    v1Msg P ver rnd c ch = v1Msg P ver' rnd' c' ch' := by
  have h1 := v1Resp_congr P hf hs hv hnt hlm hr
  have h2 : v1Kek P ver rnd c ch = v1Kek P ver' rnd' c' ch' := by simp only [v1Kek, h1, hnt, hs]
  have h3 : v1Keys P ver rnd c ch = v1Keys P ver' rnd' c' ch' := by
    simp only [v1Keys, h2]
    exact keys_congr P _ (by rw [hf]) hk
  simp only [v1Msg, h1, h3, hd, hu, hw, hf]

theorem workstation_same {P P' : Prims} {cm : CaseMap} {l l' : Login} {c c' : Client} (hc : created P cm l c)
    (hc' : created P' cm l' c') (he : l.env = l'.env) : c.workstation = c'.workstation := by
  obtain ⟨lm, w, _, h, rfl⟩ := (created_iff P cm l c).mp hc
  obtain ⟨lm', w', _, h', rfl⟩ := (created_iff P' cm l' c').mp hc'
  rw [he, h'] at h
  cases h
  rfl

/-! ### C63 -/

/-- C63: the negotiate message depends on nothing but the protocol level and the domain: clients of different users, with
    different passwords and targets, on different machines, after different histories, return the same bytes. -/
theorem C63_negotiate (P P' : Prims) (cm cm' : CaseMap) (cfg : Cfg) (ver : UInt32) (l l' : Login) (c c' : Client)
    (hc : created P cm l c) (hc' : created P' cm' l' c') (hd : l.domain = l'.domain) (h h' : List Op)
    (junk junk' : List UInt8) :
    resultOf P cfg ver c h (.sendNegociate junk) = resultOf P' cfg ver c' h' (.sendNegociate junk') := by
  obtain ⟨_, v, d, _⟩ := created_state hc
  obtain ⟨_, v', d', _⟩ := created_state hc'
  rw [sendNegociate_result, sendNegociate_result,
    negotiateMessage_congr ver (c := c) (c' := c') (by rw [d, d', hd]) (by rw [v, v'])]

/-- C63: the target given at creation has no effect: whether a client can be created, and everything it ever returns, is the
    same for all targets. -/
theorem C63_target (P : Prims) (cm : CaseMap) (cfg : Cfg) (ver : UInt32) (l : Login) (target : Str) (c : Client)
    (hc : created P cm l c) : ∃ c', created P cm { l with target := target } c' ∧
      ∀ h op, resultOf P cfg ver c' h op = resultOf P cfg ver c h op := by
  have hc' : created P cm { l with target := target } { c with target := target } := by
    obtain ⟨lm, w, h1, h2, rfl⟩ := (created_iff P cm l c).mp hc
    exact (created_iff P cm _ _).mpr ⟨lm, w, h1, h2, rfl⟩
  refine ⟨{ c with target := target }, hc', fun h op => ?_⟩
  have hn : ∀ c : Client, negotiateMessage ver { c with target := target } = negotiateMessage ver c := fun c =>
    negotiateMessage_congr ver rfl rfl
  have hm : ∀ rnd (c : Client), authenticateMessage P cfg ver rnd { c with target := target } = authenticateMessage P cfg ver rnd c := by
    intro rnd c
    simp only [authenticateMessage, authenticateNtlmv1, authenticateNtlmv2, getChallenge, getNegotiate, finishAuthenticate]
  exact simulate_run P cfg ver (fun c => { c with target := target })
    (simulate P cfg ver _ (fun _ _ _ => rfl) (fun _ => rfl) hn hm) c h op

example (P : Prims) (cm : CaseMap) (cfg : Cfg) (ver : UInt32) : ∃ c c', created P cm exLogin c ∧
    created P cm { exLogin with user := "other".toList, password := "secret".toList, target := [], env := ⟨none, none⟩ } c' ∧
    resultOf P cfg ver c [] (.sendNegociate []) = resultOf P cfg ver c' (exHistory exChallenge) (.sendNegociate []) := by
  obtain ⟨c, hc⟩ := exLogin_created P cm
  obtain ⟨r, hr, _⟩ := C24_ascii_partial P cm "secret".toList (by simp [ascii])
  have hc' := (created_iff P cm { exLogin with user := "other".toList, password := "secret".toList, target := [], env := ⟨none, none⟩ } _).mpr
    ⟨r, none, hr, rfl, rfl⟩
  exact ⟨c, _, hc, hc', C63_negotiate P P cm cm cfg ver _ _ _ _ hc hc' rfl _ _ _ _⟩

/-! ### C64 -/

/-- C64: of the challenge, an NTLMv1 answer depends only on the flags and the server challenge. -/
theorem C64_v1 (P : Prims) (cm : CaseMap) (cfg : Cfg) (ver : UInt32) (hver : isV1 ver) (l : Login) (h h' : List Op)
    (ch ch' : Challenge) (rnd : AuthRand) (b : List UInt8) (hb : Answers P cm cfg ver l h ch rnd b) (ha : accepted h' ch')
    (hf : ch.negotiateFlags = ch'.negotiateFlags) (hs : ch.serverChallenge = ch'.serverChallenge) :
    Answers P cm cfg ver l h' ch' rnd b := by
  obtain ⟨_, hn, c, hc, hfit, e⟩ := (answers_v1 P cm cfg hver l h ch rnd b).mp hb
  have hm : v1Msg P ver rnd c ch = v1Msg P ver rnd c ch' :=
    v1Msg_congr P hf hs Iff.rfl rfl (fun _ _ => rfl) (fun _ => rfl) (fun _ => rfl) rfl rfl rfl
  rw [hm] at hfit e
  exact (answers_v1 P cm cfg hver l h' ch' rnd b).mpr ⟨ha, hn, c, hc, hfit, e⟩

/-- C64: of the challenge, an NTLMv2 answer depends only on the server challenge and the target info, apart from its MIC, and its
    encrypted session key, which depends also on whether a key exchange is negotiated.  No flags of the server's change the
    responses. -/
theorem C64_v2 (P : Prims) (cm : CaseMap) (cfg : Cfg) (ver : UInt32) (hver : isV2 ver) (l : Login) (h h' : List Op)
    (ch ch' : Challenge) (rnd : AuthRand) (b b' : List UInt8) (hb : Answers P cm cfg ver l h ch rnd b)
    (hb' : Answers P cm cfg ver l h' ch' rnd b') (hs : ch.serverChallenge = ch'.serverChallenge)
    (ht : ch.targetInfos = ch'.targetInfos) :
    (∀ p ∈ [12, 20, 28, 36, 44], fieldBytes b p = fieldBytes b' p) ∧ u32At b 60 = u32At b' 60 ∧
      ((keyExchange ch.negotiateFlags ↔ keyExchange ch'.negotiateFlags) → zeroMic b = zeroMic b') := by
  obtain ⟨_, _, c, n, t, hc, _, _, h1, _, hf, rfl⟩ := (answers_v2 P cm cfg hver l h ch rnd b).mp hb
  obtain ⟨_, _, c', n', t', hc', _, _, h1', _, hf', rfl⟩ := (answers_v2 P cm cfg hver l h' ch' rnd b').mp hb'
  have hcc : c = c' := by
    have : Except.ok (ε := Panic) c = .ok c' := hc.symm.trans hc'
    exact Except.ok.inj this
  subst hcc
  rw [ht] at h1
  obtain rfl := C42_time_unique _ _ _ _ h1 h1'
  have e1 := sent_layout _ hf rfl
  have e2 := sent_layout _ hf' rfl
  refine ⟨?_, by rw [e1.2.2.1, e2.2.2.1]; rfl, fun hk => ?_⟩
  · intro p hp
    simp only [List.mem_cons, List.not_mem_nil, or_false] at hp
    rcases hp with rfl | rfl | rfl | rfl | rfl
    · rw [e1.2.2.2.2.1.1, e2.2.2.2.2.1.1]; simp only [v2Msg, v2Pre, hs]
    · rw [e1.2.2.2.2.2.1.1, e2.2.2.2.2.2.1.1]; simp only [v2Msg, v2Pre, v2Blob, ht]
    · rw [e1.2.2.2.2.2.2.1.1, e2.2.2.2.2.2.2.1.1]; rfl
    · rw [e1.2.2.2.2.2.2.2.1.1, e2.2.2.2.2.2.2.2.1.1]; rfl
    · rw [e1.2.2.2.2.2.2.2.2.1.1, e2.2.2.2.2.2.2.2.2.1.1]; rfl
  · rw [zeroMic_bytes _ rfl, zeroMic_bytes _ rfl]
    have hkek : v2Kek P rnd c ch t = v2Kek P rnd c ch' t := by simp only [v2Kek, v2Proof, hs, ht]
    have hkeys : v2Keys P rnd c ch t = v2Keys P rnd c ch' t := by
      simp only [v2Keys, hkek]
      exact keys_congr P _ hk (fun _ => rfl)
    congr 1
    simp only [v2Msg, v2Pre, v2Blob, hs, ht, hkeys]

/-- A challenge with other flags, another target name and a version block. -/
def otherChallenge : Challenge :=
  { exChallenge with targetName := none, negotiateFlags := ⟨0x02000201⟩, version := some ⟨6, 1, 7601, 15⟩ }

theorem otherChallenge_fits : challengeFits otherChallenge := by
  refine ⟨fun x hx => by simp [otherChallenge] at hx, exChallenge_fits.2⟩

theorem exAnswers_other (P : Prims) (cm : CaseMap) (cfg : Cfg) :
    ∃ b, Answers P cm cfg 3 exLogin (exHistory otherChallenge) otherChallenge exRand b := by
  obtain ⟨c, hc⟩ := exLogin_created P cm
  have hw := exLogin_workstation hc
  obtain ⟨_, _, hd, hu⟩ := created_state hc
  obtain ⟨n, h1, h2⟩ := (negotiable_iff P cm _ c hc 3).mp (exLogin_negotiable 3 (by decide))
  refine ⟨_, (answers_v2 P cm cfg (by simp [isV2]) _ _ _ _ _).mpr ⟨exHistory_accepted _, exLogin_negotiable 3 (by decide), c, n, ⟨5, 7⟩, hc, h1, h2,
    .inl ⟨[.nbDomainName "DOM".toList], [.eol], rfl, by simp⟩, otherChallenge_fits, ?_, rfl⟩⟩
  refine ⟨?_, ?_, ?_, ?_⟩
  · intro x hx
    simp [v2Msg, v2Pre, v2Blob] at hx
    subst hx
    exact ⟨exChallenge_fits.2.1, by decide⟩
  all_goals
    intro x hx
    simp [v2Msg, v2Pre, hd, hu, hw, exLogin] at hx
    subst hx
    decide

/-- The responses to the two are the same. -/
example (P : Prims) (cm : CaseMap) (cfg : Cfg) : ∃ b b',
    Answers P cm cfg 3 exLogin (exHistory exChallenge) exChallenge exRand b ∧
    Answers P cm cfg 3 exLogin (exHistory otherChallenge) otherChallenge exRand b' ∧ fieldBytes b 20 = fieldBytes b' 20 := by
  obtain ⟨b, hb⟩ := exAnswers_v2 P cm cfg 3 (by simp [isV2])
  obtain ⟨b', hb'⟩ := exAnswers_other P cm cfg
  exact ⟨b, b', hb, hb', (C64_v2 P cm cfg 3 (by simp [isV2]) _ _ _ _ _ _ _ _ hb hb' rfl rfl).1 20 (by simp)⟩

example (P : Prims) (cm : CaseMap) (cfg : Cfg) : ∃ b,
    Answers P cm cfg 1 exLogin (exHistory exChallenge) exChallenge exRand b ∧
    Answers P cm cfg 1 exLogin (exHistory { exChallenge with targetInfos := [] }) { exChallenge with targetInfos := [] } exRand b := by
  obtain ⟨b, hb⟩ := exAnswers_v1 P cm cfg 1 (by simp [isV1])
  exact ⟨b, hb, C64_v1 P cm cfg 1 (by simp [isV1]) _ _ _ _ _ _ _ hb (exHistory_accepted _) rfl rfl⟩

/-! ### C65 -/

/-- C65: at levels 1 and 2, and at level 0 if the challenge asks for extended session security (19), the answer depends on the
    password only through its NT hash. -/
theorem C65_v1 (P : Prims) (cm : CaseMap) (cfg : Cfg) (ver : UInt32) (hver : isV1 ver) (l l' : Login) (c' : Client)
    (hc' : created P cm l' c') (hd : l.domain = l'.domain) (hu : l.user = l'.user) (he : l.env = l'.env)
    (hp : P.md4 (utf16le l.password) = P.md4 (utf16le l'.password)) (h : List Op) (ch : Challenge)
    (hx : ver ≠ 0 ∨ bit ch.negotiateFlags 19) (rnd : AuthRand) (b : List UInt8)
    (hb : Answers P cm cfg ver l h ch rnd b) : Answers P cm cfg ver l' h ch rnd b := by
  obtain ⟨ha, hn, c, hc, hfit, e⟩ := (answers_v1 P cm cfg hver l h ch rnd b).mp hb
  obtain ⟨d, u, _, nt, _⟩ := created_fields hc
  obtain ⟨d', u', _, nt', _⟩ := created_fields hc'
  have hm : v1Msg P ver rnd c ch = v1Msg P ver rnd c' ch :=
    v1Msg_congr P rfl rfl Iff.rfl (by rw [nt, nt', hp]) (fun h0 h19 => by rcases hx with hx | hx <;> contradiction)
      (fun _ => rfl) (fun _ => rfl) (by rw [d, d', hd]) (by rw [u, u', hu]) (workstation_same hc hc' he)
  rw [hm] at hfit e
  exact (answers_v1 P cm cfg hver l' h ch rnd b).mpr ⟨ha, hd ▸ hn, c', hc', hfit, e⟩

/-- C65: at levels 3 to 5 it depends on it only through the NTLMv2 hash. -/
theorem C65_v2 (P : Prims) (cm : CaseMap) (cfg : Cfg) (ver : UInt32) (hver : isV2 ver) (l l' : Login) (c' : Client)
    (hc' : created P cm l' c') (hd : l.domain = l'.domain) (hu : l.user = l'.user) (he : l.env = l'.env)
    (hp : Spec.ntlmv2Hash P cm l = Spec.ntlmv2Hash P cm l') (h : List Op) (ch : Challenge) (rnd : AuthRand) (b : List UInt8)
    (hb : Answers P cm cfg ver l h ch rnd b) : Answers P cm cfg ver l' h ch rnd b := by
  obtain ⟨ha, hn, c, n, t, hc, hneg, hnf, ht, hcf, hfit, e⟩ := (answers_v2 P cm cfg hver l h ch rnd b).mp hb
  obtain ⟨d, u, _, _, v2, v⟩ := created_fields hc
  obtain ⟨d', u', _, _, v2', v'⟩ := created_fields hc'
  have hv2 : c.ntlmv2Hash = c'.ntlmv2Hash := by rw [v2, v2', hp]
  have hdd : c.domain = c'.domain := by rw [d, d', hd]
  have huu : c.username = c'.username := by rw [u, u', hu]
  have hm : v2Msg P rnd c n ch t = v2Msg P rnd c' n ch t := by
    simp only [v2Msg, v2Mic, v2Pre, v2Keys, v2Kek, v2Proof, hv2, hdd, huu, workstation_same hc hc' he]
  rw [hm] at hfit e
  refine (answers_v2 P cm cfg hver l' h ch rnd b).mpr ⟨ha, hd ▸ hn, c', n, t, hc', ?_, hnf, ht, hcf, hfit, e⟩
  rw [← negotiateMessage_congr ver hdd (by rw [v, v'])]
  exact hneg

/-- With a constant MD4 (an extreme case of two passwords with the same hash) all passwords give the same answer. -/
example (P : Prims) (hP : ∀ x y, P.md4 x = P.md4 y) (cm : CaseMap) (cfg : Cfg) : ∃ b,
    Answers P cm cfg 0 exLogin (exHistory exChallenge) exChallenge exRand b ∧
    Answers P cm cfg 0 { exLogin with password := "secret".toList } (exHistory exChallenge) exChallenge exRand b := by
  obtain ⟨b, hb⟩ := exAnswers_v1 P cm cfg 0 (by simp [isV1])
  obtain ⟨r, hr, _⟩ := C24_ascii_partial P cm "secret".toList (by simp [ascii])
  have hc' := (created_iff P cm { exLogin with password := "secret".toList } _).mpr ⟨r, some "WS".toList, hr, rfl, rfl⟩
  exact ⟨b, hb, C65_v1 P cm cfg 0 (by simp [isV1]) exLogin _ _ hc' rfl rfl rfl (hP _ _) _ _ (.inr (by simp only [bit]; decide)) _ _ hb⟩

/-! ### C66 -/

/-- C66: levels 3, 4 and 5 are the same: a client returns the same results at each of them, in every history. -/
theorem C66_levels (P : Prims) (cfg : Cfg) (ver ver' : UInt32) (hver : isV2 ver) (hver' : isV2 ver') (c : Client) (h : List Op)
    (op : Op) : resultOf P cfg ver c h op = resultOf P cfg ver' c h op := by
  have key : ∀ v : UInt32, v = 3 ∨ v = 4 ∨ v = 5 → ∀ c op, step P cfg v c op = step P cfg 3 c op := by
    intro v hv c op
    have hn : ∀ c, negotiateMessage v c = negotiateMessage 3 c := by
      intro c; rcases hv with rfl | rfl | rfl <;> rfl
    have ha : ∀ rnd c, authenticateMessage P cfg v rnd c = authenticateMessage P cfg 3 rnd c := by
      intro rnd c; rcases hv with rfl | rfl | rfl <;> rfl
    cases op <;> simp only [step, sendNegociate, sendAuthenticate, hn, ha]
  have hrun : ∀ v : UInt32, v = 3 ∨ v = 4 ∨ v = 5 → run P cfg v c h = run P cfg 3 c h := by
    intro v hv
    induction h using snocRec with
    | nil => rfl
    | snoc h op ih => rw [run_snoc, run_snoc, ih, key v hv]
  have e := isV2_iff.mp hver
  have e' := isV2_iff.mp hver'
  simp only [resultOf, hrun _ e, hrun _ e', key _ e, key _ e']

example (P : Prims) (cfg : Cfg) (c : Client) :
    resultOf P cfg 3 c (exHistory exChallenge) (.sendAuthenticate exRand []) =
      resultOf P cfg 5 c (exHistory exChallenge) (.sendAuthenticate exRand []) :=
  C66_levels P cfg 3 5 (by simp [isV2]) (by simp [isV2]) c _ _

/-- C66: levels 1 and 2 differ only in the negotiate message: they answer a challenge with the same bytes. -/
theorem C66_answers (P : Prims) (cm : CaseMap) (cfg : Cfg) (l : Login) (h : List Op) (ch : Challenge) (rnd : AuthRand)
    (b : List UInt8) : Answers P cm cfg 1 l h ch rnd b ↔ Answers P cm cfg 2 l h ch rnd b := by
  rw [answers_v1 P cm cfg (ver := 1) (by simp [isV1]), answers_v1 P cm cfg (ver := 2) (by simp [isV1])]
  have hm : ∀ c, v1Msg P 1 rnd c ch = v1Msg P 2 rnd c ch := fun c =>
    v1Msg_congr P rfl rfl (by decide) rfl (fun _ _ => rfl) (fun _ => rfl) (fun _ => rfl) rfl rfl rfl
  have hn : negotiable 1 l.domain ↔ negotiable 2 l.domain := by
    simp only [negotiable, show (1 : UInt32).toNat = 1 from rfl, show (2 : UInt32).toNat = 2 from rfl]
    omega
  simp only [hm, hn]

example (P : Prims) (cm : CaseMap) (cfg : Cfg) : ∃ b, Answers P cm cfg 1 exLogin (exHistory exChallenge) exChallenge exRand b ∧
    Answers P cm cfg 2 exLogin (exHistory exChallenge) exChallenge exRand b := by
  obtain ⟨b, hb⟩ := exAnswers_v1 P cm cfg 1 (by simp [isV1])
  exact ⟨b, hb, (C66_answers P cm cfg _ _ _ _ _).mp hb⟩

/-! ### C67 -/

/-- C67: the randomness in an NTLMv1 answer: the client nonce only with extended session security (19), the random session key
    only with key exchange, never the clock.  So without extended session security and key exchange the answer to a challenge
    is always the same. -/
theorem C67_v1 (P : Prims) (cm : CaseMap) (cfg : Cfg) (ver : UInt32) (hver : isV1 ver) (l : Login) (h : List Op)
    (ch : Challenge) (rnd rnd' : AuthRand) (hr : bit ch.negotiateFlags 19 → rnd.clientChallenge = rnd'.clientChallenge)
    (hk : keyExchange ch.negotiateFlags → rnd.exportedKey = rnd'.exportedKey) (b : List UInt8) :
    Answers P cm cfg ver l h ch rnd b ↔ Answers P cm cfg ver l h ch rnd' b := by
  have hm : ∀ c, v1Msg P ver rnd c ch = v1Msg P ver rnd' c ch := fun c =>
    v1Msg_congr P rfl rfl Iff.rfl rfl (fun _ _ => rfl) hr hk rfl rfl rfl
  rw [answers_v1 P cm cfg hver, answers_v1 P cm cfg hver]
  simp only [hm]

/-- C67: the randomness in an NTLMv2 answer: the client nonce always, the random session key only with key exchange, the
    clock only if the challenge carries no time. -/
theorem C67_v2 (P : Prims) (cm : CaseMap) (cfg : Cfg) (ver : UInt32) (hver : isV2 ver) (l : Login) (h : List Op)
    (ch : Challenge) (rnd rnd' : AuthRand) (hr : rnd.clientChallenge = rnd'.clientChallenge)
    (hk : keyExchange ch.negotiateFlags → rnd.exportedKey = rnd'.exportedKey)
    (ht : (∀ t, AvPair.timestamp t ∉ ch.targetInfos) → rnd.clock = rnd'.clock) (b : List UInt8) :
    Answers P cm cfg ver l h ch rnd b ↔ Answers P cm cfg ver l h ch rnd' b := by
  have hm : ∀ c n t, v2Msg P rnd c n ch t = v2Msg P rnd' c n ch t := by
    intro c n t
    have h1 : v2Kek P rnd c ch t = v2Kek P rnd' c ch t := by simp only [v2Kek, v2Proof, hr]
    have h2 : v2Keys P rnd c ch t = v2Keys P rnd' c ch t := by
      simp only [v2Keys, h1]
      exact keys_congr P _ Iff.rfl hk
    simp only [v2Msg, v2Mic, v2Pre, v2Blob, h2, hr]
  have hc : ∀ t, clientTime ch.targetInfos rnd.clock t ↔ clientTime ch.targetInfos rnd'.clock t := by
    intro t
    simp only [clientTime]
    constructor
    · rintro (h | ⟨h, h'⟩)
      · exact .inl h
      · exact .inr ⟨h, ht h ▸ h'⟩
    · rintro (h | ⟨h, h'⟩)
      · exact .inl h
      · exact .inr ⟨h, (ht h).symm ▸ h'⟩
  rw [answers_v2 P cm cfg hver, answers_v2 P cm cfg hver]
  simp only [hm, hc]

/-- An answer to a challenge without extended session security and key exchange can be foretold. -/
example (P : Prims) (cm : CaseMap) (cfg : Cfg) (rnd : AuthRand) (b : List UInt8) :
    Answers P cm cfg 1 exLogin (exHistory { exChallenge with negotiateFlags := ⟨0x201⟩ }) { exChallenge with negotiateFlags := ⟨0x201⟩ } exRand b ↔
      Answers P cm cfg 1 exLogin (exHistory { exChallenge with negotiateFlags := ⟨0x201⟩ }) { exChallenge with negotiateFlags := ⟨0x201⟩ } rnd b :=
  C67_v1 P cm cfg 1 (by simp [isV1]) _ _ _ _ _ (fun h => absurd h (by simp only [bit]; decide))
    (fun h => absurd h.1 (by simp only [bit]; decide)) b

end Ntlm.Props
