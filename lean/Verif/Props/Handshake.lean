import Verif.Lemmas.Sent
import Verif.Props.Names
/-
  C36, C38, C40, C42, C45, C46: what the messages sent by a client contain, for every history of calls.
-/
namespace Ntlm.Props

open Spec Client

/-! ### Helper lemmas -/

theorem created_fields {P : Prims} {cm : CaseMap} {l : Login} {c : Client} (hc : created P cm l c) :
    c.domain = l.domain ∧ c.username = l.user ∧ workstationIs cm l.env c.workstation ∧
      c.ntHash = P.md4 (utf16le l.password) ∧ c.ntlmv2Hash = ntlmv2Hash P cm l ∧ c.version = none := by
  obtain ⟨lm, w, _, hw, rfl⟩ := (created_iff P cm l c).mp hc
  obtain ⟨h1, _⟩ := C26_formula P cm l.password l.user l.domain (P.md4 (utf16le l.password))
  obtain ⟨_, h2⟩ := C26_formula P cm l.password l.user l.domain (ntowfv1 P l.password)
  exact ⟨rfl, rfl, (workstation_iff.mp hw).1, h1, h2.trans (by rw [h1]; rfl), rfl⟩

/-- What is known about the message behind an answer, common to all levels. -/
theorem answers_common (P : Prims) (cm : CaseMap) (cfg : Cfg) (ver : UInt32) (l : Login) (h : List Op) (ch : Challenge)
    (rnd : AuthRand) (b : List UInt8) (hb : Answers P cm cfg ver l h ch rnd b) :
    ∃ c m, created P cm l c ∧ authenticateFits m ∧ m.version = none ∧ b = authenticateBytes m ∧
      m.domain = some ⟨c.domain⟩ ∧ m.user = some ⟨c.username⟩ ∧ m.workstation = c.workstation.map UnicodeString.mk ∧
      ((isV1 ver ∧ m = v1Msg P ver rnd c ch) ∨
        (isV2 ver ∧ ∃ n t, clientTime ch.targetInfos rnd.clock t ∧ negotiateMessage ver c = .ok n ∧
          m = v2Msg P rnd c n ch t)) := by
  have hver : ver.toNat ≤ 5 := ((answers_iff P cm cfg ver l h ch rnd b).mp hb).2.1.1
  by_cases hv : isV1 ver
  · obtain ⟨_, _, c, hc, hf, rfl⟩ := (answers_v1 P cm cfg hv l h ch rnd b).mp hb
    exact ⟨c, _, hc, hf, rfl, rfl, rfl, rfl, rfl, .inl ⟨hv, rfl⟩⟩
  · have hv2 : isV2 ver := by simp only [isV1, isV2] at *; omega
    obtain ⟨_, _, c, n, t, hc, hn, _, ht, _, hf, rfl⟩ := (answers_v2 P cm cfg hv2 l h ch rnd b).mp hb
    exact ⟨c, _, hc, hf, rfl, rfl, rfl, rfl, rfl, .inr ⟨hv2, n, t, ht, hn, rfl⟩⟩

/-! ### C44 -/

/-- C44: after any history the client's names, target and hashes are those given by its login. -/
theorem C44_login (P : Prims) (cm : CaseMap) (cfg : Cfg) (ver : UInt32) (l : Login) (c : Client) (hc : created P cm l c)
    (h : List Op) :
    let c' := run P cfg ver c h
    c'.username = l.user ∧ c'.domain = l.domain ∧ c'.target = l.target ∧ workstationIs cm l.env c'.workstation ∧
      c'.ntHash = P.md4 (utf16le l.password) ∧ c'.ntlmv2Hash = Spec.ntlmv2Hash P cm l ∧
      ∃ x y, lmHalves cm l.password x y ∧ isLmHash P (utf8Bytes x ++ utf8Bytes y) c'.lmHash.val := by
  obtain ⟨h1, h2, h3, h4, h5, h6, h7, _⟩ := C44_credentials P cfg ver c h
  obtain ⟨d, u, w, nt, v2, _⟩ := created_fields hc
  refine ⟨h1.trans u, h2.trans d, ?_, h3 ▸ w, h5.trans nt, h6.trans v2, ?_⟩
  · rw [h7]; obtain ⟨lm, w, _, _, rfl⟩ := (created_iff P cm l c).mp hc; rfl
  · rw [h4]
    obtain ⟨a, b, hab, _, hl⟩ := C59_lm_hash P cm l c hc
    exact ⟨a, b, hab, hl⟩

/-- After an exchange and a second negotiate message. -/
example (P : Prims) (cm : CaseMap) (cfg : Cfg) (ver : UInt32) : ∃ c, created P cm exLogin c ∧
    (run P cfg ver c (exHistory exChallenge ++ [.sendAuthenticate exRand [], .sendNegociate []])).username = "user".toList := by
  obtain ⟨c, hc⟩ := exLogin_created P cm
  exact ⟨c, hc, (C44_login P cm cfg ver exLogin c hc _).1⟩

/-! ### C36 -/

/-- C36: whatever happened before, the negotiate message decodes to a message with exactly the advertised flags, plus
    OEM_DOMAIN_SUPPLIED (12) exactly with a domain, which it carries; never a workstation or a version block. -/
theorem C36_negotiate (P : Prims) (cm : CaseMap) (cfg : Cfg) (ver : UInt32) (l : Login) (c : Client)
    (hc : created P cm l c) (h : List Op) (junk b : List UInt8)
    (hb : resultOf P cfg ver c h (.sendNegociate junk) = .ok b) (peer : Cfg) :
    ∃ n, (Wire.deserialize peer : Parser Negotiate) b = .ok (n, []) ∧
      (∀ k, bit n.negotiateFlags k ↔ k ∈ advertised ver ∨ (k = 12 ∧ l.domain ≠ [])) ∧
      (l.domain = [] → n.domainName = none) ∧ (l.domain ≠ [] → n.domainName = some ⟨l.domain⟩) ∧
      n.workstation = none ∧ n.version = none := by
  obtain ⟨hd, _, _, _, _, hv⟩ := created_fields hc
  have hver : ver.toNat ≤ 5 := by
    apply Classical.byContradiction
    intro hx
    obtain ⟨_, he, _⟩ := C37_unsupported P cm cfg ver (by omega) l c hc h
    rw [he] at hb
    cases hb
  obtain ⟨n, h1, h2, h3, h4, h5⟩ := negotiateMessage_ok hver c hv
  have hs : Wire.serialize cfg n = .ok b := by
    obtain ⟨s, b', e⟩ := run_reset P cfg ver c h
    simp only [resultOf, step, sendNegociate_eq, e, negotiateMessage_reset, h1] at hb
    cases hs : Wire.serialize cfg n with
    | error e => rw [hs] at hb; cases hb
    | ok x => rw [hs] at hb; exact hb
  rw [hd] at h4 h5
  rw [serialize_negotiate, ← serialize_negotiate peer] at hs
  refine ⟨n, (C01_negotiate_roundtrip peer n b hs).mpr ⟨⟨?_, ?_⟩, ?_, ?_⟩, h5, ?_, ?_, h3, h2⟩
  · have := h5 25
    simp only [bit] at this
    rw [this, h2]
    simp only [Option.isSome_none, Bool.false_eq_true, iff_false, advertised]
    split
    · simp
    · split <;> simp
  · intro x hx; rw [h2] at hx; cases hx
  · rw [h4]
    by_cases he : l.domain = []
    · simp [he, notEmptyText]
    · simp [he, notEmptyText]
  · rw [h3]; simp [notEmptyText]
  · intro he; rw [h4, if_pos he]
  · intro he; rw [h4, if_neg he]

/-- Such a message exists at every level. -/
example (P : Prims) (cm : CaseMap) (cfg : Cfg) (ver : UInt32) (hver : ver.toNat ≤ 5) :
    ∃ c b, created P cm exLogin c ∧ resultOf P cfg ver c [] (.sendNegociate []) = .ok b := by
  obtain ⟨c, hc⟩ := exLogin_created P cm
  obtain ⟨n, h1, h2⟩ := (negotiable_iff P cm _ c hc ver).mp (exLogin_negotiable ver hver)
  refine ⟨c, negotiateBytes n, hc, ?_⟩
  simp only [resultOf, step, run, List.foldl_nil, sendNegociate_eq, h1, (serialize_negotiate cfg n _).mpr ⟨h2, rfl⟩]

/-! ### C38 -/

/-- C38: the flags of an NTLMv1 authenticate message: KEY_EXCH (30), TARGET_INFO (23) and REQUEST_TARGET (2) set, OEM (1) and
    TARGET_TYPE_SERVER (17) clear, all others as in the challenge. -/
theorem C38_v1 (P : Prims) (cm : CaseMap) (cfg : Cfg) (ver : UInt32) (hver : isV1 ver) (l : Login) (h : List Op)
    (ch : Challenge) (rnd : AuthRand) (b : List UInt8) (hb : Answers P cm cfg ver l h ch rnd b) (k : Nat) :
    flagAt b 60 k ↔ k = 2 ∨ k = 23 ∨ k = 30 ∨ (k ≠ 1 ∧ k ≠ 17 ∧ bit ch.negotiateFlags k) := by
  obtain ⟨_, _, c, _, hf, rfl⟩ := (answers_v1 P cm cfg hver l h ch rnd b).mp hb
  rw [flagAt_bit (sent_layout _ hf rfl).2.2.1]
  exact finalFlags_bit _ k

/-- At level 2: flag 30 is set although the challenge lacks it, flag 1 is clear although the challenge has it. -/
example (P : Prims) (cm : CaseMap) (cfg : Cfg) : ∃ b, Answers P cm cfg 2 exLogin (exHistory exChallenge) exChallenge exRand b ∧
    flagAt b 60 23 ∧ ¬ flagAt b 60 1 := by
  obtain ⟨b, hb⟩ := exAnswers_v1 P cm cfg 2 (by simp [isV1])
  exact ⟨b, hb, (C38_v1 P cm cfg 2 (by simp [isV1]) _ _ _ _ b hb 23).mpr (by simp),
    fun h => absurd ((C38_v1 P cm cfg 2 (by simp [isV1]) _ _ _ _ b hb 1).mp h) (by simp)⟩

/-- C38: the flags of an NTLMv2 authenticate message are always UNICODE (0), REQUEST_TARGET, TARGET_INFO, KEY_EXCH. -/
theorem C38_v2 (P : Prims) (cm : CaseMap) (cfg : Cfg) (ver : UInt32) (hver : isV2 ver) (l : Login) (h : List Op)
    (ch : Challenge) (rnd : AuthRand) (b : List UInt8) (hb : Answers P cm cfg ver l h ch rnd b) (k : Nat) :
    flagAt b 60 k ↔ k = 0 ∨ k = 2 ∨ k = 23 ∨ k = 30 := by
  obtain ⟨_, _, c, n, t, _, _, _, _, _, hf, rfl⟩ := (answers_v2 P cm cfg hver l h ch rnd b).mp hb
  rw [flagAt_bit (sent_layout _ hf rfl).2.2.1]
  show bit (finalFlags Flags.default) k ↔ _
  rw [finalFlags_bit, default_bit]
  omega

example (P : Prims) (cm : CaseMap) (cfg : Cfg) :
    (∃ b, Answers P cm cfg 2 exLogin (exHistory exChallenge) exChallenge exRand b) ∧
    (∃ b, Answers P cm cfg 3 exLogin (exHistory exChallenge) exChallenge exRand b) :=
  ⟨exAnswers_v1 P cm cfg 2 (by simp [isV1]), exAnswers_v2 P cm cfg 3 (by simp [isV2])⟩

/-! ### C40 -/

/-- C40: the domain, user and workstation fields of every authenticate message. -/
theorem C40_identity (P : Prims) (cm : CaseMap) (cfg : Cfg) (ver : UInt32) (l : Login) (h : List Op) (ch : Challenge)
    (rnd : AuthRand) (b : List UInt8) (hb : Answers P cm cfg ver l h ch rnd b) :
    fieldHolds b 28 (utf16le l.domain) ∧ fieldHolds b 36 (utf16le l.user) ∧
      ∃ w, workstationIs cm l.env w ∧ fieldHolds b 44 (utf16le (w.getD [])) := by
  obtain ⟨c, m, hc, hf, hv, rfl, h1, h2, h3, _⟩ := answers_common P cm cfg ver l h ch rnd b hb
  obtain ⟨hd, hu, hw, _⟩ := created_fields hc
  obtain ⟨_, _, _, _, _, _, hl1, hl2, hl3, _⟩ := sent_layout m hf hv
  rw [h1] at hl1
  rw [h2] at hl2
  rw [h3] at hl3
  refine ⟨by rw [← hd]; exact hl1, by rw [← hu]; exact hl2, c.workstation, hw, ?_⟩
  revert hl3
  cases c.workstation <;> exact id

/-- User `user` of domain `DOM`. -/
example (P : Prims) (cm : CaseMap) (cfg : Cfg) : ∃ b, Answers P cm cfg 3 exLogin (exHistory exChallenge) exChallenge exRand b ∧
    fieldHolds b 28 [0x44, 0, 0x4f, 0, 0x4d, 0] ∧ fieldHolds b 36 [0x75, 0, 0x73, 0, 0x65, 0, 0x72, 0] := by
  obtain ⟨b, hb⟩ := exAnswers_v2 P cm cfg 3 (by simp [isV2])
  have h := C40_identity P cm cfg 3 _ _ _ _ b hb
  exact ⟨b, hb, h.1, h.2.1⟩

/-! ### C42 -/

/-- C42: the NT response field of an NTLMv2 message holds, after 8 fixed bytes, the first timestamp of the challenge or else the
    clock's time, the client nonce, 4 zero bytes, and the target info of the challenge, unchanged and in order. -/
theorem C42_blob (P : Prims) (cm : CaseMap) (cfg : Cfg) (ver : UInt32) (hver : isV2 ver) (l : Login) (h : List Op)
    (ch : Challenge) (rnd : AuthRand) (b : List UInt8) (hb : Answers P cm cfg ver l h ch rnd b) :
    ∃ t, clientTime ch.targetInfos rnd.clock t ∧
      fieldHolds b 20 ([1, 1, 0, 0, 0, 0, 0, 0] ++ fileTimeBytes t ++ rnd.clientChallenge.val ++ [0, 0, 0, 0] ++
        avListBytes ch.targetInfos) := by
  obtain ⟨_, _, c, n, t, _, _, _, ht, _, hf, rfl⟩ := (answers_v2 P cm cfg hver l h ch rnd b).mp hb
  exact ⟨t, ht, (sent_layout _ hf rfl).2.2.2.2.2.1⟩

example (P : Prims) (cm : CaseMap) (cfg : Cfg) : ∃ b, Answers P cm cfg 3 exLogin (exHistory exChallenge) exChallenge exRand b ∧
    ∃ t, fieldHolds b 20 ([1, 1, 0, 0, 0, 0, 0, 0] ++ fileTimeBytes t ++ [1, 2, 3, 4, 5, 6, 7, 8] ++ [0, 0, 0, 0] ++
      avListBytes exChallenge.targetInfos) := by
  obtain ⟨b, hb⟩ := exAnswers_v2 P cm cfg 3 (by simp [isV2])
  obtain ⟨t, _, h⟩ := C42_blob P cm cfg 3 (by simp [isV2]) _ _ _ _ b hb
  exact ⟨b, hb, t, h⟩

/-- C42: there is only one such time. -/
theorem C42_time_unique (infos : List AvPair) (clock : SystemTime) (t t' : FileTime) (h : clientTime infos clock t)
    (h' : clientTime infos clock t') : t = t' :=
  timeUsed_unique (timeUsed_client.mpr h) (timeUsed_client.mpr h')

/-- A challenge with two timestamps (the first counts), and one without. -/
example : clientTime [.nbDomainName [], .timestamp ⟨5, 7⟩, .timestamp ⟨1, 1⟩, .eol] ⟨0, 0⟩ ⟨5, 7⟩ :=
  .inl ⟨[.nbDomainName []], [.timestamp ⟨1, 1⟩, .eol], rfl, by simp⟩
example : clientTime [.nbDomainName [], .eol] ⟨3, 0⟩ ⟨3000000, 0⟩ := .inr ⟨by simp, by decide, by decide⟩

/-! ### C45 -/

/-- C45: an NTLMv2 message contains the client nonce: two answers made with different nonces differ, whatever
    the logins, challenges, histories and primitives. -/
theorem C45_v2 (P : Prims) (cm : CaseMap) (cfg : Cfg) (ver : UInt32) (hver : isV2 ver) (l l' : Login) (h h' : List Op)
    (ch ch' : Challenge) (rnd rnd' : AuthRand) (b b' : List UInt8) (hb : Answers P cm cfg ver l h ch rnd b)
    (hb' : Answers P cm cfg ver l' h' ch' rnd' b') (hne : rnd.clientChallenge ≠ rnd'.clientChallenge) : b ≠ b' := by
  intro e
  obtain ⟨t, _, h1, _⟩ := C42_blob P cm cfg ver hver l h ch rnd b hb
  obtain ⟨t', _, h2, _⟩ := C42_blob P cm cfg ver hver l' h' ch' rnd' b' hb'
  rw [e] at h1
  rw [h1] at h2
  simp only [List.append_assoc, List.append_cancel_left_eq] at h2
  have hl : (fileTimeBytes t).length = (fileTimeBytes t').length := by simp [fileTimeBytes]
  have h3 := List.append_inj h2 hl
  have h4 := List.append_inj h3.2 (by rw [rnd.clientChallenge.property, rnd'.clientChallenge.property])
  exact hne (Subtype.ext h4.1)

/-- Two answers to the same challenge. -/
example (P : Prims) (cm : CaseMap) (cfg : Cfg) : ∃ b b',
    Answers P cm cfg 3 exLogin (exHistory exChallenge) exChallenge exRand b ∧
    Answers P cm cfg 3 exLogin (exHistory exChallenge) exChallenge { exRand with clientChallenge := Bytes.zero 8 } b' ∧
    b ≠ b' := by
  obtain ⟨b, hb⟩ := exAnswers_v2 P cm cfg 3 (by simp [isV2])
  obtain ⟨b', hb'⟩ := exAnswers_v2_rnd P cm cfg 3 (by simp [isV2]) { exRand with clientChallenge := Bytes.zero 8 }
  exact ⟨b, b', hb, hb', C45_v2 P cm cfg 3 (by simp [isV2]) _ _ _ _ _ _ _ _ _ _ hb hb' (by decide)⟩

/-- C45: the same for NTLMv1 when the challenge asks for extended session security (flag 19). -/
theorem C45_v1 (P : Prims) (cm : CaseMap) (cfg : Cfg) (ver : UInt32) (hver : isV1 ver) (l l' : Login) (h h' : List Op)
    (ch ch' : Challenge) (hs : bit ch.negotiateFlags 19) (hs' : bit ch'.negotiateFlags 19) (rnd rnd' : AuthRand)
    (b b' : List UInt8) (hb : Answers P cm cfg ver l h ch rnd b) (hb' : Answers P cm cfg ver l' h' ch' rnd' b')
    (hne : rnd.clientChallenge ≠ rnd'.clientChallenge) : b ≠ b' := by
  have key : ∀ (l : Login) (h : List Op) (ch : Challenge) (rnd : AuthRand) (b : List UInt8),
      bit ch.negotiateFlags 19 → Answers P cm cfg ver l h ch rnd b →
      fieldBytes b 12 = rnd.clientChallenge.val ++ List.replicate 16 0 := by
    intro l h ch rnd b hs hb
    obtain ⟨_, _, c, _, hf, rfl⟩ := (answers_v1 P cm cfg hver l h ch rnd b).mp hb
    have h1 := (sent_layout _ hf rfl).2.2.2.2.1.1
    obtain ⟨_, h27 | h27⟩ := C27_ntlmv1 P ch.negotiateFlags c.ntHash c.lmHash ch.serverChallenge rnd.clientChallenge (ver != 0)
    · rw [h1]; exact h27.2.2
    · exact absurd hs h27.1
  intro e
  have h1 := key l h ch rnd b hs hb
  have h2 := key l' h' ch' rnd' b' hs' hb'
  rw [e, h2] at h1
  have h4 := List.append_inj h1 (by rw [rnd.clientChallenge.property, rnd'.clientChallenge.property])
  exact hne (Subtype.ext h4.1.symm)

example (P : Prims) (cm : CaseMap) (cfg : Cfg) : ∃ b b',
    Answers P cm cfg 1 exLogin (exHistory exChallenge) exChallenge exRand b ∧
    Answers P cm cfg 1 exLogin (exHistory exChallenge) exChallenge { exRand with clientChallenge := Bytes.zero 8 } b' ∧
    b ≠ b' := by
  have hs : bit exChallenge.negotiateFlags 19 := by simp only [bit]; decide
  obtain ⟨b, hb⟩ := exAnswers_v1 P cm cfg 1 (by simp [isV1])
  obtain ⟨b', hb'⟩ := exAnswers_v1_rnd P cm cfg 1 (by simp [isV1]) { exRand with clientChallenge := Bytes.zero 8 }
  exact ⟨b, b', hb, hb', C45_v1 P cm cfg 1 (by simp [isV1]) _ _ _ _ _ _ hs hs _ _ _ _ hb hb' (by decide)⟩

end Ntlm.Props
