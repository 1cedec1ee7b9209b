import Verif.Props.Session
/-
  C39, C46: what the peer makes of the messages, and whether a hostile peer can keep the client from answering.
-/
namespace Ntlm.Props

open Spec Client

/-! ### C39 -/

/-- What an encoded AUTHENTICATE message reads back as. -/
theorem authenticate_reads (cfg : Cfg) (m : Authenticate) (h : authenticateFits m) (hv : versionOk m.negotiateFlags m.version)
    (hn : ntOk cfg m.ntChallengeResponse) :
    (Wire.deserialize cfg : Parser Authenticate) (authenticateBytes m) =
      .ok ((⟨m.lmChallengeResponse.map (lmReadBack m.negotiateFlags), m.ntChallengeResponse,
          (m.domain.filter fun x => !x.s.isEmpty).map fun x => (⟨x.s.takeWhile plainChar⟩ : UnicodeString),
          (m.user.filter fun x => !x.s.isEmpty).map fun x => (⟨x.s.takeWhile plainChar⟩ : UnicodeString),
          (m.workstation.filter fun x => !x.s.isEmpty).map fun x => (⟨x.s.takeWhile plainChar⟩ : UnicodeString),
          if m.negotiateFlags.bits.toNat.testBit 30 then m.encryptedRandomSessionKey else none,
          m.negotiateFlags, m.version, m.mic, none⟩ : Authenticate), []) := by
  show Authenticate.deserialize cfg _ = _
  unfold Authenticate.deserialize
  have hh := authenticate_header cfg m h (auV m ++ (m.mic.val ++ (payload (auL m) ++ (payload (auN m) ++
    (payload (auD m) ++ (payload (auU m) ++ (payload (auW m) ++ payload (auK m))))))))
  rw [← authenticateBytes_eq] at hh
  rw [hh]
  simp only []
  rw [version_rest cfg _ _ hv]
  simp only []
  rw [dec_bytes cfg m.mic]
  simp only []
  rw [authenticate_body cfg m h, (ntField_iff cfg m h).mpr hn]

theorem readText_eq (s : Option Str) :
    ((s.map UnicodeString.mk).filter fun x => !x.s.isEmpty).map (fun x => (⟨x.s.takeWhile plainChar⟩ : UnicodeString)) =
      s.bind readText := by
  cases s with
  | none => rfl
  | some s => cases s <;> rfl

/-- C39: an NTLMv2 message can always be decoded by a peer to which its time and the echoed target info are acceptable (as they
    are to the peer that sent the challenge), to the message the client holds: every component unchanged, except that an empty text
    is read as absent, a text is read up to the first NUL or character beyond the BMP, and the session key is not transmitted. -/
theorem C39_v2_decodes_partial (P : Prims) (cm : CaseMap) (cfg : Cfg) (ver : UInt32) (hver : isV2 ver) (l : Login) (c : Client)
    (hc : created P cm l c) (h : List Op) (ch : Challenge) (rnd : AuthRand) (b : List UInt8)
    (hf : firstAnswer P cfg ver c h ch rnd b) (peer : Cfg) (ht : ∀ t, clientTime ch.targetInfos rnd.clock t → timeOk peer t)
    (hp : ∀ p ∈ ch.targetInfos, pairOk peer p) :
    ∃ n a w, (run P cfg ver c h).state = .authenticateSent n ch a ∧ workstationIs cm l.env w ∧
      a.domain = some ⟨l.domain⟩ ∧ a.user = some ⟨l.user⟩ ∧ a.workstation = w.map UnicodeString.mk ∧
      (Wire.deserialize peer : Parser Authenticate) b =
        .ok ({ a with domain := readText l.domain, user := readText l.user, workstation := w.bind readText,
                      exportedSessionKey := none }, []) := by
  obtain ⟨n, a, hn, hnf, hst, rfl, haf, hm⟩ := firstAnswer_state P cm cfg ver l c hc h ch rnd b hf
  obtain ⟨hd, hu, hw, _, _, hv⟩ := created_fields hc
  obtain ⟨t, htt, _, hcf, hpf, rfl⟩ := (v2_message P cfg hver rnd c hv n ch [] a).mp hm
  have hbit : ∀ k, (v2Msg P rnd c n ch t).negotiateFlags.bits.toNat.testBit k = decide (k = 0 ∨ k = 2 ∨ k = 23 ∨ k = 30) := by
    intro k
    have : bit (finalFlags Flags.default) k ↔ k = 0 ∨ k = 2 ∨ k = 23 ∨ k = 30 := by
      rw [finalFlags_bit, default_bit]; omega
    rw [Bool.eq_iff_iff, decide_eq_true_iff]
    exact this
  refine ⟨n, _, c.workstation, hst, hw, by rw [← hd]; rfl, by rw [← hu]; rfl, rfl, ?_⟩
  rw [authenticate_reads peer _ haf ⟨by rw [hbit]; simp [v2Msg, v2Pre], by simp [v2Msg, v2Pre]⟩ ⟨ht t htt, hp⟩]
  have h1 := readText_eq (some l.domain)
  have h2 := readText_eq (some l.user)
  have h3 := readText_eq c.workstation
  rw [hbit]
  simp only [v2Msg, v2Pre, hd, hu] at *
  rw [h3]
  simp only [Option.map_some, Option.bind_some] at h1 h2
  rw [h1, h2]
  have e : lmReadBack (finalFlags Flags.default) (.v2 ⟨P.hmacMd5 c.ntlmv2Hash.val (ch.serverChallenge.val ++ rnd.clientChallenge.val),
      rnd.clientChallenge⟩) = .v2 ⟨P.hmacMd5 c.ntlmv2Hash.val (ch.serverChallenge.val ++ rnd.clientChallenge.val), rnd.clientChallenge⟩ := by
    have := (lmReadBack_iff (finalFlags Flags.default) (some (.v2 ⟨P.hmacMd5 c.ntlmv2Hash.val (ch.serverChallenge.val ++ rnd.clientChallenge.val),
      rnd.clientChallenge⟩))).mpr (by simp only [lmOk]; exact hbit 9)
    exact Option.some.inj this
  simp only [Option.map_some, e]
  rfl

/-- C39: an NTLMv1 message is decoded exactly when the challenge did not have the VERSION flag (25); then it is read as the message
    the client holds, with the same provisos, and with the LM response read as an LMv2 response unless the challenge has the NTLM
    flag (9). -/
theorem C39_v1_decodes_partial (P : Prims) (cm : CaseMap) (cfg : Cfg) (ver : UInt32) (hver : isV1 ver) (l : Login) (c : Client)
    (hc : created P cm l c) (h : List Op) (ch : Challenge) (hv25 : ¬ bit ch.negotiateFlags 25) (rnd : AuthRand) (b : List UInt8)
    (hf : firstAnswer P cfg ver c h ch rnd b) (peer : Cfg) :
    ∃ n a w, (run P cfg ver c h).state = .authenticateSent n ch a ∧ workstationIs cm l.env w ∧
      a.domain = some ⟨l.domain⟩ ∧ a.user = some ⟨l.user⟩ ∧ a.workstation = w.map UnicodeString.mk ∧
      ∃ lm, lmBytes lm = fieldBytes b 12 ∧ ((∃ x, lm = .v1 x) ↔ bit ch.negotiateFlags 9) ∧
        (bit ch.negotiateFlags 9 → a.lmChallengeResponse = some lm) ∧
        (Wire.deserialize peer : Parser Authenticate) b =
          .ok ({ a with lmChallengeResponse := some lm, domain := readText l.domain, user := readText l.user,
                        workstation := w.bind readText, exportedSessionKey := none }, []) := by
  obtain ⟨n, a, hn, hnf, hst, rfl, haf, hm⟩ := firstAnswer_state P cm cfg ver l c hc h ch rnd b hf
  obtain ⟨hd, hu, hw, _, _, hv⟩ := created_fields hc
  rw [v1_message P cfg hver rnd c hv] at hm
  cases hm
  have hb9 : bit (finalFlags ch.negotiateFlags) 9 ↔ bit ch.negotiateFlags 9 := by
    rw [finalFlags_bit]; simp
  have hb25 : ¬ bit (finalFlags ch.negotiateFlags) 25 := by
    rw [finalFlags_bit]; simp [hv25]
  have hb30 : (finalFlags ch.negotiateFlags).bits.toNat.testBit 30 = true := by
    have : bit (finalFlags ch.negotiateFlags) 30 := by rw [finalFlags_bit]; simp
    exact this
  refine ⟨n, _, c.workstation, hst, hw, by rw [← hd]; rfl, by rw [← hu]; rfl, rfl,
    lmReadBack (finalFlags ch.negotiateFlags) (.v1 (v1Resp P ver rnd c ch).1), ?_, ?_, ?_, ?_⟩
  · rw [(sent_layout _ haf rfl).2.2.2.2.1.1]
    show lmBytes (lmReadBack _ _) = lmBytes (.v1 (v1Resp P ver rnd c ch).1)
    simp only [lmReadBack]
    split
    · rfl
    · simp only [lmBytes, List.take_append_drop]
  · rw [← hb9]
    simp only [lmReadBack, bit]
    split
    · next h9 => simp [h9]
    · next h9 => simp [h9]
  · intro h9
    rw [← hb9] at h9
    simp only [bit] at h9
    simp only [lmReadBack, h9, if_true]
    rfl
  · rw [authenticate_reads peer _ haf ⟨?_, by simp [v1Msg]⟩ (by trivial)]
    · have h1 := readText_eq (some l.domain)
      have h2 := readText_eq (some l.user)
      have h3 := readText_eq c.workstation
      simp only [Option.map_some, Option.bind_some] at h1 h2
      simp only [v1Msg, hd, hu, h1, h2, h3, hb30, if_true, Option.map_some]
    · simp only [bit] at hb25
      simp [v1Msg, hb25]

/-- `plainChallenge` has no VERSION flag; a first answer to it exists at every NTLMv1 level. -/
example (P : Prims) (cm : CaseMap) (cfg peer : Cfg) : ∃ c b m, created P cm exLogin c ∧
    firstAnswer P cfg 2 c (exHistory plainChallenge ++ [.sendAuthenticate exRand []]) plainChallenge exRand b ∧
    (Wire.deserialize peer : Parser Authenticate) b = .ok (m, []) ∧ m.user = readText "user".toList := by
  obtain ⟨c, b, hc, hf⟩ := exFirst_v1 P cm cfg 2 (by simp [isV1]) plainChallenge exRand
  obtain ⟨n, a, w, _, _, _, _, _, lm, _, _, _, h⟩ := C39_v1_decodes_partial P cm cfg 2 (by simp [isV1]) exLogin c hc _ plainChallenge
    (by simp only [bit]; decide) exRand b hf peer
  exact ⟨c, b, _, hc, hf, h, rfl⟩

/-- C39 is false in general: if the challenge has the VERSION flag, as those of Windows servers do, no peer can decode the
    answer of an NTLMv1 client: the flag is repeated but the version block is missing. -/
theorem C39_refuted (P : Prims) (cm : CaseMap) (cfg : Cfg) (ver : UInt32) (hver : isV1 ver) (l : Login) (h : List Op)
    (ch : Challenge) (hv25 : bit ch.negotiateFlags 25) (rnd : AuthRand) (b : List UInt8)
    (hb : Answers P cm cfg ver l h ch rnd b) (peer : Cfg) :
    ¬ panics ((Wire.deserialize peer : Parser Authenticate) b) ∧
      ∀ m r, (Wire.deserialize peer : Parser Authenticate) b ≠ .ok (m, r) := by
  have hz := C32_v1_zero P cm cfg ver hver l h ch rnd b hb
  have hfl := (C38_v1 P cm cfg ver hver l h ch rnd b hb 25).mpr (by simp [hv25])
  constructor
  · rw [C07_authenticate_panics_iff]
    rintro ⟨_, hv, _⟩
    have h71 := (hv hfl).2.2.2.2
    have : byteAt b 71 = byteAt (bytesAt b 64 16) 7 := by
      simp only [byteAt, bytesAt, List.getD_eq_getElem?_getD, List.getElem?_take, List.getElem?_drop]
      rfl
    rw [this, hz] at h71
    exact absurd h71 (by decide)
  · intro m r hm
    rcases ((C51_authenticate_contents peer b m r).mp hm).2.2.2.1 with ⟨_, x, _, h15, hx⟩ | ⟨hn, _⟩
    · have h8 : bytesAt b 64 8 = (bytesAt b 64 16).take 8 := by simp [bytesAt, List.take_take]
      rw [h8, hz] at hx
      have := congrArg (fun l => byteAt l 7) hx
      simp [versionBytes, le, h15, byteAt] at this
    · exact hn hfl

/-- `exChallenge` has the flag. -/
example (P : Prims) (cm : CaseMap) (cfg : Cfg) : ∃ b, bit exChallenge.negotiateFlags 25 ∧
    Answers P cm cfg 2 exLogin (exHistory exChallenge) exChallenge exRand b := by
  obtain ⟨b, hb⟩ := exAnswers_v1 P cm cfg 2 (by simp [isV1])
  exact ⟨b, by simp only [bit]; decide, hb⟩

/-- A first answer exists at every NTLMv2 level. -/
example (P : Prims) (cm : CaseMap) (cfg : Cfg) (ver : UInt32) (hver : isV2 ver) :
    ∃ c h rnd b, created P cm exLogin c ∧ firstAnswer P cfg ver c h exChallenge rnd b ∧
      (∀ t, clientTime exChallenge.targetInfos rnd.clock t → timeOk cfg t) ∧ ∀ p ∈ exChallenge.targetInfos, pairOk cfg p := by
  obtain ⟨b, hb⟩ := exAnswers_v2 P cm cfg ver hver
  obtain ⟨c, hc, hf⟩ := exFirstAnswer P cm cfg ver hver.2 exChallenge exRand b hb [] (by simp)
  have hp : ∀ p ∈ exChallenge.targetInfos, pairOk cfg p := (exChallenge_ok cfg).2.2.2
  refine ⟨c, _, _, b, hc, hf, ?_, hp⟩
  rintro t (⟨x, y, hxy, _⟩ | ⟨h, _⟩)
  · exact hp (.timestamp t) (by rw [hxy]; simp)
  · exact absurd (show AvPair.timestamp ⟨5, 7⟩ ∈ exChallenge.targetInfos by simp [exChallenge]) (h _)

/-! ### C46 -/

theorem exLogin_names (cm : CaseMap) : namesFit cm exLogin := by
  refine ⟨by decide, by decide, by decide, ?_⟩
  rintro w (⟨n, hn, hw⟩ | ⟨h, _⟩ | ⟨h, _⟩)
  · cases hn; cases hw; decide
  · cases h
  · cases h

/-- C46: exactly when `send_authenticate` gives an answer to an accepted challenge.  The client must have been constructible, the
    level must exist, the names must fit their length fields; and for NTLMv2, the clock must be at or after 1970 if the challenge
    carries no time, and the challenge must fit its own length fields, with a target info of at most 65507 bytes. -/
theorem C46_answers_iff (P : Prims) (cm : CaseMap) (cfg : Cfg) (ver : UInt32) (l : Login) (h : List Op) (ch : Challenge)
    (hacc : accepted h ch) (rnd : AuthRand) :
    (∃ b, Answers P cm cfg ver l h ch rnd b) ↔
      (∃ c, created P cm l c) ∧ namesFit cm l ∧
        (isV1 ver ∨ (isV2 ver ∧ (∃ t, clientTime ch.targetInfos rnd.clock t) ∧ challengeFits ch ∧
          (avListBytes ch.targetInfos).length ≤ 65507)) := by
  have hnames : ∀ c, created P cm l c → ((utf8Bytes l.domain).length ≤ 65535 ∧ strFits utf16le (some c.domain) ∧
      strFits utf16le (some c.username) ∧ strFits utf16le c.workstation ↔ namesFit cm l) := by
    intro c hc
    obtain ⟨hd, hu, hw, _⟩ := created_fields hc
    simp only [namesFit, strFits, Option.some.injEq, forall_eq', hd, hu]
    constructor
    · rintro ⟨h0, h1, h2, h3⟩
      obtain ⟨w0, _, hu0⟩ := C23_unambiguous cm l.env
      exact ⟨h0, h1, h2, fun w hw' => h3 w ((hu0 _ hw).trans (hu0 _ hw').symm)⟩
    · rintro ⟨h0, h1, h2, h3⟩
      exact ⟨h0, h1, h2, fun w hw' => h3 w (hw' ▸ hw)⟩
  have hblob : ∀ t, (ntv2Bytes (v2Blob rnd ch t)).length = 28 + (avListBytes ch.targetInfos).length := by
    intro t
    simp [ntv2Bytes, v2Blob, fileTimeBytes, le, rnd.clientChallenge.property]
    omega
  have hmap : ∀ s : Option Str, (s.map UnicodeString.mk).map (·.s) = s := by
    intro s; cases s <;> rfl
  constructor
  · rintro ⟨b, hb⟩
    rcases Nat.lt_or_ge 5 ver.toNat with h5 | h5
    · obtain ⟨_, hn, _⟩ := (answers_iff P cm cfg ver l h ch rnd b).mp hb
      have := hn.1
      omega
    by_cases h1 : isV1 ver
    · obtain ⟨_, hn, c, hc, hf, _⟩ := (answers_v1 P cm cfg h1 l h ch rnd b).mp hb
      obtain ⟨_, f1, f2, f3⟩ := hf
      refine ⟨⟨c, hc⟩, (hnames c hc).mp ⟨hn.2, f1, f2, ?_⟩, .inl h1⟩
      simpa only [v1Msg, hmap] using f3
    · have h2 : isV2 ver := by simp only [isV1] at h1; exact ⟨by omega, h5⟩
      obtain ⟨_, hn, c, n, t, hc, _, _, ht, hcf, hf, _⟩ := (answers_v2 P cm cfg h2 l h ch rnd b).mp hb
      obtain ⟨f0, f1, f2, f3⟩ := hf
      refine ⟨⟨c, hc⟩, (hnames c hc).mp ⟨hn.2, f1, f2, ?_⟩, .inr ⟨h2, ⟨t, ht⟩, hcf, ?_⟩⟩
      · simpa only [v2Msg, hmap] using f3
      · have := (f0 _ rfl).2
        rw [hblob] at this
        omega
  · rintro ⟨⟨c, hc⟩, hnf, hv⟩
    obtain ⟨hn, f1, f2, f3⟩ := (hnames c hc).mpr hnf
    rcases hv with hv | ⟨hv, ⟨t, ht⟩, hcf, hlen⟩
    · have hng : negotiable ver l.domain := ⟨by simp only [isV1] at hv; omega, hn⟩
      refine ⟨_, (answers_v1 P cm cfg hv l h ch rnd _).mpr ⟨hacc, hng, c, hc, ⟨?_, f1, f2, ?_⟩, rfl⟩⟩
      · intro x hx; cases hx; trivial
      · simpa only [v1Msg, hmap] using f3
    · have hng : negotiable ver l.domain := ⟨hv.2, hn⟩
      obtain ⟨n, hn1, hn2⟩ := (negotiable_iff P cm l c hc ver).mp hng
      refine ⟨_, (answers_v2 P cm cfg hv l h ch rnd _).mpr ⟨hacc, hng, c, n, t, hc, hn1, hn2, ht, hcf, ⟨?_, f1, f2, ?_⟩, rfl⟩⟩
      · intro x hx
        cases hx
        exact ⟨hcf.2.1, by rw [hblob]; omega⟩
      · simpa only [v2Msg, hmap] using f3

/-- Before 1970, an NTLMv2 client answers a challenge with a time, but none without. -/
example (P : Prims) (cm : CaseMap) (cfg : Cfg) :
    (∃ b, Answers P cm cfg 3 exLogin (exHistory exChallenge) exChallenge { exRand with clock := ⟨-1, 0⟩ } b) ∧
    ¬ ∃ b, Answers P cm cfg 3 exLogin (exHistory { exChallenge with targetInfos := [] }) { exChallenge with targetInfos := [] }
      { exRand with clock := ⟨-1, 0⟩ } b := by
  constructor
  · exact (C46_answers_iff P cm cfg 3 _ _ _ (exHistory_accepted _) _).mpr ⟨exLogin_created P cm, exLogin_names cm,
      .inr ⟨by simp [isV2], ⟨⟨5, 7⟩, .inl ⟨[.nbDomainName "DOM".toList], [.eol], rfl, by simp⟩⟩, exChallenge_fits, by decide⟩⟩
  · intro h
    obtain ⟨_, _, h | ⟨_, ⟨t, ⟨_, _, h, _⟩ | ⟨_, h⟩⟩, _⟩⟩ := (C46_answers_iff P cm cfg 3 _ _ _ (exHistory_accepted _) _).mp h
    · simp [isV1] at h
    · simp at h
    · simp [clockTime] at h

/-- C46, NTLMv1: an answer to every challenge. -/
theorem C46_v1 (P : Prims) (cm : CaseMap) (cfg : Cfg) (ver : UInt32) (hver : isV1 ver) (l : Login) (h : List Op) (ch : Challenge)
    (hacc : accepted h ch) (rnd : AuthRand) (c : Client) (hc : created P cm l c) (hn : namesFit cm l) :
    ∃ b, Answers P cm cfg ver l h ch rnd b :=
  (C46_answers_iff P cm cfg ver l h ch hacc rnd).mpr ⟨⟨c, hc⟩, hn, .inl hver⟩

/-- Even the challenge NTLMv2 clients do not answer (see `C46_refuted`). -/
example (P : Prims) (cm : CaseMap) (cfg : Cfg) (ch : Challenge) : ∃ b, Answers P cm cfg 0 exLogin (exHistory ch) ch exRand b := by
  obtain ⟨c, hc⟩ := exLogin_created P cm
  exact C46_v1 P cm cfg 0 (by simp [isV1]) exLogin _ ch (exHistory_accepted _) exRand c hc (exLogin_names cm)

theorem clockTime_exists (clock : SystemTime) (h0 : 0 ≤ clock.secs) (h1 : clock.secs * 1000000 < 2 ^ 64) :
    ∃ t, clockTime clock t := by
  obtain ⟨n, hn⟩ := Int.eq_ofNat_of_zero_le h0
  rw [hn] at h1
  have hlt : n * 1000000 < 18446744073709551616 := by omega
  generalize hv : n * 1000000 = v at hlt
  have hd : v / 4294967296 < 4294967296 := Nat.div_lt_of_lt_mul hlt
  have hm : v % 4294967296 < 4294967296 := Nat.mod_lt _ (by decide)
  have key : fileTimeValue ⟨UInt32.ofNat (v % 4294967296), UInt32.ofNat (v / 4294967296)⟩ = v := by
    simp only [fileTimeValue, UInt32.toNat_ofNat', Nat.mod_eq_of_lt hd, Nat.mod_eq_of_lt hm]
    omega
  exact ⟨⟨UInt32.ofNat (v % 4294967296), UInt32.ofNat (v / 4294967296)⟩, h0, by rw [key, hn]; omega⟩

/-- C46, what holds for NTLMv2: an answer to every decoded challenge whose target info is at most 65507 bytes, if the clock is
    sane. -/
theorem C46_v2_partial (P : Prims) (cm : CaseMap) (cfg : Cfg) (ver : UInt32) (hver : isV2 ver) (l : Login) (h : List Op)
    (i : List UInt8) (ch : Challenge) (r : List UInt8) (hd : (Wire.deserialize cfg : Parser Challenge) i = .ok (ch, r))
    (hlen : (avListBytes ch.targetInfos).length ≤ 65507)
    (hacc : accepted h ch) (rnd : AuthRand) (hclock : 0 ≤ rnd.clock.secs ∧ rnd.clock.secs * 1000000 < 2 ^ 64)
    (c : Client) (hc : created P cm l c) (hn : namesFit cm l) :
    ∃ b, Answers P cm cfg ver l h ch rnd b := by
  refine (C46_answers_iff P cm cfg ver l h ch hacc rnd).mpr ⟨⟨c, hc⟩, hn, .inr ⟨hver, ?_, (decoded_fits hd).1, hlen⟩⟩
  by_cases ht : ∀ x, AvPair.timestamp x ∉ ch.targetInfos
  · obtain ⟨t, ht'⟩ := clockTime_exists rnd.clock hclock.1 hclock.2
    exact ⟨t, .inr ⟨ht, ht'⟩⟩
  · cases hx : firstTimestamp ch.targetInfos with
    | none => exact absurd (firstTimestamp_none.mp hx) ht
    | some t => exact ⟨t, .inl (firstTimestamp_some.mp hx)⟩

/-- The encoding of `exChallenge` is such an input. -/
example (P : Prims) (cm : CaseMap) (cfg : Cfg) : ∃ i, (Wire.deserialize cfg : Parser Challenge) i = .ok (exChallenge, []) ∧
    ∃ b, Answers P cm cfg 3 exLogin (exHistory exChallenge) exChallenge exRand b := by
  obtain ⟨c, hc⟩ := exLogin_created P cm
  have hd := (challenge_roundtrip cfg exChallenge exChallenge_fits).mpr (exChallenge_ok cfg)
  exact ⟨_, hd, C46_v2_partial P cm cfg 3 (by simp [isV2]) exLogin _ _ exChallenge [] hd (by decide) (exHistory_accepted _) exRand
    (by decide) c hc (exLogin_names cm)⟩

/-- A challenge with an oversized target name. -/
def bigChallenge : Challenge :=
  ⟨none, ⟨0⟩, ⟨[1, 2, 3, 4, 5, 6, 7, 8], rfl⟩, [.targetName (List.replicate 32756 'a'), .eol], none⟩

theorem bigChallenge_length : (avListBytes bigChallenge.targetInfos).length = 65520 := by
  have := utf16le_replicate 32756
  simp only [avListBytes, bigChallenge, List.flatMap_cons, List.flatMap_nil, List.append_nil, avPairBytes, avValueBytes,
    List.length_append, this, length_le, List.length_nil]

/-- C46 is false for NTLMv2: there is a byte string that every build accepts as a challenge and to which no client ever gives an
    answer: whatever the login, the history and the randomness, `send_authenticate` aborts. -/
theorem C46_refuted : ∃ i ch, (∀ cfg, (Wire.deserialize cfg : Parser Challenge) i = .ok (ch, [])) ∧
    ∀ P cm cfg ver l c h junk rnd, isV2 ver → created P cm l c → accepted h ch → namesFit cm l →
      ∃ e, resultOf P cfg ver c h (.sendAuthenticate rnd junk) = .error e := by
  have hfit : challengeFits bigChallenge := by
    refine ⟨fun x hx => (nomatch hx), ?_, by rw [bigChallenge_length]; omega⟩
    intro p hp
    simp only [bigChallenge, List.mem_cons, List.not_mem_nil, or_false] at hp
    rcases hp with rfl | rfl
    · simp only [avPairFits, avValueBytes, utf16le_replicate]; omega
    · simp [avPairFits, avValueBytes]
  refine ⟨challengeBytes bigChallenge, bigChallenge, fun cfg => (challenge_roundtrip cfg _ hfit).mpr ?_, ?_⟩
  · refine ⟨⟨by decide, fun v hv => (nomatch hv)⟩, fun x hx => (nomatch hx), .inr rfl, ?_⟩
    intro p hp
    simp only [bigChallenge, List.mem_cons, List.not_mem_nil, or_false] at hp
    rcases hp with rfl | rfl
    · intro c hc
      rw [(List.mem_replicate.mp hc).2]
      decide
    · trivial
  · intro P cm cfg ver l c h junk rnd hver hc hacc hn
    cases hr : resultOf P cfg ver c h (.sendAuthenticate rnd junk) with
    | error e => exact ⟨e, rfl⟩
    | ok b =>
      exfalso
      obtain ⟨_, _, h1 | ⟨_, _, _, h1⟩⟩ := (C46_answers_iff P cm cfg ver l h bigChallenge hacc rnd).mp ⟨b, hacc, c, junk, hc, hr⟩
      · exact not_isV1_of_isV2 hver h1
      · rw [bigChallenge_length] at h1
        omega

/-- The conditions of C46 hold in the usual case. -/
example (P : Prims) (cm : CaseMap) : (∃ c, created P cm exLogin c) ∧ namesFit cm exLogin ∧
    (avListBytes exChallenge.targetInfos).length ≤ 65507 ∧ accepted (exHistory bigChallenge) bigChallenge :=
  ⟨exLogin_created P cm, exLogin_names cm, by decide, exHistory_accepted _⟩

end Ntlm.Props
