import Verif.Lemmas.Client
import Verif.Props.Crypto
import Verif.Props.Decode
/-
  Lemmas about the client: the authenticate message in closed form.
-/
namespace Ntlm

open Spec Client

/-! ### Creation -/

theorem created_iff (P : Prims) (cm : CaseMap) (l : Login) (c : Client) :
    created P cm l c ↔
      ∃ lm w, lmowfv1 P cm l.password = .ok lm ∧ getWorkstationName cm l.env = .ok w ∧
        c = ⟨.new, l.user, lm, ntowfv1 P l.password, ntowfv2 P cm l.user (ntowfv1 P l.password) l.domain, l.domain, w,
          l.target, [], none⟩ := by
  simp only [created, newWithDomain, computeNtlmHashes]
  cases h1 : lmowfv1 P cm l.password with
  | error e => simp [bind, Except.bind]
  | ok lm =>
    cases h2 : getWorkstationName cm l.env with
    | error e => simp [bind, Except.bind, pure, Except.pure]
    | ok w =>
      simp only [bind, Except.bind, pure, Except.pure, Except.ok.injEq, exists_and_left, exists_eq_left']
      exact ⟨fun h => h.symm, fun h => h.symm⟩

/-! ### The first timestamp -/

theorem firstTimestamp_some {l : List AvPair} {t : FileTime} : firstTimestamp l = some t ↔ hasTimestamp l t := by
  induction l with
  | nil =>
    simp only [firstTimestamp, reduceCtorEq, hasTimestamp, false_iff]
    rintro ⟨b, a, h, _⟩; simp at h
  | cons p l ih =>
    by_cases hp : ∃ x, p = .timestamp x
    · obtain ⟨x, rfl⟩ := hp
      simp only [firstTimestamp, Option.some.injEq]
      constructor
      · rintro rfl; exact ⟨[], l, rfl, by simp⟩
      · rintro ⟨b, a, h, hb⟩
        cases b with
        | nil => simpa using (List.cons.inj h).1
        | cons y b =>
          exfalso
          have := (List.cons.inj h).1
          exact hb x (by simp [this])
    · have e : firstTimestamp (p :: l) = firstTimestamp l := by
        cases p <;> first | rfl | exact absurd ⟨_, rfl⟩ hp
      rw [e, ih]
      constructor
      · rintro ⟨b, a, rfl, hb⟩
        refine ⟨p :: b, a, rfl, fun x hx => ?_⟩
        rcases List.mem_cons.mp hx with h | h
        · exact hp ⟨x, h.symm⟩
        · exact hb x h
      · rintro ⟨b, a, h, hb⟩
        cases b with
        | nil => exact absurd ⟨t, (List.cons.inj h).1⟩ hp
        | cons y b => exact ⟨b, a, (List.cons.inj h).2, fun x hx => hb x (by simp [hx])⟩

theorem firstTimestamp_none {l : List AvPair} : firstTimestamp l = none ↔ ∀ x, AvPair.timestamp x ∉ l := by
  induction l with
  | nil => simp [firstTimestamp]
  | cons p l ih =>
    by_cases hp : ∃ x, p = .timestamp x
    · obtain ⟨x, rfl⟩ := hp
      simp only [firstTimestamp, reduceCtorEq, false_iff]
      intro h; exact h x (by simp)
    · have e : firstTimestamp (p :: l) = firstTimestamp l := by
        cases p <;> first | rfl | exact absurd ⟨_, rfl⟩ hp
      rw [e, ih]
      constructor
      · intro h x hx
        rcases List.mem_cons.mp hx with h' | h'
        · exact hp ⟨x, h'.symm⟩
        · exact h x h'
      · intro h x hx; exact h x (by simp [hx])

theorem timeUsed_client {infos : List AvPair} {clock : SystemTime} {t : FileTime} :
    timeUsed (firstTimestamp infos) clock t ↔ clientTime infos clock t := by
  simp only [timeUsed, clientTime, firstTimestamp_some, firstTimestamp_none]

theorem timeUsed_unique {g : Option FileTime} {clock : SystemTime} {t t' : FileTime} (h : timeUsed g clock t)
    (h' : timeUsed g clock t') : t = t' := by
  rcases h with h | ⟨h, h1⟩ <;> rcases h' with h' | ⟨h', h2⟩
  · rw [h] at h'; simpa using h'
  · rw [h] at h'; cases h'
  · rw [h] at h'; cases h'
  · rw [← now_iff] at h1 h2
    rw [h1] at h2; simpa using h2

/-! ### NTLMv1 -/

/-- The NTLMv1 responses and session base key of a client. -/
def v1Resp (P : Prims) (ver : UInt32) (rnd : AuthRand) (c : Client) (ch : Challenge) :
    Lmv1Challenge × Ntv1Challenge × Bytes 16 :=
  ntlmv1Response P ch.negotiateFlags c.ntHash c.lmHash ch.serverChallenge rnd.clientChallenge (ver != 0)

/-- The key-exchange key an NTLMv1 client uses. -/
def v1Kek (P : Prims) (ver : UInt32) (rnd : AuthRand) (c : Client) (ch : Challenge) : Bytes 16 :=
  P.hmacMd5 (P.md4 c.ntHash.val).val
    (ch.serverChallenge.val ++ (v1Resp P ver rnd c ch).1.response.val.take 8)

/-- The session keys an NTLMv1 client uses: exported and encrypted. -/
def v1Keys (P : Prims) (ver : UInt32) (rnd : AuthRand) (c : Client) (ch : Challenge) : Bytes 16 × Bytes 16 :=
  encryptRandomSessionKey P ch.negotiateFlags (v1Kek P ver rnd c ch) none rnd.exportedKey

/-- The flags of the authenticate message. -/
def finalFlags (f : Flags) : Flags :=
  ((((f.setFlag Flags.NTLMSSP_NEGOTIATE_KEY_EXCH).clearFlag Flags.NTLMSSP_TARGET_TYPE_SERVER).clearFlag
    Flags.NTLM_NEGOTIATE_OEM).setFlag Flags.NTLMSSP_NEGOTIATE_TARGET_INFO).setFlag Flags.NTLMSSP_REQUEST_TARGET

theorem finalFlags_bit (f : Flags) (k : Nat) :
    bit (finalFlags f) k ↔ k = 2 ∨ k = 23 ∨ k = 30 ∨ (k ≠ 1 ∧ k ≠ 17 ∧ bit f k) := by
  simp only [finalFlags, setFlag_bit, clearFlag_bit, show Flags.NTLMSSP_NEGOTIATE_KEY_EXCH.toNat % 32 = 30 from rfl,
    show Flags.NTLMSSP_TARGET_TYPE_SERVER.toNat % 32 = 17 from rfl, show Flags.NTLM_NEGOTIATE_OEM.toNat % 32 = 1 from rfl,
    show Flags.NTLMSSP_NEGOTIATE_TARGET_INFO.toNat % 32 = 23 from rfl, show Flags.NTLMSSP_REQUEST_TARGET.toNat % 32 = 2 from rfl]
  by_cases h : bit f k
  · simp only [h, true_or, true_and, and_true]; omega
  · simp only [h, false_or, and_false, or_false]; omega

/-- The NTLMv1 authenticate message. -/
def v1Msg (P : Prims) (ver : UInt32) (rnd : AuthRand) (c : Client) (ch : Challenge) : Authenticate :=
  ⟨some (.v1 (v1Resp P ver rnd c ch).1), some (.v1 (v1Resp P ver rnd c ch).2.1), some ⟨c.domain⟩, some ⟨c.username⟩,
    c.workstation.map UnicodeString.mk, some (v1Keys P ver rnd c ch).2, finalFlags ch.negotiateFlags, none, Bytes.zero 16,
    some (v1Keys P ver rnd c ch).1⟩

theorem isV1_iff {ver : UInt32} : isV1 ver ↔ ver = 0 ∨ ver = 1 ∨ ver = 2 := by
  have e : ∀ k : UInt32, ver = k ↔ ver.toNat = k.toNat := fun k => UInt32.toNat_inj.symm
  simp only [isV1, e, show (0 : UInt32).toNat = 0 from rfl, show (1 : UInt32).toNat = 1 from rfl, show (2 : UInt32).toNat = 2 from rfl]
  omega

theorem isV2_iff {ver : UInt32} : isV2 ver ↔ ver = 3 ∨ ver = 4 ∨ ver = 5 := by
  have e : ∀ k : UInt32, ver = k ↔ ver.toNat = k.toNat := fun k => UInt32.toNat_inj.symm
  simp only [isV2, e, show (3 : UInt32).toNat = 3 from rfl, show (4 : UInt32).toNat = 4 from rfl, show (5 : UInt32).toNat = 5 from rfl]
  omega

theorem not_isV1_of_isV2 {ver : UInt32} (h : isV2 ver) : ¬ isV1 ver := by
  simp only [isV1, isV2] at *; omega

theorem v1Resp_sbk (P : Prims) (ver : UInt32) (rnd : AuthRand) (c : Client) (ch : Challenge) :
    (v1Resp P ver rnd c ch).2.2 = P.md4 c.ntHash.val := by
  simp only [v1Resp, ntlmv1Response]; split <;> rfl

theorem v1_message (P : Prims) (cfg : Cfg) {ver : UInt32} (hver : isV1 ver) (rnd : AuthRand) (c : Client)
    (hv : c.version = none) (n : Negotiate) (ch : Challenge) (b : List UInt8) :
    authenticateMessage P cfg ver rnd (reset c (.challengeReceived n ch) b) = .ok (v1Msg P ver rnd c ch) := by
  simp only [authenticateMessage, if_pos (isV1_iff.mp hver), authenticateNtlmv1, getChallenge, reset, bind, Except.bind,
    pure, Except.pure]
  have e := v1Resp_sbk P ver rnd c ch
  have hk : kxkey P ch.negotiateFlags (v1Resp P ver rnd c ch).2.2 ((v1Resp P ver rnd c ch).1.response.sub 0 8 (by omega))
      c.lmHash (some ch.serverChallenge) = v1Kek P ver rnd c ch := by
    rw [e]; rfl
  simp only [v1Resp] at hk
  simp only [hk, v1Msg, v1Resp, v1Keys, finishAuthenticate, hv]
  cases hw : c.workstation <;> rfl

/-! ### NTLMv2 -/

/-- The NTLMv2 blob. -/
def v2Blob (rnd : AuthRand) (ch : Challenge) (t : FileTime) : Ntv2Challenge :=
  ⟨t, rnd.clientChallenge, ch.targetInfos⟩

/-- NTProofStr. -/
def v2Proof (P : Prims) (rnd : AuthRand) (c : Client) (ch : Challenge) (t : FileTime) : Bytes 16 :=
  P.hmacMd5 c.ntlmv2Hash.val (ch.serverChallenge.val ++ (ntlmv2Temp t rnd.clientChallenge ch.targetInfos))

/-- The session base key, which NTLMv2 also uses as key-exchange key. -/
def v2Kek (P : Prims) (rnd : AuthRand) (c : Client) (ch : Challenge) (t : FileTime) : Bytes 16 :=
  P.hmacMd5 c.ntlmv2Hash.val (v2Proof P rnd c ch t).val

/-- The session keys an NTLMv2 client uses: exported and encrypted. -/
def v2Keys (P : Prims) (rnd : AuthRand) (c : Client) (ch : Challenge) (t : FileTime) : Bytes 16 × Bytes 16 :=
  encryptRandomSessionKey P ch.negotiateFlags (v2Kek P rnd c ch t) none rnd.exportedKey

/-- The message the MIC is computed from: before the last edits. -/
def v2Pre (P : Prims) (rnd : AuthRand) (c : Client) (ch : Challenge) (t : FileTime) : Authenticate :=
  ⟨some (.v2 ⟨P.hmacMd5 c.ntlmv2Hash.val (ch.serverChallenge.val ++ rnd.clientChallenge.val), rnd.clientChallenge⟩),
    some (.v2 (v2Blob rnd ch t)), some ⟨c.domain⟩, some ⟨c.username⟩, none, some (v2Keys P rnd c ch t).2,
    Flags.default.setFlag Flags.NTLMSSP_NEGOTIATE_KEY_EXCH, none, Bytes.zero 16, some (v2Keys P rnd c ch t).1⟩

/-- The MIC sent. -/
def v2Mic (P : Prims) (rnd : AuthRand) (c : Client) (n : Negotiate) (ch : Challenge) (t : FileTime) : Bytes 16 :=
  P.hmacMd5 (v2Keys P rnd c ch t).1.val (negotiateBytes n ++ challengeBytes ch ++ authenticateBytes (v2Pre P rnd c ch t))

/-- The NTLMv2 authenticate message. -/
def v2Msg (P : Prims) (rnd : AuthRand) (c : Client) (n : Negotiate) (ch : Challenge) (t : FileTime) : Authenticate :=
  { v2Pre P rnd c ch t with
    workstation := c.workstation.map UnicodeString.mk
    negotiateFlags := finalFlags Flags.default
    mic := v2Mic P rnd c n ch t }

/-- Writing the three messages one after another. -/
theorem triple (cfg : Cfg) (n : Negotiate) (ch : Challenge) (m : Authenticate) :
    (negotiateFits n ∧ challengeFits ch ∧ authenticateFits m →
      (do
        let _ ← Wire.serializeInto cfg n
        let _ ← Wire.serializeInto cfg ch
        let _ ← Wire.serializeInto cfg m : W Unit) [] =
        .ok ((), negotiateBytes n ++ challengeBytes ch ++ authenticateBytes m)) ∧
    (¬ (negotiateFits n ∧ challengeFits ch ∧ authenticateFits m) → ∃ p, (p = .fieldLen ∨ p = .stringTooLong) ∧
      (do
        let _ ← Wire.serializeInto cfg n
        let _ ← Wire.serializeInto cfg ch
        let _ ← Wire.serializeInto cfg m : W Unit) [] = .error p) := by
  constructor
  · rintro ⟨h1, h2, h3⟩
    rw [W.bind_ok (enc_negotiate cfg n h1 []), W.bind_ok (enc_challenge cfg ch h2 _), W.bind_ok (enc_authenticate cfg m h3 _)]
    rfl
  · intro h
    by_cases h1 : negotiateFits n
    · rw [W.bind_ok (enc_negotiate cfg n h1 [])]
      by_cases h2 : challengeFits ch
      · rw [W.bind_ok (enc_challenge cfg ch h2 _)]
        obtain ⟨p, hp, hk⟩ := authenticate_err cfg m (fun h3 => h ⟨h1, h2, h3⟩) ([] ++ negotiateBytes n ++ challengeBytes ch)
        exact ⟨p, hk, W.bind_err hp⟩
      · obtain ⟨p, hp, hk⟩ := challenge_err cfg ch h2 ([] ++ negotiateBytes n)
        exact ⟨p, hk, W.bind_err hp⟩
    · exact ⟨_, .inl rfl, W.bind_err (negotiate_err cfg n h1 [])⟩

/-- `compute_mic` in closed form. -/
theorem computeMic_eq (P : Prims) (cfg : Cfg) (m : Authenticate) (key : Bytes 16) (hk : m.exportedSessionKey = some key)
    (n : Negotiate) (ch : Challenge) (r : Authenticate) :
    m.computeMic P cfg n ch = .ok r ↔
      negotiateFits n ∧ challengeFits ch ∧ authenticateFits m ∧
        r = { m with mic := P.hmacMd5 key.val (negotiateBytes n ++ challengeBytes ch ++
          authenticateBytes { m with mic := Bytes.zero 16 }) } := by
  obtain ⟨h1, h2⟩ := triple cfg n ch { m with mic := Bytes.zero 16 }
  have hfit : authenticateFits { m with mic := Bytes.zero 16 } ↔ authenticateFits m := Iff.rfl
  rw [hfit] at h1 h2
  simp only [Authenticate.computeMic]
  split
  · rename_i k e
    rw [hk] at e
    cases e
    by_cases h : negotiateFits n ∧ challengeFits ch ∧ authenticateFits m
    · rw [h1 h]
      simp only [h, true_and, Except.ok.injEq]
      exact ⟨fun h => h.symm, fun h => h.symm⟩
    · obtain ⟨p, _, hp⟩ := h2 h
      rw [hp]
      simp only [reduceCtorEq, false_iff]
      rintro ⟨a, b, c, _⟩
      exact h ⟨a, b, c⟩
  · rename_i e
    rw [hk] at e; cases e

theorem computeMic_err (P : Prims) (cfg : Cfg) (m : Authenticate) (n : Negotiate) (ch : Challenge) (e : Panic)
    (h : m.computeMic P cfg n ch = .error e) : e = .fieldLen ∨ e = .stringTooLong := by
  obtain ⟨h1, h2⟩ := triple cfg n ch { m with mic := Bytes.zero 16 }
  simp only [Authenticate.computeMic] at h
  split at h
  · by_cases hf : negotiateFits n ∧ challengeFits ch ∧ authenticateFits { m with mic := Bytes.zero 16 }
    · rw [h1 hf] at h; cases h
    · obtain ⟨p, hk, hp⟩ := h2 hf
      rw [hp] at h
      cases h
      exact hk
  · cases h

theorem v2_response (P : Prims) (cfg : Cfg) (rnd : AuthRand) (c : Client) (ch : Challenge) (t : FileTime)
    (ht : timeUsed (firstTimestamp ch.targetInfos) rnd.clock t) (hf : ∀ p ∈ ch.targetInfos, avPairFits p) :
    ntlmv2Response P cfg ch.negotiateFlags c.ntlmv2Hash c.ntlmv2Hash ch.serverChallenge rnd.clientChallenge
      (firstTimestamp ch.targetInfos) ch.targetInfos rnd.clock =
      .ok (v2Proof P rnd c ch t,
        ⟨P.hmacMd5 c.ntlmv2Hash.val (ch.serverChallenge.val ++ rnd.clientChallenge.val), rnd.clientChallenge⟩,
        v2Blob rnd ch t, v2Kek P rnd c ch t) := by
  obtain ⟨proof, ⟨l1, l2⟩, ⟨n1, n2, n3⟩, sbk, e, hp, hl1, hl2, hs, hn1, hn2, hn3⟩ := Props.C28_ntlmv2 P cfg ch.negotiateFlags
    c.ntlmv2Hash c.ntlmv2Hash ch.serverChallenge rnd.clientChallenge (firstTimestamp ch.targetInfos) ch.targetInfos
    rnd.clock t ht hf
  simp only at hl1 hl2 hn1 hn2 hn3
  subst hp hl1 hl2 hs hn1 hn2 hn3
  exact e

theorem v2_finish (P : Prims) (rnd : AuthRand) (c : Client) (hv : c.version = none) (n : Negotiate) (ch : Challenge)
    (t : FileTime) (s : ClientState) (b : List UInt8) :
    finishAuthenticate (reset c s b) { v2Pre P rnd c ch t with mic := v2Mic P rnd c n ch t } = v2Msg P rnd c n ch t := by
  simp only [finishAuthenticate, reset, hv, v2Msg]
  cases c.workstation <;> rfl

theorem v2_message (P : Prims) (cfg : Cfg) {ver : UInt32} (hver : isV2 ver) (rnd : AuthRand) (c : Client)
    (hv : c.version = none) (n : Negotiate) (ch : Challenge) (b : List UInt8) (m : Authenticate) :
    authenticateMessage P cfg ver rnd (reset c (.challengeReceived n ch) b) = .ok m ↔
      ∃ t, clientTime ch.targetInfos rnd.clock t ∧ negotiateFits n ∧ challengeFits ch ∧
        authenticateFits (v2Pre P rnd c ch t) ∧ m = v2Msg P rnd c n ch t := by
  simp only [authenticateMessage, if_neg (fun h => not_isV1_of_isV2 hver (isV1_iff.mpr h)), if_pos (isV2_iff.mp hver)]
  have hb : ∀ (x : Except Panic Authenticate) (f : Authenticate → Authenticate),
      (do let a ← x; return f a : Except Panic Authenticate) = .ok m ↔ ∃ a, x = .ok a ∧ f a = m := by
    intro x f
    cases x with
    | error e => simp [bind, Except.bind]
    | ok a => simp [bind, Except.bind, pure, Except.pure]
  rw [hb]
  by_cases ht : ∃ t, timeUsed (firstTimestamp ch.targetInfos) rnd.clock t
  · obtain ⟨t, ht⟩ := ht
    by_cases hf : ∀ p ∈ ch.targetInfos, avPairFits p
    · have e : authenticateNtlmv2 P cfg rnd (reset c (.challengeReceived n ch) b) =
          (v2Pre P rnd c ch t).computeMic P cfg n ch := by
        simp only [authenticateNtlmv2, getChallenge, getNegotiate, reset, bind, Except.bind, v2_response P cfg rnd c ch t ht hf]
        rfl
      rw [e]
      constructor
      · rintro ⟨a, ha, rfl⟩
        obtain ⟨h1, h2, h3, rfl⟩ := (computeMic_eq P cfg _ _ rfl n ch a).mp ha
        exact ⟨t, timeUsed_client.mp ht, h1, h2, h3, v2_finish P rnd c hv n ch t _ b⟩
      · rintro ⟨t', ht', h1, h2, h3, rfl⟩
        obtain rfl := timeUsed_unique ht (timeUsed_client.mpr ht')
        exact ⟨_, (computeMic_eq P cfg _ _ rfl n ch _).mpr ⟨h1, h2, h3, rfl⟩, v2_finish P rnd c hv n ch t _ b⟩
    · have e : authenticateNtlmv2 P cfg rnd (reset c (.challengeReceived n ch) b) = .error .stringTooLong := by
        simp only [authenticateNtlmv2, getChallenge, getNegotiate, reset, bind, Except.bind,
          (Props.C28_failure P cfg _ _ _ _ _ _ _ _).2 ⟨t, ht⟩ hf]
      rw [e]
      simp only [reduceCtorEq, false_and, exists_false, false_iff]
      rintro ⟨t', _, _, h2, _⟩
      exact hf h2.2.1
  · have e : authenticateNtlmv2 P cfg rnd (reset c (.challengeReceived n ch) b) = .error .clock := by
      simp only [authenticateNtlmv2, getChallenge, getNegotiate, reset, bind, Except.bind,
        (Props.C28_failure P cfg _ _ _ _ _ _ _ _).1 ht]
    rw [e]
    simp only [reduceCtorEq, false_and, exists_false, false_iff]
    rintro ⟨t', ht', _⟩
    exact ht ⟨t', timeUsed_client.mpr ht'⟩

/-- With a session, building the message fails only for want of space or of a clock. -/
theorem message_error (P : Prims) (cfg : Cfg) {ver : UInt32} (hver : ver.toNat ≤ 5) (rnd : AuthRand) (c : Client)
    (hv : c.version = none) (n : Negotiate) (ch : Challenge) (b : List UInt8) (e : Panic)
    (h : authenticateMessage P cfg ver rnd (reset c (.challengeReceived n ch) b) = .error e) :
    e = .fieldLen ∨ e = .stringTooLong ∨ e = .clock := by
  by_cases hv1 : isV1 ver
  · rw [v1_message P cfg hv1 rnd c hv] at h; cases h
  · have hv2 : isV2 ver := by simp only [isV1, isV2] at *; omega
    simp only [authenticateMessage, if_neg (fun h => not_isV1_of_isV2 hv2 (isV1_iff.mpr h)), if_pos (isV2_iff.mp hv2)] at h
    have hb : ∀ (x : Except Panic Authenticate) (f : Authenticate → Authenticate),
        (do let a ← x; return f a : Except Panic Authenticate) = .error e → x = .error e := by
      intro x f hx
      cases x with
      | error e => simpa [bind, Except.bind] using hx
      | ok a => simp [bind, Except.bind, pure, Except.pure] at hx
    have h := hb _ _ h
    simp only [authenticateNtlmv2, getChallenge, getNegotiate, reset, bind, Except.bind] at h
    by_cases ht : ∃ t, timeUsed (firstTimestamp ch.targetInfos) rnd.clock t
    · obtain ⟨t, ht⟩ := ht
      by_cases hf : ∀ p ∈ ch.targetInfos, avPairFits p
      · rw [v2_response P cfg rnd c ch t ht hf] at h
        rcases computeMic_err P cfg _ n ch e h with h | h
        · exact .inl h
        · exact .inr (.inl h)
      · rw [(Props.C28_failure P cfg _ _ _ _ _ _ _ _).2 ⟨t, ht⟩ hf] at h
        cases h
        exact .inr (.inl rfl)
    · rw [(Props.C28_failure P cfg _ _ _ _ _ _ _ _).1 ht] at h
      cases h
      exact .inr (.inr rfl)

/-! ### From a history to the message sent -/

theorem negotiable_iff (P : Prims) (cm : CaseMap) (l : Login) (c : Client) (hc : created P cm l c) (ver : UInt32) :
    negotiable ver l.domain ↔ ∃ n, negotiateMessage ver c = .ok n ∧ negotiateFits n := by
  obtain ⟨lm, w, _, _, rfl⟩ := (created_iff P cm l c).mp hc
  by_cases hv : ver.toNat ≤ 5
  · obtain ⟨n, h1, _, h3, h4, _⟩ := negotiateMessage_ok hv ⟨.new, l.user, lm, ntowfv1 P l.password,
      ntowfv2 P cm l.user (ntowfv1 P l.password) l.domain, l.domain, w, l.target, [], none⟩ rfl
    simp only [h1, Except.ok.injEq, exists_eq_left', negotiateFits, h3, h4, negotiable, hv, true_and, Option.map_none]
    have e : (utf8Bytes ([] : Str)).length = 0 := by rw [(utf8Bytes_nil_iff []).mpr rfl]; rfl
    by_cases hd : l.domain = []
    · simp [hd, e, strFits]
    · simp [hd, strFits]
  · simp [negotiable, hv, negotiateMessage_err hv]

theorem sendAuthenticate_result (P : Prims) (cfg : Cfg) (ver : UInt32) (rnd : AuthRand) (junk : List UInt8) (c : Client)
    (b : List UInt8) :
    (sendAuthenticate P cfg ver rnd junk c).2 = .ok b ↔
      ∃ m, authenticateMessage P cfg ver rnd c = .ok m ∧ authenticateFits m ∧ b = authenticateBytes m := by
  rw [sendAuthenticate_eq]
  cases h : authenticateMessage P cfg ver rnd c with
  | error e => simp
  | ok m =>
    simp only [Except.ok.injEq, exists_eq_left']
    rw [← serialize_authenticate cfg m b]
    cases Wire.serialize cfg m <;> simp

theorem invalid_message (P : Prims) (cfg : Cfg) {ver : UInt32} (hver : ver.toNat ≤ 5) (rnd : AuthRand) (c : Client)
    (h : sessionOf c.state = none) : authenticateMessage P cfg ver rnd c = .error .invalidState := by
  have h1 : getChallenge c = .error .invalidState := by
    cases e : c.state <;> rw [e] at h <;> simp [sessionOf] at h <;> simp [getChallenge, e]
  have h2 : getNegotiate c = .error .invalidState := by
    cases e : c.state <;> rw [e] at h <;> simp [sessionOf] at h <;> simp [getNegotiate, e]
  simp only [authenticateMessage, authenticateNtlmv1, authenticateNtlmv2, h1, h2, bind, Except.bind]
  rcases ver_cases hver with rfl | rfl | rfl | rfl | rfl | rfl <;> rfl

theorem outdated_message (P : Prims) (cfg : Cfg) {ver : UInt32} (hver : ¬ ver.toNat ≤ 5) (rnd : AuthRand) (c : Client) :
    authenticateMessage P cfg ver rnd c = .error .invalidVersion := by
  have h1 : ¬ (ver = 0 ∨ ver = 1 ∨ ver = 2) := fun h => hver (by have := isV1_iff.mpr h; simp only [isV1] at this; omega)
  have h2 : ¬ (ver = 3 ∨ ver = 4 ∨ ver = 5) := fun h => hver (by have := isV2_iff.mpr h; simp only [isV2] at this; omega)
  simp only [authenticateMessage, if_neg h1, if_neg h2]
  rfl

/-- The message `send_authenticate` builds after a history. -/
theorem message_after (P : Prims) (cm : CaseMap) (cfg : Cfg) (ver : UInt32) (l : Login) (c : Client)
    (hc : created P cm l c) (h : List Op) (ch : Challenge) (ha : accepted h ch) (hn : negotiable ver l.domain)
    (rnd : AuthRand) :
    ∃ n, negotiateMessage ver c = .ok n ∧ negotiateFits n ∧
      authenticateMessage P cfg ver rnd (run P cfg ver c h) =
        authenticateMessage P cfg ver rnd (reset c (.challengeReceived n ch) []) := by
  obtain ⟨n, h1, h2⟩ := (negotiable_iff P cm l c hc ver).mp hn
  have hs : c.state = .new := by obtain ⟨lm, w, _, _, rfl⟩ := (created_iff P cm l c).mp hc; rfl
  have hst := run_state P cfg ver c hs n h1 h2 h
  obtain ⟨s, b, e⟩ := run_reset P cfg ver c h
  rw [e] at hst ⊢
  refine ⟨n, h1, h2, authenticateMessage_session P cfg ver rnd c _ _ _ _ ?_⟩
  have hst : stateFor n h s := hst
  cases s with
  | new => exact absurd ha (hst.2 ch)
  | negociateSent m => exact absurd hst.2 ((phases h).1 ch ha)
  | challengeReceived m ch' => obtain ⟨rfl, h3⟩ := hst; rw [(phases h).2 _ _ h3 ha]
  | authenticateSent m ch' a => obtain ⟨rfl, h3⟩ := hst; rw [(phases h).2 _ _ h3 ha]; rfl

theorem no_message_after (P : Prims) (cm : CaseMap) (cfg : Cfg) (ver : UInt32) (l : Login) (c : Client)
    (hc : created P cm l c) (h : List Op) (ha : ¬ (negotiable ver l.domain ∧ ∃ ch, accepted h ch)) :
    sessionOf (run P cfg ver c h).state = none := by
  have hs : c.state = .new := by obtain ⟨lm, w, _, _, rfl⟩ := (created_iff P cm l c).mp hc; rfl
  by_cases hn : negotiable ver l.domain
  · obtain ⟨n, h1, h2⟩ := (negotiable_iff P cm l c hc ver).mp hn
    have hst := run_state P cfg ver c hs n h1 h2 h
    cases e : (run P cfg ver c h).state <;> rw [e] at hst
    · rfl
    · rfl
    · exact absurd ⟨hn, _, hst.2⟩ ha
    · exact absurd ⟨hn, _, hst.2⟩ ha
  · rw [run_stuck P cfg ver c hs (fun n h1 h2 => hn ((negotiable_iff P cm l c hc ver).mpr ⟨n, h1, h2⟩)) h]
    rfl

/-- What `Answers` amounts to. -/
theorem answers_iff (P : Prims) (cm : CaseMap) (cfg : Cfg) (ver : UInt32) (l : Login) (h : List Op) (ch : Challenge)
    (rnd : AuthRand) (b : List UInt8) :
    Answers P cm cfg ver l h ch rnd b ↔
      accepted h ch ∧ negotiable ver l.domain ∧ ∃ c n m, created P cm l c ∧ negotiateMessage ver c = .ok n ∧
        negotiateFits n ∧ authenticateMessage P cfg ver rnd (reset c (.challengeReceived n ch) []) = .ok m ∧
        authenticateFits m ∧ b = authenticateBytes m := by
  constructor
  · rintro ⟨ha, c, junk, hc, hr⟩
    have hr : (sendAuthenticate P cfg ver rnd junk (run P cfg ver c h)).2 = .ok b := hr
    obtain ⟨m, h1, h2, h3⟩ := (sendAuthenticate_result P cfg ver rnd junk _ b).mp hr
    have hv : ver.toNat ≤ 5 := by
      apply Classical.byContradiction
      intro hv
      rw [outdated_message P cfg hv] at h1; cases h1
    have hn : negotiable ver l.domain := by
      apply Classical.byContradiction
      intro hn
      rw [invalid_message P cfg hv rnd _ (no_message_after P cm cfg ver l c hc h (fun h => hn h.1))] at h1
      cases h1
    obtain ⟨n, h4, h5, h6⟩ := message_after P cm cfg ver l c hc h ch ha hn rnd
    exact ⟨ha, hn, c, n, m, hc, h4, h5, by rw [← h6]; exact h1, h2, h3⟩
  · rintro ⟨ha, hn, c, n, m, hc, h1, h2, h3, h4, h5⟩
    refine ⟨ha, c, [], hc, ?_⟩
    obtain ⟨n', h6, h7, h8⟩ := message_after P cm cfg ver l c hc h ch ha hn rnd
    rw [h1] at h6
    cases h6
    exact (sendAuthenticate_result P cfg ver rnd [] _ b).mpr ⟨m, by rw [h8]; exact h3, h4, h5⟩

/-- `Answers` for NTLMv1. -/
theorem answers_v1 (P : Prims) (cm : CaseMap) (cfg : Cfg) {ver : UInt32} (hver : isV1 ver) (l : Login) (h : List Op)
    (ch : Challenge) (rnd : AuthRand) (b : List UInt8) :
    Answers P cm cfg ver l h ch rnd b ↔
      accepted h ch ∧ negotiable ver l.domain ∧ ∃ c, created P cm l c ∧
        authenticateFits (v1Msg P ver rnd c ch) ∧ b = authenticateBytes (v1Msg P ver rnd c ch) := by
  rw [answers_iff]
  constructor
  · rintro ⟨ha, hn, c, n, m, hc, h1, h2, h3, h4, h5⟩
    have hv : c.version = none := by obtain ⟨lm, w, _, _, rfl⟩ := (created_iff P cm l c).mp hc; rfl
    rw [v1_message P cfg hver rnd c hv n ch []] at h3
    cases h3
    exact ⟨ha, hn, c, hc, h4, h5⟩
  · rintro ⟨ha, hn, c, hc, h4, h5⟩
    have hv : c.version = none := by obtain ⟨lm, w, _, _, rfl⟩ := (created_iff P cm l c).mp hc; rfl
    obtain ⟨n, h1, h2⟩ := (negotiable_iff P cm l c hc ver).mp hn
    exact ⟨ha, hn, c, n, _, hc, h1, h2, v1_message P cfg hver rnd c hv n ch [], h4, h5⟩

/-- `Answers` for NTLMv2. -/
theorem answers_v2 (P : Prims) (cm : CaseMap) (cfg : Cfg) {ver : UInt32} (hver : isV2 ver) (l : Login) (h : List Op)
    (ch : Challenge) (rnd : AuthRand) (b : List UInt8) :
    Answers P cm cfg ver l h ch rnd b ↔
      accepted h ch ∧ negotiable ver l.domain ∧ ∃ c n t, created P cm l c ∧ negotiateMessage ver c = .ok n ∧
        negotiateFits n ∧ clientTime ch.targetInfos rnd.clock t ∧ challengeFits ch ∧
        authenticateFits (v2Msg P rnd c n ch t) ∧ b = authenticateBytes (v2Msg P rnd c n ch t) := by
  rw [answers_iff]
  constructor
  · rintro ⟨ha, hn, c, n, m, hc, h1, h2, h3, h4, h5⟩
    have hv : c.version = none := by obtain ⟨lm, w, _, _, rfl⟩ := (created_iff P cm l c).mp hc; rfl
    obtain ⟨t, ht, h6, h7, h8, rfl⟩ := (v2_message P cfg hver rnd c hv n ch [] m).mp h3
    exact ⟨ha, hn, c, n, t, hc, h1, h2, ht, h7, h4, h5⟩
  · rintro ⟨ha, hn, c, n, t, hc, h1, h2, ht, h7, h4, h5⟩
    have hv : c.version = none := by obtain ⟨lm, w, _, _, rfl⟩ := (created_iff P cm l c).mp hc; rfl
    refine ⟨ha, hn, c, n, _, hc, h1, h2, (v2_message P cfg hver rnd c hv n ch [] _).mpr ⟨t, ht, h2, h7, ?_, rfl⟩, h4, h5⟩
    exact ⟨h4.1, h4.2.1, h4.2.2.1, by intro x hx; simp [v2Pre] at hx⟩

end Ntlm
