import Verif.Lemmas.Calls
import Verif.Lemmas.Records
import Verif.Lemmas.Names
/-
  C97: the calls of cryptographic primitives do not depend on secrets.
-/
namespace Ntlm

open Spec Client

namespace Calls

/-! ### Simulation -/

/-- The challenge without the server's random value. -/
def blank (ch : Challenge) : Challenge := { ch with serverChallenge := Bytes.zero 8 }

/-- What of a protocol state matters. -/
inductive Shape where
  | new
  | sent (n : Negotiate)
  | session (n : Negotiate) (ch : Challenge)

def shape : ClientState → Shape
  | .new => .new
  | .negociateSent n => .sent n
  | .challengeReceived n ch => .session n (blank ch)
  | .authenticateSent n ch _ => .session n (blank ch)

/-- Two clients that differ in secrets and random values only. -/
structure Sim (c c' : Client) : Prop where
  user : c'.username = c.username
  domain : c'.domain = c.domain
  version : c'.version = c.version
  state : shape c'.state = shape c.state

theorem messageCalls_blank (ver : UInt32) (clock : SystemTime) (d u : Str) (n : Negotiate) (ch : Challenge) :
    messageCalls ver clock d u (some (n, ch)) = messageCalls ver clock d u (some (n, blank ch)) := by
  have h1 : challengeFits (blank ch) = challengeFits ch := rfl
  have h2 : (challengeBytes (blank ch)).length = (challengeBytes ch).length := by
    rw [Props.length_challengeBytes, Props.length_challengeBytes]; rfl
  simp only [messageCalls, signable, signedLength, h1, h2]
  rfl

theorem messageCalls_shape (ver : UInt32) (clock : SystemTime) (d u : Str) (s s' : ClientState) (h : shape s' = shape s) :
    messageCalls ver clock d u (sessionOf s') = messageCalls ver clock d u (sessionOf s) := by
  cases s <;> cases s' <;> simp only [shape, reduceCtorEq, Shape.session.injEq] at h <;> try rfl
  all_goals
    obtain ⟨rfl, h⟩ := h
    simp only [sessionOf]
    rw [messageCalls_blank, h, ← messageCalls_blank]

theorem sim_negotiate (ver : UInt32) {c c' : Client} (h : Sim c c') : negotiateMessage ver c' = negotiateMessage ver c := by
  simp only [negotiateMessage, h.domain, h.version]

theorem sim_step (P P' : Prims) (cfg : Cfg) (ver : UInt32) {c c' : Client} (h : Sim c c') {op op' : Op}
    (ho : sameButRandom op op') :
    (step P' cfg ver c' op').1 = (step P cfg ver c op).1 ∧ Sim (step P cfg ver c op).2.1 (step P' cfg ver c' op').2.1 := by
  cases op with
  | sendNegociate junk =>
    cases op' <;> simp only [sameButRandom] at ho
    refine ⟨rfl, ?_⟩
    simp only [step, sendNegociate_eq, sim_negotiate ver h]
    cases negotiateMessage ver c with
    | error e => exact h
    | ok n =>
      simp only []
      cases Wire.serialize cfg n with
      | error e => exact ⟨h.user, h.domain, h.version, h.state⟩
      | ok b => exact ⟨h.user, h.domain, h.version, rfl⟩
  | recvChallenge ch =>
    cases op' <;> simp only [sameButRandom] at ho
    rename_i ch'
    refine ⟨rfl, ?_⟩
    have hb : blank ch' = blank ch := by rw [ho]; rfl
    have hs := h.state
    simp only [step, recvChallenge]
    cases h1 : c.state <;> cases h2 : c'.state <;> rw [h1, h2] at hs <;>
      simp only [shape, reduceCtorEq, Shape.sent.injEq, Shape.session.injEq] at hs <;> simp only []
    all_goals first
      | exact h
      | exact ⟨h.user, h.domain, h.version, by simp only [shape, hs, hb]⟩
  | sendAuthenticate rnd junk =>
    cases op' <;> simp only [sameButRandom] at ho
    rename_i rnd' junk'
    have hs := h.state
    refine ⟨?_, ?_⟩
    · simp only [step, send_eq, h.domain, h.user, ho]
      exact messageCalls_shape _ _ _ _ _ _ hs
    · have key : ∀ (P : Prims) (rnd : AuthRand) (junk : List UInt8) (c : Client),
          shape (Client.sendAuthenticate P cfg ver rnd junk c).1.state = shape c.state ∧
          (Client.sendAuthenticate P cfg ver rnd junk c).1.username = c.username ∧
          (Client.sendAuthenticate P cfg ver rnd junk c).1.domain = c.domain ∧
          (Client.sendAuthenticate P cfg ver rnd junk c).1.version = c.version := by
        intro P rnd junk c
        rw [sendAuthenticate_eq]
        cases Client.authenticateMessage P cfg ver rnd c with
        | error e => exact ⟨rfl, rfl, rfl, rfl⟩
        | ok a =>
          simp only []
          cases Wire.serialize cfg a with
          | error e => exact ⟨rfl, rfl, rfl, rfl⟩
          | ok b =>
            simp only [setAuthenticatedState, reset]
            cases hc : c.state <;> simp only [shape, and_self]
      simp only [step, send_eq]
      obtain ⟨a1, a2, a3, a4⟩ := key P rnd junk c
      obtain ⟨b1, b2, b3, b4⟩ := key P' rnd' junk' c'
      exact ⟨by rw [a2, b2, h.user], by rw [a3, b3, h.domain], by rw [a4, b4, h.version], by rw [a1, b1, hs]⟩

theorem sim_run (P P' : Prims) (cfg : Cfg) (ver : UInt32) {h h' : List Op} (hh : SameButRandom h h') :
    ∀ {c c' : Client}, Sim c c' → (run P' cfg ver c' h').1 = (run P cfg ver c h).1 := by
  induction hh with
  | nil => intros; rfl
  | cons ho _ ih =>
    intro c c' hs
    obtain ⟨h1, h2⟩ := sim_step P P' cfg ver hs ho
    simp only [run]
    rw [h1, ih h2]

theorem session_after (P : Prims) (cfg : Cfg) (ver : UInt32) (c : Client) (hs : c.state = .new) (n : Negotiate)
    (h1 : negotiateMessage ver c = .ok n) (h2 : negotiateFits n) (h : List Op) (ch : Challenge) (ha : accepted h ch) :
    sessionOf (Client.run P cfg ver c h).state = some (n, ch) := by
  have hst := run_state P cfg ver c hs n h1 h2 h
  generalize (Client.run P cfg ver c h).state = s at hst
  cases s with
  | new => exact absurd ha (hst.2 ch)
  | negociateSent m => exact absurd hst.2 ((phases h).1 ch ha)
  | challengeReceived m ch' => obtain ⟨rfl, h3⟩ := hst; rw [(phases h).2 _ _ h3 ha]; rfl
  | authenticateSent m ch' a => obtain ⟨rfl, h3⟩ := hst; rw [(phases h).2 _ _ h3 ha]; rfl

theorem v2Msg_length (P : Prims) (rnd : AuthRand) (c : Client) (n : Negotiate) (ch : Challenge) (t : FileTime) :
    (authenticateBytes (v2Msg P rnd c n ch t)).length =
      (authenticateBytes (v2Pre P rnd c ch t)).length + (utf16le (c.workstation.getD [])).length := by
  rw [Props.length_authenticateBytes, Props.length_authenticateBytes]
  have e : (payload (auW (v2Msg P rnd c n ch t))).length = (utf16le (c.workstation.getD [])).length := by
    simp only [auW, v2Msg]
    cases c.workstation <;> rfl
  have e' : (payload (auW (v2Pre P rnd c ch t))).length = 0 := rfl
  rw [e, e']
  simp only [auV, auL, auN, auD, auU, auK, v2Msg]
  omega

theorem messageCalls_length (ver : UInt32) (clock : SystemTime) (d u : Str) (s : Option (Negotiate × Challenge)) :
    (messageCalls ver clock d u s).length ≤ 9 := by
  rcases s with _ | ⟨n, ch⟩
  · simp [messageCalls]
  · simp only [messageCalls, v1Calls, v2Calls]
    (repeat' split) <;> simp

end Calls

namespace Props

open Calls

/-- C97: counting the calls of primitives changes nothing. -/
theorem C97_same_result (P : Prims) (cm : CaseMap) (cfg : Cfg) (ver : UInt32) :
    (∀ env user domain password target, (Calls.newWithDomain P cm env user domain password target).result =
      Client.newWithDomain P cm env user domain password target) ∧
    (∀ c op, (Calls.step P cfg ver c op).2 = Client.step P cfg ver c op) ∧
    (∀ c h, (Calls.run P cfg ver c h).2 = Client.run P cfg ver c h) :=
  ⟨new_result P cm, step_snd P cfg ver, run_snd P cfg ver⟩

/-- C97: the calls made to create a client.  Of the password only its length is seen. -/
theorem C97_create (P : Prims) (cm : CaseMap) (l : Login) :
    (∀ c, created P cm l c →
      (Calls.newWithDomain P cm l.env l.user l.domain l.password l.target).calls = createCalls cm l) ∧
    ∃ rest, (Calls.newWithDomain P cm l.env l.user l.domain l.password l.target).calls ++ rest = createCalls cm l := by
  have e : [Call.des, .des, .md4 (u16sAsBytes (encodeUtf16 l.password)).length,
      .hmacMd5 16 (u16sAsBytes (encodeUtf16 (cm.upper l.user ++ l.domain))).length] = createCalls cm l := by
    simp only [createCalls, u16sAsBytes_encodeUtf16, CaseMap.upper]
  have hn := new_calls P cm l.env l.user l.domain l.password l.target
  rw [e] at hn
  constructor
  · intro c hc
    obtain ⟨lm, w, h1, _⟩ := (created_iff P cm l c).mp hc
    exact hn.2 ⟨lm, h1⟩
  · rcases List.mem_cons.mp hn.1 with h | h
    · exact ⟨_, by rw [h]; rfl⟩
    · rcases List.mem_cons.mp h with h | h
      · exact ⟨(createCalls cm l).tail, by rw [h]; rfl⟩
      · exact ⟨[], by rw [List.mem_singleton.mp h, List.append_nil]⟩

/-- C97: the calls made to answer a challenge `ch`, exactly, when the answer is `b`.  The message integrity code of NTLMv2 covers the
    negotiate message `nb`, the challenge `cb` and the answer without its workstation name. -/
theorem C97_answer (P : Prims) (cm : CaseMap) (cfg : Cfg) (ver : UInt32) (l : Login) (c : Client) (hc : created P cm l c)
    (h : List Op) (ch : Challenge) (ha : accepted h ch) (rnd : AuthRand) (junk junk' : List UInt8) (b nb : List UInt8)
    (hb : resultOf P cfg ver c h (.sendAuthenticate rnd junk) = .ok b)
    (hnb : resultOf P cfg ver c [] (.sendNegociate junk') = .ok nb) :
    (isV1 ver → (Calls.step P cfg ver (Client.run P cfg ver c h) (.sendAuthenticate rnd junk)).1 =
      answerCalls ver ch.negotiateFlags ch.targetInfos 0) ∧
    (isV2 ver → ∃ cb w signed, Wire.serialize cfg ch = .ok cb ∧ workstationIs cm l.env w ∧
      signed + (utf16le (w.getD [])).length = nb.length + cb.length + b.length ∧
      (Calls.step P cfg ver (Client.run P cfg ver c h) (.sendAuthenticate rnd junk)).1 =
        answerCalls ver ch.negotiateFlags ch.targetInfos signed) := by
  have hs : c.state = .new := by obtain ⟨lm, w, _, _, rfl⟩ := (created_iff P cm l c).mp hc; rfl
  have hv : c.version = none := by obtain ⟨lm, w, _, _, rfl⟩ := (created_iff P cm l c).mp hc; rfl
  obtain ⟨n, hn, hnf, rfl⟩ : ∃ n, negotiateMessage ver c = .ok n ∧ negotiateFits n ∧ nb = negotiateBytes n := by
    simp only [resultOf, Client.step, Client.run, List.foldl_nil, sendNegociate_eq] at hnb
    cases hn : negotiateMessage ver c with
    | error e => rw [hn] at hnb; cases hnb
    | ok n =>
      rw [hn] at hnb
      simp only [] at hnb
      cases he : Wire.serialize cfg n with
      | error e => rw [he] at hnb; cases hnb
      | ok x =>
        rw [he] at hnb
        cases hnb
        obtain ⟨hf, rfl⟩ := (serialize_negotiate cfg n _).mp he
        exact ⟨n, rfl, hf, rfl⟩
  have hses := session_after P cfg ver c hs n hn hnf h ch ha
  obtain ⟨s, bf, e⟩ := run_reset P cfg ver c h
  rw [e] at hses
  simp only [Calls.step, send_eq, e, hses]
  simp only [reset]
  constructor
  · intro hver
    have hver' : ver.toNat ≤ 2 := hver
    simp only [messageCalls, if_pos hver', answerCalls, v1Calls]
    by_cases h0 : ver = 0
    · subst h0; rfl
    · simp only [bne, beq_eq_false_iff_ne.mpr h0, Bool.not_false, if_true, if_neg h0]
  · intro hver
    have hver' : ¬ ver.toNat ≤ 2 := by simp only [isV2] at hver; omega
    simp only [resultOf, Client.step, e] at hb
    obtain ⟨m, hm, hmf, rfl⟩ := (sendAuthenticate_result P cfg ver rnd junk _ b).mp hb
    rw [authenticateMessage_session P cfg ver rnd c s (.challengeReceived n ch) bf [] hses] at hm
    obtain ⟨t, ht, _, hcf, haf, rfl⟩ := (v2_message P cfg hver rnd c hv n ch [] m).mp hm
    have hws : workstationIs cm l.env c.workstation := by
      obtain ⟨lm, w, _, hw, rfl⟩ := (created_iff P cm l c).mp hc
      exact (workstation_iff.mp hw).1
    refine ⟨challengeBytes ch, c.workstation, signedLength c.domain c.username n ch, serialize_of_enc (enc_challenge cfg ch hcf), hws,
      ?_, ?_⟩
    · rw [v2Msg_length, v2Pre_length]
      simp only [signedLength]
      omega
    · have hsig := (v2Pre_fits P rnd c n ch t).mp ⟨hnf, hcf, haf⟩
      simp only [messageCalls, if_neg hver', if_pos hver.2, answerCalls, v2Calls, if_pos hsig,
        if_pos (⟨⟨t, timeUsed_client.mpr ht⟩, hcf.2.1⟩ :
          (∃ t, timeUsed (firstTimestamp ch.targetInfos) rnd.clock t) ∧ ∀ p ∈ ch.targetInfos, avPairFits p)]

theorem negotiates (P : Prims) (cm : CaseMap) (cfg : Cfg) (ver : UInt32) (l : Login) (c : Client) (hc : created P cm l c)
    (hn : negotiable ver l.domain) : ∃ nb, resultOf P cfg ver c [] (.sendNegociate []) = .ok nb := by
  obtain ⟨n, h1, h2⟩ := (negotiable_iff P cm l c hc ver).mp hn
  exact ⟨negotiateBytes n, by
    simp only [resultOf, Client.step, Client.run, List.foldl_nil, sendNegociate_eq, h1, serialize_of_enc (enc_negotiate cfg n h2)]⟩

/-- The calls of an answer at level 0 with extended session security. -/
example (P : Prims) (cm : CaseMap) (cfg : Cfg) : ∃ c junk, created P cm exLogin c ∧
    (Calls.step P cfg 0 (Client.run P cfg 0 c (exHistory exChallenge)) (.sendAuthenticate exRand junk)).1 =
      [.md4 16, .md5 16, .des, .des, .des, .hmacMd5 16 16, .rc4 16 16] := by
  obtain ⟨b, hx, c, junk, hc, hb⟩ := exAnswers_v1_rnd P cm cfg 0 (by simp [isV1]) exRand
  obtain ⟨nb, hnb⟩ := negotiates P cm cfg 0 exLogin c hc (exLogin_negotiable 0 (by decide))
  exact ⟨c, junk, hc, ((C97_answer P cm cfg 0 exLogin c hc _ _ hx exRand junk [] b nb hb hnb).1 (by simp [isV1])).trans
    (by decide)⟩

/-- The calls of an answer at level 5. -/
example (P : Prims) (cm : CaseMap) (cfg : Cfg) : ∃ c junk signed, created P cm exLogin c ∧
    (Calls.step P cfg 5 (Client.run P cfg 5 c (exHistory exChallenge)) (.sendAuthenticate exRand junk)).1 =
      [.hmacMd5 16 66, .hmacMd5 16 16, .hmacMd5 16 16, .rc4 16 16, .hmacMd5 16 signed] := by
  obtain ⟨b, hx, c, junk, hc, hb⟩ := exAnswers_v2_rnd P cm cfg 5 (by simp [isV2]) exRand
  obtain ⟨nb, hnb⟩ := negotiates P cm cfg 5 exLogin c hc (exLogin_negotiable 5 (by decide))
  obtain ⟨_, _, signed, _, _, _, h⟩ :=
    (C97_answer P cm cfg 5 exLogin c hc _ _ hx exRand junk [] b nb hb hnb).2 (by simp [isV2])
  refine ⟨c, junk, signed, hc, h.trans ?_⟩
  have e : (avListBytes exChallenge.targetInfos).length = 26 := by decide +kernel
  have e' : exchangesKey exChallenge.negotiateFlags = true := by decide
  simp [answerCalls, e, e']

/-- C97: no secret and no random value changes which primitives are called, in what order and on how many bytes.  Two clients of the
    same person, with other passwords of the same length and even other primitives, make the same calls when they are created and in
    every history of calls, whatever their outcome, if the clock and the server's messages, up to the server's random value, are the
    same. -/
theorem C97_secrets (P P' : Prims) (cm : CaseMap) (cfg : Cfg) (ver : UInt32) (l l' : Login) (c c' : Client)
    (hc : created P cm l c) (hc' : created P' cm l' c') (hl : samePerson l l') :
    ((utf16le l'.password).length = (utf16le l.password).length →
      (Calls.newWithDomain P' cm l'.env l'.user l'.domain l'.password l'.target).calls =
        (Calls.newWithDomain P cm l.env l.user l.domain l.password l.target).calls) ∧
    ∀ h h', SameButRandom h h' → (Calls.run P' cfg ver c' h').1 = (Calls.run P cfg ver c h).1 := by
  constructor
  · intro hp
    rw [(C97_create P cm l).1 c hc, (C97_create P' cm l').1 c' hc']
    simp only [createCalls, hp, hl.1, hl.2]
  · intro h h' hh
    obtain ⟨_, _, _, _, rfl⟩ := (created_iff P cm l c).mp hc
    obtain ⟨_, _, _, _, rfl⟩ := (created_iff P' cm l' c').mp hc'
    exact sim_run P P' cfg ver hh ⟨hl.1, hl.2, rfl, rfl⟩

/-- Another password and other random values. -/
example (P P' : Prims) (cm : CaseMap) (cfg : Cfg) : ∃ c c', created P cm exLogin c ∧
    created P' cm { exLogin with password := "passw0rd".toList } c' ∧
    (Calls.run P' cfg 5 c' [.sendNegociate [], .recvChallenge { exChallenge with serverChallenge := Bytes.zero 8 },
        .sendAuthenticate { exRand with clientChallenge := Bytes.zero 8, exportedKey := Bytes.zero 16 } []]).1 =
      (Calls.run P cfg 5 c [.sendNegociate [], .recvChallenge exChallenge, .sendAuthenticate exRand []]).1 := by
  obtain ⟨c, hc⟩ := exLogin_created P cm
  obtain ⟨r, hr, _⟩ := C24_ascii_partial P' cm "passw0rd".toList (by simp [ascii])
  have hc' := (created_iff P' cm { exLogin with password := "passw0rd".toList } _).mpr ⟨r, some "WS".toList, hr, rfl, rfl⟩
  exact ⟨c, _, hc, hc', (C97_secrets P P' cm cfg 5 exLogin _ c _ hc hc' ⟨rfl, rfl⟩).2 _ _
    (.cons trivial (.cons rfl (.cons rfl .nil)))⟩

/-- C97: one call of a method makes at most nine calls of primitives, and only `send_authenticate` makes any. -/
theorem C97_few (P : Prims) (cfg : Cfg) (ver : UInt32) (c : Client) (op : Op) :
    (Calls.step P cfg ver c op).1.length ≤ 9 ∧
      ((Calls.step P cfg ver c op).1 ≠ [] → ∃ rnd junk, op = .sendAuthenticate rnd junk) := by
  cases op with
  | sendAuthenticate rnd junk =>
    refine ⟨?_, fun _ => ⟨rnd, junk, rfl⟩⟩
    simp only [Calls.step, send_eq]
    exact messageCalls_length ..
  | _ => exact ⟨by simp [Calls.step], fun h => absurd rfl h⟩

/-- The bound is met: an answer at level 0 without extended session security, with a key exchange, takes nine calls. -/
example : (answerCalls 0 ⟨0x40000010⟩ [] 0).length = 9 := by decide

end Props

end Ntlm
