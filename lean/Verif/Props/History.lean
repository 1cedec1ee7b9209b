import Verif.Lemmas.ClientAuth
/-
  C33, C34, C35, C37, C41, C43, C44: histories of API calls.
-/
namespace Ntlm

open Spec Client

/-! ### Helper lemmas -/

theorem created_state {P : Prims} {cm : CaseMap} {l : Login} {c : Client} (hc : created P cm l c) :
    c.state = .new ∧ c.version = none ∧ c.domain = l.domain ∧ c.username = l.user := by
  obtain ⟨lm, w, _, _, rfl⟩ := (created_iff P cm l c).mp hc
  exact ⟨rfl, rfl, rfl, rfl⟩

/-- Results do not depend on the buffer, nor does the protocol state afterwards. -/
theorem step_buffer (P : Prims) (cfg : Cfg) (ver : UInt32) (c : Client) (s : ClientState) (b b' : List UInt8) (op op' : Op)
    (h : sameCall op op') :
    (step P cfg ver (reset c s b) op).2 = (step P cfg ver (reset c s b') op').2 ∧
      (step P cfg ver (reset c s b) op).1.state = (step P cfg ver (reset c s b') op').1.state := by
  have hn : ∀ j j', (step P cfg ver (reset c s b) (.sendNegociate j)).2 = (step P cfg ver (reset c s b') (.sendNegociate j')).2 ∧
      (step P cfg ver (reset c s b) (.sendNegociate j)).1.state = (step P cfg ver (reset c s b') (.sendNegociate j')).1.state := by
    intro j j'
    simp only [step, sendNegociate_eq, negotiateMessage_reset]
    cases negotiateMessage ver c with
    | error e => exact ⟨rfl, rfl⟩
    | ok n => simp only []; cases Wire.serialize cfg n <;> exact ⟨rfl, rfl⟩
  have ha : ∀ rnd j j', (step P cfg ver (reset c s b) (.sendAuthenticate rnd j)).2 =
        (step P cfg ver (reset c s b') (.sendAuthenticate rnd j')).2 ∧
      (step P cfg ver (reset c s b) (.sendAuthenticate rnd j)).1.state =
        (step P cfg ver (reset c s b') (.sendAuthenticate rnd j')).1.state := by
    intro rnd j j'
    simp only [step, sendAuthenticate_eq, authenticateMessage_session P cfg ver rnd c s s b b' rfl]
    cases authenticateMessage P cfg ver rnd (reset c s b') with
    | error e => exact ⟨rfl, rfl⟩
    | ok a =>
      simp only []
      cases Wire.serialize cfg a with
      | error e => exact ⟨rfl, rfl⟩
      | ok x => cases s <;> exact ⟨rfl, rfl⟩
  rcases h with rfl | ⟨⟨j, rfl⟩, j', rfl⟩ | ⟨rnd, j, j', rfl, rfl⟩
  · cases op with
    | sendNegociate j => exact hn j j
    | recvChallenge ch => cases s <;> exact ⟨rfl, rfl⟩
    | sendAuthenticate rnd j => exact ha rnd j j
  · exact hn j j'
  · exact ha rnd j j'

theorem run_buffer (P : Prims) (cfg : Cfg) (ver : UInt32) {h h' : List Op} (hh : SameCalls h h') :
    ∀ (c : Client) (s : ClientState) (b b' : List UInt8), ∃ s' x x',
      run P cfg ver (reset c s b) h = reset c s' x ∧ run P cfg ver (reset c s b') h' = reset c s' x' := by
  induction hh with
  | nil => intro c s b b'; exact ⟨s, b, b', rfl, rfl⟩
  | @cons op op' h h' e _ ih =>
    intro c s b b'
    obtain ⟨s1, b1, e1⟩ := step_reset P cfg ver (reset c s b) op
    obtain ⟨s2, b2, e2⟩ := step_reset P cfg ver (reset c s b') op'
    have hs := (step_buffer P cfg ver c s b b' op op' e).2
    rw [e1, e2] at hs
    have hs : s1 = s2 := hs
    subst hs
    have r1 : run P cfg ver (reset c s b) (op :: h) = run P cfg ver (reset c s1 b1) h := by
      simp only [run, List.foldl_cons, e1]; rfl
    have r2 : run P cfg ver (reset c s b') (op' :: h') = run P cfg ver (reset c s1 b2) h' := by
      simp only [run, List.foldl_cons, e2]; rfl
    rw [r1, r2]
    exact ih c s1 b1 b2

namespace Props

/-! ### Concrete clients, for the examples -/

/-- A user of domain DOM on machine WS. -/
def exLogin : Login := ⟨"user".toList, "DOM".toList, "Password".toList, "HTTP/srv".toList, ⟨some "WS".toList, none⟩⟩

theorem exLogin_created (P : Prims) (cm : CaseMap) : ∃ c, created P cm exLogin c := by
  obtain ⟨r, hr, _⟩ := C24_ascii_partial P cm exLogin.password (by simp [ascii, exLogin])
  exact ⟨_, (created_iff P cm exLogin _).mpr ⟨r, some "WS".toList, hr, rfl, rfl⟩⟩

theorem exLogin_workstation {P : Prims} {cm : CaseMap} {c : Client} (hc : created P cm exLogin c) :
    c.workstation = some "WS".toList := by
  obtain ⟨lm, w, _, h, rfl⟩ := (created_iff P cm exLogin c).mp hc
  have : getWorkstationName cm exLogin.env = .ok (some "WS".toList) := rfl
  rw [this] at h
  cases h
  rfl

theorem exLogin_negotiable (ver : UInt32) (h : ver.toNat ≤ 5) : negotiable ver exLogin.domain := ⟨h, by decide⟩

/-- The usual exchange. -/
def exHistory (ch : Challenge) : List Op := [.sendNegociate [], .recvChallenge ch]

theorem exHistory_accepted (ch : Challenge) : accepted (exHistory ch) ch := ⟨[], [], [], [], rfl, by simp, by simp⟩

/-- Randomness with a clock in 2020. -/
def exRand : AuthRand :=
  ⟨⟨[1, 2, 3, 4, 5, 6, 7, 8], rfl⟩, ⟨[1, 2, 3, 4, 5, 6, 7, 8, 9, 10, 11, 12, 13, 14, 15, 16], rfl⟩, ⟨1577836800, 5⟩⟩

theorem exAnswers_v1_rnd (P : Prims) (cm : CaseMap) (cfg : Cfg) (ver : UInt32) (hver : isV1 ver) (rnd : AuthRand) :
    ∃ b, Answers P cm cfg ver exLogin (exHistory exChallenge) exChallenge rnd b := by
  obtain ⟨c, hc⟩ := exLogin_created P cm
  have hw := exLogin_workstation hc
  obtain ⟨_, _, hd, hu⟩ := created_state hc
  have hver5 : ver.toNat ≤ 5 := by simp only [isV1] at hver; omega
  refine ⟨_, (answers_v1 P cm cfg hver _ _ _ _ _).mpr ⟨exHistory_accepted _, exLogin_negotiable ver hver5, c, hc, ?_, rfl⟩⟩
  refine ⟨?_, ?_, ?_, ?_⟩
  · intro x hx; simp [v1Msg] at hx; subst hx; trivial
  all_goals
    intro x hx
    simp [v1Msg, hd, hu, hw, exLogin] at hx
    subst hx
    decide

theorem exAnswers_v1 (P : Prims) (cm : CaseMap) (cfg : Cfg) (ver : UInt32) (hver : isV1 ver) :
    ∃ b, Answers P cm cfg ver exLogin (exHistory exChallenge) exChallenge exRand b := exAnswers_v1_rnd P cm cfg ver hver exRand

theorem exAnswers_v2_rnd (P : Prims) (cm : CaseMap) (cfg : Cfg) (ver : UInt32) (hver : isV2 ver) (rnd : AuthRand) :
    ∃ b, Answers P cm cfg ver exLogin (exHistory exChallenge) exChallenge rnd b := by
  obtain ⟨c, hc⟩ := exLogin_created P cm
  have hw := exLogin_workstation hc
  obtain ⟨_, _, hd, hu⟩ := created_state hc
  have hver5 : ver.toNat ≤ 5 := by simp only [isV2] at hver; omega
  obtain ⟨n, h1, h2⟩ := (negotiable_iff P cm _ c hc ver).mp (exLogin_negotiable ver hver5)
  refine ⟨_, (answers_v2 P cm cfg hver _ _ _ _ _).mpr ⟨exHistory_accepted _, exLogin_negotiable ver hver5, c, n, ⟨5, 7⟩, hc, h1, h2,
    .inl ⟨[.nbDomainName "DOM".toList], [.eol], rfl, by simp⟩, exChallenge_fits, ?_, rfl⟩⟩
  refine ⟨?_, ?_, ?_, ?_⟩
  · intro x hx
    simp [v2Msg, v2Pre, v2Blob] at hx
    subst hx
    refine ⟨exChallenge_fits.2.1, ?_⟩
    have e : (avListBytes exChallenge.targetInfos).length ≤ 60000 := by decide
    simp only [ntv2Bytes, fileTimeBytes, List.length_append, length_le, rnd.clientChallenge.property, List.length_cons,
      List.length_nil]
    omega
  all_goals
    intro x hx
    simp [v2Msg, v2Pre, hd, hu, hw, exLogin] at hx
    subst hx
    decide

theorem exAnswers_v2 (P : Prims) (cm : CaseMap) (cfg : Cfg) (ver : UInt32) (hver : isV2 ver) :
    ∃ b, Answers P cm cfg ver exLogin (exHistory exChallenge) exChallenge exRand b := exAnswers_v2_rnd P cm cfg ver hver exRand

/-! ### C33 -/

/-- C33: for a client that can negotiate, `send_authenticate` aborts on its state check exactly when no challenge has been
    accepted since the latest `send_negociate`. -/
theorem C33_state_check (P : Prims) (cm : CaseMap) (cfg : Cfg) (ver : UInt32) (l : Login) (c : Client)
    (hc : created P cm l c) (hn : negotiable ver l.domain) (h : List Op) (rnd : AuthRand) (junk : List UInt8) :
    resultOf P cfg ver c h (.sendAuthenticate rnd junk) = .error .invalidState ↔ ¬ ∃ ch, accepted h ch := by
  obtain ⟨_, hv, _⟩ := created_state hc
  simp only [resultOf, step, sendAuthenticate_eq]
  constructor
  · rintro he ⟨ch, ha⟩
    obtain ⟨n, h1, h2, h3⟩ := message_after P cm cfg ver l c hc h ch ha hn rnd
    rw [h3] at he
    cases hm : authenticateMessage P cfg ver rnd (reset c (.challengeReceived n ch) []) with
    | error e =>
      rw [hm] at he
      have hk := message_error P cfg hn.1 rnd c hv n ch [] e hm
      cases he
      rcases hk with h | h | h <;> cases h
    | ok m =>
      rw [hm] at he
      simp only at he
      by_cases hf : authenticateFits m
      · rw [serialize_of_enc (enc_authenticate cfg m hf)] at he; cases he
      · obtain ⟨p, hp, hk⟩ := authenticate_err cfg m hf []
        rw [serialize_of_error hp] at he
        cases he
        rcases hk with h | h <;> cases h
  · intro ha
    rw [invalid_message P cfg hn.1 rnd _ (no_message_after P cm cfg ver l c hc h (fun h => ha h.2))]

/-- C33: when it aborts there, or when the client cannot negotiate, nothing about the client changes. -/
theorem C33_no_side_effect (P : Prims) (cm : CaseMap) (cfg : Cfg) (ver : UInt32) (l : Login) (c : Client)
    (hc : created P cm l c) (h : List Op) (rnd : AuthRand) (junk : List UInt8)
    (ha : ¬ (negotiable ver l.domain ∧ ∃ ch, accepted h ch)) :
    (∃ e, resultOf P cfg ver c h (.sendAuthenticate rnd junk) = .error e) ∧
      run P cfg ver c (h ++ [.sendAuthenticate rnd junk]) = run P cfg ver c h := by
  have hno := no_message_after P cm cfg ver l c hc h ha
  rw [run_snoc]
  simp only [resultOf, step, sendAuthenticate_eq]
  by_cases hv : ver.toNat ≤ 5
  · rw [invalid_message P cfg hv rnd _ hno]
    exact ⟨⟨_, rfl⟩, rfl⟩
  · rw [outdated_message P cfg hv]
    exact ⟨⟨_, rfl⟩, rfl⟩

/-- Before any challenge the check fails; after one it does not (and the message goes out). -/
example (P : Prims) (cm : CaseMap) (cfg : Cfg) (c : Client) (hc : created P cm exLogin c) :
    resultOf P cfg 3 c [.sendNegociate []] (.sendAuthenticate exRand []) = .error .invalidState ∧
    resultOf P cfg 3 c (exHistory exChallenge) (.sendAuthenticate exRand []) ≠ .error .invalidState := by
  constructor
  · refine (C33_state_check P cm cfg 3 exLogin c hc (exLogin_negotiable 3 (by decide)) _ _ _).mpr ?_
    rintro ⟨ch, ha⟩
    exact (phases _).1 ch ha ⟨[], [], [], rfl, by simp⟩
  · intro he
    exact (C33_state_check P cm cfg 3 exLogin c hc (exLogin_negotiable 3 (by decide)) _ _ _).mp he
      ⟨_, exHistory_accepted exChallenge⟩

/-! ### C34 -/

/-- C34: the result of `send_authenticate` depends on the history only through the first challenge received after the latest
    `send_negociate`. -/
theorem C34_first_challenge (P : Prims) (cm : CaseMap) (cfg : Cfg) (ver : UInt32) (l : Login) (c : Client)
    (hc : created P cm l c) (h h' : List Op) (ch : Challenge) (ha : accepted h ch) (ha' : accepted h' ch)
    (rnd : AuthRand) (junk junk' : List UInt8) :
    resultOf P cfg ver c h (.sendAuthenticate rnd junk) = resultOf P cfg ver c h' (.sendAuthenticate rnd junk') := by
  have key : authenticateMessage P cfg ver rnd (run P cfg ver c h) = authenticateMessage P cfg ver rnd (run P cfg ver c h') := by
    by_cases hn : negotiable ver l.domain
    · obtain ⟨n, h1, h2, h3⟩ := message_after P cm cfg ver l c hc h ch ha hn rnd
      obtain ⟨n', h1', h2', h3'⟩ := message_after P cm cfg ver l c hc h' ch ha' hn rnd
      rw [h1] at h1'
      cases h1'
      rw [h3, h3']
    · by_cases hv : ver.toNat ≤ 5
      · rw [invalid_message P cfg hv rnd _ (no_message_after P cm cfg ver l c hc h (fun h => hn h.1)),
          invalid_message P cfg hv rnd _ (no_message_after P cm cfg ver l c hc h' (fun h => hn h.1))]
      · rw [outdated_message P cfg hv, outdated_message P cfg hv]
  simp only [resultOf, step, sendAuthenticate_eq, key]
  cases authenticateMessage P cfg ver rnd (run P cfg ver c h') with
  | error e => rfl
  | ok a => simp only []; cases Wire.serialize cfg a <;> rfl

/-- C34: a challenge that is not expected (none was requested, or one was already accepted) has no effect at all. -/
theorem C34_ignored (P : Prims) (cm : CaseMap) (cfg : Cfg) (ver : UInt32) (l : Login) (c : Client)
    (hc : created P cm l c) (h : List Op) (ch : Challenge) (hp : ¬ pending h) :
    run P cfg ver c (h ++ [.recvChallenge ch]) = run P cfg ver c h := by
  obtain ⟨hs, hv, hd, hu⟩ := created_state hc
  rw [run_snoc]
  have key : ∀ n, (run P cfg ver c h).state ≠ .negociateSent n := by
    intro n he
    by_cases hn : negotiable ver l.domain
    · obtain ⟨n', h1, h2⟩ := (negotiable_iff P cm l c hc ver).mp hn
      have := run_state P cfg ver c hs n' h1 h2 h
      rw [he] at this
      exact hp this.2
    · rw [run_stuck P cfg ver c hs (fun n h1 h2 => hn ((negotiable_iff P cm l c hc ver).mpr ⟨n, h1, h2⟩)) h] at he
      cases he
  simp only [step, Client.recvChallenge]

/-- The second challenge of an exchange is ignored. -/
example (P : Prims) (cm : CaseMap) (cfg : Cfg) (c : Client) (hc : created P cm exLogin c) (other : Challenge) :
    run P cfg 3 c (exHistory exChallenge ++ [.recvChallenge other]) = run P cfg 3 c (exHistory exChallenge) := by
  refine C34_ignored P cm cfg 3 exLogin c hc _ other ?_
  rintro ⟨a, junk, b, h, hb⟩
  match a with
  | [] => simp [exHistory] at h; obtain ⟨_, rfl⟩ := h; simp [isReceive] at hb
  | [_] => simp [exHistory] at h
  | _ :: _ :: _ => simp [exHistory] at h

/-- C34: an expected one is accepted, whatever came before: it is answered as in a first exchange. -/
theorem C34_accepted (P : Prims) (cm : CaseMap) (cfg : Cfg) (ver : UInt32) (l : Login) (c : Client)
    (hc : created P cm l c) (h : List Op) (ch : Challenge) (hp : pending h) (rnd : AuthRand) (junk junk' : List UInt8) :
    accepted (h ++ [.recvChallenge ch]) ch ∧
      resultOf P cfg ver c (h ++ [.recvChallenge ch]) (.sendAuthenticate rnd junk) =
        resultOf P cfg ver c [.sendNegociate junk', .recvChallenge ch] (.sendAuthenticate rnd junk) := by
  have ha := (accepted_snoc h _ ch).mpr (.inl ⟨rfl, hp⟩)
  exact ⟨ha, C34_first_challenge P cm cfg ver l c hc _ _ ch ha ⟨[], junk', [], [], rfl, by simp, by simp⟩ _ _ _⟩

/-- A later challenge is ignored: the answer is the one to the first. -/
example (P : Prims) (cm : CaseMap) (cfg : Cfg) (c : Client) (hc : created P cm exLogin c) (other : Challenge) :
    resultOf P cfg 3 c [.recvChallenge other, .sendNegociate [], .recvChallenge exChallenge, .recvChallenge other]
        (.sendAuthenticate exRand []) =
      resultOf P cfg 3 c (exHistory exChallenge) (.sendAuthenticate exRand []) :=
  C34_first_challenge P cm cfg 3 exLogin c hc _ _ exChallenge
    ⟨[.recvChallenge other], [], [], [.recvChallenge other], rfl, by simp, by simp [isNegotiate]⟩
    (exHistory_accepted _) _ _ _

/-! ### C35 -/

/-- C35: `send_negociate` returns the same result after every history. -/
theorem C35_same_negotiate (P : Prims) (cfg : Cfg) (ver : UInt32) (c : Client) (h h' : List Op) (junk junk' : List UInt8) :
    resultOf P cfg ver c h (.sendNegociate junk) = resultOf P cfg ver c h' (.sendNegociate junk') := by
  obtain ⟨s, b, e⟩ := run_reset P cfg ver c h
  obtain ⟨s', b', e'⟩ := run_reset P cfg ver c h'
  simp only [resultOf, step, sendNegociate_eq, e, e', negotiateMessage_reset]
  cases negotiateMessage ver c with
  | error e => rfl
  | ok n => simp only []; cases Wire.serialize cfg n <;> rfl

example (P : Prims) (cfg : Cfg) (c : Client) :
    resultOf P cfg 3 c (exHistory exChallenge ++ [.sendAuthenticate exRand []]) (.sendNegociate []) = resultOf P cfg 3 c [] (.sendNegociate []) :=
  C35_same_negotiate P cfg 3 c _ _ _ _

/-- C35: from then on the client behaves as if it had just been created and made its first `send_negociate`. -/
theorem C35_restart (P : Prims) (cm : CaseMap) (cfg : Cfg) (ver : UInt32) (l : Login) (c : Client)
    (hc : created P cm l c) (hn : negotiable ver l.domain) (h h' : List Op) (junk junk' : List UInt8) (op : Op) :
    resultOf P cfg ver c (h ++ .sendNegociate junk :: h') op = resultOf P cfg ver c (.sendNegociate junk' :: h') op := by
  obtain ⟨n, h1, h2⟩ := (negotiable_iff P cm l c hc ver).mp hn
  obtain ⟨s, b, e⟩ := run_reset P cfg ver c h
  have key : ∀ (x : Client) (j : List UInt8), (∃ s b, x = reset c s b) →
      (step P cfg ver x (.sendNegociate j)).1 = reset c (.negociateSent n) (negotiateBytes n) := by
    rintro x j ⟨s, b, rfl⟩
    simp only [step, sendNegociate_eq, negotiateMessage_reset, h1, serialize_of_enc (enc_negotiate cfg n h2)]
    rfl
  have e1 : run P cfg ver c (h ++ .sendNegociate junk :: h') = run P cfg ver (reset c (.negociateSent n) (negotiateBytes n)) h' := by
    have := key (run P cfg ver c h) junk ⟨s, b, e⟩
    simp only [run, List.foldl_append, List.foldl_cons] at this ⊢
    rw [this]
  have e2 : run P cfg ver c (.sendNegociate junk' :: h') = run P cfg ver (reset c (.negociateSent n) (negotiateBytes n)) h' := by
    have := key c junk' ⟨c.state, c.buffer, rfl⟩
    simp only [run, List.foldl_cons] at this ⊢
    rw [this]
  simp only [resultOf, e1, e2]

/-- A second exchange goes like a first one. -/
example (P : Prims) (cm : CaseMap) (cfg : Cfg) (c : Client) (hc : created P cm exLogin c) :
    resultOf P cfg 3 c (exHistory { exChallenge with serverChallenge := Bytes.zero 8 } ++ .sendAuthenticate exRand [] :: exHistory exChallenge) (.sendAuthenticate exRand []) =
      resultOf P cfg 3 c (exHistory exChallenge) (.sendAuthenticate exRand []) :=
  C35_restart P cm cfg 3 exLogin c hc (exLogin_negotiable 3 (by decide)) (exHistory { exChallenge with serverChallenge := Bytes.zero 8 } ++ [.sendAuthenticate exRand []])
    [.recvChallenge exChallenge] [] [] _

/-- C35: `send_authenticate` can be repeated: earlier attempts, successful or not, change nothing about the result. -/
theorem C35_repeat (P : Prims) (cm : CaseMap) (cfg : Cfg) (ver : UInt32) (l : Login) (c : Client)
    (hc : created P cm l c) (h : List Op) (ch : Challenge) (ha : accepted h ch) (attempts : List (AuthRand × List UInt8))
    (rnd : AuthRand) (junk : List UInt8) :
    resultOf P cfg ver c (h ++ attempts.map fun a => .sendAuthenticate a.1 a.2) (.sendAuthenticate rnd junk) =
      resultOf P cfg ver c h (.sendAuthenticate rnd junk) := by
  refine C34_first_challenge P cm cfg ver l c hc _ _ ch ?_ ha _ _ _
  obtain ⟨b, j, m, a, rfl, h1, h2⟩ := ha
  refine ⟨b, j, m, a ++ attempts.map fun a => .sendAuthenticate a.1 a.2, by simp, h1, fun op ho => ?_⟩
  rcases List.mem_append.mp ho with ho | ho
  · exact h2 op ho
  · obtain ⟨x, _, rfl⟩ := List.mem_map.mp ho
    rintro ⟨j, h⟩; cases h

example (P : Prims) (cm : CaseMap) (cfg : Cfg) (c : Client) (hc : created P cm exLogin c) :
    resultOf P cfg 3 c (exHistory exChallenge ++ [.sendAuthenticate exRand [], .sendAuthenticate exRand []])
      (.sendAuthenticate exRand []) = resultOf P cfg 3 c (exHistory exChallenge) (.sendAuthenticate exRand []) :=
  C35_repeat P cm cfg 3 exLogin c hc _ exChallenge (exHistory_accepted _) [(exRand, []), (exRand, [])] exRand []

/-! ### C37 -/

/-- C37: above level 5 every call that would send something aborts, and no history changes the client in any way. -/
theorem C37_unsupported (P : Prims) (cm : CaseMap) (cfg : Cfg) (ver : UInt32) (hver : 5 < ver.toNat) (l : Login) (c : Client)
    (hc : created P cm l c) (h : List Op) :
    run P cfg ver c h = c ∧
      (∀ junk, resultOf P cfg ver c h (.sendNegociate junk) = .error .unsupportedVersion) ∧
      ∀ rnd junk, resultOf P cfg ver c h (.sendAuthenticate rnd junk) = .error .invalidVersion := by
  have hv : ¬ ver.toNat ≤ 5 := by omega
  obtain ⟨hs, _⟩ := created_state hc
  have hrun : run P cfg ver c h = c := by
    induction h using snocRec with
    | nil => rfl
    | snoc h op ih =>
      rw [run_snoc, ih]
      cases op with
      | sendNegociate j => simp only [step, sendNegociate_eq, negotiateMessage_err hv]
      | recvChallenge ch => simp only [step, Client.recvChallenge, hs]
      | sendAuthenticate rnd j => simp only [step, sendAuthenticate_eq, outdated_message P cfg hv]
  refine ⟨hrun, fun j => ?_, fun rnd j => ?_⟩
  · simp only [resultOf, hrun, step, sendNegociate_eq, negotiateMessage_err hv]
  · simp only [resultOf, hrun, step, sendAuthenticate_eq, outdated_message P cfg hv]

example (P : Prims) (cm : CaseMap) (cfg : Cfg) (c : Client) (hc : created P cm exLogin c) :
    run P cfg 6 c (exHistory exChallenge) = c := (C37_unsupported P cm cfg 6 (by decide) exLogin c hc _).1

/-! ### C43 -/

/-- C43: the bytes returned are exactly the encoding of a message; after `send_negociate` it is the message the client
    has recorded as sent. -/
theorem C43_exact_encoding (P : Prims) (cfg : Cfg) (ver : UInt32) (c : Client) (b : List UInt8) :
    (∀ junk, (step P cfg ver c (.sendNegociate junk)).2 = .ok b →
      ∃ n, (step P cfg ver c (.sendNegociate junk)).1.state = .negociateSent n ∧ Wire.serialize cfg n = .ok b) ∧
    (∀ rnd junk, (step P cfg ver c (.sendAuthenticate rnd junk)).2 = .ok b →
      ∃ a, Wire.serialize cfg a = .ok b ∧ ∀ n ch, c.state = .challengeReceived n ch →
        (step P cfg ver c (.sendAuthenticate rnd junk)).1.state = .authenticateSent n ch a) := by
  constructor
  · intro junk h
    simp only [step, sendNegociate_eq] at h ⊢
    cases hn : negotiateMessage ver c with
    | error e => rw [hn] at h; cases h
    | ok n =>
      rw [hn] at h
      cases hs : Wire.serialize cfg n with
      | error e => simp only [hs] at h; cases h
      | ok x =>
        simp only [hs] at h
        cases h
        exact ⟨n, by simp only [hs, reset], hs⟩
  · intro rnd junk h
    simp only [step, sendAuthenticate_eq] at h ⊢
    cases hn : authenticateMessage P cfg ver rnd c with
    | error e => rw [hn] at h; cases h
    | ok a =>
      rw [hn] at h
      cases hs : Wire.serialize cfg a with
      | error e => simp only [hs] at h; cases h
      | ok x =>
        simp only [hs] at h
        cases h
        exact ⟨a, hs, fun n ch e => by simp only [hs, setAuthenticatedState, reset, e]⟩

/-- What comes out is the encoding of the message held. -/
example (P : Prims) (cm : CaseMap) (cfg : Cfg) (c : Client) (hc : created P cm exLogin c) : ∃ b n,
    (step P cfg 3 c (.sendNegociate [])).2 = .ok b ∧ (step P cfg 3 c (.sendNegociate [])).1.state = .negociateSent n ∧
      Wire.serialize cfg n = .ok b := by
  obtain ⟨n, h1, h2⟩ := (negotiable_iff P cm _ c hc 3).mp (exLogin_negotiable 3 (by decide))
  obtain ⟨b, hb⟩ : ∃ b, (step P cfg 3 c (.sendNegociate [])).2 = .ok b :=
    ⟨negotiateBytes n, by simp only [step, sendNegociate_eq, h1, (serialize_negotiate cfg n _).mpr ⟨h2, rfl⟩]⟩
  obtain ⟨n, h⟩ := (C43_exact_encoding P cfg 3 c b).1 [] hb
  exact ⟨b, n, hb, h⟩

/-- C43: what earlier calls left in the buffer, and what aborted calls leave there, never shows in a result. -/
theorem C43_no_stale_bytes (P : Prims) (cfg : Cfg) (ver : UInt32) (c : Client) (buffer : List UInt8) (h h' : List Op)
    (hh : SameCalls h h') (op op' : Op) (ho : sameCall op op') :
    resultOf P cfg ver { c with buffer := buffer } h op = resultOf P cfg ver c h' op' := by
  obtain ⟨s, x, x', e, e'⟩ := run_buffer P cfg ver hh c c.state buffer c.buffer
  have e : run P cfg ver { c with buffer := buffer } h = reset c s x := e
  have e' : run P cfg ver c h' = reset c s x' := e'
  simp only [resultOf, e, e']
  exact (step_buffer P cfg ver c s x x' op op' ho).1

example (P : Prims) (cfg : Cfg) (c : Client) :
    resultOf P cfg 3 { c with buffer := [1, 2, 3] } [.sendNegociate [7, 7], .recvChallenge exChallenge] (.sendAuthenticate exRand [9]) =
      resultOf P cfg 3 c [.sendNegociate [], .recvChallenge exChallenge] (.sendAuthenticate exRand []) :=
  C43_no_stale_bytes P cfg 3 c _ _ _
    (.cons (.inr (.inl ⟨⟨_, rfl⟩, ⟨_, rfl⟩⟩)) (.cons (.inl rfl) .nil)) _ _ (.inr (.inr ⟨exRand, _, _, rfl, rfl⟩))

/-! ### C44 -/

/-- C44: no history changes the credentials (or the target, or the version block). -/
theorem C44_credentials (P : Prims) (cfg : Cfg) (ver : UInt32) (c : Client) (h : List Op) :
    let c' := run P cfg ver c h
    c'.username = c.username ∧ c'.domain = c.domain ∧ c'.workstation = c.workstation ∧ c'.lmHash = c.lmHash ∧
      c'.ntHash = c.ntHash ∧ c'.ntlmv2Hash = c.ntlmv2Hash ∧ c'.target = c.target ∧ c'.version = c.version := by
  obtain ⟨s, b, e⟩ := run_reset P cfg ver c h
  rw [e]
  exact ⟨rfl, rfl, rfl, rfl, rfl, rfl, rfl, rfl⟩

example (P : Prims) (cfg : Cfg) (c : Client) :
    (run P cfg 3 c (exHistory exChallenge ++ [.sendAuthenticate exRand [], .sendNegociate []])).ntlmv2Hash = c.ntlmv2Hash :=
  (C44_credentials P cfg 3 c _).2.2.2.2.2.1

/-! ### C41 -/

theorem simulate (P : Prims) (cfg : Cfg) (ver : UInt32) (f : Client → Client)
    (hf : ∀ c s b, f (reset c s b) = reset (f c) s b) (hs : ∀ c, (f c).state = c.state)
    (h1 : ∀ c, negotiateMessage ver (f c) = negotiateMessage ver c)
    (h2 : ∀ rnd c, authenticateMessage P cfg ver rnd (f c) = authenticateMessage P cfg ver rnd c)
    (c : Client) (op : Op) : (step P cfg ver (f c) op).2 = (step P cfg ver c op).2 ∧
      (step P cfg ver (f c) op).1 = f (step P cfg ver c op).1 := by
  have hset : ∀ (c : Client) a, setAuthenticatedState a (f c) = f (setAuthenticatedState a c) := by
    intro c a
    simp only [setAuthenticatedState, hs]
    cases e : c.state <;> simp only
    rename_i n ch
    exact (hf c (.authenticateSent n ch a) c.buffer ▸ by
      have := hf c c.state c.buffer
      have hb : (f c).buffer = c.buffer := by
        have h := hf c c.state c.buffer
        have hc : reset c c.state c.buffer = c := rfl
        rw [hc] at h
        rw [h]; rfl
      simp only [reset, hb])
  cases op with
  | sendNegociate j =>
    simp only [step, sendNegociate_eq, h1]
    cases negotiateMessage ver c with
    | error e => exact ⟨rfl, rfl⟩
    | ok n => simp only []; cases Wire.serialize cfg n <;> simp only [hf, hs, and_self]
  | recvChallenge ch =>
    refine ⟨rfl, ?_⟩
    simp only [step, Client.recvChallenge, hs]
    cases e : c.state <;> simp only
    rename_i n
    have hb : (f c).buffer = c.buffer := by
      have h := hf c c.state c.buffer
      have hc : reset c c.state c.buffer = c := rfl
      rw [hc] at h
      rw [h]; rfl
    have := hf c (.challengeReceived n ch) c.buffer
    simp only [reset] at this
    rw [this, ← hb]
  | sendAuthenticate rnd j =>
    simp only [step, sendAuthenticate_eq, h2]
    cases authenticateMessage P cfg ver rnd c with
    | error e => exact ⟨rfl, rfl⟩
    | ok a =>
      simp only []
      cases Wire.serialize cfg a with
      | error e => simp only [hf, hs, and_self]
      | ok b => simp only [hs, ← hf, hset, and_self]

theorem simulate_run (P : Prims) (cfg : Cfg) (ver : UInt32) (f : Client → Client)
    (hstep : ∀ c op, (step P cfg ver (f c) op).2 = (step P cfg ver c op).2 ∧ (step P cfg ver (f c) op).1 = f (step P cfg ver c op).1)
    (c : Client) (h : List Op) (op : Op) : resultOf P cfg ver (f c) h op = resultOf P cfg ver c h op := by
  have hrun : run P cfg ver (f c) h = f (run P cfg ver c h) := by
    induction h using snocRec with
    | nil => rfl
    | snoc h op ih => rw [run_snoc, run_snoc, ih, (hstep _ op).2]
  simp only [resultOf, hrun, (hstep _ op).1]

/-- C41: at levels above 0 nothing a client returns, in any history, depends on the LM hash. -/
theorem C41_no_lm_hash (P : Prims) (cfg : Cfg) (ver : UInt32) (hver : ver ≠ 0) (c : Client) (lm : Bytes 16)
    (h : List Op) (op : Op) : resultOf P cfg ver { c with lmHash := lm } h op = resultOf P cfg ver c h op := by
  refine simulate_run P cfg ver (fun c => { c with lmHash := lm })
    (simulate P cfg ver _ (fun _ _ _ => rfl) (fun _ => rfl) (fun _ => rfl) (fun rnd c => ?_)) c h op
  have hb : (ver != 0) = true := by simpa using hver
  have e1 : authenticateNtlmv1 P ver rnd { c with lmHash := lm } = authenticateNtlmv1 P ver rnd c := by
    simp only [authenticateNtlmv1, hb]
    rfl
  simp only [authenticateMessage, e1]
  rfl

/-- Level 1, the lowest of them, after an accepted challenge. -/
example (P : Prims) (cfg : Cfg) (c : Client) :
    resultOf P cfg 1 { c with lmHash := Bytes.zero 16 } (exHistory exChallenge) (.sendAuthenticate exRand []) =
      resultOf P cfg 1 c (exHistory exChallenge) (.sendAuthenticate exRand []) := C41_no_lm_hash P cfg 1 (by decide) c _ _ _

/-- C41: at levels 3 to 5 nothing depends on the NT hash either, other than through the NTLMv2 hash. -/
theorem C41_no_nt_hash (P : Prims) (cfg : Cfg) (ver : UInt32) (hver : isV2 ver) (c : Client) (lm nt : Bytes 16)
    (h : List Op) (op : Op) : resultOf P cfg ver { c with lmHash := lm, ntHash := nt } h op = resultOf P cfg ver c h op := by
  refine simulate_run P cfg ver (fun c => { c with lmHash := lm, ntHash := nt })
    (simulate P cfg ver _ (fun _ _ _ => rfl) (fun _ => rfl) (fun _ => rfl) (fun rnd c => ?_)) c h op
  simp only [authenticateMessage, if_neg (fun h => not_isV1_of_isV2 hver (isV1_iff.mpr h))]
  rfl

example (P : Prims) (cfg : Cfg) (c : Client) :
    resultOf P cfg 3 { c with lmHash := Bytes.zero 16, ntHash := Bytes.zero 16 } (exHistory exChallenge) (.sendAuthenticate exRand []) =
      resultOf P cfg 3 c (exHistory exChallenge) (.sendAuthenticate exRand []) := C41_no_nt_hash P cfg 3 (by simp [isV2]) c _ _ _ _

end Props

end Ntlm
