import Verif.Spec.Level
import Verif.Props.Confine
/-
  C84: level types that change their answer.
-/
namespace Ntlm

open Spec Client

/-! ### Helper lemmas -/

theorem authenticateMessageV_eq (P : Prims) (cfg : Cfg) (v : VersionAnswers) (rnd : AuthRand) (junk : List UInt8) (c : Client) :
    authenticateMessageV P cfg v rnd c = authenticateMessage P cfg (levelUsed v (.sendAuthenticate rnd junk)) rnd c := by
  by_cases h : v.first.toNat ≤ 2
  · have h1 : v.first = 0 ∨ v.first = 1 ∨ v.first = 2 := isV1_iff.mp h
    by_cases h0 : v.second = 0
    · have e : levelUsed v (.sendAuthenticate rnd junk) = 0 := by simp only [levelUsed, if_pos h, if_pos h0]
      rw [e]
      simp only [authenticateMessageV, if_pos h1, h0]
      rfl
    · have e : levelUsed v (.sendAuthenticate rnd junk) = 1 := by simp only [levelUsed, if_pos h, if_neg h0]
      have e1 : authenticateNtlmv1 P v.second rnd c = authenticateNtlmv1 P 1 rnd c := by
        have hb : (v.second != 0) = ((1 : UInt32) != 0) := by
          have : (v.second != 0) = true := by simpa using h0
          rw [this]; rfl
        simp only [authenticateNtlmv1, hb]
      rw [e]
      simp only [authenticateMessageV, if_pos h1, e1]
      rfl
  · have e : levelUsed v (.sendAuthenticate rnd junk) = v.first := by simp only [levelUsed, if_neg h]
    have h1 : ¬ (v.first = 0 ∨ v.first = 1 ∨ v.first = 2) := fun h' => h (isV1_iff.mpr h')
    rw [e]
    simp only [authenticateMessageV, authenticateMessage, if_neg h1]

theorem stepV_eq (P : Prims) (cfg : Cfg) (v : VersionAnswers) (c : Client) (op : Op) :
    stepV P cfg v c op = step P cfg (levelUsed v op) c op := by
  cases op with
  | sendNegociate junk => rfl
  | recvChallenge ch => rfl
  | sendAuthenticate rnd junk =>
    simp only [stepV, step, sendAuthenticateV, sendAuthenticate, authenticateMessageV_eq P cfg v rnd junk]
    cases authenticateMessage P cfg (levelUsed v (.sendAuthenticate rnd junk)) rnd c with
    | error e => rfl
    | ok a => cases Wire.serializeInto cfg a [] <;> rfl

theorem runV_snoc (P : Prims) (cfg : Cfg) (c : Client) (h : List (VersionAnswers × Op)) (x : VersionAnswers × Op) :
    runV P cfg c (h ++ [x]) = (stepV P cfg x.1 (runV P cfg c h) x.2).1 := by
  simp [runV, List.foldl_append]

theorem runV_reset (P : Prims) (cfg : Cfg) (c : Client) (h : List (VersionAnswers × Op)) :
    ∃ s b, runV P cfg c h = reset c s b := by
  induction h using snocRec with
  | nil => exact ⟨c.state, c.buffer, rfl⟩
  | snoc h x ih =>
    obtain ⟨s, b, e⟩ := ih
    rw [runV_snoc, e, stepV_eq]
    obtain ⟨s', b', e'⟩ := step_reset P cfg (levelUsed x.1 x.2) (reset c s b) x.2
    exact ⟨s', b', e'⟩

/-- What a protocol state holds, other than a message already sent. -/
def held : ClientState → Option (Negotiate × Option Challenge)
  | .new => none
  | .negociateSent n => some (n, none)
  | .challengeReceived n ch => some (n, some ch)
  | .authenticateSent n ch _ => some (n, some ch)

theorem sessionOf_held {s s' : ClientState} (h : held s = held s') : sessionOf s = sessionOf s' := by
  cases s <;> cases s' <;> simp_all [held, sessionOf]

/-- What a call does to it. -/
def heldStep (cfg : Cfg) (ver : UInt32) (c : Client) (q : Option (Negotiate × Option Challenge)) :
    Op → Option (Negotiate × Option Challenge)
  | .sendNegociate _ =>
    match negotiateMessage ver c with
    | .error _ => q
    | .ok n => match Wire.serialize cfg n with
      | .ok _ => some (n, none)
      | .error _ => q
  | .recvChallenge ch => match q with
    | some (n, none) => some (n, some ch)
    | q => q
  | .sendAuthenticate _ _ => q

theorem held_step (P : Prims) (cfg : Cfg) (ver : UInt32) (c : Client) (s : ClientState) (b : List UInt8) (op : Op) :
    held (step P cfg ver (reset c s b) op).1.state = heldStep cfg ver c (held s) op := by
  cases op with
  | sendNegociate junk =>
    simp only [step, sendNegociate_eq, negotiateMessage_reset, heldStep]
    cases negotiateMessage ver c with
    | error e => rfl
    | ok n => simp only []; cases Wire.serialize cfg n <;> rfl
  | recvChallenge ch => cases s <;> rfl
  | sendAuthenticate rnd junk =>
    simp only [step, sendAuthenticate_eq, heldStep]
    cases authenticateMessage P cfg ver rnd (reset c s b) with
    | error e => rfl
    | ok a =>
      simp only []
      cases Wire.serialize cfg a with
      | error e => rfl
      | ok x => cases s <;> rfl

theorem held_runV (P : Prims) (cfg : Cfg) (c c' : Client) (hs : held c.state = held c'.state)
    (hm : ∀ ver, negotiateMessage ver c = negotiateMessage ver c') (h : List (VersionAnswers × Op)) :
    held (runV P cfg c h).state = held (runV P cfg c' h).state := by
  induction h using snocRec with
  | nil => exact hs
  | snoc h x ih =>
    obtain ⟨s, b, e⟩ := runV_reset P cfg c h
    obtain ⟨s', b', e'⟩ := runV_reset P cfg c' h
    rw [e, e'] at ih
    have ih : held s = held s' := ih
    rw [runV_snoc, runV_snoc, e, e', stepV_eq, stepV_eq, held_step, held_step, ih]
    cases x.2 with
    | sendNegociate j => simp only [heldStep, hm]
    | recvChallenge ch => rfl
    | sendAuthenticate r j => rfl

theorem pendingV_snoc (h : List (VersionAnswers × Op)) (x : VersionAnswers × Op) (ver : UInt32) :
    pendingV (h ++ [x]) ver ↔ (isNegotiateV x ∧ x.1.first = ver) ∨ (¬ isNegotiateV x ∧ ¬ isReceive x.2 ∧ pendingV h ver) := by
  constructor
  · rintro ⟨b, v, j, a, e, hv, h5, ha⟩
    rcases append_cons_eq_snoc e with ⟨rfl, rfl, rfl⟩ | ⟨a', rfl, rfl⟩
    · exact .inl ⟨⟨⟨j, rfl⟩, by rw [← hv] at h5; exact h5⟩, hv⟩
    · obtain ⟨h1, h2⟩ := ha x (by simp)
      exact .inr ⟨h1, h2, b, v, j, a', rfl, hv, h5, fun o ho => ha o (by simp [ho])⟩
  · rintro (⟨⟨⟨j, hj⟩, h5⟩, hv⟩ | ⟨h1, h2, b, v, j, a, rfl, hv, h5, ha⟩)
    · obtain ⟨v, op⟩ := x
      have hj : op = .sendNegociate j := hj
      subst hj
      have hv : v.first = ver := hv
      subst hv
      exact ⟨h, v, j, [], rfl, rfl, h5, by simp⟩
    · refine ⟨b, v, j, a ++ [x], by simp, hv, h5, fun o ho => ?_⟩
      rcases List.mem_append.mp ho with ho | ho
      · exact ha o ho
      · rw [List.mem_singleton.mp ho]; exact ⟨h1, h2⟩

theorem acceptedV_snoc (h : List (VersionAnswers × Op)) (x : VersionAnswers × Op) (ver : UInt32) (ch : Challenge) :
    acceptedV (h ++ [x]) ver ch ↔
      (x.2 = .recvChallenge ch ∧ pendingV h ver) ∨ (¬ isNegotiateV x ∧ acceptedV h ver ch) := by
  constructor
  · rintro ⟨b, v, j, m, w, a, e, hv, h5, hm, ha⟩
    have e' : h ++ [x] = (b ++ (v, .sendNegociate j) :: m) ++ (w, .recvChallenge ch) :: a := by simpa using e
    rcases append_cons_eq_snoc e' with ⟨rfl, rfl, rfl⟩ | ⟨a', rfl, rfl⟩
    · exact .inl ⟨rfl, b, v, j, m, rfl, hv, h5, hm⟩
    · exact .inr ⟨ha x (by simp), b, v, j, m, w, a', by simp, hv, h5, hm, fun o ho => ha o (by simp [ho])⟩
  · rintro (⟨hx, b, v, j, m, rfl, hv, h5, hm⟩ | ⟨h1, b, v, j, m, w, a, rfl, hv, h5, hm, ha⟩)
    · obtain ⟨w, op⟩ := x
      have hx : op = .recvChallenge ch := hx
      subst hx
      exact ⟨b, v, j, m, w, [], by simp, hv, h5, hm, by simp⟩
    · refine ⟨b, v, j, m, w, a ++ [x], by simp, hv, h5, hm, fun o ho => ?_⟩
      rcases List.mem_append.mp ho with ho | ho
      · exact ha o ho
      · rw [List.mem_singleton.mp ho]; exact h1

/-- What a client whose domain fits holds after a history. -/
def heldFor (c : Client) (h : List (VersionAnswers × Op)) : Option (Negotiate × Option Challenge) → Prop
  | none => (∀ ver, ¬ pendingV h ver) ∧ ∀ ver ch, ¬ acceptedV h ver ch
  | some (n, none) => ∃ ver, negotiateMessage ver c = .ok n ∧ pendingV h ver ∧ (∀ w, pendingV h w → w = ver) ∧
      ∀ w ch, ¬ acceptedV h w ch
  | some (n, some ch) => ∃ ver, negotiateMessage ver c = .ok n ∧ acceptedV h ver ch ∧ (∀ w, ¬ pendingV h w) ∧
      ∀ w ch', acceptedV h w ch' → w = ver ∧ ch' = ch

theorem runV_held (P : Prims) (cm : CaseMap) (cfg : Cfg) (l : Login) (c : Client) (hc : created P cm l c)
    (hd : (utf8Bytes l.domain).length ≤ 65535) (h : List (VersionAnswers × Op)) :
    heldFor c h (held (runV P cfg c h).state) := by
  induction h using snocRec with
  | nil =>
    rw [show runV P cfg c [] = c from rfl, (created_state hc).1]
    refine ⟨?_, ?_⟩
    · rintro ver ⟨b, v, j, a, e, _⟩; simp at e
    · rintro ver ch ⟨b, v, j, m, w, a, e, _⟩; simp at e
  | snoc h x ih =>
    obtain ⟨s, b, e⟩ := runV_reset P cfg c h
    rw [e] at ih
    have ih : heldFor c h (held s) := ih
    rw [runV_snoc, e, stepV_eq, held_step]
    generalize held s = q at ih
    obtain ⟨v, op⟩ := x
    have keep : ∀ y : VersionAnswers × Op, ¬ isNegotiateV y → ¬ isReceive y.2 → heldFor c (h ++ [y]) q := by
      intro y h1 h2
      have hr : ∀ ch, y.2 ≠ .recvChallenge ch := fun ch e => h2 ⟨ch, e⟩
      match q, ih with
      | none, ih =>
        refine ⟨fun w => ?_, fun w ch => ?_⟩
        · rw [pendingV_snoc]; rintro (⟨hh, _⟩ | ⟨_, _, hh⟩)
          · exact h1 hh
          · exact ih.1 w hh
        · rw [acceptedV_snoc]; rintro (⟨hh, _⟩ | ⟨_, hh⟩)
          · exact hr _ hh
          · exact ih.2 w ch hh
      | some (n, none), ⟨ver, i1, i2, i3, i4⟩ =>
        refine ⟨ver, i1, (pendingV_snoc _ _ _).mpr (.inr ⟨h1, h2, i2⟩), fun w => ?_, fun w ch => ?_⟩
        · rw [pendingV_snoc]; rintro (⟨hh, _⟩ | ⟨_, _, hh⟩)
          · exact absurd hh h1
          · exact i3 w hh
        · rw [acceptedV_snoc]; rintro (⟨hh, _⟩ | ⟨_, hh⟩)
          · exact hr _ hh
          · exact i4 w ch hh
      | some (n, some ch), ⟨ver, i1, i2, i3, i4⟩ =>
        refine ⟨ver, i1, (acceptedV_snoc _ _ _ _).mpr (.inr ⟨h1, i2⟩), fun w => ?_, fun w ch' => ?_⟩
        · rw [pendingV_snoc]; rintro (⟨hh, _⟩ | ⟨_, _, hh⟩)
          · exact h1 hh
          · exact i3 w hh
        · rw [acceptedV_snoc]; rintro (⟨hh, _⟩ | ⟨_, hh⟩)
          · exact absurd hh (hr _)
          · exact i4 w ch' hh
    cases op with
    | sendNegociate junk =>
      simp only [heldStep, levelUsed]
      by_cases hv : v.first.toNat ≤ 5
      · obtain ⟨n, h1, h2⟩ := (negotiable_iff P cm l c hc v.first).mp ⟨hv, hd⟩
        have hN : isNegotiateV (v, .sendNegociate junk) := ⟨⟨junk, rfl⟩, hv⟩
        rw [h1]
        simp only [serialize_of_enc (enc_negotiate cfg n h2)]
        refine ⟨v.first, h1, (pendingV_snoc _ _ _).mpr (.inl ⟨hN, rfl⟩), fun w => ?_, fun w ch => ?_⟩
        · rw [pendingV_snoc]; rintro (⟨_, hh⟩ | ⟨hh, _⟩)
          · exact hh.symm
          · exact absurd hN hh
        · rw [acceptedV_snoc]; rintro (⟨hh, _⟩ | ⟨hh, _⟩)
          · cases hh
          · exact hh hN
      · rw [negotiateMessage_err hv]
        exact keep _ (fun hh => hv hh.2) (by rintro ⟨ch, hh⟩; cases hh)
    | sendAuthenticate rnd junk =>
      exact keep _ (by rintro ⟨⟨j, hh⟩, _⟩; cases hh) (by rintro ⟨ch, hh⟩; cases hh)
    | recvChallenge ch =>
      have hnn : ¬ isNegotiateV (v, .recvChallenge ch) := by rintro ⟨⟨j, hh⟩, _⟩; cases hh
      have hr : isReceive (Prod.snd (v, Op.recvChallenge ch)) := ⟨ch, rfl⟩
      have hp : ∀ w, ¬ pendingV (h ++ [(v, .recvChallenge ch)]) w := by
        intro w
        rw [pendingV_snoc]; rintro (⟨hh, _⟩ | ⟨_, hh, _⟩)
        · exact hnn hh
        · exact hh hr
      match q, ih with
      | none, ih =>
        refine ⟨hp, fun w ch' => ?_⟩
        rw [acceptedV_snoc]; rintro (⟨_, hh⟩ | ⟨_, hh⟩)
        · exact ih.1 _ hh
        · exact ih.2 _ _ hh
      | some (n, none), ⟨ver, i1, i2, i3, i4⟩ =>
        refine ⟨ver, i1, (acceptedV_snoc _ _ _ _).mpr (.inl ⟨rfl, i2⟩), hp, fun w ch' => ?_⟩
        rw [acceptedV_snoc]; rintro (⟨hh, h2⟩ | ⟨_, hh⟩)
        · cases hh; exact ⟨i3 w h2, rfl⟩
        · exact absurd hh (i4 _ _)
      | some (n, some ch0), ⟨ver, i1, i2, i3, i4⟩ =>
        refine ⟨ver, i1, (acceptedV_snoc _ _ _ _).mpr (.inr ⟨hnn, i2⟩), hp, fun w ch' => ?_⟩
        rw [acceptedV_snoc]; rintro (⟨_, h2⟩ | ⟨_, hh⟩)
        · exact absurd h2 (i3 _)
        · exact i4 w ch' hh

/-- A client whose domain does not fit never gets anywhere. -/
theorem runV_stuck (P : Prims) (cm : CaseMap) (cfg : Cfg) (l : Login) (c : Client) (hc : created P cm l c)
    (hd : ¬ (utf8Bytes l.domain).length ≤ 65535) (h : List (VersionAnswers × Op)) :
    held (runV P cfg c h).state = none := by
  induction h using snocRec with
  | nil => rw [show runV P cfg c [] = c from rfl, (created_state hc).1]; rfl
  | snoc h x ih =>
    obtain ⟨s, b, e⟩ := runV_reset P cfg c h
    rw [e] at ih
    have ih : held s = none := ih
    rw [runV_snoc, e, stepV_eq, held_step, ih]
    cases x.2 with
    | sendNegociate j =>
      simp only [heldStep]
      generalize hv : levelUsed x.1 (.sendNegociate j) = ver
      cases hm : negotiateMessage ver c with
      | error e => rfl
      | ok n =>
        have hf : ¬ negotiateFits n := fun hf => hd ((negotiable_iff P cm l c hc ver).mpr ⟨n, hm, hf⟩).2
        simp only [serialize_of_error (negotiate_err cfg n hf [])]
    | recvChallenge ch => rfl
    | sendAuthenticate r j => rfl

/-- The result of `send_authenticate` depends only on what is held. -/
theorem result_held (P : Prims) (cfg : Cfg) (ver : UInt32) (c : Client) (s s' : ClientState) (b b' : List UInt8)
    (hs : held s = held s') (rnd : AuthRand) (j j' : List UInt8) :
    (step P cfg ver (reset c s b) (.sendAuthenticate rnd j)).2 = (step P cfg ver (reset c s' b') (.sendAuthenticate rnd j')).2 := by
  simp only [step, sendAuthenticate_eq, authenticateMessage_session P cfg ver rnd c s s' b b' (sessionOf_held hs)]
  cases authenticateMessage P cfg ver rnd (reset c s' b') with
  | error e => rfl
  | ok a =>
    simp only []
    cases Wire.serialize cfg a with
    | error e => rfl
    | ok x => cases s <;> cases s' <;> rfl

namespace Props

/-- A level type that changes its mind: the first exchange at level 5, then a `send_negociate` without a level, then one at
    level 1. -/
def exMixed (ch ch' : Challenge) : List (VersionAnswers × Op) :=
  [(fixedAt 5, .sendNegociate []), (fixedAt 5, .recvChallenge ch), (fixedAt 3, .sendAuthenticate exRand []),
    (fixedAt 9, .sendNegociate []), (fixedAt 1, .sendNegociate []), (fixedAt 2, .sendAuthenticate exRand []),
    (fixedAt 0, .recvChallenge ch'), (fixedAt 0, .recvChallenge ch)]

theorem exMixed_accepted (ch ch' : Challenge) : acceptedV (exMixed ch ch') 1 ch' := by
  refine ⟨(exMixed ch ch').take 4, fixedAt 1, [], [(fixedAt 2, .sendAuthenticate exRand [])], fixedAt 0,
    [(fixedAt 0, .recvChallenge ch)], rfl, rfl, by decide, ?_, ?_⟩
  · intro x hx
    rw [List.mem_singleton.mp hx]
    exact ⟨(by rintro ⟨⟨j, hh⟩, _⟩; cases hh), (by rintro ⟨ch, hh⟩; cases hh)⟩
  · intro x hx
    rw [List.mem_singleton.mp hx]
    rintro ⟨⟨j, hh⟩, _⟩; cases hh

/-! ### C84 -/

/-- C84: a call made while the level type gives the answers `v` does exactly what the same call does at the fixed level
    `levelUsed`: same result, same client afterwards. -/
theorem C84_call (P : Prims) (cfg : Cfg) (v : VersionAnswers) (c : Client) (op : Op) :
    stepV P cfg v c op = step P cfg (levelUsed v op) c op := stepV_eq P cfg v c op

/-- A level type that answers 2 and then 7 produces a level 1 answer; one that answers 1 and then 0, the level 0 answer with the
    LM response. -/
example (P : Prims) (cfg : Cfg) (c : Client) :
    stepV P cfg ⟨2, 7⟩ c (.sendAuthenticate exRand []) = step P cfg 1 c (.sendAuthenticate exRand []) ∧
      stepV P cfg ⟨1, 0⟩ c (.sendAuthenticate exRand []) = step P cfg 0 c (.sendAuthenticate exRand []) :=
  ⟨C84_call P cfg _ c _, C84_call P cfg _ c _⟩

/-- C84: with a level type that always gives the same answer, the results are those of the fixed level. -/
theorem C84_constant (P : Prims) (cfg : Cfg) (ver : UInt32) (c : Client) (h : List Op) (op : Op) :
    resultV P cfg c (h.map fun op => (fixedAt ver, op)) (fixedAt ver) op = resultOf P cfg ver c h op := by
  have key : ∀ (c : Client) (op : Op), stepV P cfg (fixedAt ver) c op = step P cfg ver c op := by
    intro c op
    cases op with
    | sendNegociate j => rfl
    | recvChallenge ch => rfl
    | sendAuthenticate rnd j => rfl
  have hrun : runV P cfg c (h.map fun op => (fixedAt ver, op)) = run P cfg ver c h := by
    induction h using snocRec with
    | nil => rfl
    | snoc h op ih => rw [List.map_append, List.map_singleton, runV_snoc, ih, run_snoc, key]
  simp only [resultV, hrun, key, resultOf]

example (P : Prims) (cfg : Cfg) (c : Client) :
    resultV P cfg c (exchangeV 3 exChallenge) (fixedAt 3) (.sendAuthenticate exRand []) =
      resultOf P cfg 3 c (exHistory exChallenge) (.sendAuthenticate exRand []) :=
  C84_constant P cfg 3 c (exHistory exChallenge) _

/-- C84: after any history, whatever the answers given in it, `send_authenticate` returns what it returns directly after the
    latest negotiation and the first challenge received after it. -/
theorem C84_history (P : Prims) (cm : CaseMap) (cfg : Cfg) (l : Login) (c : Client) (hc : created P cm l c)
    (hd : (utf8Bytes l.domain).length ≤ 65535) (h : List (VersionAnswers × Op)) (ver : UInt32) (ch : Challenge)
    (ha : acceptedV h ver ch) (v : VersionAnswers) (rnd : AuthRand) (junk : List UInt8) :
    resultV P cfg c h v (.sendAuthenticate rnd junk) =
      resultV P cfg c (exchangeV ver ch) v (.sendAuthenticate rnd junk) := by
  have h5 : ver.toNat ≤ 5 := by obtain ⟨_, _, _, _, _, _, _, _, h5, _⟩ := ha; exact h5
  have ha' : acceptedV (exchangeV ver ch) ver ch := ⟨[], fixedAt ver, [], [], fixedAt ver, [], rfl, rfl, h5, by simp, by simp⟩
  have unique : ∀ g, acceptedV g ver ch → ∃ n, negotiateMessage ver c = .ok n ∧
      held (runV P cfg c g).state = some (n, some ch) := by
    intro g hg
    have := runV_held P cm cfg l c hc hd g
    match e : held (runV P cfg c g).state, this with
    | none, hh => exact absurd hg (hh.2 _ _)
    | some (n, none), hh => obtain ⟨_, _, _, _, h4⟩ := hh; exact absurd hg (h4 _ _)
    | some (n, some ch0), hh =>
      obtain ⟨w, h1, _, _, h4⟩ := hh
      obtain ⟨rfl, rfl⟩ := h4 _ _ hg
      exact ⟨n, h1, rfl⟩
  obtain ⟨n, h1, h2⟩ := unique h ha
  obtain ⟨m, h3, h4⟩ := unique _ ha'
  rw [h1] at h3
  cases h3
  obtain ⟨s, b, e⟩ := runV_reset P cfg c h
  obtain ⟨s', b', e'⟩ := runV_reset P cfg c (exchangeV ver ch)
  rw [e] at h2
  rw [e'] at h4
  simp only [resultV, stepV_eq, e, e']
  exact result_held P cfg _ c s s' b b' (h2.trans h4.symm) rnd junk junk

example (P : Prims) (cm : CaseMap) (cfg : Cfg) (ch : Challenge) : ∃ c, created P cm exLogin c ∧
    resultV P cfg c (exMixed ch exChallenge) (fixedAt 4) (.sendAuthenticate exRand []) =
      resultV P cfg c (exchangeV 1 exChallenge) (fixedAt 4) (.sendAuthenticate exRand []) := by
  obtain ⟨c, hc⟩ := exLogin_created P cm
  exact ⟨c, hc, C84_history P cm cfg exLogin c hc (by decide) _ 1 exChallenge (exMixed_accepted _ _) _ _ _⟩

theorem runV_noSession (P : Prims) (cm : CaseMap) (cfg : Cfg) (l : Login) (c : Client) (hc : created P cm l c)
    (h : List (VersionAnswers × Op)) (ha : ¬ ((utf8Bytes l.domain).length ≤ 65535 ∧ ∃ ver ch, acceptedV h ver ch)) :
    sessionOf (runV P cfg c h).state = none := by
  by_cases hd : (utf8Bytes l.domain).length ≤ 65535
  · have := runV_held P cm cfg l c hc hd h
    revert this
    cases (runV P cfg c h).state with
    | new => intro _; rfl
    | negociateSent n => intro _; rfl
    | challengeReceived n ch => rintro ⟨ver, _, h2, _⟩; exact absurd ⟨hd, ver, ch, h2⟩ ha
    | authenticateSent n ch a => rintro ⟨ver, _, h2, _⟩; exact absurd ⟨hd, ver, ch, h2⟩ ha
  · have := runV_stuck P cm cfg l c hc hd h
    revert this
    cases (runV P cfg c h).state <;> simp [held, sessionOf]

/-- C84: without a challenge accepted in the latest negotiation, `send_authenticate` aborts, whatever the answers, and nothing
    about the client changes. -/
theorem C84_refuses (P : Prims) (cm : CaseMap) (cfg : Cfg) (l : Login) (c : Client) (hc : created P cm l c)
    (h : List (VersionAnswers × Op)) (ha : ¬ ((utf8Bytes l.domain).length ≤ 65535 ∧ ∃ ver ch, acceptedV h ver ch))
    (v : VersionAnswers) (rnd : AuthRand) (junk : List UInt8) :
    resultV P cfg c h v (.sendAuthenticate rnd junk) =
        .error (if v.first.toNat ≤ 5 then .invalidState else .invalidVersion) ∧
      runV P cfg c (h ++ [(v, .sendAuthenticate rnd junk)]) = runV P cfg c h := by
  have hno : sessionOf (runV P cfg c h).state = none := runV_noSession P cm cfg l c hc h ha
  have hm : authenticateMessage P cfg (levelUsed v (.sendAuthenticate rnd junk)) rnd (runV P cfg c h) =
      .error (if v.first.toNat ≤ 5 then .invalidState else .invalidVersion) := by
    by_cases h5 : v.first.toNat ≤ 5
    · rw [if_pos h5]
      refine invalid_message P cfg ?_ rnd _ hno
      simp only [levelUsed]
      split
      · split <;> decide
      · exact h5
    · rw [if_neg h5]
      refine outdated_message P cfg ?_ rnd _
      simp only [levelUsed]
      rw [if_neg (by omega)]
      exact h5
  rw [runV_snoc]
  simp only [resultV, stepV_eq, step, sendAuthenticate_eq, hm]
  exact ⟨trivial, trivial⟩

/-- A negotiation at level 5, and one without a level that does not end it. -/
example (P : Prims) (cm : CaseMap) (cfg : Cfg) : ∃ c, created P cm exLogin c ∧
    resultV P cfg c [(fixedAt 5, .sendNegociate []), (fixedAt 9, .sendNegociate [])] ⟨2, 0⟩ (.sendAuthenticate exRand []) =
      .error .invalidState := by
  obtain ⟨c, hc⟩ := exLogin_created P cm
  refine ⟨c, hc, (C84_refuses P cm cfg exLogin c hc _ ?_ ⟨2, 0⟩ exRand []).1⟩
  rintro ⟨_, ver, ch, b, v, j, m, w, a, e, _⟩
  have : (w, Op.recvChallenge ch) ∈ [(fixedAt 5, Op.sendNegociate []), (fixedAt 9, Op.sendNegociate [])] := by rw [e]; simp
  simp at this

/-- C84: nothing a client returns depends on the LM hash, except a `send_authenticate` during which the level type first answers
    0, 1 or 2 and then 0 — whatever was answered before. -/
theorem C84_no_lm_hash (P : Prims) (cfg : Cfg) (c : Client) (lm : Bytes 16) (h : List (VersionAnswers × Op))
    (v : VersionAnswers) (op : Op) (hv : v.first.toNat ≤ 2 → v.second ≠ 0) :
    resultV P cfg { c with lmHash := lm } h v op = resultV P cfg c h v op := by
  have hh := held_runV P cfg { c with lmHash := lm } c rfl (fun _ => rfl) h
  obtain ⟨s, b, e⟩ := runV_reset P cfg { c with lmHash := lm } h
  obtain ⟨s', b', e'⟩ := runV_reset P cfg c h
  rw [e, e'] at hh
  have hh : held s = held s' := hh
  simp only [resultV, stepV_eq, e, e']
  cases op with
  | recvChallenge ch => rfl
  | sendNegociate j =>
    simp only [step, sendNegociate_eq]
    have : negotiateMessage (levelUsed v (.sendNegociate j)) (reset { c with lmHash := lm } s b) =
      negotiateMessage (levelUsed v (.sendNegociate j)) (reset c s' b') := rfl
    rw [this]
    cases negotiateMessage (levelUsed v (.sendNegociate j)) (reset c s' b') with
    | error e => rfl
    | ok n => simp only []; cases Wire.serialize cfg n <;> rfl
  | sendAuthenticate rnd j =>
    have h0 : levelUsed v (.sendAuthenticate rnd j) ≠ 0 := by
      simp only [levelUsed]
      by_cases h2 : v.first.toNat ≤ 2
      · rw [if_pos h2, if_neg (hv h2)]; decide
      · rw [if_neg h2]; intro e0; rw [e0] at h2; exact h2 (by decide)
    rw [result_held P cfg _ c s' s b' b hh.symm rnd j j]
    exact C41_no_lm_hash P cfg _ h0 (reset c s b) lm [] (.sendAuthenticate rnd j)

/-- At level 1, after an exchange at level 0 that did send the LM response. -/
example (P : Prims) (cfg : Cfg) (c : Client) :
    resultV P cfg { c with lmHash := Bytes.zero 16 } (exchangeV 0 exChallenge ++ [(fixedAt 0, .sendAuthenticate exRand [])])
        (fixedAt 1) (.sendAuthenticate exRand []) =
      resultV P cfg c (exchangeV 0 exChallenge ++ [(fixedAt 0, .sendAuthenticate exRand [])]) (fixedAt 1)
        (.sendAuthenticate exRand []) :=
  C84_no_lm_hash P cfg c _ _ _ _ (by decide)

/-- C84: no call changes the credentials, whatever the answers. -/
theorem C84_credentials (P : Prims) (cfg : Cfg) (c : Client) (h : List (VersionAnswers × Op)) :
    (runV P cfg c h).username = c.username ∧ (runV P cfg c h).domain = c.domain ∧
      (runV P cfg c h).workstation = c.workstation ∧ (runV P cfg c h).target = c.target ∧
      (runV P cfg c h).lmHash = c.lmHash ∧ (runV P cfg c h).ntHash = c.ntHash ∧
      (runV P cfg c h).ntlmv2Hash = c.ntlmv2Hash ∧ (runV P cfg c h).version = c.version := by
  obtain ⟨s, b, e⟩ := runV_reset P cfg c h
  rw [e]
  exact ⟨rfl, rfl, rfl, rfl, rfl, rfl, rfl, rfl⟩

example (P : Prims) (cfg : Cfg) (c : Client) (ch : Challenge) :
    (runV P cfg c (exMixed ch exChallenge)).ntHash = c.ntHash := (C84_credentials P cfg c _).2.2.2.2.2.1

/-! A level type that panics. -/

theorem sendAuthenticateV_noChallenge (P : Prims) (cfg : Cfg) (v : VersionAnswers) (hv : v.first = 0 ∨ v.first = 1 ∨ v.first = 2)
    (rnd : AuthRand) (junk : List UInt8) (c : Client) (e : Panic) (h : getChallenge c = .error e) :
    sendAuthenticateV P cfg v rnd junk c = (c, .error e) := by
  have : authenticateMessageV P cfg v rnd c = .error e := by
    simp only [authenticateMessageV, if_pos hv, authenticateNtlmv1, h, bind, Except.bind]
  simp only [sendAuthenticateV, this]

theorem stepO_answered (P : Prims) (cfg : Cfg) (v : VersionOutcomes) (c : Client) (op : Op) (w : VersionAnswers)
    (h : answered v op = some w) : stepO P cfg v c op = ((stepV P cfg w c op).1, some (stepV P cfg w c op).2) := by
  obtain ⟨f, g⟩ := v
  cases op with
  | recvChallenge ch => rfl
  | sendNegociate junk =>
    cases f with
    | none => simp [answered] at h
    | some a =>
      simp only [answered, Option.map_some, Option.some.injEq] at h
      subst h
      rfl
  | sendAuthenticate rnd junk =>
    cases f with
    | none => simp [answered] at h
    | some a =>
      simp only [answered, Option.bind_some] at h
      by_cases ha : a.toNat ≤ 2
      · have ha' : a = 0 ∨ a = 1 ∨ a = 2 := isV1_iff.mp ha
        rw [if_pos ha] at h
        cases g with
        | none => simp at h
        | some b =>
          simp only [Option.map_some, Option.some.injEq] at h
          subst h
          simp only [stepO, sendAuthenticateO, if_pos ha', stepV]
          cases hc : getChallenge c with
          | error e => simp only [sendAuthenticateV_noChallenge P cfg ⟨a, b⟩ ha' rnd junk c e hc]
          | ok ch => rfl
      · have ha' : ¬ (a = 0 ∨ a = 1 ∨ a = 2) := fun h' => ha (isV1_iff.mpr h')
        rw [if_neg ha] at h
        simp only [Option.some.injEq] at h
        subst h
        simp only [stepO, sendAuthenticateO, if_neg ha', stepV]

theorem stepO_unanswered (P : Prims) (cfg : Cfg) (v : VersionOutcomes) (c : Client) (op : Op) (h : answered v op = none) :
    (stepO P cfg v c op).1 = c ∧
      ((stepO P cfg v c op).2 = none ∨ (stepO P cfg v c op).2 = some (.error .invalidState)) := by
  obtain ⟨f, g⟩ := v
  cases op with
  | recvChallenge ch => simp [answered] at h
  | sendNegociate junk =>
    cases f with
    | none => exact ⟨rfl, .inl rfl⟩
    | some a => simp [answered] at h
  | sendAuthenticate rnd junk =>
    cases f with
    | none => exact ⟨rfl, .inl rfl⟩
    | some a =>
      simp only [answered, Option.bind_some] at h
      by_cases ha : a.toNat ≤ 2
      · have ha' : a = 0 ∨ a = 1 ∨ a = 2 := isV1_iff.mp ha
        rw [if_pos ha] at h
        cases g with
        | some b => simp at h
        | none =>
          simp only [stepO, sendAuthenticateO, if_pos ha', getChallenge]
          cases c.state <;> simp
      · rw [if_neg ha] at h; cases h

theorem runO_snoc (P : Prims) (cfg : Cfg) (c : Client) (h : List (VersionOutcomes × Op)) (x : VersionOutcomes × Op) :
    runO P cfg c (h ++ [x]) = (stepO P cfg x.1 (runO P cfg c h) x.2).1 := by
  simp [runO, List.foldl_append]

/-- C84: calls in which the level type panics leave no trace: the client is what it is without them. -/
theorem C84_panic_history (P : Prims) (cfg : Cfg) (c : Client) (h : List (VersionOutcomes × Op)) :
    runO P cfg c h = runV P cfg c (withoutPanics h) := by
  induction h using snocRec with
  | nil => rfl
  | snoc h x ih =>
    rw [runO_snoc, ih]
    simp only [withoutPanics, List.filterMap_append]
    cases e : answered x.1 x.2 with
    | none =>
      rw [(stepO_unanswered P cfg x.1 _ x.2 e).1]
      simp only [List.filterMap_cons, e, Option.map_none, List.filterMap_nil, List.append_nil]
    | some w =>
      rw [stepO_answered P cfg x.1 _ x.2 w e]
      simp only [List.filterMap_cons, e, Option.map_some, List.filterMap_nil]
      rw [runV_snoc]

/-- A level type that panics at the second question of the first answer, and at the next negotiation. -/
example (P : Prims) (cfg : Cfg) (c : Client) (ch : Challenge) :
    runO P cfg c [(⟨some 1, none⟩, .sendNegociate []), (⟨none, none⟩, .recvChallenge ch), (⟨some 1, none⟩, .sendAuthenticate exRand []),
        (⟨none, none⟩, .sendNegociate []), (⟨some 1, some 1⟩, .sendAuthenticate exRand [])] =
      runV P cfg c [(⟨1, 0⟩, .sendNegociate []), (⟨0, 0⟩, .recvChallenge ch), (⟨1, 1⟩, .sendAuthenticate exRand [])] :=
  C84_panic_history P cfg c _

/-- C84: after any history with such calls, a call in which no question ends in a panic returns what it returns after the history
    without them; in one in which a question does, nothing is sent. -/
theorem C84_panic_result (P : Prims) (cfg : Cfg) (c : Client) (h : List (VersionOutcomes × Op)) (v : VersionOutcomes) (op : Op) :
    (∀ w, answered v op = some w → resultO P cfg c h v op = some (resultV P cfg c (withoutPanics h) w op)) ∧
    (answered v op = none → ∀ b, resultO P cfg c h v op ≠ some (.ok b)) := by
  constructor
  · intro w hw
    simp only [resultO, stepO_answered P cfg v _ op w hw, resultV, C84_panic_history]
  · intro hn b hb
    rcases (stepO_unanswered P cfg v (runO P cfg c h) op hn).2 with h' | h' <;>
      (simp only [resultO] at hb; rw [h'] at hb; cases hb)

example (P : Prims) (cfg : Cfg) (c : Client) (ch : Challenge) :
    resultO P cfg c [(⟨some 1, none⟩, .sendNegociate []), (⟨none, none⟩, .sendNegociate []), (⟨none, none⟩, .recvChallenge ch)]
        ⟨some 1, some 1⟩ (.sendAuthenticate exRand []) =
      some (resultV P cfg c [(⟨1, 0⟩, .sendNegociate []), (⟨0, 0⟩, .recvChallenge ch)] ⟨1, 1⟩ (.sendAuthenticate exRand [])) :=
  (C84_panic_result P cfg c _ _ _).1 _ rfl

/-- C84: the caller sees the panic of the level type if the first question ends in it, and if the second does and a challenge has
    been accepted in the latest negotiation; without one the second question is not asked and the call aborts as it does for any
    answer. -/
theorem C84_panic_seen (P : Prims) (cm : CaseMap) (cfg : Cfg) (l : Login) (c : Client) (hc : created P cm l c)
    (h : List (VersionOutcomes × Op)) (rnd : AuthRand) (junk : List UInt8) :
    (∀ v, resultO P cfg c h ⟨none, v⟩ (.sendNegociate junk) = none) ∧
    (∀ v, resultO P cfg c h ⟨none, v⟩ (.sendAuthenticate rnd junk) = none) ∧
    ∀ a : UInt32, a.toNat ≤ 2 →
      (((utf8Bytes l.domain).length ≤ 65535 ∧ ∃ ver ch, acceptedV (withoutPanics h) ver ch) →
        resultO P cfg c h ⟨some a, none⟩ (.sendAuthenticate rnd junk) = none) ∧
      (¬ ((utf8Bytes l.domain).length ≤ 65535 ∧ ∃ ver ch, acceptedV (withoutPanics h) ver ch) →
        resultO P cfg c h ⟨some a, none⟩ (.sendAuthenticate rnd junk) = some (.error .invalidState)) := by
  refine ⟨fun _ => rfl, fun _ => rfl, fun a ha => ?_⟩
  have ha' : a = 0 ∨ a = 1 ∨ a = 2 := isV1_iff.mp ha
  simp only [resultO, stepO, sendAuthenticateO, if_pos ha', C84_panic_history, getChallenge]
  refine ⟨?_, ?_⟩
  · rintro ⟨hd, ver, ch, hh⟩
    have := runV_held P cm cfg l c hc hd (withoutPanics h)
    revert this
    cases (runV P cfg c (withoutPanics h)).state with
    | new => rintro ⟨_, h2⟩; exact absurd hh (h2 _ _)
    | negociateSent n => rintro ⟨_, _, _, _, h2⟩; exact absurd hh (h2 _ _)
    | challengeReceived n ch => intro _; rfl
    | authenticateSent n ch a => intro _; rfl
  · intro hh
    have := runV_noSession P cm cfg l c hc _ hh
    revert this
    cases (runV P cfg c (withoutPanics h)).state <;> simp [sessionOf]

/-- A level type that answers 1 and then panics, before and after a challenge is received. -/
example (P : Prims) (cm : CaseMap) (cfg : Cfg) (ch : Challenge) : ∃ c, created P cm exLogin c ∧
    resultO P cfg c [(⟨some 1, none⟩, .sendNegociate [])] ⟨some 1, none⟩ (.sendAuthenticate exRand []) =
      some (.error .invalidState) ∧
    resultO P cfg c [(⟨some 1, none⟩, .sendNegociate []), (⟨none, none⟩, .recvChallenge ch)] ⟨some 1, none⟩
      (.sendAuthenticate exRand []) = none := by
  obtain ⟨c, hc⟩ := exLogin_created P cm
  refine ⟨c, hc, ((C84_panic_seen P cm cfg exLogin c hc _ exRand []).2.2 1 (by decide)).2 ?_,
    ((C84_panic_seen P cm cfg exLogin c hc _ exRand []).2.2 1 (by decide)).1 ⟨by decide, 1, ch, ?_⟩⟩
  · rintro ⟨_, ver, ch, b, v, j, m, w, a, e, _⟩
    have : (w, Op.recvChallenge ch) ∈ [((⟨1, 0⟩ : VersionAnswers), Op.sendNegociate [])] := by
      have e' : withoutPanics [((⟨some 1, none⟩ : VersionOutcomes), Op.sendNegociate [])] =
        [((⟨1, 0⟩ : VersionAnswers), Op.sendNegociate [])] := rfl
      rw [← e', e]; simp
    simp at this
  · exact ⟨[], ⟨1, 0⟩, [], [], ⟨0, 0⟩, [], rfl, rfl, by decide, by simp, by simp⟩

end Props

end Ntlm
