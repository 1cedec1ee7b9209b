import Verif.Spec.Failing
import Verif.Props.Confine
/-
  C91: clients on a machine whose random number source or standard error fails.
-/
namespace Ntlm

open Spec Client

/-! ### Helper lemmas -/

/-- The condition of `encrypt_random_session_key`. -/
def keyDrawn (f : Flags) : Bool :=
  f.hasFlag Flags.NTLMSSP_NEGOTIATE_KEY_EXCH
    && (f.hasFlag Flags.NTLMSSP_NEGOTIATE_SIGN || f.hasFlag Flags.NTLMSSP_NEGOTIATE_SEAL)

theorem keyDrawn_iff (ch : Challenge) : keyDrawn ch.negotiateFlags = true ↔ drawsKey ch := by
  simp only [keyDrawn, drawsKey, bit, Bool.and_eq_true, Bool.or_eq_true, 
    hasFlag_testBit _ Flags.NTLMSSP_NEGOTIATE_KEY_EXCH (by decide), hasFlag_testBit _ Flags.NTLMSSP_NEGOTIATE_SIGN (by decide),
    hasFlag_testBit _ Flags.NTLMSSP_NEGOTIATE_SEAL (by decide)]
  exact Iff.rfl

theorem encryptF_some (P : Prims) (f : Flags) (kek k : Bytes 16) :
    encryptRandomSessionKeyF P f kek none (some k) = .ok (encryptRandomSessionKey P f kek none k) := by
  simp only [encryptRandomSessionKeyF, encryptRandomSessionKey]
  split <;> rfl

theorem encryptF_none (P : Prims) (f : Flags) (kek k : Bytes 16) :
    encryptRandomSessionKeyF P f kek none none =
      if keyDrawn f then .error .random else .ok (encryptRandomSessionKey P f kek none k) := by
  simp only [encryptRandomSessionKeyF, encryptRandomSessionKey]
  by_cases h : keyDrawn f = true
  · rw [if_pos h]
    simp only [keyDrawn] at h
    rw [if_pos h]; rfl
  · rw [if_neg h]
    simp only [keyDrawn] at h
    rw [if_neg h, if_neg h]; rfl

theorem encryptF_eq (P : Prims) (f : Flags) (kek : Bytes 16) (source : Option (Bytes 16)) :
    encryptRandomSessionKeyF P f kek none source =
      if keyDrawn f = true ∧ source = none then .error .random
      else .ok (encryptRandomSessionKey P f kek none (source.getD (Bytes.zero 16))) := by
  cases source with
  | some k => rw [encryptF_some, if_neg (by simp)]; rfl
  | none =>
    rw [encryptF_none P f kek (Bytes.zero 16)]
    by_cases h : keyDrawn f = true
    · rw [if_pos h, if_pos ⟨h, rfl⟩]
    · rw [if_neg h, if_neg (fun x => h x.1)]; rfl

theorem own_bind {α β : Type} (x : Except Panic α) (f : α → Except Panic β) :
    own (x >>= f) = own x >>= fun a => own (f a) := by
  cases x <;> rfl

theorem v1F_eq (P : Prims) (ver : UInt32) (cc : Bytes 8) (source : Option (Bytes 16)) (clock : SystemTime) (c : Client) :
    authenticateNtlmv1F P ver cc source c =
      match getChallenge c with
      | .error e => .error (.own e)
      | .ok ch =>
        if keyDrawn ch.negotiateFlags = true ∧ source = none then .error .random
        else own (authenticateNtlmv1 P ver ⟨cc, source.getD (Bytes.zero 16), clock⟩ c) := by
  simp only [authenticateNtlmv1F, authenticateNtlmv1]
  cases getChallenge c with
  | error e => rfl
  | ok ch =>
    simp only [own, bind, Except.bind, encryptF_eq]
    by_cases h : keyDrawn ch.negotiateFlags = true ∧ source = none
    · simp only [if_pos h]
    · simp only [if_neg h]; rfl

theorem v2F_eq (P : Prims) (cfg : Cfg) (cc : Bytes 8) (source : Option (Bytes 16)) (clock : SystemTime) (c : Client) :
    authenticateNtlmv2F P cfg cc source clock c =
      match getChallenge c with
      | .error e => .error (.own e)
      | .ok ch =>
        match ntlmv2Response P cfg ch.negotiateFlags c.ntlmv2Hash c.ntlmv2Hash ch.serverChallenge cc
            (firstTimestamp ch.targetInfos) ch.targetInfos clock with
        | .error e => .error (.own e)
        | .ok _ =>
          if keyDrawn ch.negotiateFlags = true ∧ source = none then .error .random
          else own (authenticateNtlmv2 P cfg ⟨cc, source.getD (Bytes.zero 16), clock⟩ c) := by
  have hg : (∃ e, getChallenge c = .error e ∧ getNegotiate c = .error e) ∨
      ∃ n ch, getChallenge c = .ok ch ∧ getNegotiate c = .ok n := by
    simp only [getChallenge, getNegotiate]
    cases c.state with
    | new => exact .inl ⟨_, rfl, rfl⟩
    | negociateSent n => exact .inl ⟨_, rfl, rfl⟩
    | challengeReceived n ch => exact .inr ⟨_, _, rfl, rfl⟩
    | authenticateSent n ch a => exact .inr ⟨_, _, rfl, rfl⟩
  simp only [authenticateNtlmv2F, authenticateNtlmv2]
  rcases hg with ⟨e, h1, h2⟩ | ⟨n, ch, h1, h2⟩
  · simp only [h1, h2]; rfl
  · simp only [h1, h2, own, bind, Except.bind]
    cases ntlmv2Response P cfg ch.negotiateFlags c.ntlmv2Hash c.ntlmv2Hash ch.serverChallenge cc
        (firstTimestamp ch.targetInfos) ch.targetInfos clock with
    | error e => rfl
    | ok r =>
      simp only [encryptF_eq]
      by_cases h : keyDrawn ch.negotiateFlags = true ∧ source = none
      · simp only [if_pos h]
      · simp only [if_neg h]

/-- A failing `send_authenticate` that is not the failure of a draw fails as on a working machine. -/
theorem messageF_cases (P : Prims) (cfg : Cfg) (ver : UInt32) (cc : Option (Bytes 8)) (key : Option (Bytes 16))
    (clock : SystemTime) (c : Client) :
    authenticateMessageF P cfg ver cc key clock c = .error .random ∨
      authenticateMessageF P cfg ver cc key clock c =
        own (authenticateMessage P cfg ver ⟨cc.getD (Bytes.zero 8), key.getD (Bytes.zero 16), clock⟩ c) := by
  cases cc with
  | none => exact .inl rfl
  | some cc =>
    simp only [authenticateMessageF, authenticateMessage, draw, bind, Except.bind, Option.getD_some]
    by_cases h1 : ver = 0 ∨ ver = 1 ∨ ver = 2
    · simp only [if_pos h1, v1F_eq P ver cc key clock c]
      cases hg : getChallenge c with
      | error e =>
        right
        simp only [authenticateNtlmv1, hg, bind, Except.bind, own]
      | ok ch =>
        by_cases h : keyDrawn ch.negotiateFlags = true ∧ key = none
        · left; simp only [if_pos h]
        · right
          simp only [if_neg h]
          cases authenticateNtlmv1 P ver ⟨cc, key.getD (Bytes.zero 16), clock⟩ c <;> rfl
    · by_cases h2 : ver = 3 ∨ ver = 4 ∨ ver = 5
      · simp only [if_neg h1, if_pos h2, v2F_eq P cfg cc key clock c]
        cases hg : getChallenge c with
        | error e =>
          right
          have hn : getNegotiate c = .error e := by
            revert hg
            simp only [getChallenge, getNegotiate]
            cases c.state <;> simp
          simp only [authenticateNtlmv2, hn, bind, Except.bind, own]
        | ok ch =>
          obtain ⟨n, hn⟩ : ∃ n, getNegotiate c = .ok n := by
            revert hg
            simp only [getChallenge, getNegotiate]
            cases c.state <;> simp
          cases hr : ntlmv2Response P cfg ch.negotiateFlags c.ntlmv2Hash c.ntlmv2Hash ch.serverChallenge cc
              (firstTimestamp ch.targetInfos) ch.targetInfos clock with
          | error e =>
            right
            simp only [authenticateNtlmv2, hg, hn, hr, bind, Except.bind, own]
          | ok r =>
            by_cases h : keyDrawn ch.negotiateFlags = true ∧ key = none
            · left; simp only [hr, if_pos h]
            · right
              simp only [hr, if_neg h]
              cases authenticateNtlmv2 P cfg ⟨cc, key.getD (Bytes.zero 16), clock⟩ c <;> rfl
      · right
        simp only [if_neg h1, if_neg h2, own]

theorem stepF_cases (P : Prims) (cfg : Cfg) (ver : UInt32) (c : Client) (op : OpF) :
    (stepF P cfg ver c op = (c, .error .random) ∧ ∃ cc key clock junk, op = .sendAuthenticate cc key clock junk) ∨
    (∃ junk l l' b, op = .sendNegociate junk l l' ∧ (l && l') = false ∧ (step P cfg ver c (.sendNegociate junk)).2 = .ok b ∧
      stepF P cfg ver c op = ((step P cfg ver c (.sendNegociate junk)).1, .error .stderr)) ∨
    stepF P cfg ver c op = ((step P cfg ver c (working op)).1, own (step P cfg ver c (working op)).2) := by
  cases op with
  | recvChallenge ch => exact .inr (.inr rfl)
  | sendNegociate junk l l' =>
    right
    simp only [stepF, sendNegociateF, working, step, sendNegociate]
    cases negotiateMessage ver c with
    | error e => exact .inr rfl
    | ok n =>
      simp only []
      have hlen : ∀ size buffer, Wire.serializeInto cfg n [] = .ok (size, buffer) → size = buffer.length := by
        intro size buffer hb
        by_cases hf : negotiateFits n
        · rw [enc_negotiate cfg n hf []] at hb
          cases hb
          simp
        · rw [negotiate_err cfg n hf []] at hb; cases hb
      cases hs : Wire.serializeInto cfg n [] with
      | error e => exact .inr rfl
      | ok r =>
        obtain ⟨size, buffer⟩ := r
        have hle : size ≤ buffer.length := by rw [hlen size buffer hs]; exact Nat.le_refl _
        simp only [if_pos hle]
        cases l <;> cases l'
        · exact .inl ⟨junk, _, _, _, rfl, rfl, rfl, rfl⟩
        · exact .inl ⟨junk, _, _, _, rfl, rfl, rfl, rfl⟩
        · exact .inl ⟨junk, _, _, _, rfl, rfl, rfl, rfl⟩
        · exact .inr rfl
  | sendAuthenticate cc key clock junk =>
    rcases messageF_cases P cfg ver cc key clock c with h | h
    · left
      exact ⟨by simp only [stepF, sendAuthenticateF, h], _, _, _, _, rfl⟩
    · right; right
      simp only [stepF, sendAuthenticateF, h, working, step, sendAuthenticate]
      cases authenticateMessage P cfg ver ⟨cc.getD (Bytes.zero 8), key.getD (Bytes.zero 16), clock⟩ c with
      | error e => rfl
      | ok a =>
        simp only [own]
        cases Wire.serializeInto cfg a [] <;> rfl

theorem runF_cons (P : Prims) (cfg : Cfg) (ver : UInt32) (c : Client) (op : OpF) (h : List OpF) :
    runF P cfg ver c (op :: h) = runF P cfg ver (stepF P cfg ver c op).1 h := rfl

theorem runF_snoc (P : Prims) (cfg : Cfg) (ver : UInt32) (c : Client) (h : List OpF) (op : OpF) :
    runF P cfg ver c (h ++ [op]) = (stepF P cfg ver (runF P cfg ver c h) op).1 := by
  simp [runF, List.foldl_append]

theorem own_ne_random {α : Type} (r : Except Panic α) : own r ≠ .error .random := by
  cases r <;> simp [own]

/-- When `send_authenticate` reports a failing draw, for a client in a given state. -/
theorem messageF_random (P : Prims) (cfg : Cfg) (ver : UInt32) (cc : Option (Bytes 8)) (key : Option (Bytes 16))
    (clock : SystemTime) (c : Client) :
    authenticateMessageF P cfg ver cc key clock c = .error .random ↔
      cc = none ∨ ∃ x ch, cc = some x ∧ getChallenge c = .ok ch ∧ key = none ∧ drawsKey ch ∧
        (isV1 ver ∨ (isV2 ver ∧ (∃ t, clientTime ch.targetInfos clock t) ∧ ∀ p ∈ ch.targetInfos, avPairFits p)) := by
  cases cc with
  | none => simp [authenticateMessageF, draw, bind, Except.bind]
  | some cc =>
    simp only [authenticateMessageF, draw, bind, Except.bind, reduceCtorEq, false_or, Option.some.injEq]
    by_cases h1 : ver = 0 ∨ ver = 1 ∨ ver = 2
    · have hv : isV1 ver := isV1_iff.mpr h1
      simp only [if_pos h1, v1F_eq P ver cc key clock c]
      cases hg : getChallenge c with
      | error e => simp
      | ok ch =>
        by_cases h : keyDrawn ch.negotiateFlags = true ∧ key = none
        · simp only [if_pos h]
          simp only [true_iff]
          exact ⟨cc, ch, rfl, rfl, h.2, (keyDrawn_iff ch).mp h.1, .inl hv⟩
        · simp only [if_neg h]
          refine iff_of_false ?_ ?_
          · cases authenticateNtlmv1 P ver ⟨cc, key.getD (Bytes.zero 16), clock⟩ c <;> simp [own, pure, Except.pure]
          rintro ⟨x, ch', _, h2, h3, h4, _⟩
          cases h2
          exact h ⟨(keyDrawn_iff ch).mpr h4, h3⟩
    · by_cases h2 : ver = 3 ∨ ver = 4 ∨ ver = 5
      · have hv : isV2 ver := isV2_iff.mpr h2
        simp only [if_neg h1, if_pos h2, v2F_eq P cfg cc key clock c]
        cases hg : getChallenge c with
        | error e => simp
        | ok ch =>
          by_cases ht : ∃ t, timeUsed (firstTimestamp ch.targetInfos) clock t
          · by_cases hf : ∀ p ∈ ch.targetInfos, avPairFits p
            · obtain ⟨t, ht⟩ := ht
              have hr := v2_response P cfg ⟨cc, Bytes.zero 16, clock⟩ c ch t ht hf
              simp only [] at hr
              simp only [hr]
              by_cases h : keyDrawn ch.negotiateFlags = true ∧ key = none
              · simp only [if_pos h, true_iff]
                exact ⟨cc, ch, rfl, rfl, h.2, (keyDrawn_iff ch).mp h.1, .inr ⟨hv, ⟨t, timeUsed_client.mp ht⟩, hf⟩⟩
              · simp only [if_neg h]
                refine iff_of_false ?_ ?_
                · cases authenticateNtlmv2 P cfg ⟨cc, key.getD (Bytes.zero 16), clock⟩ c <;> simp [own, pure, Except.pure]
                rintro ⟨x, ch', _, h2, h3, h4, _⟩
                cases h2
                exact h ⟨(keyDrawn_iff ch).mpr h4, h3⟩
            · simp only [(Props.C28_failure P cfg _ _ _ _ _ _ _ _).2 ht hf]
              simp only [Except.error.injEq, reduceCtorEq, false_iff]
              rintro ⟨x, ch', _, h2, h3, h4, h5 | ⟨_, _, h5⟩⟩
              · exact not_isV1_of_isV2 hv h5
              · cases h2; exact hf h5
          · simp only [(Props.C28_failure P cfg _ _ _ _ _ _ _ _).1 ht]
            simp only [Except.error.injEq, reduceCtorEq, false_iff]
            rintro ⟨x, ch', _, h2, h3, h4, h5 | ⟨_, ⟨t, h5⟩, _⟩⟩
            · exact not_isV1_of_isV2 hv h5
            · cases h2; exact ht ⟨t, timeUsed_client.mpr h5⟩
      · simp only [if_neg h1, if_neg h2]
        simp only [Except.error.injEq, reduceCtorEq, false_iff]
        rintro ⟨x, ch', _, _, _, _, h5 | ⟨h5, _⟩⟩
        · exact h1 (isV1_iff.mp h5)
        · exact h2 (isV2_iff.mp h5)

theorem stepF_random (P : Prims) (cfg : Cfg) (ver : UInt32) (cc : Option (Bytes 8)) (key : Option (Bytes 16))
    (clock : SystemTime) (junk : List UInt8) (c : Client) :
    (stepF P cfg ver c (.sendAuthenticate cc key clock junk)).2 = .error .random ↔
      authenticateMessageF P cfg ver cc key clock c = .error .random := by
  simp only [stepF, sendAuthenticateF]
  cases e : authenticateMessageF P cfg ver cc key clock c with
  | error e => simp
  | ok a =>
    simp only []
    cases Wire.serializeInto cfg a [] <;> simp

theorem callsMade_map (P : Prims) (cfg : Cfg) (ver : UInt32) (c : Client) (h : List OpF)
    (hh : ∀ cc key clock junk, OpF.sendAuthenticate cc key clock junk ∉ h) : callsMade P cfg ver c h = h.map working := by
  induction h generalizing c with
  | nil => rfl
  | cons op h ih =>
    have ih' := fun c => ih c (fun cc key clock junk hm => hh cc key clock junk (List.mem_cons_of_mem _ hm))
    rcases stepF_cases P cfg ver c op with ⟨_, cc, key, clock, junk, rfl⟩ | ⟨junk, l, l', b, rfl, _, _, e⟩ | e
    · exact absurd (List.mem_cons_self ..) (hh cc key clock junk)
    · simp only [callsMade, e, List.map_cons, ih']
    · cases hr : (step P cfg ver c (working op)).2 with
      | error p => simp only [callsMade, e, hr, own, List.map_cons, ih']
      | ok b => simp only [callsMade, e, hr, own, List.map_cons, ih']

/-- The challenge a client will answer. -/
theorem getChallenge_iff (P : Prims) (cm : CaseMap) (cfg : Cfg) (ver : UInt32) (l : Login) (c : Client) (hc : created P cm l c)
    (g : List Op) (ch : Challenge) :
    getChallenge (run P cfg ver c g) = .ok ch ↔ negotiable ver l.domain ∧ accepted g ch := by
  have hs : c.state = .new := by obtain ⟨lm, w, _, _, rfl⟩ := (created_iff P cm l c).mp hc; rfl
  by_cases hn : negotiable ver l.domain
  · obtain ⟨n, h1, h2⟩ := (negotiable_iff P cm l c hc ver).mp hn
    have hst := run_state P cfg ver c hs n h1 h2 g
    simp only [getChallenge, hn, true_and]
    cases e : (run P cfg ver c g).state <;> rw [e] at hst
    · simp only [reduceCtorEq, false_iff]; exact hst.2 ch
    · simp only [reduceCtorEq, false_iff]; exact fun ha => absurd hst.2 ((phases g).1 ch ha)
    · simp only [Except.ok.injEq]
      exact ⟨fun e => e ▸ hst.2, fun ha => (phases g).2 _ _ hst.2 ha⟩
    · simp only [Except.ok.injEq]
      exact ⟨fun e => e ▸ hst.2, fun ha => (phases g).2 _ _ hst.2 ha⟩
  · have := no_message_after P cm cfg ver l c hc g (fun x => hn x.1)
    simp only [hn, false_and, iff_false, getChallenge]
    cases e : (run P cfg ver c g).state <;> rw [e] at this <;> simp_all [sessionOf]

namespace Props

/-! ### C91 -/

/-- A negotiation whose first line cannot be printed, and a challenge. -/
def exUnprinted (ch : Challenge) : List OpF := [.sendNegociate [] false true, .recvChallenge ch]

theorem exUnprinted_made (P : Prims) (cfg : Cfg) (ver : UInt32) (c : Client) (ch : Challenge) :
    callsMade P cfg ver c (exUnprinted ch) = exHistory ch :=
  callsMade_map P cfg ver c _ (by simp [exUnprinted])

theorem exChallenge_draws : drawsKey exChallenge := ⟨by simp only [bit]; decide, .inl (by simp only [bit]; decide)⟩

/-- C91: after any history on a failing machine the client is what it is after the same calls on a working one, without the calls in
    which the random number source failed. -/
theorem C91_history (P : Prims) (cfg : Cfg) (ver : UInt32) (c : Client) (h : List OpF) :
    runF P cfg ver c h = run P cfg ver c (callsMade P cfg ver c h) := by
  induction h generalizing c with
  | nil => rfl
  | cons op h ih =>
    rw [runF_cons]
    rcases stepF_cases P cfg ver c op with ⟨e, _⟩ | ⟨junk, l, l', b, rfl, _, _, e⟩ | e
    · simp only [callsMade, e]; exact ih c
    · simp only [callsMade, e, working]; rw [ih]; rfl
    · rw [e]
      cases hr : (step P cfg ver c (working op)).2 with
      | error p => simp only [callsMade, e, hr, own]; rw [ih]; rfl
      | ok b => simp only [callsMade, e, hr, own]; rw [ih]; rfl

/-- A draw that fails leaves no trace: the second answer is made as if the first had not been tried. -/
example (P : Prims) (cfg : Cfg) (ver : UInt32) (c : Client) (ch : Challenge) (clock : SystemTime) :
    runF P cfg ver c (exUnprinted ch ++ [.sendAuthenticate none none clock []]) = run P cfg ver c (exHistory ch) := by
  rw [runF_snoc, C91_history, exUnprinted_made]
  rfl

/-- C91: a call returns a message exactly if it does so on a working machine after those calls, and then the same, or the machine
    failed during it; it aborts as on a working machine, or because of the machine.  Nothing printed, nothing returned: only
    `send_negociate` prints, and what is lost then is a message that has been built. -/
theorem C91_result (P : Prims) (cfg : Cfg) (ver : UInt32) (c : Client) (h : List OpF) (op : OpF) :
    (∀ b, resultF P cfg ver c h op = .ok b → resultOf P cfg ver c (callsMade P cfg ver c h) (working op) = .ok b) ∧
    (∀ e, resultF P cfg ver c h op = .error (.own e) →
      resultOf P cfg ver c (callsMade P cfg ver c h) (working op) = .error e) ∧
    (resultF P cfg ver c h op = .error .stderr ↔
      ∃ junk l l' b, op = .sendNegociate junk l l' ∧ (l && l') = false ∧
        resultOf P cfg ver c (callsMade P cfg ver c h) (.sendNegociate junk) = .ok b) ∧
    (resultF P cfg ver c h op = .error .random →
      (∃ cc key clock junk, op = .sendAuthenticate cc key clock junk) ∧ runF P cfg ver c (h ++ [op]) = runF P cfg ver c h) := by
  rw [runF_snoc]
  simp only [resultF, resultOf, ← C91_history]
  rcases stepF_cases P cfg ver (runF P cfg ver c h) op with ⟨e, x⟩ | ⟨junk, l, l', b, rfl, hl, hb, e⟩ | e
  · refine ⟨?_, ?_, ?_, fun _ => ⟨x, by rw [e]⟩⟩
    · intro b hb; rw [e] at hb; cases hb
    · intro p hb; rw [e] at hb; cases hb
    · constructor
      · intro hb; rw [e] at hb; cases hb
      · obtain ⟨_, _, _, _, rfl⟩ := x
        rintro ⟨_, _, _, _, hx, _⟩; cases hx
  · refine ⟨?_, ?_, ?_, ?_⟩
    · intro b hb; rw [e] at hb; cases hb
    · intro p hb; rw [e] at hb; cases hb
    · exact ⟨fun _ => ⟨junk, l, l', b, rfl, hl, hb⟩, fun _ => by rw [e]⟩
    · intro hb; rw [e] at hb; cases hb
  · rw [e]
    refine ⟨?_, ?_, ?_, fun hb => absurd hb (own_ne_random _)⟩
    · intro b hb
      simp only [] at hb
      cases hr : (step P cfg ver (runF P cfg ver c h) (working op)).2 <;> rw [hr] at hb <;> simp_all [own]
    · intro p hb
      simp only [] at hb
      cases hr : (step P cfg ver (runF P cfg ver c h) (working op)).2 <;> rw [hr] at hb <;> simp_all [own]
    · constructor
      · intro hb
        simp only [] at hb
        cases hr : (step P cfg ver (runF P cfg ver c h) (working op)).2 <;> rw [hr] at hb <;> simp [own] at hb
      · rintro ⟨junk, l, l', b, rfl, hl, hb⟩
        exfalso
        simp only [working] at e
        simp only [hb, own] at e
        have : ∀ b', (stepF P cfg ver (runF P cfg ver c h) (.sendNegociate junk l l')).2 ≠ .ok b' := by
          intro b'
          simp only [stepF, sendNegociateF]
          split
          · simp
          · split
            · simp
            · cases l <;> cases l' <;> simp at hl ⊢
        exact this b (by rw [e])

/-- A message that is lost because standard error is closed. -/
example (P : Prims) (cm : CaseMap) (cfg : Cfg) (ver : UInt32) (hv : ver.toNat ≤ 5) : ∃ c, created P cm exLogin c ∧
    resultF P cfg ver c [] (.sendNegociate [] false true) = .error .stderr := by
  obtain ⟨c, hc⟩ := exLogin_created P cm
  obtain ⟨n, h1, h2⟩ := (negotiable_iff P cm _ c hc ver).mp (exLogin_negotiable ver hv)
  refine ⟨c, hc, (C91_result P cfg ver c [] _).2.2.1.mpr ⟨[], false, true, negotiateBytes n, rfl, rfl, ?_⟩⟩
  simp only [resultOf, callsMade, run, List.foldl_nil, step, sendNegociate_eq, h1, serialize_of_enc (enc_negotiate cfg n h2)]

/-- C91: exactly when the random number source is what a call fails of: the client challenge is drawn first, in any state; the
    session key only to answer an accepted challenge that asks for one, after a time has been found and the pairs have been
    encoded. -/
theorem C91_random_iff (P : Prims) (cm : CaseMap) (cfg : Cfg) (ver : UInt32) (l : Login) (c : Client) (hc : created P cm l c)
    (h : List OpF) (cc : Option (Bytes 8)) (key : Option (Bytes 16)) (clock : SystemTime) (junk : List UInt8) :
    resultF P cfg ver c h (.sendAuthenticate cc key clock junk) = .error .random ↔
      cc = none ∨ ∃ ch, negotiable ver l.domain ∧ accepted (callsMade P cfg ver c h) ch ∧ key = none ∧ drawsKey ch ∧
        (isV1 ver ∨ (isV2 ver ∧ (∃ t, clientTime ch.targetInfos clock t) ∧ ∀ p ∈ ch.targetInfos, avPairFits p)) := by
  simp only [resultF, stepF_random, messageF_random, C91_history]
  have key1 := getChallenge_iff P cm cfg ver l c hc (callsMade P cfg ver c h)
  constructor
  · rintro (h1 | ⟨x, ch, h1, h2, h3, h4, h5⟩)
    · exact .inl h1
    · obtain ⟨h6, h7⟩ := (key1 ch).mp h2
      exact .inr ⟨ch, h6, h7, h3, h4, h5⟩
  · rintro (h1 | ⟨ch, h6, h7, h3, h4, h5⟩)
    · exact .inl h1
    · cases cc with
      | none => exact .inl rfl
      | some x => exact .inr ⟨x, ch, rfl, (key1 ch).mpr ⟨h6, h7⟩, h3, h4, h5⟩

/-- A session key that cannot be drawn, at every level; and a fresh client, for which only the client challenge is drawn. -/
example (P : Prims) (cm : CaseMap) (cfg : Cfg) (ver : UInt32) (hv : ver.toNat ≤ 5) (cc : Bytes 8) : ∃ c, created P cm exLogin c ∧
    resultF P cfg ver c (exUnprinted exChallenge) (.sendAuthenticate (some cc) none exRand.clock []) = .error .random ∧
    resultF P cfg ver c [] (.sendAuthenticate none none exRand.clock []) = .error .random ∧
    resultF P cfg ver c [] (.sendAuthenticate (some cc) none exRand.clock []) ≠ .error .random := by
  obtain ⟨c, hc⟩ := exLogin_created P cm
  refine ⟨c, hc, (C91_random_iff P cm cfg ver exLogin c hc _ _ _ _ _).mpr (.inr ⟨exChallenge, exLogin_negotiable ver hv, ?_, rfl,
    exChallenge_draws, ?_⟩), (C91_random_iff P cm cfg ver exLogin c hc _ _ _ _ _).mpr (.inl rfl), fun h => ?_⟩
  · rw [exUnprinted_made]; exact exHistory_accepted _
  · by_cases h1 : isV1 ver
    · exact .inl h1
    · refine .inr ⟨⟨by simp only [isV1] at h1; omega, hv⟩, ⟨⟨5, 7⟩, .inl ⟨[.nbDomainName "DOM".toList], [.eol], rfl, by simp⟩⟩, ?_⟩
      exact exChallenge_fits.2.1
  · rcases (C91_random_iff P cm cfg ver exLogin c hc _ _ _ _ _).mp h with h1 | ⟨ch, _, h1, _⟩
    · cases h1
    · exact not_accepted_nil ch h1

/-- C91: a `send_negociate` whose lines cannot be printed returns nothing, but counts: the client is the one that has sent its
    message. -/
theorem C91_negotiated (P : Prims) (cfg : Cfg) (ver : UInt32) (c : Client) (h : List OpF) (junk : List UInt8) (l l' : Bool) :
    runF P cfg ver c (h ++ [.sendNegociate junk l l']) = runF P cfg ver c (h ++ [.sendNegociate junk true true]) ∧
      ((l && l') = false → ∀ b, resultF P cfg ver c h (.sendNegociate junk l l') ≠ .ok b) := by
  rw [runF_snoc, runF_snoc]
  simp only [resultF]
  generalize runF P cfg ver c h = d
  rcases stepF_cases P cfg ver d (.sendNegociate junk l l') with ⟨_, _, _, _, _, e⟩ | ⟨j, k, k', b, e1, hl, hb, e⟩ | e
  · cases e
  · cases e1
    refine ⟨?_, fun _ b hb => by rw [e] at hb; cases hb⟩
    rw [e]
    rcases stepF_cases P cfg ver d (.sendNegociate junk true true) with ⟨_, _, _, _, _, e'⟩ | ⟨j, k, k', b', e1, hl, hb, e'⟩ | e'
    · cases e'
    · cases e1; cases hl
    · rw [e']; rfl
  · refine ⟨?_, ?_⟩
    · rw [e]
      rcases stepF_cases P cfg ver d (.sendNegociate junk true true) with ⟨_, _, _, _, _, e'⟩ | ⟨j, k, k', b', e1, hl, hb, e'⟩ | e'
      · cases e'
      · cases e1; cases hl
      · rw [e']; rfl
    · intro hl b
      simp only [stepF, sendNegociateF]
      split
      · simp
      · split
        · simp
        · cases l <;> cases l' <;> simp at hl ⊢

/-- The challenge after a message that was never handed out is answered as usual. -/
example (P : Prims) (cm : CaseMap) (cfg : Cfg) : ∃ c b, created P cm exLogin c ∧
    (∀ b, resultF P cfg 3 c [] (.sendNegociate [] false true) ≠ .ok b) ∧
    resultF P cfg 3 c (exUnprinted exChallenge)
      (.sendAuthenticate (some exRand.clientChallenge) (some exRand.exportedKey) exRand.clock []) = .ok b := by
  obtain ⟨b, ha, c, junk, hc, hr⟩ := exAnswers_v2 P cm cfg 3 ⟨by decide, by decide⟩
  refine ⟨c, b, hc, (C91_negotiated P cfg 3 c [] [] false true).2 rfl, ?_⟩
  have h := C91_result P cfg 3 c (exUnprinted exChallenge)
    (.sendAuthenticate (some exRand.clientChallenge) (some exRand.exportedKey) exRand.clock [])
  rw [exUnprinted_made] at h
  have hr : resultOf P cfg 3 c (exHistory exChallenge) (.sendAuthenticate exRand []) = .ok b := by
    rw [← hr]
    simp only [resultOf, step, sendAuthenticate_eq]
    cases authenticateMessage P cfg 3 exRand (run P cfg 3 c (exHistory exChallenge)) with
    | error e => rfl
    | ok a => simp only []; cases Wire.serialize cfg a <;> rfl
  cases e : resultF P cfg 3 c (exUnprinted exChallenge)
      (.sendAuthenticate (some exRand.clientChallenge) (some exRand.exportedKey) exRand.clock []) with
  | ok b' =>
    have h1 := h.1 b' e
    rw [show working (.sendAuthenticate (some exRand.clientChallenge) (some exRand.exportedKey) exRand.clock []) =
      Op.sendAuthenticate exRand [] from rfl, hr] at h1
    cases h1
    rfl
  | error a =>
    cases a with
    | own p => rw [show working (.sendAuthenticate (some exRand.clientChallenge) (some exRand.exportedKey) exRand.clock []) =
        Op.sendAuthenticate exRand [] from rfl, hr] at h; exact absurd (h.2.1 p e) (by simp)
    | stderr => obtain ⟨_, _, _, _, hx, _⟩ := h.2.2.1.mp e; cases hx
    | random =>
      rcases (C91_random_iff P cm cfg 3 exLogin c hc _ _ _ _ _).mp e with h1 | ⟨_, _, _, h1, _⟩
      · cases h1
      · cases h1

end Props

end Ntlm
