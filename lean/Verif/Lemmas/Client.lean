import Verif.Spec.Client
import Verif.Lemmas.Frame
import Verif.Props.Builders
/-
  Lemmas about the client: histories, and the messages it builds.
-/
namespace Ntlm

open Spec Client

/-! ### Histories -/

theorem snocRec {α : Type} {motive : List α → Prop} (h : List α) (nil : motive [])
    (snoc : ∀ l a, motive l → motive (l ++ [a])) : motive h := by
  have key : ∀ r : List α, motive r.reverse := by
    intro r
    induction r with
    | nil => exact nil
    | cons a r ih => rw [List.reverse_cons]; exact snoc _ _ ih
  simpa using key h.reverse

theorem append_cons_eq_snoc {α : Type} {l a b : List α} {x y : α} (h : l ++ [x] = a ++ y :: b) :
    (b = [] ∧ l = a ∧ x = y) ∨ ∃ b', b = b' ++ [x] ∧ l = a ++ y :: b' := by
  rcases List.eq_nil_or_concat b with rfl | ⟨b', z, rfl⟩
  · have := List.append_inj' h rfl
    simp at this
    exact .inl ⟨rfl, this.1, this.2⟩
  · have h' : l ++ [x] = (a ++ y :: b') ++ [z] := by simpa using h
    have := List.append_inj' h' rfl
    simp at this
    exact .inr ⟨b', by rw [this.2, List.concat_eq_append], this.1⟩

theorem pending_snoc (h : List Op) (op : Op) :
    pending (h ++ [op]) ↔ isNegotiate op ∨ (¬ isNegotiate op ∧ ¬ isReceive op ∧ pending h) := by
  constructor
  · rintro ⟨b, j, a, e, ha⟩
    rcases append_cons_eq_snoc e with ⟨rfl, rfl, rfl⟩ | ⟨a', rfl, rfl⟩
    · exact .inl ⟨j, rfl⟩
    · obtain ⟨h1, h2⟩ := ha op (by simp)
      exact .inr ⟨h1, h2, b, j, a', rfl, fun o ho => ha o (by simp [ho])⟩
  · rintro (⟨j, rfl⟩ | ⟨h1, h2, b, j, a, rfl, ha⟩)
    · exact ⟨h, j, [], rfl, by simp⟩
    · refine ⟨b, j, a ++ [op], by simp, fun o ho => ?_⟩
      rcases List.mem_append.mp ho with ho | ho
      · exact ha o ho
      · simp at ho; subst ho; exact ⟨h1, h2⟩

theorem accepted_snoc (h : List Op) (op : Op) (ch : Challenge) :
    accepted (h ++ [op]) ch ↔ (op = .recvChallenge ch ∧ pending h) ∨ (¬ isNegotiate op ∧ accepted h ch) := by
  constructor
  · rintro ⟨b, j, m, a, e, hm, ha⟩
    have e' : h ++ [op] = (b ++ .sendNegociate j :: m) ++ .recvChallenge ch :: a := by simpa using e
    rcases append_cons_eq_snoc e' with ⟨rfl, rfl, rfl⟩ | ⟨a', rfl, rfl⟩
    · exact .inl ⟨rfl, b, j, m, rfl, hm⟩
    · exact .inr ⟨ha op (by simp), b, j, m, a', by simp, hm, fun o ho => ha o (by simp [ho])⟩
  · rintro (⟨rfl, b, j, m, rfl, hm⟩ | ⟨h1, b, j, m, a, rfl, hm, ha⟩)
    · exact ⟨b, j, m, [], by simp, hm, by simp⟩
    · refine ⟨b, j, m, a ++ [op], by simp, hm, fun o ho => ?_⟩
      rcases List.mem_append.mp ho with ho | ho
      · exact ha o ho
      · simp at ho; subst ho; exact h1

theorem not_pending_nil : ¬ pending [] := by
  rintro ⟨b, j, a, e, _⟩; simp at e

theorem not_accepted_nil (ch : Challenge) : ¬ accepted [] ch := by
  rintro ⟨b, j, m, a, e, _⟩; simp at e

/-- A history is in exactly one phase, and at most one challenge is accepted. -/
theorem phases (h : List Op) :
    (∀ ch, accepted h ch → ¬ pending h) ∧ (∀ ch ch', accepted h ch → accepted h ch' → ch = ch') := by
  induction h using snocRec with
  | nil => exact ⟨fun ch hc => absurd hc (not_accepted_nil ch), fun ch _ hc => absurd hc (not_accepted_nil ch)⟩
  | snoc h op ih =>
    obtain ⟨i1, i2⟩ := ih
    constructor
    · intro ch hc hp
      rw [pending_snoc] at hp
      rw [accepted_snoc] at hc
      rcases hc with ⟨rfl, h1⟩ | ⟨h1, h2⟩
      · rcases hp with ⟨j, h⟩ | ⟨_, h, _⟩
        · cases h
        · exact h ⟨_, rfl⟩
      · rcases hp with h | ⟨_, _, h⟩
        · exact h1 h
        · exact i1 ch h2 h
    · intro ch ch' hc hc'
      rw [accepted_snoc] at hc hc'
      rcases hc with ⟨rfl, h1⟩ | ⟨h1, h2⟩ <;> rcases hc' with ⟨e, h3⟩ | ⟨h3, h4⟩
      · cases e; rfl
      · exact absurd h1 (i1 _ h4)
      · exact absurd h3 (i1 _ h2)
      · exact i2 _ _ h2 h4

/-! ### What calls do to a client -/

/-- The client with another protocol state and buffer. -/
def reset (c : Client) (s : ClientState) (b : List UInt8) : Client := { c with state := s, buffer := b }

theorem run_snoc (P : Prims) (cfg : Cfg) (ver : UInt32) (c : Client) (h : List Op) (op : Op) :
    run P cfg ver c (h ++ [op]) = (step P cfg ver (run P cfg ver c h) op).1 := by
  simp [run, List.foldl_append]

theorem negotiateMessage_reset (ver : UInt32) (c : Client) (s : ClientState) (b : List UInt8) :
    negotiateMessage ver (reset c s b) = negotiateMessage ver c := rfl

/-- `send_negociate` in closed form. -/
theorem sendNegociate_eq (cfg : Cfg) (ver : UInt32) (junk : List UInt8) (c : Client) :
    sendNegociate cfg ver junk c =
      match negotiateMessage ver c with
      | .error e => (c, .error e)
      | .ok n =>
        match Wire.serialize cfg n with
        | .ok b => (reset c (.negociateSent n) b, .ok b)
        | .error e => (reset c c.state junk, .error e) := by
  simp only [sendNegociate]
  cases hn : negotiateMessage ver c with
  | error e => rfl
  | ok n =>
    simp only []
    by_cases hf : negotiateFits n
    · have he := enc_negotiate cfg n hf
      rw [he [], serialize_of_enc he]
      simp [reset]
    · have he := negotiate_err cfg n hf []
      rw [he, serialize_of_error he]
      rfl

/-- `send_authenticate` in closed form. -/
theorem sendAuthenticate_eq (P : Prims) (cfg : Cfg) (ver : UInt32) (rnd : AuthRand) (junk : List UInt8) (c : Client) :
    sendAuthenticate P cfg ver rnd junk c =
      match authenticateMessage P cfg ver rnd c with
      | .error e => (c, .error e)
      | .ok a =>
        match Wire.serialize cfg a with
        | .ok b => (setAuthenticatedState a (reset c c.state b), .ok b)
        | .error e => (reset c c.state junk, .error e) := by
  simp only [sendAuthenticate]
  cases hn : authenticateMessage P cfg ver rnd c with
  | error e => rfl
  | ok a =>
    simp only []
    by_cases hf : authenticateFits a
    · have he := enc_authenticate cfg a hf
      rw [he [], serialize_of_enc he]
      simp only [List.nil_append]
      refine Prod.ext rfl ?_
      simp only [setAuthenticatedState]
      cases c.state <;> rfl
    · obtain ⟨p, hp, _⟩ := authenticate_err cfg a hf []
      rw [hp, serialize_of_error hp]
      rfl

/-- The session a protocol state holds. -/
def sessionOf : ClientState → Option (Negotiate × Challenge)
  | .challengeReceived n ch => some (n, ch)
  | .authenticateSent n ch _ => some (n, ch)
  | _ => none

/-- The authenticate message depends only on the credentials and the session. -/
theorem authenticateMessage_session (P : Prims) (cfg : Cfg) (ver : UInt32) (rnd : AuthRand) (c : Client)
    (s s' : ClientState) (b b' : List UInt8) (h : sessionOf s = sessionOf s') :
    authenticateMessage P cfg ver rnd (reset c s b) = authenticateMessage P cfg ver rnd (reset c s' b') := by
  have h1 : getChallenge (reset c s b) = getChallenge (reset c s' b') := by
    cases s <;> cases s' <;> simp [sessionOf, reset, getChallenge] at h ⊢ <;> exact h.2
  have h2 : getNegotiate (reset c s b) = getNegotiate (reset c s' b') := by
    cases s <;> cases s' <;> simp [sessionOf, reset, getNegotiate] at h ⊢ <;> exact h.1
  simp only [authenticateMessage, authenticateNtlmv1, authenticateNtlmv2, h1, h2]
  rfl

/-- No call changes anything but the protocol state and the buffer. -/
theorem step_reset (P : Prims) (cfg : Cfg) (ver : UInt32) (c : Client) (op : Op) :
    ∃ s b, (step P cfg ver c op).1 = reset c s b := by
  cases op with
  | sendNegociate junk =>
    simp only [step, sendNegociate_eq]
    split
    · exact ⟨c.state, c.buffer, rfl⟩
    · split
      · exact ⟨_, _, rfl⟩
      · exact ⟨_, _, rfl⟩
  | recvChallenge ch =>
    simp only [step, Client.recvChallenge]
    split
    · exact ⟨_, c.buffer, rfl⟩
    · exact ⟨c.state, c.buffer, rfl⟩
  | sendAuthenticate rnd junk =>
    simp only [step, sendAuthenticate_eq]
    split
    · exact ⟨c.state, c.buffer, rfl⟩
    · split
      · simp only [setAuthenticatedState, reset]
        split
        · exact ⟨_, _, rfl⟩
        · exact ⟨_, _, rfl⟩
      · exact ⟨_, _, rfl⟩

theorem run_reset (P : Prims) (cfg : Cfg) (ver : UInt32) (c : Client) (h : List Op) :
    ∃ s b, run P cfg ver c h = reset c s b := by
  induction h using snocRec with
  | nil => exact ⟨c.state, c.buffer, rfl⟩
  | snoc h op ih =>
    obtain ⟨s, b, e⟩ := ih
    rw [run_snoc, e]
    obtain ⟨s', b', e'⟩ := step_reset P cfg ver (reset c s b) op
    exact ⟨s', b', e'⟩

/-- The protocol state after a history, for a client that can negotiate. -/
def stateFor (n : Negotiate) (h : List Op) : ClientState → Prop
  | .new => ¬ pending h ∧ ∀ ch, ¬ accepted h ch
  | .negociateSent m => m = n ∧ pending h
  | .challengeReceived m ch => m = n ∧ accepted h ch
  | .authenticateSent m ch _ => m = n ∧ accepted h ch

theorem run_state (P : Prims) (cfg : Cfg) (ver : UInt32) (c : Client) (hs : c.state = .new) (n : Negotiate)
    (hn : negotiateMessage ver c = .ok n) (hf : negotiateFits n) (h : List Op) :
    stateFor n h (run P cfg ver c h).state := by
  induction h using snocRec with
  | nil =>
    simp only [run, List.foldl_nil, hs, stateFor]
    exact ⟨not_pending_nil, not_accepted_nil⟩
  | snoc h op ih =>
    obtain ⟨s, b, e⟩ := run_reset P cfg ver c h
    rw [run_snoc, e]
    rw [e] at ih
    have ih : stateFor n h s := ih
    cases op with
    | sendNegociate junk =>
      simp only [step, sendNegociate_eq, negotiateMessage_reset, hn, serialize_of_enc (enc_negotiate cfg n hf)]
      exact ⟨rfl, (pending_snoc h _).mpr (.inl ⟨junk, rfl⟩)⟩
    | recvChallenge ch =>
      have hnn : ¬ isNegotiate (.recvChallenge ch) := by rintro ⟨j, h⟩; cases h
      have hr : isReceive (.recvChallenge ch) := ⟨ch, rfl⟩
      cases s with
      | new =>
        refine ⟨?_, ?_⟩
        · rw [pending_snoc]; rintro (h | ⟨_, h, _⟩)
          · exact hnn h
          · exact h hr
        · intro ch'
          rw [accepted_snoc]; rintro (⟨_, h⟩ | ⟨_, h⟩)
          · exact ih.1 h
          · exact ih.2 _ h
      | negociateSent m => exact ⟨ih.1, (accepted_snoc h _ _).mpr (.inl ⟨rfl, ih.2⟩)⟩
      | challengeReceived m ch' => exact ⟨ih.1, (accepted_snoc h _ _).mpr (.inr ⟨hnn, ih.2⟩)⟩
      | authenticateSent m ch' a => exact ⟨ih.1, (accepted_snoc h _ _).mpr (.inr ⟨hnn, ih.2⟩)⟩
    | sendAuthenticate rnd junk =>
      have hnn : ¬ isNegotiate (.sendAuthenticate rnd junk) := by rintro ⟨j, h⟩; cases h
      have hr : ¬ isReceive (.sendAuthenticate rnd junk) := by rintro ⟨j, h⟩; cases h
      have key : stateFor n (h ++ [.sendAuthenticate rnd junk]) s := by
        cases s with
        | new =>
          refine ⟨?_, ?_⟩
          · rw [pending_snoc]; rintro (h | ⟨_, _, h⟩)
            · exact hnn h
            · exact ih.1 h
          · intro ch'
            rw [accepted_snoc]; rintro (⟨h, _⟩ | ⟨_, h⟩)
            · cases h
            · exact ih.2 _ h
        | negociateSent m => exact ⟨ih.1, (pending_snoc h _).mpr (.inr ⟨hnn, hr, ih.2⟩)⟩
        | challengeReceived m ch' => exact ⟨ih.1, (accepted_snoc h _ _).mpr (.inr ⟨hnn, ih.2⟩)⟩
        | authenticateSent m ch' a => exact ⟨ih.1, (accepted_snoc h _ _).mpr (.inr ⟨hnn, ih.2⟩)⟩
      simp only [step, sendAuthenticate_eq]
      split
      · exact key
      · split
        · simp only [setAuthenticatedState, reset]
          cases s <;> exact key
        · exact key

/-- A client that cannot negotiate stays where it is. -/
theorem run_stuck (P : Prims) (cfg : Cfg) (ver : UInt32) (c : Client) (hs : c.state = .new)
    (hn : ∀ n, negotiateMessage ver c = .ok n → ¬ negotiateFits n) (h : List Op) :
    (run P cfg ver c h).state = .new := by
  induction h using snocRec with
  | nil => exact hs
  | snoc h op ih =>
    obtain ⟨s, b, e⟩ := run_reset P cfg ver c h
    rw [run_snoc, e]
    rw [e] at ih
    have ih : s = .new := ih
    subst ih
    cases op with
    | sendNegociate junk =>
      simp only [step, sendNegociate_eq, negotiateMessage_reset]
      split
      · rfl
      · rename_i n hn'
        rw [serialize_of_error (negotiate_err cfg n (hn n hn') [])]
        rfl
    | recvChallenge ch => rfl
    | sendAuthenticate rnd junk =>
      simp only [step, sendAuthenticate_eq]
      split
      · rfl
      · split <;> rfl

/-! ### The negotiate message -/

theorem default_bit (k : Nat) : bit Flags.default k ↔ k = 0 := by
  have : Flags.default = Flags.setFlag ⟨0⟩ Flags.NTLMSSP_NEGOTIATE_UNICODE := rfl
  rw [this, setFlag_bit]
  simp [bit, Flags.NTLMSSP_NEGOTIATE_UNICODE]

theorem ver_cases {ver : UInt32} (h : ver.toNat ≤ 5) : ver = 0 ∨ ver = 1 ∨ ver = 2 ∨ ver = 3 ∨ ver = 4 ∨ ver = 5 := by
  have e : ∀ k : UInt32, ver = k ↔ ver.toNat = k.toNat := fun k => UInt32.toNat_inj.symm
  simp only [e, show (0 : UInt32).toNat = 0 from rfl, show (1 : UInt32).toNat = 1 from rfl, show (2 : UInt32).toNat = 2 from rfl,
    show (3 : UInt32).toNat = 3 from rfl, show (4 : UInt32).toNat = 4 from rfl, show (5 : UInt32).toNat = 5 from rfl]
  omega

theorem versionFlags_ok {ver : UInt32} (h : ver.toNat ≤ 5) (f : Flags) :
    ∃ g, versionFlags ver f = .ok g ∧ ∀ k, bit g k ↔ bit f k ∨
      k ∈ (if ver = 0 then [9, 7, 30] else if ver = 1 then [9, 19] else [19, 30, 23]) := by
  rcases ver_cases h with rfl | rfl | rfl | rfl | rfl | rfl <;>
  · refine ⟨_, rfl, fun k => ?_⟩
    simp only [setFlag_bit]
    simp [Flags.NTLMSSP_NEGOTIATE_NTLM, Flags.NTLMSSP_NEGOTIATE_LM_KEY, Flags.NTLMSSP_NEGOTIATE_KEY_EXCH,
      Flags.NTLMSSP_NEGOTIATE_EXTENDED_SESSIONSECURITY, Flags.NTLMSSP_NEGOTIATE_TARGET_INFO, or_assoc]

theorem versionFlags_err {ver : UInt32} (h : ¬ ver.toNat ≤ 5) (f : Flags) : versionFlags ver f = .error .unsupportedVersion := by
  have e : ∀ k : UInt32, k.toNat ≤ 5 → ver ≠ k := by
    intro k hk e; subst e; exact h hk
  simp only [versionFlags, e 0 (by decide), e 1 (by decide), e 2 (by decide), e 3 (by decide), e 4 (by decide),
    e 5 (by decide), if_false, or_self]

theorem negotiateMessage_err {ver : UInt32} (h : ¬ ver.toNat ≤ 5) (c : Client) :
    negotiateMessage ver c = .error .unsupportedVersion := by
  simp only [negotiateMessage, versionFlags_err h]
  rfl

theorem negotiateMessage_ok {ver : UInt32} (h : ver.toNat ≤ 5) (c : Client) (hv : c.version = none) :
    ∃ n, negotiateMessage ver c = .ok n ∧ n.version = none ∧ n.workstation = none ∧
      n.domainName = (if c.domain = [] then none else some ⟨c.domain⟩) ∧
      ∀ k, bit n.negotiateFlags k ↔ k ∈ advertised ver ∨ (k = 12 ∧ c.domain ≠ []) := by
  simp only [negotiateMessage, hv]
  obtain ⟨g, hg, hb⟩ := versionFlags_ok h
    (((((((Negotiate.default.negotiateFlags.setFlag Flags.NTLM_NEGOTIATE_OEM).setFlag Flags.NTLMSSP_NEGOTIATE_128).setFlag
      Flags.NTLMSSP_NEGOTIATE_ALWAYS_SIGN).setFlag Flags.NTLMSSP_NEGOTIATE_SEAL).setFlag Flags.NTLMSSP_NEGOTIATE_SIGN).setFlag
      Flags.NTLMSSP_NEGOTIATE_UNICODE).setFlag Flags.NTLMSSP_TARGET_TYPE_SERVER)
  rw [hg]
  refine ⟨_, rfl, ?_⟩
  cases hd : c.domain with
  | nil =>
    refine ⟨rfl, rfl, rfl, fun k => ?_⟩
    simp only [List.isEmpty_nil, Bool.not_true, Bool.false_eq_true, if_false, setFlag_bit, hb, Negotiate.default,
      default_bit, advertised, List.mem_append]
    simp [Flags.NTLM_NEGOTIATE_OEM, Flags.NTLMSSP_NEGOTIATE_128, Flags.NTLMSSP_NEGOTIATE_ALWAYS_SIGN,
      Flags.NTLMSSP_NEGOTIATE_SEAL, Flags.NTLMSSP_NEGOTIATE_SIGN, Flags.NTLMSSP_NEGOTIATE_UNICODE,
      Flags.NTLMSSP_TARGET_TYPE_SERVER, Flags.NTLMSSP_REQUEST_TARGET]
    grind
  | cons x d =>
    refine ⟨rfl, rfl, rfl, fun k => ?_⟩
    simp only [List.isEmpty_cons, Bool.not_false, if_true, Negotiate.setDomainName, Option.map_some, Option.isSome_some, setFlag_bit, hb, Negotiate.default,
      default_bit, advertised, List.mem_append]
    simp [Flags.NTLM_NEGOTIATE_OEM, Flags.NTLMSSP_NEGOTIATE_128, Flags.NTLMSSP_NEGOTIATE_ALWAYS_SIGN,
      Flags.NTLMSSP_NEGOTIATE_SEAL, Flags.NTLMSSP_NEGOTIATE_SIGN, Flags.NTLMSSP_NEGOTIATE_UNICODE,
      Flags.NTLMSSP_TARGET_TYPE_SERVER, Flags.NTLMSSP_REQUEST_TARGET, Flags.NTLMSSP_NEGOTIATE_OEM_DOMAIN_SUPPLIED]
    grind

end Ntlm
