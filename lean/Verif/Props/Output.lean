import Verif.Spec.Output
import Verif.Props.Confine
import Verif.Prims.Cipher
/-
  C82: what a client prints.
-/
namespace Ntlm.Props

open Spec Client

theorem sizeLines_eq (pl : Places) (n : Nat) :
    dbgLine pl.first "self.buffer.len()".toList n ++ dbgLine pl.second "size".toList n = sizeLines pl n := by
  have h1 : "] self.buffer.len() = ".toList = "] ".toList ++ "self.buffer.len()".toList ++ " = ".toList := rfl
  have h2 : "] size = ".toList = "] ".toList ++ "size".toList ++ " = ".toList := rfl
  have h3 : (toString n).toList = Nat.toDigits 10 n := Nat.toList_repr
  simp only [sizeLines, dbgLine, h1, h2, h3, List.append_assoc]

theorem sendNegociateP_eq (pl : Places) (cfg : Cfg) (ver : UInt32) (junk : List UInt8) (c : Client) :
    (sendNegociateP pl cfg ver junk c).1 = sendNegociate cfg ver junk c ∧
    (sendNegociateP pl cfg ver junk c).2 =
      ⟨errorOutput pl (.sendNegociate junk) (sendNegociate cfg ver junk c).2, []⟩ := by
  simp only [sendNegociateP, sendNegociate]
  cases hn : negotiateMessage ver c with
  | error e => exact ⟨rfl, rfl⟩
  | ok n =>
    simp only []
    by_cases hf : negotiateFits n
    · rw [enc_negotiate cfg n hf []]
      simp only [List.nil_append, Nat.le_refl, if_true, List.take_length, errorOutput]
      refine ⟨?_, by rw [sizeLines_eq]⟩
      trivial
    · rw [negotiate_err cfg n hf []]
      exact ⟨rfl, rfl⟩

theorem authenticateNtlmv2P_eq (P : Prims) (cfg : Cfg) (rnd : AuthRand) (c : Client) :
    authenticateNtlmv2P P cfg rnd c = (authenticateNtlmv2 P cfg rnd c, []) := by
  unfold authenticateNtlmv2P authenticateNtlmv2
  cases getNegotiate c with
  | error e => rfl
  | ok n =>
    cases getChallenge c with
    | error e => rfl
    | ok ch =>
      simp only [bind, Except.bind]
      cases ntlmv2Response P cfg ch.negotiateFlags c.ntlmv2Hash c.ntlmv2Hash ch.serverChallenge rnd.clientChallenge
        (firstTimestamp ch.targetInfos) ch.targetInfos rnd.clock with
      | error e => rfl
      | ok x => rfl

theorem authenticateMessageP_eq (P : Prims) (cfg : Cfg) (ver : UInt32) (rnd : AuthRand) (c : Client) :
    authenticateMessageP P cfg ver rnd c = (authenticateMessage P cfg ver rnd c, []) := by
  unfold authenticateMessageP authenticateMessage
  by_cases h : ver = 0 ∨ ver = 1 ∨ ver = 2
  · simp only [if_pos h]
    cases authenticateNtlmv1 P ver rnd c <;> rfl
  · simp only [if_neg h]
    by_cases h' : ver = 3 ∨ ver = 4 ∨ ver = 5
    · simp only [if_pos h', authenticateNtlmv2P_eq]
      cases authenticateNtlmv2 P cfg rnd c <;> rfl
    · simp only [if_neg h']
      rfl

theorem stepP_eq (P : Prims) (pl : Places) (cfg : Cfg) (ver : UInt32) (c : Client) (op : Op) :
    stepP P pl cfg ver c op = (step P cfg ver c op, ⟨errorOutput pl op (step P cfg ver c op).2, []⟩) := by
  cases op with
  | sendNegociate junk => exact Prod.ext (sendNegociateP_eq pl cfg ver junk c).1 (sendNegociateP_eq pl cfg ver junk c).2
  | recvChallenge ch => rfl
  | sendAuthenticate rnd junk =>
    simp only [stepP, step, sendAuthenticateP, sendAuthenticate, authenticateMessageP_eq]
    cases authenticateMessage P cfg ver rnd c with
    | error e => rfl
    | ok a =>
      simp only []
      cases Wire.serializeInto cfg a [] <;> rfl

/-- C82: one call has the effect and result of the silent model.  It logs nothing, and on standard error it prints the size
    of a NEGOTIATE message, twice. -/
theorem C82_call (P : Prims) (pl : Places) (cfg : Cfg) (ver : UInt32) (c : Client) (op : Op) :
    (stepP P pl cfg ver c op).1 = step P cfg ver c op ∧ (stepP P pl cfg ver c op).2.log = [] ∧
    (stepP P pl cfg ver c op).2.stderr = errorOutput pl op (step P cfg ver c op).2 := by
  rw [stepP_eq]
  exact ⟨rfl, rfl, rfl⟩

/-- The first message of a client for a user without domain, with version block: 40 bytes. -/
example : (stepP Prims.std ⟨"src/client.rs:136:9".toList, "src/client.rs:137:9".toList⟩ ⟨false, false, .unix⟩ 3
    { state := .new, username := ['u'], lmHash := Bytes.zero 16, ntHash := Bytes.zero 16, ntlmv2Hash := Bytes.zero 16,
      domain := [], workstation := none, target := [], buffer := [], version := some ⟨6, 1, 7601, 15⟩ }
    (.sendNegociate [])).2.stderr =
    ("[src/client.rs:136:9] self.buffer.len() = 40\n" ++ "[src/client.rs:137:9] size = 40\n").toList := by
  decide +kernel

/-- C82: whatever the history of calls, what is printed on standard error is a function of the sizes of the NEGOTIATE
    messages sent, and nothing is logged. -/
theorem C82_history (P : Prims) (pl : Places) (cfg : Cfg) (ver : UInt32) (c : Client) (ops : List Op) :
    (runP P pl cfg ver c ops).2.stderr = errorOutputs pl ops (runP P pl cfg ver c ops).1 ∧
    (runP P pl cfg ver c ops).2.log = [] ∧
    ∀ k (h : k < ops.length), (runP P pl cfg ver c ops).1[k]? = some (resultOf P cfg ver c (ops.take k) ops[k]) := by
  induction ops generalizing c with
  | nil => exact ⟨rfl, rfl, fun k h => absurd h (by simp)⟩
  | cons op ops ih =>
    have ih := ih (step P cfg ver c op).1
    simp only [runP, stepP_eq]
    refine ⟨by rw [ih.1]; rfl, by simpa using ih.2.1, ?_⟩
    intro k h
    cases k with
    | zero => rfl
    | succ k =>
      have := ih.2.2 k (by simpa using h)
      simpa [resultOf, run] using this

/-- A client that starts a second exchange after a challenge. -/
example : (runP Prims.std ⟨['p'], ['q']⟩ ⟨false, false, .unix⟩ 0
    { state := .new, username := ['u'], lmHash := Bytes.zero 16, ntHash := Bytes.zero 16, ntlmv2Hash := Bytes.zero 16,
      domain := ['D'], workstation := none, target := [], buffer := [], version := none }
    [.sendNegociate [], .recvChallenge Challenge.default, .sendNegociate []]).2.stderr =
    ("[p] self.buffer.len() = 33\n" ++ "[q] size = 33\n" ++ "[p] self.buffer.len() = 33\n" ++ "[q] size = 33\n").toList := by
  decide +kernel

/-- C82: two clients with the same domain and version block print the same, whatever their user names, password hashes,
    states and primitives: no secret reaches the output. -/
theorem C82_secrets (P P' : Prims) (pl : Places) (cfg : Cfg) (ver : UInt32) (c c' : Client) (ops : List Op)
    (hd : c.domain = c'.domain) (hv : c.version = c'.version) :
    (runP P pl cfg ver c ops).2.stderr = (runP P' pl cfg ver c' ops).2.stderr := by
  induction ops generalizing c c' with
  | nil => rfl
  | cons op ops ih =>
    simp only [runP, stepP_eq]
    have keep : ∀ (P : Prims) (c : Client), (step P cfg ver c op).1.domain = c.domain ∧
        (step P cfg ver c op).1.version = c.version := by
      intro P c
      obtain ⟨s, b, e⟩ := run_reset P cfg ver c [op]
      have e : (step P cfg ver c op).1 = reset c s b := e
      rw [e]
      exact ⟨rfl, rfl⟩
    have hd' : (step P cfg ver c op).1.domain = (step P' cfg ver c' op).1.domain :=
      (keep P c).1.trans (hd.trans (keep P' c').1.symm)
    have hv' : (step P cfg ver c op).1.version = (step P' cfg ver c' op).1.version :=
      (keep P c).2.trans (hv.trans (keep P' c').2.symm)
    rw [ih _ _ hd' hv']
    congr 1
    cases op with
    | sendNegociate junk =>
      simp only [step, sendNegociate_eq, negotiateMessage_congr ver hd hv]
      cases negotiateMessage ver c' with
      | error e => rfl
      | ok n => simp only []; cases Wire.serialize cfg n <;> rfl
    | recvChallenge ch => rfl
    | sendAuthenticate rnd junk => simp only [errorOutput]

/-- Clients of two users with different hashes. -/
example : ∃ c c' : Client, c.domain = c'.domain ∧ c.version = c'.version ∧ c.username ≠ c'.username ∧ c.ntHash ≠ c'.ntHash ∧
    c.domain ≠ [] :=
  ⟨{ state := .new, username := ['u'], lmHash := Bytes.zero 16, ntHash := Bytes.zero 16, ntlmv2Hash := Bytes.zero 16,
      domain := ['D'], workstation := none, target := [], buffer := [], version := none },
   { state := .new, username := ['v'], lmHash := Bytes.zero 16, ntHash := ⟨List.replicate 16 1, rfl⟩,
      ntlmv2Hash := Bytes.zero 16, domain := ['D'], workstation := none, target := [], buffer := [], version := none },
   by decide⟩

end Ntlm.Props
