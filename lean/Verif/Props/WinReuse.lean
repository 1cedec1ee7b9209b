import Verif.Spec.WinReuse
import Verif.Props.Win
/-
  C93: a Windows client that is used more than once.
-/
namespace Ntlm.Props.Win

open Ntlm.Win Ntlm.Spec.Win

theorem latestHandle_snoc (ops : List Op) (op : Op) : latestHandle (ops ++ [op]) = (reply op).handle.or (latestHandle ops) := by
  induction ops with
  | nil => simp [latestHandle]
  | cons x xs ih =>
    simp only [List.cons_append, latestHandle, ih]
    cases (reply op).handle <;> simp

theorem latest_last {capacity : Nat} {ops : List Op} (h : allCorrect capacity ops) : latestHandle ops = lastHandle ops := by
  rcases List.eq_nil_or_concat ops with rfl | ⟨xs, x, rfl⟩
  · rfl
  · rw [List.concat_eq_append] at h ⊢
    obtain ⟨k, hk⟩ := Option.isSome_iff_exists.mp (h x (by simp)).1
    rw [latestHandle_snoc, hk]
    simp [lastHandle, hk]

theorem last_some {capacity : Nat} {ops : List Op} (h : allCorrect capacity ops) (hne : ops ≠ []) : ∃ k, lastHandle ops = some k := by
  rcases List.eq_nil_or_concat ops with rfl | ⟨xs, x, rfl⟩
  · exact absurd rfl hne
  · rw [List.concat_eq_append] at h ⊢
    obtain ⟨k, hk⟩ := Option.isSome_iff_exists.mp (h x (by simp)).1
    exact ⟨k, by simp [lastHandle, hk]⟩

/-- The calls made by a method, as a whole. -/
theorem calls_eq (cfg : Cfg) {target : Str} {capacity : Nat} (hcap : capacity < 2 ^ 32) {c : WinClient}
    (hc : created target capacity c) (before : List Op) (op : Op) (hr : correct capacity (reply op)) :
    (step cfg (run cfg c before) op).2.1 = some ⟨c.credentials, latestHandle before, Spec.utf8Bytes target, REQUEST_FLAGS,
      (token op).map fun b => UInt32.ofNat b.length, capacity,
      if ((reply op).ret == SEC_I_COMPLETE_NEEDED || (reply op).ret == SEC_I_COMPLETE_AND_CONTINUE) = true then (reply op).handle
      else none⟩ := by
  obtain ⟨hk1, hk2, hk3, hk4⟩ := run_created cfg hcap hc before
  have h := (init_correct (token op) (reply op) (run cfg c before) (by rw [hk1]; exact hcap) (by rw [hk1]; exact hr)).2.1
  rw [(step_init cfg (run cfg c before) op).2.1, h, hk1, hk2, hk3, hk4]

/-- C93: which security context a call is about: only the first call of a client asks for a new one, be it `negotiate` or
    `challenge`; every later call goes on with the one of the call before, whatever that call was and however it ended. -/
theorem C93_context (cfg : Cfg) (target : Str) (capacity : Nat) (hcap : capacity < 2 ^ 32) (c : WinClient)
    (hc : created target capacity c) (before : List Op) (hb : allCorrect capacity before) (op : Op)
    (hr : correct capacity (reply op)) :
    (asksNew cfg (run cfg c before) op ↔ before = []) ∧
      ∀ h, goesOnWith cfg (run cfg c before) op h ↔ lastHandle before = some h := by
  have e := calls_eq cfg hcap hc before op hr
  rw [latest_last hb] at e
  constructor
  · constructor
    · rintro ⟨calls, h1, h2⟩
      rw [e, Option.some.injEq] at h1
      subst h1
      by_cases hn : before = []
      · exact hn
      · obtain ⟨k, hk⟩ := last_some hb hn
        rw [hk] at h2
        cases h2
    · rintro rfl
      exact ⟨_, e, rfl⟩
  · intro h
    constructor
    · rintro ⟨calls, h1, h2⟩
      rw [e, Option.some.injEq] at h1
      subst h1
      exact h2
    · intro hh
      exact ⟨_, e, hh⟩

/-- The operating system's answer when a logon has gone through. -/
def okReply : Reply := ⟨0, some 9, [4, 5, 6], 3, true⟩
theorem okReply_correct : correct 12000 okReply := ⟨rfl, by decide, rfl⟩

/-- A `challenge` on a new client asks for a new context; a `negotiate` after a finished exchange does not. -/
example (cfg : Cfg) : asksNew cfg exClient (.challenge [1] tokenReply) ∧
    goesOnWith cfg (run cfg exClient [.negotiate tokenReply, .challenge [1] okReply]) (.negotiate tokenReply) 9 :=
  ⟨(C93_context cfg ['a'] 12000 (by decide) exClient exClient_created [] (by simp [allCorrect])
      (.challenge [1] tokenReply) tokenReply_correct).1.mpr rfl,
    ((C93_context cfg ['a'] 12000 (by decide) exClient exClient_created [.negotiate tokenReply, .challenge [1] okReply]
      (by simp [allCorrect, reply, tokenReply_correct, okReply_correct]) (.negotiate tokenReply) tokenReply_correct).2 9).mpr rfl⟩

/-- C93 is false: once any call has been made, no `negotiate` starts a new exchange, even after an exchange that has finished or
    failed; the finished or failed one is passed to the security package again. -/
theorem C93_refuted (cfg : Cfg) (target : Str) (capacity : Nat) (hcap : capacity < 2 ^ 32) (c : WinClient)
    (hc : created target capacity c) (before : List Op) (hb : allCorrect capacity before) (last : Op)
    (hl : correct capacity (reply last)) (r : Reply) (hr : correct capacity r) :
    ¬ asksNew cfg (run cfg c (before ++ [last])) (.negotiate r) ∧
      ∃ h, (reply last).handle = some h ∧ goesOnWith cfg (run cfg c (before ++ [last])) (.negotiate r) h := by
  have hall : allCorrect capacity (before ++ [last]) := by
    intro op hop
    rcases List.mem_append.mp hop with h | h
    · exact hb op h
    · rw [List.mem_singleton.mp h]; exact hl
  have h := C93_context cfg target capacity hcap c hc _ hall (.negotiate r) hr
  obtain ⟨k, hk⟩ := Option.isSome_iff_exists.mp hl.1
  refine ⟨fun hn => by simpa using h.1.mp hn, k, hk, (h.2 k).mpr ?_⟩
  simp [lastHandle, hk]

/-- Denied on the first attempt, the client can never try again. -/
example (cfg : Cfg) : ¬ asksNew cfg (run cfg exClient [.negotiate deniedReply]) (.negotiate tokenReply) :=
  (C93_refuted cfg ['a'] 12000 (by decide) exClient exClient_created [] (by simp [allCorrect]) (.negotiate deniedReply)
    deniedReply_correct tokenReply tokenReply_correct).1

/-- C93, the part that holds: on a new client `negotiate` starts a new exchange, without a token, and a `challenge` that follows
    goes on with it (the full property says so of every `negotiate`). -/
theorem C93_first_partial (cfg : Cfg) (target : Str) (capacity : Nat) (hcap : capacity < 2 ^ 32) (c : WinClient)
    (hc : created target capacity c) (r r' : Reply) (hr : correct capacity r) (hr' : correct capacity r') (message : List UInt8) :
    (∃ calls, (step cfg c (.negotiate r)).2.1 = some calls ∧ calls.context = none ∧ calls.inputLen = none) ∧
      ∃ h, r.handle = some h ∧ goesOnWith cfg (step cfg c (.negotiate r)).1 (.challenge message r') h := by
  constructor
  · exact ⟨_, calls_eq cfg hcap hc [] (.negotiate r) hr, rfl, rfl⟩
  · obtain ⟨k, hk⟩ := Option.isSome_iff_exists.mp hr.1
    refine ⟨k, hk, _, calls_eq cfg hcap hc [.negotiate r] (.challenge message r') hr', ?_⟩
    simp [latestHandle, reply, hk]

example (cfg : Cfg) : goesOnWith cfg (step cfg exClient (.negotiate tokenReply)).1 (.challenge [1] okReply) 9 := by
  obtain ⟨h, hh, hg⟩ := (C93_first_partial cfg ['a'] 12000 (by decide) exClient exClient_created tokenReply okReply
    tokenReply_correct okReply_correct [1]).2
  cases hh
  exact hg

/-- C93: a call depends on the calls before it only through the handle the last of them stored: what it passes to the security
    package and what it returns are otherwise the same, whatever went before. -/
theorem C93_forgets (cfg : Cfg) (target : Str) (capacity : Nat) (hcap : capacity < 2 ^ 32) (c : WinClient)
    (hc : created target capacity c) (before before' : List Op) (hb : allCorrect capacity before)
    (hb' : allCorrect capacity before') (he : lastHandle before = lastHandle before') (op : Op) (hr : correct capacity (reply op)) :
    (step cfg (run cfg c before) op).2 = (step cfg (run cfg c before') op).2 := by
  have h1 : (step cfg (run cfg c before) op).2.1 = (step cfg (run cfg c before') op).2.1 := by
    rw [calls_eq cfg hcap hc before op hr, calls_eq cfg hcap hc before' op hr, latest_last hb, latest_last hb', he]
  have h2 : (step cfg (run cfg c before) op).2.2 = (step cfg (run cfg c before') op).2.2 := by
    obtain ⟨a1, a2⟩ := C49_outcome cfg target capacity hcap c hc before op hr
    obtain ⟨b1, b2⟩ := C49_outcome cfg target capacity hcap c hc before' op hr
    by_cases h : completes (reply op).ret ∧ (reply op).completeOk = false
    · rw [a1 h, b1 h]
    · by_cases hd : cfg.debug = true ∧ (continues (reply op).ret ↔ (token op).isSome = true)
      · rw [(a2 h).1 hd, (b2 h).1 hd]
      · rw [(a2 h).2 hd, (b2 h).2 hd]
  exact Prod.ext h1 h2

/-- A failed exchange looks like one in progress. -/
example (cfg : Cfg) : (step cfg (run cfg exClient [.negotiate tokenReply]) (.challenge [1] okReply)).2 =
    (step cfg (run cfg exClient [.negotiate tokenReply, .challenge [2] deniedReply]) (.challenge [1] okReply)).2 :=
  C93_forgets cfg ['a'] 12000 (by decide) exClient exClient_created [.negotiate tokenReply]
    [.negotiate tokenReply, .challenge [2] deniedReply] (by simp [allCorrect, reply, tokenReply_correct])
    (by simp [allCorrect, reply, tokenReply_correct, deniedReply_correct]) rfl (.challenge [1] okReply) okReply_correct

end Ntlm.Props.Win
