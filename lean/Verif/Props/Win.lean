import Verif.Spec.Win
import Verif.Lemmas.Encode
/-
  C49: the Windows client.
-/
namespace Ntlm.Props.Win

open Ntlm.Win Ntlm.Spec.Win

theorem continues_iff (s : UInt32) : continues s ↔ (s == SEC_I_CONTINUE_NEEDED || s == SEC_I_COMPLETE_AND_CONTINUE) = true := by
  simp only [continues, Bool.or_eq_true, beq_iff_eq, ← UInt32.toNat_inj]
  exact Iff.rfl

theorem completes_iff (s : UInt32) : completes s ↔ (s == SEC_I_COMPLETE_NEEDED || s == SEC_I_COMPLETE_AND_CONTINUE) = true := by
  simp only [completes, Bool.or_eq_true, beq_iff_eq, ← UInt32.toNat_inj]
  exact Iff.rfl

/-- A public method is `initialize_security_context` with its result looked at. -/
theorem step_init (cfg : Cfg) (c : WinClient) (op : Op) :
    let x := initializeSecurityContext (token op) (reply op) c
    (step cfg c op).1 = x.1 ∧ (step cfg c op).2.1 = x.2.1 ∧
      (step cfg c op).2.2 = match x.2.2 with
        | .err => .err
        | .panic => .panic
        | .undefined => .undefined
        | .done d => if cfg.debug = true ∧ (d = !(token op).isSome) then .panic else .bytes x.1.outputBuffer := by
  cases op with
  | negotiate r =>
    simp only [step, negotiate, token, reply]
    obtain ⟨c', k, d⟩ := initializeSecurityContext none r c
    cases d with
    | done d =>
      cases d <;> cases hd : cfg.debug <;> simp
    | _ => exact ⟨rfl, rfl, rfl⟩
  | challenge m r =>
    simp only [step, challenge, token, reply]
    obtain ⟨c', k, d⟩ := initializeSecurityContext (some m) r c
    cases d with
    | done d =>
      cases d <;> cases hd : cfg.debug <;> simp
    | _ => exact ⟨rfl, rfl, rfl⟩

theorem init_keeps (input : Option (List UInt8)) (r : Reply) (c : WinClient) (hcap : c.capacity < 2 ^ 32) :
    let x := (initializeSecurityContext input r c).1
    x.capacity = c.capacity ∧ x.target = c.target ∧ x.credentials = c.credentials ∧ x.context = r.handle.or c.context := by
  have hcap : ¬ c.capacity ≥ 2 ^ 32 := by omega
  simp only [initializeSecurityContext, if_neg hcap]
  cases r.handle <;> (simp only []; (repeat' split) <;> exact ⟨rfl, rfl, rfl, rfl⟩)

/-- What one call does to the handle and to the fixed parts of the client. -/
theorem step_keeps (cfg : Cfg) (c : WinClient) (op : Op) (hcap : c.capacity < 2 ^ 32) :
    (step cfg c op).1.capacity = c.capacity ∧ (step cfg c op).1.target = c.target ∧
      (step cfg c op).1.credentials = c.credentials ∧ (step cfg c op).1.context = (reply op).handle.or c.context := by
  rw [(step_init cfg c op).1]
  exact init_keeps (token op) (reply op) c hcap

/-- `initialize_security_context` with an operating system that keeps its promises. -/
theorem init_correct (input : Option (List UInt8)) (r : Reply) (c : WinClient) (hcap : c.capacity < 2 ^ 32)
    (hr : correct c.capacity r) :
    let x := initializeSecurityContext input r c
    x.1.outputBuffer = r.output ∧
    x.2.1 = some ⟨c.credentials, c.context, c.target, REQUEST_FLAGS, input.map fun b => UInt32.ofNat b.length, c.capacity,
      if (r.ret == SEC_I_COMPLETE_NEEDED || r.ret == SEC_I_COMPLETE_AND_CONTINUE) = true then r.handle else none⟩ ∧
    (completes r.ret ∧ r.completeOk = false → x.2.2 = .err) ∧
    (¬ (completes r.ret ∧ r.completeOk = false) →
      x.2.2 = .done (!(r.ret == SEC_I_CONTINUE_NEEDED || r.ret == SEC_I_COMPLETE_AND_CONTINUE))) := by
  obtain ⟨h1, h2, h3⟩ := hr
  obtain ⟨h, hh⟩ := Option.isSome_iff_exists.mp h1
  have hcap : ¬ c.capacity ≥ 2 ^ 32 := by omega
  rw [completes_iff]
  have hu : ((some h).isNone || decide (r.cbBuffer.toNat > (r.output ++ c.memory.drop r.output.length).length) ||
      decide (r.cbBuffer.toNat > c.capacity)) = false := by
    simp; omega
  have ht : (r.output ++ c.memory.drop r.output.length).take r.cbBuffer.toNat = r.output := by rw [h3]; exact List.take_left
  simp only [initializeSecurityContext, if_neg hcap, hh, hu, Bool.false_eq_true, if_false, ht]
  by_cases hk : ((r.ret == SEC_I_COMPLETE_NEEDED || r.ret == SEC_I_COMPLETE_AND_CONTINUE) && !r.completeOk) = true
  · rw [if_pos hk]
    simp only [Bool.and_eq_true, Bool.not_eq_true'] at hk
    exact ⟨rfl, rfl, fun _ => rfl, fun h => absurd hk h⟩
  · rw [if_neg hk]
    simp only [Bool.and_eq_true, Bool.not_eq_true'] at hk
    exact ⟨rfl, rfl, fun h => absurd h hk, fun _ => rfl⟩

theorem run_keeps (cfg : Cfg) (c : WinClient) (hcap : c.capacity < 2 ^ 32) (ops : List Op) :
    (run cfg c ops).capacity = c.capacity ∧ (run cfg c ops).target = c.target ∧
      (run cfg c ops).credentials = c.credentials ∧ (run cfg c ops).context = (latestHandle ops).or c.context := by
  induction ops generalizing c with
  | nil => simp [run, latestHandle]
  | cons op ops ih =>
    obtain ⟨h1, h2, h3, h4⟩ := step_keeps cfg c op hcap
    obtain ⟨i1, i2, i3, i4⟩ := ih (step cfg c op).1 (by rw [h1]; exact hcap)
    have e : run cfg c (op :: ops) = run cfg (step cfg c op).1 ops := rfl
    rw [e]
    refine ⟨i1.trans h1, i2.trans h2, i3.trans h3, ?_⟩
    rw [i4, h4, latestHandle]
    cases latestHandle ops <;> rfl

/-! ### Construction -/

theorem encode_zero (a : Char) : (0 : UInt8) ∈ String.utf8EncodeChar a ↔ a = '\x00' := by
  have hz : a = '\x00' ↔ a.val.toNat = 0 := by
    rw [← Char.toNat_inj]; exact Iff.rfl
  rw [hz]
  have e : ∀ n, (0 : UInt8) = UInt8.ofNat n ↔ n % 256 = 0 := by
    intro n
    rw [← UInt8.toNat_inj, UInt8.toNat_ofNat']
    exact eq_comm
  simp only [String.utf8EncodeChar]
  generalize a.val.toNat = v
  (repeat' split) <;> simp only [List.mem_cons, List.not_mem_nil, or_false, e] <;> omega

/-- C49: construction fails exactly if the target contains a NUL or no credentials are available; the client passes on the
    target as given. -/
theorem C49_new (target : Str) (creds : Option Nat) (capacity : Nat) (c : WinClient) :
    WinClient.new target creds capacity = some c ↔
      '\x00' ∉ target ∧ ∃ h, creds = some h ∧ c = ⟨h, none, Spec.utf8Bytes target, [], capacity, []⟩ := by
  have hz : (utf8 target).contains 0 = true ↔ '\x00' ∈ target := by
    rw [List.contains_iff_mem, utf8, List.mem_flatMap]
    constructor
    · rintro ⟨a, ha, h0⟩
      rw [(encode_zero a).mp h0] at ha
      exact ha
    · intro h
      exact ⟨_, h, (encode_zero _).mpr rfl⟩
  rw [utf8Bytes_eq, WinClient.new]
  by_cases h : (utf8 target).contains 0 = true
  · rw [if_pos h]
    simp [hz.mp h]
  · rw [if_neg h]
    have : '\x00' ∉ target := fun x => h (hz.mpr x)
    simp only [this, not_false_eq_true, true_and]
    cases creds with
    | none => simp
    | some k => simp [eq_comm]

example : WinClient.new ['a'] (some 7) 12000 = some ⟨7, none, [97], [], 12000, []⟩ ∧
    WinClient.new ['a', '\x00'] (some 7) 12000 = none := by
  refine ⟨(C49_new _ _ _ _).mpr ⟨by decide, 7, rfl, rfl⟩, ?_⟩
  cases h : WinClient.new ['a', '\x00'] (some 7) 12000 with
  | none => rfl
  | some c => exact absurd (by decide) ((C49_new _ _ _ _).mp h).1

theorem run_created (cfg : Cfg) {target : Str} {capacity : Nat} (hcap : capacity < 2 ^ 32) {c : WinClient}
    (hc : created target capacity c) (ops : List Op) :
    (run cfg c ops).capacity = capacity ∧ (run cfg c ops).target = Spec.utf8Bytes target ∧
      (run cfg c ops).credentials = c.credentials ∧ (run cfg c ops).context = latestHandle ops := by
  obtain ⟨_, creds, hn⟩ := hc
  obtain ⟨_, k, _, rfl⟩ := (C49_new _ _ _ _).mp hn
  have := run_keeps cfg ⟨k, none, Spec.utf8Bytes target, [], capacity, []⟩ hcap ops
  simpa using this

/-! ### What is passed to the operating system -/

/-- A client, and answers of the operating system that keep its promises. -/
def exClient : WinClient := ⟨7, none, [97], [], 12000, []⟩
def deniedReply : Reply := ⟨0x8009030C, some 9, [], 0, true⟩
def tokenReply : Reply := ⟨0x90312, some 9, [1, 2, 3], 3, true⟩
def completeReply : Reply := ⟨0x90313, some 9, [4, 5], 2, false⟩

theorem exClient_created : created ['a'] 12000 exClient :=
  ⟨by decide, some 7, (C49_new _ _ _ _).mpr ⟨by decide, 7, rfl, by decide⟩⟩
theorem deniedReply_correct : correct 12000 deniedReply := ⟨rfl, by decide, rfl⟩
theorem tokenReply_correct : correct 12000 tokenReply := ⟨rfl, by decide, rfl⟩
theorem completeReply_correct : correct 12000 completeReply := ⟨rfl, by decide, rfl⟩

theorem requestFlags_bit (k : Nat) : REQUEST_FLAGS.toNat.testBit k = true ↔ k = 11 ∨ k = 15 ∨ k = 16 := by
  by_cases h : k < 32
  · revert h
    revert k
    decide
  · rw [Nat.testBit_lt_two_pow (Nat.lt_of_lt_of_le (by decide : _ < 2 ^ 32) (Nat.pow_le_pow_right (by decide) (by omega)))]
    simp only [Bool.false_eq_true, false_iff]
    omega

/-- C49: what each call passes to the operating system, whatever came before: the credentials of the client, the handle most
    recently obtained, the target, the request flags CONNECTION, STREAM and INTEGRITY, the length of the token modulo 2³², the
    capacity of the buffer; and the token is completed exactly when the answer asks for it (and the answer is one the operating
    system may give), with the handle that answer stored. -/
theorem C49_calls (cfg : Cfg) (target : Str) (capacity : Nat) (hcap : capacity < 2 ^ 32) (c : WinClient)
    (hc : created target capacity c) (before : List Op) (op : Op) (hr : correct capacity (reply op)) :
    ∃ calls, (step cfg (run cfg c before) op).2.1 = some calls ∧ calls.credentials = c.credentials ∧
      calls.context = latestHandle before ∧ calls.target = Spec.utf8Bytes target ∧
      (∀ k, calls.flags.toNat.testBit k = true ↔ k = 11 ∨ k = 15 ∨ k = 16) ∧ calls.inputLen.map UInt32.toNat = (token op).map (·.length % 2 ^ 32) ∧
      calls.outputLen = capacity ∧ (completes (reply op).ret → calls.completed = (reply op).handle) ∧
      (¬ completes (reply op).ret → calls.completed = none) := by
  obtain ⟨hk1, hk2, hk3, hk4⟩ := run_created cfg hcap hc before
  have hs := step_init cfg (run cfg c before) op
  obtain ⟨h1, h2, h3, h4⟩ := init_correct (token op) (reply op) (run cfg c before) (by rw [hk1]; exact hcap) (by rw [hk1]; exact hr)
  refine ⟨_, hs.2.1.trans h2, hk3, hk4, hk2, requestFlags_bit, ?_, hk1, ?_, ?_⟩
  · cases token op with
    | none => rfl
    | some m => simp [UInt32.toNat_ofNat']
  · intro h
    exact if_pos ((completes_iff _).mp h)
  · intro h
    exact if_neg (fun hc => h ((completes_iff _).mpr hc))

/-- The second call passes on the handle the first one returned. -/
example (cfg : Cfg) : ∃ calls, (step cfg (run cfg exClient [.negotiate tokenReply]) (.challenge [1] completeReply)).2.1 = some calls ∧
    calls.context = some 9 ∧ calls.target = [97] ∧ calls.completed = some 9 := by
  obtain ⟨calls, h, _, h1, h2, _, _, _, h3, _⟩ := C49_calls cfg ['a'] 12000 (by decide) exClient exClient_created [.negotiate tokenReply]
    (.challenge [1] completeReply) completeReply_correct
  exact ⟨calls, h, h1, by rw [h2]; decide, h3 (.inl rfl)⟩

/-! ### What is reported -/

/-- The outcome of one call, for an operating system that keeps its promises. -/
theorem C49_outcome (cfg : Cfg) (target : Str) (capacity : Nat) (hcap : capacity < 2 ^ 32) (c : WinClient)
    (hc : created target capacity c) (before : List Op) (op : Op) (hr : correct capacity (reply op)) :
    (completes (reply op).ret ∧ (reply op).completeOk = false → (step cfg (run cfg c before) op).2.2 = .err) ∧
    (¬ (completes (reply op).ret ∧ (reply op).completeOk = false) →
      (cfg.debug = true ∧ (continues (reply op).ret ↔ (token op).isSome = true) → (step cfg (run cfg c before) op).2.2 = .panic) ∧
      (¬ (cfg.debug = true ∧ (continues (reply op).ret ↔ (token op).isSome = true)) →
        (step cfg (run cfg c before) op).2.2 = .bytes (reply op).output)) := by
  obtain ⟨hk1, hk2, _, hk4⟩ := run_created cfg hcap hc before
  have hs := step_init cfg (run cfg c before) op
  obtain ⟨h1, h2, h3, h4⟩ := init_correct (token op) (reply op) (run cfg c before) (by rw [hk1]; exact hcap) (by rw [hk1]; exact hr)
  refine ⟨fun h => ?_, fun h => ?_⟩
  · rw [hs.2.2, h3 h]
  · rw [hs.2.2, h4 h]
    simp only [h1]
    have e : (continues (reply op).ret ↔ (token op).isSome = true) ↔
        (!((reply op).ret == SEC_I_CONTINUE_NEEDED || (reply op).ret == SEC_I_COMPLETE_AND_CONTINUE)) = !(token op).isSome := by
      rw [continues_iff]
      generalize ((reply op).ret == SEC_I_CONTINUE_NEEDED || (reply op).ret == SEC_I_COMPLETE_AND_CONTINUE) = x
      cases x <;> cases (token op).isSome <;> simp
    exact ⟨fun h => if_pos ⟨h.1, e.mp h.2⟩, fun h => if_neg (fun x => h ⟨x.1, e.mpr x.2⟩)⟩

/-- A negotiate message as expected, and a `CompleteAuthToken` that fails. -/
example (cfg : Cfg) : (step cfg exClient (.negotiate tokenReply)).2.2 = .bytes [1, 2, 3] ∧
    (step cfg exClient (.challenge [1] completeReply)).2.2 = .err := by
  constructor
  · refine ((C49_outcome cfg ['a'] 12000 (by decide) exClient exClient_created [] (.negotiate tokenReply) tokenReply_correct).2 ?_).2 ?_
    · simp [reply, tokenReply]
    · rintro ⟨_, h⟩
      exact absurd (h.mp (.inl rfl)) (by simp [token])
  · exact (C49_outcome cfg ['a'] 12000 (by decide) exClient exClient_created [] (.challenge [1] completeReply)
      completeReply_correct).1 ⟨.inl rfl, rfl⟩

/-- C49, the part that holds: a failing `CompleteAuthToken` is reported, and otherwise the token of this very call is returned,
    never one of an earlier call (in a release build; the full property also wants failures of `InitializeSecurityContext` and the
    end of the exchange reported). -/
theorem C49_release_partial (cfg : Cfg) (hd : cfg.debug = false) (target : Str) (capacity : Nat) (hcap : capacity < 2 ^ 32)
    (c : WinClient) (hc : created target capacity c) (before : List Op) (op : Op) (hr : correct capacity (reply op)) :
    ((step cfg (run cfg c before) op).2.2 = .err ↔ completes (reply op).ret ∧ (reply op).completeOk = false) ∧
    ∀ b, (step cfg (run cfg c before) op).2.2 = .bytes b ↔
      b = (reply op).output ∧ ¬ (completes (reply op).ret ∧ (reply op).completeOk = false) := by
  obtain ⟨h1, h2⟩ := C49_outcome cfg target capacity hcap c hc before op hr
  by_cases h : completes (reply op).ret ∧ (reply op).completeOk = false
  · simp [h1 h, h]
  · have h3 := (h2 h).2 (by simp [hd])
    rw [h3]
    simp only [reduceCtorEq, h, Outcome.bytes.injEq, not_false_eq_true, and_true, true_and]
    exact fun b => eq_comm

example (cfg : Cfg) (hd : cfg.debug = false) : (step cfg exClient (.challenge [1] tokenReply)).2.2 = .bytes [1, 2, 3] :=
  ((C49_release_partial cfg hd ['a'] 12000 (by decide) exClient exClient_created [] (.challenge [1] tokenReply)
    tokenReply_correct).2 _).mpr ⟨rfl, by simp [reply, tokenReply]⟩

/-- C49 is false: no failure of `InitializeSecurityContext` is ever reported by a release build; whatever is in the output buffer
    is returned as if it were a token. -/
theorem C49_refuted (cfg : Cfg) (hd : cfg.debug = false) (target : Str) (capacity : Nat) (hcap : capacity < 2 ^ 32)
    (c : WinClient) (hc : created target capacity c) (before : List Op) (op : Op) (hr : correct capacity (reply op))
    (hf : fails (reply op).ret) :
    (step cfg (run cfg c before) op).2.2 = .bytes (reply op).output := by
  have h := (C49_outcome cfg target capacity hcap c hc before op hr).2
  refine (h ?_).2 (by simp [hd])
  rintro ⟨h | h, _⟩ <;> simp only [fails, h] at hf <;> omega

/-- The operating system says the logon was denied: the caller gets an empty token. -/
example (cfg : Cfg) (hd : cfg.debug = false) : (step cfg exClient (.challenge [1] deniedReply)).2.2 = .bytes [] :=
  C49_refuted cfg hd ['a'] 12000 (by decide) exClient exClient_created [] (.challenge [1] deniedReply) deniedReply_correct
    (by simp only [fails]; decide)

/-- C49: a debug build aborts when a challenge needs a further round, or when `negotiate` fails. -/
theorem C49_debug_aborts (cfg : Cfg) (hd : cfg.debug = true) (target : Str) (capacity : Nat) (hcap : capacity < 2 ^ 32)
    (c : WinClient) (hc : created target capacity c) (before : List Op) (r : Reply) (hr : correct capacity r) :
    (fails r.ret → (step cfg (run cfg c before) (.negotiate r)).2.2 = .panic) ∧
    (continues r.ret ∧ r.completeOk = true → ∀ m, (step cfg (run cfg c before) (.challenge m r)).2.2 = .panic) := by
  have hnc : fails r.ret → ¬ continues r.ret ∧ ¬ completes r.ret := by
    intro hf
    constructor <;> (rintro (h | h) <;> simp only [fails, h] at hf <;> omega)
  constructor
  · intro hf
    have h := (C49_outcome cfg target capacity hcap c hc before (.negotiate r) hr).2
    exact (h (fun x => (hnc hf).2 x.1)).1 ⟨hd, by simp [token, reply, hnc hf]⟩
  · intro ⟨hf, hok⟩ m
    have h := (C49_outcome cfg target capacity hcap c hc before (.challenge m r) hr).2
    exact (h (by simp [reply, hok])).1 ⟨hd, by simp [token, reply, hf]⟩

example (cfg : Cfg) (hd : cfg.debug = true) : (step cfg exClient (.negotiate deniedReply)).2.2 = .panic ∧
    (step cfg exClient (.challenge [1] tokenReply)).2.2 = .panic :=
  ⟨(C49_debug_aborts cfg hd ['a'] 12000 (by decide) exClient exClient_created [] deniedReply deniedReply_correct).1
      (by simp only [fails]; decide),
    (C49_debug_aborts cfg hd ['a'] 12000 (by decide) exClient exClient_created [] tokenReply tokenReply_correct).2
      ⟨.inl rfl, rfl⟩ [1]⟩

/-- C49: if the first call fails without storing a handle, the behaviour is undefined: the client reads the uninitialised
    handle back. -/
theorem C49_undefined_handle (cfg : Cfg) (target : Str) (capacity : Nat) (hcap : capacity < 2 ^ 32) (c : WinClient)
    (hc : created target capacity c) (op : Op) (hr : (reply op).handle = none) :
    (step cfg c op).2.2 = .undefined := by
  obtain ⟨_, creds, hn⟩ := hc
  obtain ⟨_, k, _, rfl⟩ := (C49_new _ _ _ _).mp hn
  have hcap : ¬ capacity ≥ 2 ^ 32 := by omega
  rw [(step_init cfg _ op).2.2]
  simp [initializeSecurityContext, hr, hcap]

example (cfg : Cfg) : (step cfg exClient (.negotiate ⟨0x80090308, none, [], 0, true⟩)).2.2 = .undefined :=
  C49_undefined_handle cfg ['a'] 12000 (by decide) exClient exClient_created _ rfl

/-- C49: an answer that stores the size it would have needed, larger than the buffer, makes the behaviour undefined. -/
theorem C49_undefined_size (cfg : Cfg) (target : Str) (capacity : Nat) (hcap : capacity < 2 ^ 32) (c : WinClient)
    (hc : created target capacity c) (before : List Op) (op : Op) (hr : capacity < (reply op).cbBuffer.toNat) :
    (step cfg (run cfg c before) op).2.2 = .undefined := by
  obtain ⟨hk1, _⟩ := run_created cfg hcap hc before
  rw [(step_init cfg _ op).2.2]
  have hu : ∀ a b : Bool, (a || b || decide ((reply op).cbBuffer.toNat > capacity)) = true := by
    intro a b
    rw [decide_eq_true hr, Bool.or_true]
  have hcap : ¬ capacity ≥ 2 ^ 32 := by omega
  simp only [initializeSecurityContext, hk1, if_neg hcap, hu, if_true]

/-- An answer to a second call that reports a size of 20000 for a buffer of 12000. -/
example (cfg : Cfg) : (step cfg (run cfg exClient [.negotiate tokenReply]) (.challenge [1] ⟨0x80090321, some 9, [], 20000, true⟩)).2.2 =
    .undefined :=
  C49_undefined_size cfg ['a'] 12000 (by decide) exClient exClient_created [.negotiate tokenReply] _ (by decide)

end Ntlm.Props.Win
