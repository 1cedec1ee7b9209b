import Verif.Spec.Threads
import Verif.Props.Failing
/-
  C92: several clients at once.
-/
namespace Ntlm

open Spec Client

/-! ### One call -/

theorem encryptP_eq (P : Prims) (f : Flags) (kek k : Bytes 16) :
    encryptRandomSessionKeyI P f kek none =
      if keyDrawn f = true then .ask 16 fun e => .done (encryptRandomSessionKey P f kek none e)
      else .done (encryptRandomSessionKey P f kek none k) := by
  simp only [encryptRandomSessionKeyI, encryptRandomSessionKey]
  by_cases h : keyDrawn f = true
  · rw [if_pos h]
    simp only [keyDrawn] at h
    simp only [if_pos h]
  · rw [if_neg h]
    simp only [keyDrawn] at h
    simp only [if_neg h]

/-- The second draw of an answer is made. -/
def secondDraw (P : Prims) (cfg : Cfg) (ver : UInt32) (cc : Bytes 8) (clock : SystemTime) (c : Client) : Prop :=
  authenticateMessageF P cfg ver (some cc) none clock c = .error .random

theorem v1P_eq (P : Prims) (ver : UInt32) (cc : Bytes 8) (clock : SystemTime) (c : Client) :
    (authenticateNtlmv1F P ver cc none c = .error .random ∧
      authenticateNtlmv1I P ver cc c = .ask 16 fun k => .done (authenticateNtlmv1 P ver ⟨cc, k, clock⟩ c)) ∨
    (authenticateNtlmv1F P ver cc none c ≠ .error .random ∧
      ∀ k, authenticateNtlmv1I P ver cc c = .done (authenticateNtlmv1 P ver ⟨cc, k, clock⟩ c)) := by
  rw [v1F_eq P ver cc none clock c]
  simp only [authenticateNtlmv1I]
  cases hg : getChallenge c with
  | error e => exact .inr ⟨by simp, fun k => by simp only [authenticateNtlmv1, hg]; rfl⟩
  | ok ch =>
    by_cases h : keyDrawn ch.negotiateFlags = true
    · left
      refine ⟨by simp [h], ?_⟩
      simp only [encryptP_eq P ch.negotiateFlags _ (Bytes.zero 16), if_pos h, Prog.bind, authenticateNtlmv1, hg, bind, Except.bind]
      rfl
    · right
      refine ⟨?_, fun k => ?_⟩
      · simp only [h, false_and, if_false, Bool.false_eq_true]
        exact own_ne_random _
      · simp only [encryptP_eq P ch.negotiateFlags _ k, if_neg h, Prog.bind, authenticateNtlmv1, hg, bind, Except.bind]
        rfl

theorem v2P_eq (P : Prims) (cfg : Cfg) (cc : Bytes 8) (clock : SystemTime) (c : Client) :
    (authenticateNtlmv2F P cfg cc none clock c = .error .random ∧
      authenticateNtlmv2I P cfg cc clock c = .ask 16 fun k => .done (authenticateNtlmv2 P cfg ⟨cc, k, clock⟩ c)) ∨
    (authenticateNtlmv2F P cfg cc none clock c ≠ .error .random ∧
      ∀ k, authenticateNtlmv2I P cfg cc clock c = .done (authenticateNtlmv2 P cfg ⟨cc, k, clock⟩ c)) := by
  rw [v2F_eq P cfg cc none clock c]
  simp only [authenticateNtlmv2I]
  cases hg : getChallenge c with
  | error e =>
    have hn : getNegotiate c = .error e := by
      revert hg
      simp only [getChallenge, getNegotiate]
      cases c.state <;> simp
    exact .inr ⟨by simp, fun k => by simp only [authenticateNtlmv2, hg, hn]; rfl⟩
  | ok ch =>
    obtain ⟨n, hn⟩ : ∃ n, getNegotiate c = .ok n := by
      revert hg
      simp only [getChallenge, getNegotiate]
      cases c.state <;> simp
    cases hr : ntlmv2Response P cfg ch.negotiateFlags c.ntlmv2Hash c.ntlmv2Hash ch.serverChallenge cc
        (firstTimestamp ch.targetInfos) ch.targetInfos clock with
    | error e => exact .inr ⟨by simp [hr], fun k => by simp only [authenticateNtlmv2, hg, hn, hr, bind, Except.bind]⟩
    | ok r =>
      by_cases h : keyDrawn ch.negotiateFlags = true
      · left
        refine ⟨by simp [h, hr], ?_⟩
        simp only [hn, encryptP_eq P ch.negotiateFlags _ (Bytes.zero 16), if_pos h, Prog.bind, authenticateNtlmv2, hg, hr, bind, Except.bind]
      · right
        refine ⟨?_, fun k => ?_⟩
        · simp only [hr, h, false_and, if_false, Bool.false_eq_true]
          exact own_ne_random _
        · simp only [hn, encryptP_eq P ch.negotiateFlags _ k, if_neg h, Prog.bind, authenticateNtlmv2, hg, hr, bind, Except.bind]

theorem messageP_eq (P : Prims) (cfg : Cfg) (ver : UInt32) (clock : SystemTime) (c : Client) :
    ∃ next, authenticateMessageI P cfg ver clock c = .ask 8 next ∧ ∀ cc,
      (secondDraw P cfg ver cc clock c ∧ ∃ r : Bytes 16 → Except Panic Authenticate, next cc = .ask 16 (fun k => .done (r k)) ∧
        ∀ k, authenticateMessage P cfg ver ⟨cc, k, clock⟩ c =
          match r k with | .error e => .error e | .ok a => .ok (finishAuthenticate c a)) ∨
      (¬ secondDraw P cfg ver cc clock c ∧ ∃ r : Except Panic Authenticate, next cc = .done r ∧
        ∀ k, authenticateMessage P cfg ver ⟨cc, k, clock⟩ c =
          match r with | .error e => .error e | .ok a => .ok (finishAuthenticate c a)) := by
  refine ⟨_, rfl, fun cc => ?_⟩
  simp only [secondDraw, authenticateMessageF, authenticateMessage, draw, bind, Except.bind]
  by_cases h1 : ver = 0 ∨ ver = 1 ∨ ver = 2
  · simp only [if_pos h1]
    rcases v1P_eq P ver cc clock c with ⟨h2, h3⟩ | ⟨h2, h3⟩
    · refine .inl ⟨by rw [h2], _, h3, fun k => ?_⟩
      cases authenticateNtlmv1 P ver ⟨cc, k, clock⟩ c <;> rfl
    · refine .inr ⟨?_, _, h3 (Bytes.zero 16), fun k => ?_⟩
      · cases h : authenticateNtlmv1F P ver cc none c with
        | error e => rw [h] at h2; simpa using h2
        | ok a => simp [pure, Except.pure]
      · have h4 := (h3 (Bytes.zero 16)).symm.trans (h3 k)
        injection h4 with h4
        rw [h4]
        cases authenticateNtlmv1 P ver ⟨cc, k, clock⟩ c <;> rfl
  · by_cases h2 : ver = 3 ∨ ver = 4 ∨ ver = 5
    · simp only [if_neg h1, if_pos h2]
      rcases v2P_eq P cfg cc clock c with ⟨h2, h3⟩ | ⟨h2, h3⟩
      · refine .inl ⟨by rw [h2], _, h3, fun k => ?_⟩
        cases authenticateNtlmv2 P cfg ⟨cc, k, clock⟩ c <;> rfl
      · refine .inr ⟨?_, _, h3 (Bytes.zero 16), fun k => ?_⟩
        · cases h : authenticateNtlmv2F P cfg cc none clock c with
          | error e => rw [h] at h2; simpa using h2
          | ok a => simp [pure, Except.pure]
        · have h4 := (h3 (Bytes.zero 16)).symm.trans (h3 k)
          injection h4 with h4
          rw [h4]
          cases authenticateNtlmv2 P cfg ⟨cc, k, clock⟩ c <;> rfl
    · simp only [if_neg h1, if_neg h2]
      exact .inr ⟨by simp, _, rfl, fun k => rfl⟩

/-- A call of `send_authenticate`: one draw, or two. -/
theorem sendAuthenticateI_eq (P : Prims) (cfg : Cfg) (ver : UInt32) (clock : SystemTime) (junk : List UInt8) (c : Client) :
    ∃ next, sendAuthenticateI P cfg ver clock junk c = .ask 8 next ∧ ∀ cc,
      (secondDraw P cfg ver cc clock c ∧ next cc = .ask 16 fun k => .done (sendAuthenticate P cfg ver ⟨cc, k, clock⟩ junk c)) ∨
      (¬ secondDraw P cfg ver cc clock c ∧ ∀ k, next cc = .done (sendAuthenticate P cfg ver ⟨cc, k, clock⟩ junk c)) := by
  obtain ⟨next, h, hn⟩ := messageP_eq P cfg ver clock c
  simp only [sendAuthenticateI, h, Prog.bind]
  refine ⟨_, rfl, fun cc => ?_⟩
  rcases hn cc with ⟨h1, r, h2, h3⟩ | ⟨h1, r, h2, h3⟩
  · refine .inl ⟨h1, ?_⟩
    simp only [h2, Prog.bind]
    congr 1
    funext k
    simp only [sendAuthenticate, h3 k]
    cases r k with
    | error e => rfl
    | ok a =>
      simp only []
      cases Wire.serializeInto cfg (finishAuthenticate c a) [] <;> rfl
  · refine .inr ⟨h1, fun k => ?_⟩
    simp only [h2, Prog.bind]
    simp only [sendAuthenticate, h3 k]
    cases r with
    | error e => rfl
    | ok a =>
      simp only []
      cases Wire.serializeInto cfg (finishAuthenticate c a) [] <;> rfl

/-! ### Every client by itself -/

/-- What a thread is doing, if its client is `c` between calls. -/
def ThreadOk (P : Prims) (cfg : Cfg) (ver : UInt32) (source : Nat → UInt8) (c : Client) : Thread → Prop
  | .idle c' => c' = c
  | .busy call draws rest => ∃ clock junk, call = .sendAuthenticate clock junk ∧
    ((draws = [] ∧ rest = sendAuthenticateI P cfg ver clock junk c) ∨
      ∃ q, draws = [(q, 8)] ∧ secondDraw P cfg ver (fill source q 8) clock c ∧
        rest = .ask 16 fun key => .done (sendAuthenticate P cfg ver ⟨fill source q 8, key, clock⟩ junk c))

/-- What a call has drawn that was made with the client `c`. -/
def DrawsOk (P : Prims) (cfg : Cfg) (ver : UInt32) (source : Nat → UInt8) (c : Client) (call : Call) (draws : List (Nat × Nat)) : Prop :=
  match call with
  | .sendAuthenticate clock _ =>
    (∃ p, draws = [(p, 8)] ∧ ¬ secondDraw P cfg ver (fill source p 8) clock c) ∨
    ∃ p q, draws = [(p, 8), (q, 16)] ∧ secondDraw P cfg ver (fill source p 8) clock c
  | _ => draws = []

/-- The invariant of the machine, but for the places of the draws. -/
structure MachineOk (P : Prims) (cfg : Cfg) (ver : Nat → UInt32) (source : Nat → UInt8) (clients : Nat → Client) (m : Machine) : Prop where
  threads : ∀ k, ThreadOk P cfg (ver k) source (run P cfg (ver k) (clients k) (callsOf source k m.finished)) (m.threads k)
  calls : ∀ before f after, m.finished = before ++ f :: after →
    f.result = resultOf P cfg (ver f.thread) (clients f.thread) (callsOf source f.thread before) (opOf source f) ∧
    DrawsOk P cfg (ver f.thread) source (run P cfg (ver f.thread) (clients f.thread) (callsOf source f.thread before)) f.call f.draws

theorem split_snoc {α : Type} {l before after : List α} {a f : α} (h : l ++ [a] = before ++ f :: after) :
    (l = before ∧ a = f) ∨ ∃ rest, l = before ++ f :: rest := by
  rcases List.eq_nil_or_concat after with rfl | ⟨rest, x, rfl⟩
  · obtain ⟨h1, h2⟩ := List.append_inj' h rfl
    exact .inl ⟨h1, by simpa using h2⟩
  · rw [List.concat_eq_append, show before ++ f :: (rest ++ [x]) = (before ++ f :: rest) ++ [x] by simp] at h
    exact .inr ⟨rest, (List.append_inj' h rfl).1⟩

theorem callsOf_snoc (source : Nat → UInt8) (k : Nat) (fs : List Finished) (f : Finished) :
    callsOf source k (fs ++ [f]) = if f.thread = k then callsOf source k fs ++ [opOf source f] else callsOf source k fs := by
  by_cases h : f.thread = k <;> simp [callsOf, List.filter_append, h]

theorem run_append_one (P : Prims) (cfg : Cfg) (ver : UInt32) (c : Client) (h : List Op) (op : Op) :
    run P cfg ver c (h ++ [op]) = (step P cfg ver (run P cfg ver c h) op).1 := by
  simp [run, List.foldl_append]

section
variable {P : Prims} {cfg : Cfg} {ver : Nat → UInt32} {source : Nat → UInt8} {clients : Nat → Client}

/-- A call ends. -/
theorem ok_finish {m m' : Machine} (hm : MachineOk P cfg ver source clients m) (hf : m'.finished = m.finished)
    (ht : m'.threads = m.threads) (k : Nat) (call : Call) (draws : List (Nat × Nat)) (x : Client × Except Panic (List UInt8))
    (hx : step P cfg (ver k) (run P cfg (ver k) (clients k) (callsOf source k m.finished)) (opOf source ⟨k, call, draws, x.2⟩) = x)
    (hd : DrawsOk P cfg (ver k) source (run P cfg (ver k) (clients k) (callsOf source k m.finished)) call draws) :
    MachineOk P cfg ver source clients (m'.proceed k call draws (.done x)) := by
  obtain ⟨c, r⟩ := x
  simp only [Machine.proceed, hf, ht]
  constructor
  · intro j
    simp only [callsOf_snoc]
    by_cases h : j = k
    · subst h
      simp only [if_pos, run_append_one, ThreadOk]
      rw [hx]
    · simp only [if_neg h, if_neg (Ne.symm h)]
      exact hm.threads j
  · intro before f after h
    rcases split_snoc h with ⟨rfl, rfl⟩ | ⟨rest, h⟩
    · refine ⟨?_, hd⟩
      simp only [resultOf]
      rw [hx]
    · exact hm.calls before f rest h

/-- A call comes to a draw. -/
theorem ok_wait {m m' : Machine} (hm : MachineOk P cfg ver source clients m) (hf : m'.finished = m.finished)
    (ht : m'.threads = m.threads) (k : Nat) (call : Call) (draws : List (Nat × Nat)) (n : Nat)
    (next : Bytes n → Prog (Client × Except Panic (List UInt8)))
    (h : ThreadOk P cfg (ver k) source (run P cfg (ver k) (clients k) (callsOf source k m.finished)) (.busy call draws (.ask n next))) :
    MachineOk P cfg ver source clients (m'.proceed k call draws (.ask n next)) := by
  simp only [Machine.proceed, hf, ht]
  constructor
  · intro j
    by_cases hj : j = k
    · subst hj
      simp only [if_pos]
      exact h
    · simp only [if_neg hj]
      exact hm.threads j
  · exact hm.calls

theorem ok_step (m : Machine) (hm : MachineOk P cfg ver source clients m) (e : Event) :
    MachineOk P cfg ver source clients (m.step P cfg ver source e) := by
  cases e with
  | start k call =>
    have ht := hm.threads k
    simp only [Machine.step]
    cases hk : m.threads k with
    | busy => exact hm
    | idle c =>
      rw [hk] at ht
      obtain rfl : c = _ := ht
      simp only []
      cases call with
      | sendNegociate junk => exact ok_finish hm rfl rfl k _ [] _ rfl rfl
      | recvChallenge ch => exact ok_finish hm rfl rfl k _ [] _ rfl rfl
      | sendAuthenticate clock junk =>
        simp only [callP]
        obtain ⟨next, h, _⟩ := sendAuthenticateI_eq P cfg (ver k) clock junk
          (run P cfg (ver k) (clients k) (callsOf source k m.finished))
        rw [h]
        exact ok_wait hm rfl rfl k _ [] 8 next ⟨clock, junk, rfl, .inl ⟨rfl, h.symm⟩⟩
  | draw k =>
    have ht := hm.threads k
    simp only [Machine.step]
    cases hk : m.threads k with
    | idle c => exact hm
    | busy call draws rest =>
      rw [hk] at ht
      obtain ⟨clock, junk, rfl, h⟩ := ht
      rcases h with ⟨rfl, rfl⟩ | ⟨q, rfl, hs, rfl⟩
      · obtain ⟨next, h, hn⟩ := sendAuthenticateI_eq P cfg (ver k) clock junk
          (run P cfg (ver k) (clients k) (callsOf source k m.finished))
        simp only [h, List.nil_append]
        rcases hn (fill source m.used 8) with ⟨h1, h2⟩ | ⟨h1, h2⟩
        · rw [h2]
          exact ok_wait hm (m' := { m with used := m.used + 8 }) rfl rfl k _ _ 16 _
            ⟨clock, junk, rfl, .inr ⟨m.used, rfl, h1, rfl⟩⟩
        · rw [h2 (fill source 0 16)]
          exact ok_finish hm (m' := { m with used := m.used + 8 }) rfl rfl k _ _ _ rfl (.inl ⟨m.used, rfl, h1⟩)
      · simp only [List.cons_append, List.nil_append]
        exact ok_finish hm (m' := { m with used := m.used + 16 }) rfl rfl k _ _ _ rfl (.inr ⟨q, m.used, rfl, hs⟩)

theorem ok_fresh : MachineOk P cfg ver source clients (Machine.fresh clients) :=
  ⟨fun _ => rfl, fun before f after h => by simp [Machine.fresh] at h⟩

theorem ok_run (m : Machine) (hm : MachineOk P cfg ver source clients m) (es : List Event) :
    MachineOk P cfg ver source clients (m.run P cfg ver source es) := by
  induction es generalizing m with
  | nil => exact hm
  | cons e es ih => exact ih _ (ok_step m hm e)

/-! ### The places of the draws -/

/-- The invariant of the draws: those of the calls that have ended, and those each thread has made so far in its call. -/
structure DrawInv (pend : Nat → List (Nat × Nat)) (fin : List (Nat × Nat)) (used : Nat) : Prop where
  finApart : fin.Pairwise apart
  finUsed : ∀ d ∈ fin, d.1 + d.2 ≤ used
  pendApart : ∀ k, (pend k).Pairwise apart
  pendUsed : ∀ k, ∀ d ∈ pend k, d.1 + d.2 ≤ used
  both : ∀ k, ∀ d ∈ fin, ∀ d' ∈ pend k, apart d d'
  cross : ∀ j k, j ≠ k → ∀ d ∈ pend j, ∀ d' ∈ pend k, apart d d'

theorem DrawInv.draw {pend : Nat → List (Nat × Nat)} {fin : List (Nat × Nat)} {used : Nat} (h : DrawInv pend fin used) (k n : Nat) :
    DrawInv (fun j => if j = k then pend k ++ [(used, n)] else pend j) fin (used + n) := by
  have hu : ∀ j, ∀ d ∈ pend j, apart d (used, n) := fun j d hd => .inl (h.pendUsed j d hd)
  have hu' : ∀ j, ∀ d ∈ pend j, apart (used, n) d := fun j d hd => .inr (h.pendUsed j d hd)
  constructor
  · exact h.finApart
  · intro d hd; have := h.finUsed d hd; omega
  · intro j
    by_cases hj : j = k
    · simp only [if_pos hj, List.pairwise_append, List.pairwise_singleton, List.mem_singleton, true_and]
      exact ⟨h.pendApart k, fun d hd d' hd' => hd' ▸ hu k d hd⟩
    · simp only [if_neg hj]; exact h.pendApart j
  · intro j d hd
    by_cases hj : j = k
    · simp only [if_pos hj, List.mem_append, List.mem_singleton] at hd
      rcases hd with hd | rfl
      · have := h.pendUsed k d hd; omega
      · simp
    · simp only [if_neg hj] at hd
      have := h.pendUsed j d hd; omega
  · intro j d hd d' hd'
    by_cases hj : j = k
    · simp only [if_pos hj, List.mem_append, List.mem_singleton] at hd'
      rcases hd' with hd' | rfl
      · exact h.both k d hd d' hd'
      · exact .inl (h.finUsed d hd)
    · simp only [if_neg hj] at hd'
      exact h.both j d hd d' hd'
  · intro i j hij d hd d' hd'
    by_cases hi : i = k
    · have hj : j ≠ k := fun e => hij (hi.trans e.symm)
      simp only [if_pos hi, List.mem_append, List.mem_singleton] at hd
      simp only [if_neg hj] at hd'
      rcases hd with hd | rfl
      · exact h.cross k j (Ne.symm hj) d hd d' hd'
      · exact hu' j d' hd'
    · simp only [if_neg hi] at hd
      by_cases hj : j = k
      · simp only [if_pos hj, List.mem_append, List.mem_singleton] at hd'
        rcases hd' with hd' | rfl
        · exact h.cross i k hi d hd d' hd'
        · exact hu i d hd
      · simp only [if_neg hj] at hd'
        exact h.cross i j hij d hd d' hd'

theorem DrawInv.finish {pend : Nat → List (Nat × Nat)} {fin : List (Nat × Nat)} {used : Nat} (h : DrawInv pend fin used) (k : Nat) :
    DrawInv (fun j => if j = k then [] else pend j) (fin ++ pend k) used := by
  constructor
  · simp only [List.pairwise_append]
    exact ⟨h.finApart, h.pendApart k, h.both k⟩
  · intro d hd
    rcases List.mem_append.mp hd with hd | hd
    · exact h.finUsed d hd
    · exact h.pendUsed k d hd
  · intro j
    by_cases hj : j = k
    · simp [if_pos hj]
    · simp only [if_neg hj]; exact h.pendApart j
  · intro j d hd
    by_cases hj : j = k
    · simp [if_pos hj] at hd
    · simp only [if_neg hj] at hd; exact h.pendUsed j d hd
  · intro j d hd d' hd'
    by_cases hj : j = k
    · simp [if_pos hj] at hd'
    · simp only [if_neg hj] at hd'
      rcases List.mem_append.mp hd with hd | hd
      · exact h.both j d hd d' hd'
      · exact h.cross k j (Ne.symm hj) d hd d' hd'
  · intro i j hij d hd d' hd'
    by_cases hi : i = k
    · simp [if_pos hi] at hd
    · by_cases hj : j = k
      · simp [if_pos hj] at hd'
      · simp only [if_neg hi] at hd
        simp only [if_neg hj] at hd'
        exact h.cross i j hij d hd d' hd'

/-- The draws a thread has made in the call it is in. -/
def pending : Thread → List (Nat × Nat)
  | .idle _ => []
  | .busy _ draws _ => draws

/-- The places of all draws. -/
def PlacesOk (m : Machine) : Prop :=
  DrawInv (fun k => pending (m.threads k)) (m.finished.flatMap (·.draws)) m.used

theorem places_proceed (m m' : Machine) (k : Nat) (call : Call) (draws : List (Nat × Nat))
    (p : Prog (Client × Except Panic (List UInt8))) (hf : m'.finished = m.finished) (ht : m'.threads = m.threads)
    (h : DrawInv (fun j => if j = k then draws else pending (m.threads j)) (m.finished.flatMap (·.draws)) m'.used) :
    PlacesOk (m'.proceed k call draws p) := by
  cases p with
  | done x =>
    obtain ⟨c, r⟩ := x
    have h2 := h.finish k
    simp only [PlacesOk, Machine.proceed, hf, ht, List.flatMap_append, List.flatMap_cons, List.flatMap_nil, List.append_nil]
    simp only [if_pos] at h2
    have e : (fun j => pending (if j = k then Thread.idle c else m.threads j)) =
        fun j => if j = k then [] else if j = k then draws else pending (m.threads j) := by
      funext j
      by_cases hj : j = k <;> simp [hj, pending]
    rw [e]; exact h2
  | ask n next =>
    simp only [PlacesOk, Machine.proceed, hf, ht]
    have e : (fun j => pending (if j = k then Thread.busy call draws (.ask n next) else m.threads j)) =
        fun j => if j = k then draws else pending (m.threads j) := by
      funext j
      by_cases hj : j = k <;> simp [hj, pending]
    rw [e]; exact h

theorem places_step (m : Machine) (hm : PlacesOk m) (e : Event) : PlacesOk (m.step P cfg ver source e) := by
  cases e with
  | start k call =>
    simp only [Machine.step]
    cases hk : m.threads k with
    | busy => exact hm
    | idle c =>
      refine places_proceed m m k _ _ _ rfl rfl ?_
      have e : (fun j => if j = k then [] else pending (m.threads j)) = fun j => pending (m.threads j) := by
        funext j
        by_cases hj : j = k
        · subst hj; simp [hk, pending]
        · simp [hj]
      rw [e]; exact hm
  | draw k =>
    simp only [Machine.step]
    cases hk : m.threads k with
    | idle c => exact hm
    | busy call draws rest =>
      cases rest with
      | done x => exact hm
      | ask n next =>
        refine places_proceed m { m with used := m.used + n } k _ _ _ rfl rfl ?_
        have h := DrawInv.draw hm k n
        simp only [hk, pending] at h
        exact h

theorem places_run (m : Machine) (hm : PlacesOk m) (es : List Event) : PlacesOk (m.run P cfg ver source es) := by
  induction es generalizing m with
  | nil => exact hm
  | cons e es ih => exact ih _ (places_step m hm e)

theorem places_fresh : PlacesOk (Machine.fresh clients) := by
  constructor <;> simp [Machine.fresh, pending]

end

/-! ### Ends of calls -/

/-- How many draws a thread still has to make at most. -/
def draws_left : Thread → Nat
  | .idle _ => 0
  | .busy _ draws _ => 2 - draws.length

theorem turn_left {P : Prims} {cfg : Cfg} {ver : Nat → UInt32} {source : Nat → UInt8} {clients : Nat → Client} (m : Machine)
    (hm : MachineOk P cfg ver source clients m) (k : Nat) :
    draws_left ((m.step P cfg ver source (.draw k)).threads k) ≤ draws_left (m.threads k) - 1 := by
  have ht := hm.threads k
  simp only [Machine.step]
  cases hk : m.threads k with
  | idle c => simp [hk, draws_left]
  | busy call draws rest =>
    rw [hk] at ht
    obtain ⟨clock, junk, rfl, h⟩ := ht
    rcases h with ⟨rfl, rfl⟩ | ⟨q, rfl, hs, rfl⟩
    · obtain ⟨next, h, hn⟩ := sendAuthenticateI_eq P cfg (ver k) clock junk
        (run P cfg (ver k) (clients k) (callsOf source k m.finished))
      simp only [h, List.nil_append]
      rcases hn (fill source m.used 8) with ⟨h1, h2⟩ | ⟨h1, h2⟩
      · rw [h2]; simp [Machine.proceed, draws_left]
      · rw [h2 (fill source 0 16)]; simp [Machine.proceed, draws_left]
    · simp [Machine.proceed, draws_left]

theorem proceed_other (m : Machine) (j k : Nat) (h : k ≠ j) (call : Call) (draws : List (Nat × Nat))
    (p : Prog (Client × Except Panic (List UInt8))) : (m.proceed j call draws p).threads k = m.threads k := by
  cases p with
  | done x => obtain ⟨c, r⟩ := x; simp [Machine.proceed, h]
  | ask n next => simp [Machine.proceed, h]

theorem other_left (P : Prims) (cfg : Cfg) (ver : Nat → UInt32) (source : Nat → UInt8) (m : Machine) (k : Nat) (e : Event)
    (h1 : ∀ call, e ≠ .start k call) (h2 : e ≠ .draw k) : (m.step P cfg ver source e).threads k = m.threads k := by
  cases e with
  | start j call =>
    have hj : k ≠ j := fun e => h1 call (by rw [e])
    simp only [Machine.step]
    cases m.threads j with
    | idle c => exact proceed_other m j k hj _ _ _
    | busy => rfl
  | draw j =>
    have hj : k ≠ j := fun e => h2 (by rw [e])
    simp only [Machine.step]
    cases m.threads j with
    | idle c => rfl
    | busy call draws rest =>
      cases rest with
      | done x => rfl
      | ask n next => exact proceed_other { m with used := m.used + n } j k hj _ _ _

theorem answered_challenge (P : Prims) (cfg : Cfg) (ver : UInt32) (c : Client) (rnd : AuthRand) (junk b : List UInt8)
    (h : (step P cfg ver c (.sendAuthenticate rnd junk)).2 = .ok b) : ∃ ch, getChallenge c = .ok ch := by
  cases hg : getChallenge c with
  | ok ch => exact ⟨ch, rfl⟩
  | error e =>
    exfalso
    have hn : getNegotiate c = .error e := by
      revert hg
      simp only [getChallenge, getNegotiate]
      cases c.state <;> simp
    have : ∃ e, authenticateMessage P cfg ver rnd c = .error e := by
      simp only [authenticateMessage, authenticateNtlmv1, authenticateNtlmv2, hg, hn, bind, Except.bind]
      (repeat' split) <;> simp_all
    obtain ⟨e, he⟩ := this
    simp only [step, sendAuthenticate, he] at h
    cases h

namespace Props

/-! ### C92 -/

/-! An example: two threads negotiate, receive the same challenge and answer it; the answers overlap.  The source keeps giving the same
    byte. -/

def exSchedule : List Event :=
  [.start 0 (.sendNegociate []), .start 1 (.sendNegociate []), .start 1 (.recvChallenge exChallenge),
   .start 0 (.recvChallenge exChallenge), .start 0 (.sendAuthenticate exRand.clock []), .start 1 (.sendAuthenticate exRand.clock []),
   .draw 0, .draw 1, .draw 1, .draw 0]

def exLevels (k : Nat) : UInt32 := if k = 0 then 3 else 5
def exSource (_ : Nat) : UInt8 := 7
def exClients (_ : Nat) : Client :=
  match newWithDomain toyPrims asciiCase exLogin.env exLogin.user exLogin.domain exLogin.password exLogin.target with
  | .ok c => c
  | .error _ => ⟨.new, [], Bytes.zero 16, Bytes.zero 16, Bytes.zero 16, [], none, [], [], none⟩
def exMachine : Machine := reached toyPrims ⟨false, false, .unix⟩ exLevels exSource exClients exSchedule

theorem exClients_created (k : Nat) : created toyPrims asciiCase exLogin (exClients k) := by
  obtain ⟨c, hc⟩ := exLogin_created toyPrims asciiCase
  simp only [created, exClients] at hc ⊢
  rw [hc]

theorem exMachine_finished : ∃ before f f' b, exMachine.finished = before ++ f :: [] ++ f' :: [] ∧
    f.thread = 1 ∧ f.draws = [(8, 8), (16, 16)] ∧ f.call = .sendAuthenticate exRand.clock [] ∧ f.result = .ok b ∧
    f'.thread = 0 ∧ f'.draws = [(0, 8), (32, 16)] ∧ f'.call = .sendAuthenticate exRand.clock [] ∧ f'.result = .ok b := by
  have h : (exMachine.finished.drop 4).map (fun f => (f.thread, f.draws, f.call)) =
      [(1, [(8, 8), (16, 16)], .sendAuthenticate exRand.clock []), (0, [(0, 8), (32, 16)], .sendAuthenticate exRand.clock [])] := by
    decide +kernel
  have h2 : (exMachine.finished.drop 4).map (fun f => f.result.toOption) =
      List.replicate 2 (((exMachine.finished.drop 4).map (fun f => f.result.toOption)).getD 0 none) ∧
      (((exMachine.finished.drop 4).map (fun f => f.result.toOption)).getD 0 none).isSome = true := by decide +kernel
  obtain ⟨h2, h3⟩ := h2
  obtain ⟨b, h3⟩ := Option.isSome_iff_exists.mp h3
  rw [h3] at h2
  have e := List.take_append_drop 4 exMachine.finished
  revert h h2 e
  generalize exMachine.finished.drop 4 = l
  generalize exMachine.finished.take 4 = before
  intro h h2 e
  simp only [List.map_eq_cons_iff, List.map_eq_nil_iff] at h
  obtain ⟨f, l, rfl, hf, f', l', rfl, hf', rfl⟩ := h
  simp only [List.map_cons, List.map_nil, List.replicate, List.cons.injEq, and_true] at h2
  have ok : ∀ r : Except Panic (List UInt8), r.toOption = some b → r = .ok b := by
    intro r; cases r <;> simp [Except.toOption]
  simp only [Prod.mk.injEq] at hf hf'
  exact ⟨before, f, f', b, by simp [← e], hf.1, hf.2.1, hf.2.2, ok _ h2.1, hf'.1, hf'.2.1, hf'.2.2, ok _ h2.2⟩

/-- C92: whatever the schedule, every call returns what it would return to a client that has the machine for itself, made after the
    calls of the same client that have ended before, with the random values it has drawn. -/
theorem C92_alone (P : Prims) (cfg : Cfg) (ver : Nat → UInt32) (source : Nat → UInt8) (clients : Nat → Client) (es : List Event)
    (before after : List Finished) (f : Finished)
    (hf : (reached P cfg ver source clients es).finished = before ++ f :: after) :
    f.result = resultOf P cfg (ver f.thread) (clients f.thread) (callsOf source f.thread before) (opOf source f) :=
  ((ok_run _ ok_fresh es).calls before f after hf).1

/-- The first answer to end is the one a client at level 5 gives that is alone with the bytes at 8 and 16. -/
example : ∃ before f f' b, exMachine.finished = before ++ f :: [] ++ f' :: [] ∧
    resultOf toyPrims ⟨false, false, .unix⟩ 5 (exClients 1) (callsOf exSource 1 before)
      (.sendAuthenticate (randOf exSource [(8, 8), (16, 16)] exRand.clock) []) = .ok b := by
  obtain ⟨before, f, f', b, h, h1, h2, h3, h4, _⟩ := exMachine_finished
  have ha := C92_alone _ _ _ _ _ _ before [f'] f (h.trans (by simp))
  simp only [h1, h4, opOf, h3, h2] at ha
  exact ⟨before, f, f', b, h, ha.symm⟩

/-- C92: a client that is not in a call is what its own calls have made of it. -/
theorem C92_state (P : Prims) (cfg : Cfg) (ver : Nat → UInt32) (source : Nat → UInt8) (clients : Nat → Client) (es : List Event)
    (k : Nat) (c : Client) (hk : (reached P cfg ver source clients es).threads k = .idle c) :
    c = run P cfg (ver k) (clients k) (callsOf source k (reached P cfg ver source clients es).finished) := by
  have h := (ok_run (P := P) (cfg := cfg) (ver := ver) (source := source) _ (ok_fresh (clients := clients)) es).threads k
  simp only [reached] at hk
  rw [hk] at h
  exact h

/-- C92: what the calls draw: the client challenge for every `send_authenticate`; a session key exactly for an answer that carries
    one; the other calls nothing. -/
theorem C92_draws (P : Prims) (cm : CaseMap) (cfg : Cfg) (ver : Nat → UInt32) (source : Nat → UInt8) (logins : Nat → Login)
    (clients : Nat → Client) (hc : ∀ k, created P cm (logins k) (clients k)) (es : List Event)
    (before after : List Finished) (f : Finished)
    (hf : (reached P cfg ver source clients es).finished = before ++ f :: after) :
    (∀ clock junk, f.call = .sendAuthenticate clock junk →
      ∃ p, (f.draws = [(p, 8)] ∨ ∃ q, f.draws = [(p, 8), (q, 16)]) ∧
        ((∃ q, f.draws = [(p, 8), (q, 16)]) ↔
          ∃ ch, negotiable (ver f.thread) (logins f.thread).domain ∧ accepted (callsOf source f.thread before) ch ∧ drawsKey ch ∧
            (isV1 (ver f.thread) ∨
              (isV2 (ver f.thread) ∧ (∃ t, clientTime ch.targetInfos clock t) ∧ ∀ p ∈ ch.targetInfos, avPairFits p)))) ∧
    ((∀ clock junk, f.call ≠ .sendAuthenticate clock junk) → f.draws = []) := by
  have h := ((ok_run (P := P) (cfg := cfg) (ver := ver) (source := source) _ (ok_fresh (clients := clients)) es).calls before f after hf).2
  constructor
  · intro clock junk hcall
    rw [hcall] at h
    simp only [DrawsOk] at h
    have hiff : ∀ cc, secondDraw P cfg (ver f.thread) cc clock
        (run P cfg (ver f.thread) (clients f.thread) (callsOf source f.thread before)) ↔
          ∃ ch, negotiable (ver f.thread) (logins f.thread).domain ∧ accepted (callsOf source f.thread before) ch ∧ drawsKey ch ∧
            (isV1 (ver f.thread) ∨
              (isV2 (ver f.thread) ∧ (∃ t, clientTime ch.targetInfos clock t) ∧ ∀ p ∈ ch.targetInfos, avPairFits p)) := by
      intro cc
      rw [secondDraw, messageF_random]
      simp only [getChallenge_iff P cm cfg (ver f.thread) _ _ (hc f.thread), reduceCtorEq, false_or, Option.some.injEq]
      constructor
      · rintro ⟨x, ch, _, ⟨h1, h2⟩, _, h3, h4⟩; exact ⟨ch, h1, h2, h3, h4⟩
      · rintro ⟨ch, h1, h2, h3, h4⟩; exact ⟨cc, ch, rfl, ⟨h1, h2⟩, trivial, h3, h4⟩
    rcases h with ⟨p, h1, h2⟩ | ⟨p, q, h1, h2⟩
    · refine ⟨p, .inl h1, ?_⟩
      rw [← hiff (fill source p 8), h1]
      exact iff_of_false (by simp) h2
    · refine ⟨p, .inr ⟨q, h1⟩, ?_⟩
      rw [← hiff (fill source p 8)]
      exact iff_of_true ⟨q, h1⟩ h2
  · intro hcall
    cases e : f.call with
    | sendAuthenticate clock junk => exact absurd e (hcall clock junk)
    | sendNegociate junk => rw [e] at h; exact h
    | recvChallenge ch => rw [e] at h; exact h

/-- The second answer has drawn a key, so there was a challenge that asked for one. -/
example : ∃ before f f' ch, exMachine.finished = before ++ f :: [] ++ f' :: [] ∧ accepted (callsOf exSource 0 before ++ callsOf exSource 0 [f]) ch ∧
    drawsKey ch := by
  obtain ⟨before, f, f', b, h, h1, h2, h3, h4, h5, h6, h7, h8⟩ := exMachine_finished
  obtain ⟨p, hp, hk⟩ := (C92_draws toyPrims asciiCase _ _ _ (fun _ => exLogin) _ exClients_created _ _ _ f' h).1 _ _ h7
  rw [h6] at hp hk
  have h9 : p = 0 := by rcases hp with hp | ⟨q, hp⟩ <;> simp at hp; exact hp.1.symm
  subst h9
  have h10 := hk.mp ⟨32, rfl⟩
  obtain ⟨ch, _, ha, hd, _⟩ := h10
  rw [h5] at ha
  refine ⟨before, f, f', ch, h, ?_, hd⟩
  simpa [callsOf] using ha

/-- C92: no byte of the source is given to two draws, be it of one client or of several. -/
theorem C92_apart (P : Prims) (cfg : Cfg) (ver : Nat → UInt32) (source : Nat → UInt8) (clients : Nat → Client) (es : List Event) :
    ((reached P cfg ver source clients es).finished.flatMap (·.draws)).Pairwise apart :=
  (places_run (P := P) (cfg := cfg) (ver := ver) (source := source) _ (places_fresh (clients := clients)) es).finApart

example : ∃ before f f', exMachine.finished = before ++ f :: [] ++ f' :: [] ∧ apart (8, 8) (0, 8) ∧ apart (16, 16) (32, 16) ∧
    (exMachine.finished.flatMap (·.draws)).Pairwise apart := by
  obtain ⟨before, f, f', b, h, _⟩ := exMachine_finished
  exact ⟨before, f, f', h, .inr (by decide), .inl (by decide), C92_apart _ _ _ _ _ _⟩

/-- C92: two NTLMv2 answers, of one client or of several, are the same only if the source repeats itself: their client challenges
    come from two places that have no byte in common, and hold the same bytes. -/
theorem C92_different (P : Prims) (cm : CaseMap) (cfg : Cfg) (ver : Nat → UInt32) (source : Nat → UInt8) (logins : Nat → Login)
    (clients : Nat → Client) (hc : ∀ k, created P cm (logins k) (clients k)) (es : List Event)
    (before between after : List Finished) (f f' : Finished)
    (hf : (reached P cfg ver source clients es).finished = before ++ f :: between ++ f' :: after)
    (hv : isV2 (ver f.thread)) (hv' : isV2 (ver f'.thread)) (clock clock' : SystemTime) (junk junk' : List UInt8)
    (hcall : f.call = .sendAuthenticate clock junk) (hcall' : f'.call = .sendAuthenticate clock' junk')
    (b : List UInt8) (hr : f.result = .ok b) (hr' : f'.result = .ok b) :
    ∃ p q, f.draws.head? = some (p, 8) ∧ f'.draws.head? = some (q, 8) ∧ apart (p, 8) (q, 8) ∧
      sourceBytes source p 8 = sourceBytes source q 8 := by
  have key : ∀ before after (f : Finished) clock junk, (reached P cfg ver source clients es).finished = before ++ f :: after →
      isV2 (ver f.thread) → f.call = .sendAuthenticate clock junk → f.result = .ok b →
      ∃ p, f.draws.head? = some (p, 8) ∧ ((fieldBytes b 20).drop 16).take 8 = sourceBytes source p 8 := by
    intro before after f clock junk hf hv hcall hr
    obtain ⟨p, hd, _⟩ := (C92_draws P cm cfg ver source logins clients hc es before after f hf).1 clock junk hcall
    have hp : f.draws.head? = some (p, 8) := by rcases hd with h | ⟨q, h⟩ <;> rw [h] <;> rfl
    have h0 : (f.draws.getD 0 (0, 0)).1 = p := by rcases hd with h | ⟨q, h⟩ <;> rw [h] <;> rfl
    refine ⟨p, hp, ?_⟩
    have ha := C92_alone P cfg ver source clients es before after f hf
    rw [hr] at ha
    simp only [opOf, hcall] at ha
    obtain ⟨ch, hg⟩ := answered_challenge P cfg _ _ _ _ _ ha.symm
    obtain ⟨_, hacc⟩ := (getChallenge_iff P cm cfg (ver f.thread) _ _ (hc f.thread) _ ch).mp hg
    obtain ⟨t, _, hh⟩ := C42_blob P cm cfg (ver f.thread) hv (logins f.thread) _ ch _ b ⟨hacc, _, _, hc f.thread, ha.symm⟩
    rw [hh.1]
    have hl : (fileTimeBytes t).length = 8 := by simp [fileTimeBytes]
    have e1 : ([1, 1, 0, 0, 0, 0, 0, 0] ++ fileTimeBytes t : List UInt8).length = 16 := by simp [hl]
    have e2 : ∀ rnd : AuthRand, (([1, 1, 0, 0, 0, 0, 0, 0] ++ fileTimeBytes t ++ rnd.clientChallenge.val ++ [0, 0, 0, 0] ++
        avListBytes ch.targetInfos).drop 16).take 8 = rnd.clientChallenge.val := by
      intro rnd
      rw [List.append_assoc, List.append_assoc, List.drop_left' e1, List.take_left' rnd.clientChallenge.property]
    rw [e2]
    simp only [randOf, h0]
  obtain ⟨p, h1, h2⟩ := key before (between ++ f' :: after) f clock junk (by rw [hf]; simp) hv hcall hr
  obtain ⟨q, h3, h4⟩ := key (before ++ f :: between) after f' clock' junk' hf hv' hcall' hr'
  refine ⟨p, q, h1, h3, ?_, h2.symm.trans h4⟩
  have hp := C92_apart P cfg ver source clients es
  rw [hf, List.flatMap_append, List.flatMap_append, List.pairwise_append] at hp
  refine hp.2.2 (p, 8) ?_ (q, 8) ?_
  · exact List.mem_append_right _ (List.mem_flatMap.mpr ⟨f, List.mem_cons_self .., List.mem_of_mem_head? h1⟩)
  · exact List.mem_flatMap.mpr ⟨f', List.mem_cons_self .., List.mem_of_mem_head? h3⟩

/-- The source of the example does repeat itself, and the two answers are the same. -/
example : ∃ p q, apart (p, 8) (q, 8) ∧ sourceBytes exSource p 8 = sourceBytes exSource q 8 := by
  obtain ⟨before, f, f', b, h, h1, h2, h3, h4, h5, h6, h7, h8⟩ := exMachine_finished
  obtain ⟨p, q, _, _, h9, h10⟩ := C92_different toyPrims asciiCase _ exLevels exSource (fun _ => exLogin) exClients exClients_created
    exSchedule before [] [] f f' h (by rw [h1]; simp [isV2, exLevels]) (by rw [h5]; simp [isV2, exLevels]) _ _ _ _ h3 h7 b h4 h8
  exact ⟨p, q, h9, h10⟩

/-- C92: no client keeps another one waiting: a call has ended once its own thread has had two turns. -/
theorem C92_progress (P : Prims) (cfg : Cfg) (ver : Nat → UInt32) (source : Nat → UInt8) (clients : Nat → Client)
    (es es' : List Event) (k : Nat) (hs : ∀ call, .start k call ∉ es') (ht : 2 ≤ turns k es') :
    ∃ c, (reached P cfg ver source clients (es ++ es')).threads k = .idle c := by
  have e : reached P cfg ver source clients (es ++ es') = (reached P cfg ver source clients es).run P cfg ver source es' := by
    simp [reached, Machine.run, List.foldl_append]
  rw [e]
  have hm : MachineOk P cfg ver source clients (reached P cfg ver source clients es) := ok_run _ ok_fresh es
  revert hm
  generalize reached P cfg ver source clients es = m
  intro hm
  have key : ∀ es', (∀ call, .start k call ∉ es') → ∀ m, MachineOk P cfg ver source clients m →
      draws_left ((m.run P cfg ver source es').threads k) ≤ draws_left (m.threads k) - turns k es' := by
    intro es'
    induction es' with
    | nil => intro _ m _; simp [Machine.run, turns]
    | cons x es' ih =>
      intro hs m hm
      have h1 := ih (fun call h => hs call (List.mem_cons_of_mem _ h)) (m.step P cfg ver source x) (ok_step m hm x)
      have e : m.run P cfg ver source (x :: es') = (m.step P cfg ver source x).run P cfg ver source es' := rfl
      rw [e]
      by_cases hx : x = .draw k
      · subst hx
        have h2 := turn_left m hm k
        have h3 : turns k (.draw k :: es') = turns k es' + 1 := by simp [turns]
        omega
      · have h3 : turns k (x :: es') = turns k es' := by simp [turns, hx]
        rw [other_left P cfg ver source m k x (fun call e => hs call (e ▸ List.mem_cons_self ..)) hx] at h1
        omega
  have h1 := key es' hs m hm
  have hm' := (ok_run m hm es').threads k
  cases hk : (m.run P cfg ver source es').threads k with
  | idle c => exact ⟨c, rfl⟩
  | busy call draws rest =>
    exfalso
    rw [hk] at h1 hm'
    have h2 : draws_left (m.threads k) ≤ 2 := by
      cases m.threads k <;> simp [draws_left]
    obtain ⟨clock, junk, _, ⟨rfl, _⟩ | ⟨q, rfl, _⟩⟩ := hm'
    · rw [show ∀ r, draws_left (.busy call [] r) = 2 from fun _ => rfl] at h1; omega
    · rw [show ∀ r, draws_left (.busy call [(q, 8)] r) = 1 from fun _ => rfl] at h1; omega

/-- The thread that began its answer first ends it although the other one is served in between; then its client is what its three
    calls have made of it. -/
example : ∃ c, exMachine.threads 0 = .idle c ∧
    c = run toyPrims ⟨false, false, .unix⟩ 3 (exClients 0) (callsOf exSource 0 exMachine.finished) := by
  obtain ⟨c, hc⟩ := C92_progress toyPrims ⟨false, false, .unix⟩ exLevels exSource exClients (exSchedule.take 6) (exSchedule.drop 6) 0
    (by simp [exSchedule]) (by decide)
  rw [List.take_append_drop] at hc
  have hs := C92_state _ _ _ _ _ _ 0 c hc
  unfold exMachine
  refine ⟨c, hc, ?_⟩
  have h3 : exLevels 0 = 3 := rfl
  rw [h3] at hs
  exact hs

end Props

end Ntlm
