import Verif.Lemmas.ClientAuth
/-
  Which authenticate message a client records.
-/
namespace Ntlm

open Spec Client

/-- What the protocol state says about the history. -/
def recordFor (P : Prims) (cfg : Cfg) (ver : UInt32) (c : Client) (n : Negotiate) (h : List Op) : ClientState → Prop
  | .challengeReceived m ch => m = n ∧ unanswered P cfg ver c h ch
  | .authenticateSent m ch a => m = n ∧ ∃ rnd b, firstAnswer P cfg ver c h ch rnd b ∧ b = authenticateBytes a ∧
      authenticateFits a ∧ authenticateMessage P cfg ver rnd (reset c (.challengeReceived n ch) []) = .ok a
  | _ => True

theorem unanswered_snoc (P : Prims) (cfg : Cfg) (ver : UInt32) (c : Client) (h : List Op) (op : Op) (ch : Challenge)
    (hop : ¬ isNegotiate op) (hu : unanswered P cfg ver c h ch)
    (ho : ∀ rnd junk, op = .sendAuthenticate rnd junk → ∃ e, resultOf P cfg ver c h op = .error e) :
    unanswered P cfg ver c (h ++ [op]) ch := by
  refine ⟨(accepted_snoc h op ch).mpr (.inr ⟨hop, hu.1⟩), ?_⟩
  intro before rnd junk after e hq
  rcases List.eq_nil_or_concat after with rfl | ⟨after', x, rfl⟩
  · have := List.append_inj_right' e (by simp)
    have h2 := List.append_inj_left' e (by simp)
    simp only [List.cons.injEq, and_true] at this
    subst this h2
    exact ho rnd junk rfl
  · rw [List.concat_eq_append] at e hq
    have e' : h ++ [op] = (before ++ .sendAuthenticate rnd junk :: after') ++ [x] := by rw [e]; simp
    have h1 := List.append_inj_left' e' (by simp)
    exact hu.2 before rnd junk after' h1 (fun o ho => hq o (by simp [ho]))

theorem firstAnswer_snoc (P : Prims) (cfg : Cfg) (ver : UInt32) (c : Client) (h : List Op) (op : Op) (ch : Challenge)
    (rnd : AuthRand) (b : List UInt8) (hop : ¬ isNegotiate op) (hu : firstAnswer P cfg ver c h ch rnd b) :
    firstAnswer P cfg ver c (h ++ [op]) ch rnd b := by
  obtain ⟨before, junk, after, rfl, h1, h2, h3⟩ := hu
  refine ⟨before, junk, after ++ [op], by simp, ?_, h2, h3⟩
  intro o ho
  rcases List.mem_append.mp ho with ho | ho
  · exact h1 o ho
  · simp at ho; subst ho; exact hop

theorem unanswered_recv (P : Prims) (cfg : Cfg) {ver : UInt32} (hv : ver.toNat ≤ 5) (c : Client) (hs : c.state = .new)
    (n : Negotiate) (hn : negotiateMessage ver c = .ok n) (hf : negotiateFits n) (h : List Op) (ch : Challenge)
    (hp : pending h) : unanswered P cfg ver c (h ++ [.recvChallenge ch]) ch := by
  refine ⟨(accepted_snoc h _ ch).mpr (.inl ⟨rfl, hp⟩), ?_⟩
  intro before rnd junk after e hq
  rcases List.eq_nil_or_concat after with rfl | ⟨after', x, rfl⟩
  · have := List.append_inj_right' e (by simp)
    simp at this
  · rw [List.concat_eq_append] at e hq
    have e' : h ++ [.recvChallenge ch] = (before ++ .sendAuthenticate rnd junk :: after') ++ [x] := by rw [e]; simp
    have h1 := List.append_inj_left' e' (by simp)
    -- `before` is still pending: a receive after the last negotiate would have ended that
    have hpb : ∀ l : List Op, (∀ op ∈ l, ¬ isNegotiate op) → ∀ g, pending (g ++ l) → pending g := by
      intro l
      induction l using snocRec with
      | nil => intro _ g hg; simpa using hg
      | snoc l o ih =>
        intro hl g hg
        rw [← List.append_assoc, pending_snoc] at hg
        rcases hg with hg | ⟨_, _, hg⟩
        · exact absurd hg (hl o (by simp))
        · exact ih (fun o' ho' => hl o' (by simp [ho'])) g hg
    have hb : pending before := by
      refine hpb (.sendAuthenticate rnd junk :: after') ?_ before (h1 ▸ hp)
      intro o ho
      rcases List.mem_cons.mp ho with rfl | ho
      · rintro ⟨j, h⟩; cases h
      · exact hq o (by simp [ho])
    have hst := run_state P cfg ver c hs n hn hf before
    have hses : sessionOf (run P cfg ver c before).state = none := by
      cases es : (run P cfg ver c before).state <;> rw [es] at hst
      · rfl
      · rfl
      · exact absurd hb ((phases before).1 _ hst.2)
      · exact absurd hb ((phases before).1 _ hst.2)
    refine ⟨.invalidState, ?_⟩
    simp only [resultOf, step, sendAuthenticate_eq, invalid_message P cfg hv rnd _ hses]

theorem run_record (P : Prims) (cfg : Cfg) {ver : UInt32} (hv : ver.toNat ≤ 5) (c : Client) (hs : c.state = .new) (n : Negotiate)
    (hn : negotiateMessage ver c = .ok n) (hf : negotiateFits n) (h : List Op) :
    recordFor P cfg ver c n h (run P cfg ver c h).state := by
  induction h using snocRec with
  | nil => simp only [run, List.foldl_nil, hs, recordFor]
  | snoc h op ih =>
    have hst := run_state P cfg ver c hs n hn hf h
    obtain ⟨s, b, e⟩ := run_reset P cfg ver c h
    rw [run_snoc, e]
    rw [e] at ih hst
    have ih : recordFor P cfg ver c n h s := ih
    have hst : stateFor n h s := hst
    cases op with
    | sendNegociate junk =>
      simp only [step, sendNegociate_eq, negotiateMessage_reset, hn, serialize_of_enc (enc_negotiate cfg n hf)]
      trivial
    | recvChallenge ch =>
      have hnn : ¬ isNegotiate (.recvChallenge ch) := by rintro ⟨j, h⟩; cases h
      cases s with
      | new => trivial
      | negociateSent m =>
        exact ⟨hst.1, unanswered_recv P cfg hv c hs n hn hf h ch hst.2⟩
      | challengeReceived m ch' =>
        exact ⟨ih.1, unanswered_snoc P cfg ver c h _ ch' hnn ih.2 (fun r j h => by cases h)⟩
      | authenticateSent m ch' a =>
        obtain ⟨rfl, rnd, b', h1, h2⟩ := ih
        exact ⟨rfl, rnd, b', firstAnswer_snoc P cfg ver c h _ ch' rnd b' hnn h1, h2⟩
    | sendAuthenticate rnd junk =>
      have hnn : ¬ isNegotiate (.sendAuthenticate rnd junk) := by rintro ⟨j, h⟩; cases h
      have hres : resultOf P cfg ver c h (.sendAuthenticate rnd junk) =
          (sendAuthenticate P cfg ver rnd junk (reset c s b)).2 := by simp only [resultOf, e, step]
      cases hr : (sendAuthenticate P cfg ver rnd junk (reset c s b)).2 with
      | error er =>
        have hun : (step P cfg ver (reset c s b) (.sendAuthenticate rnd junk)).1.state = s := by
          simp only [step, sendAuthenticate_eq] at hr ⊢
          cases hm : authenticateMessage P cfg ver rnd (reset c s b) with
          | error e' => rfl
          | ok a =>
            rw [hm] at hr
            simp only [] at hr ⊢
            cases hz : Wire.serialize cfg a with
            | error e' => rfl
            | ok x => rw [hz] at hr; cases hr
        rw [hun]
        cases s with
        | new => trivial
        | negociateSent m => trivial
        | challengeReceived m ch' =>
          exact ⟨ih.1, unanswered_snoc P cfg ver c h _ ch' hnn ih.2 (fun _ _ _ => ⟨er, by rw [hres, hr]⟩)⟩
        | authenticateSent m ch' a =>
          obtain ⟨rfl, rnd', b', h1, h2⟩ := ih
          exact ⟨rfl, rnd', b', firstAnswer_snoc P cfg ver c h _ ch' rnd' b' hnn h1, h2⟩
      | ok x =>
        obtain ⟨m, hm, hfm, rfl⟩ := (sendAuthenticate_result P cfg ver rnd junk _ x).mp hr
        have hstep : (step P cfg ver (reset c s b) (.sendAuthenticate rnd junk)).1 =
            setAuthenticatedState m (reset c s (authenticateBytes m)) := by
          simp only [step, sendAuthenticate_eq, hm, serialize_of_enc (enc_authenticate cfg m hfm)]
          rfl
        rw [hstep]
        cases s with
        | new => rw [invalid_message P cfg hv rnd _ rfl] at hm; cases hm
        | negociateSent m => rw [invalid_message P cfg hv rnd _ rfl] at hm; cases hm
        | challengeReceived m' ch' =>
          obtain ⟨rfl, hu⟩ := ih
          refine ⟨rfl, rnd, _, ⟨h, junk, [], rfl, by simp, hu, by rw [hres, hr]⟩, rfl, hfm, ?_⟩
          rw [← authenticateMessage_session P cfg ver rnd c _ _ b [] rfl]
          exact hm
        | authenticateSent m' ch' a =>
          obtain ⟨rfl, rnd', b', h1, h2⟩ := ih
          exact ⟨rfl, rnd', b', firstAnswer_snoc P cfg ver c h _ ch' rnd' b' hnn h1, h2⟩

/-- The message behind a first answer. -/
theorem firstAnswer_state (P : Prims) (cm : CaseMap) (cfg : Cfg) (ver : UInt32) (l : Login) (c : Client)
    (hc : created P cm l c) (h : List Op) (ch : Challenge) (rnd : AuthRand) (b : List UInt8)
    (hf : firstAnswer P cfg ver c h ch rnd b) :
    ∃ n a, negotiateMessage ver c = .ok n ∧ negotiateFits n ∧ (run P cfg ver c h).state = .authenticateSent n ch a ∧
      b = authenticateBytes a ∧ authenticateFits a ∧
      authenticateMessage P cfg ver rnd (reset c (.challengeReceived n ch) []) = .ok a := by
  obtain ⟨before, junk, after, rfl, hq, hu, hr⟩ := hf
  have hs : c.state = .new := by obtain ⟨lm, w, _, _, rfl⟩ := (created_iff P cm l c).mp hc; rfl
  have hA : Answers P cm cfg ver l before ch rnd b := ⟨hu.1, c, junk, hc, hr⟩
  have hneg := ((answers_iff P cm cfg ver l before ch rnd b).mp hA).2.1
  obtain ⟨n, h1, h2⟩ := (negotiable_iff P cm l c hc ver).mp hneg
  have hrec := run_record P cfg hneg.1 c hs n h1 h2 before
  have hst := run_state P cfg ver c hs n h1 h2 before
  obtain ⟨s, b0, e⟩ := run_reset P cfg ver c before
  have hr' : (sendAuthenticate P cfg ver rnd junk (run P cfg ver c before)).2 = .ok b := hr
  obtain ⟨m, hm, hfm, rfl⟩ := (sendAuthenticate_result P cfg ver rnd junk _ b).mp hr'
  rw [e] at hrec hst hm
  have hrec : recordFor P cfg ver c n before s := hrec
  have hst : stateFor n before s := hst
  have hs1 : s = .challengeReceived n ch := by
    cases s with
    | new => exact absurd hu.1 (hst.2 ch)
    | negociateSent m => exact absurd hst.2 ((phases before).1 ch hu.1)
    | challengeReceived m ch' => obtain ⟨rfl, h3⟩ := hst; rw [(phases before).2 _ _ h3 hu.1]
    | authenticateSent m ch' a =>
      obtain ⟨_, rnd', b', ⟨p, j, q, e1, e2, _, e3⟩, _⟩ := hrec
      obtain ⟨er, he⟩ := hu.2 p rnd' j q e1 e2
      rw [he] at e3; cases e3
  subst hs1
  refine ⟨n, m, h1, h2, ?_, rfl, hfm, ?_⟩
  · -- the state stays
    have key : ∀ q : List Op, (∀ op ∈ q, ¬ isNegotiate op) →
        (run P cfg ver c (before ++ .sendAuthenticate rnd junk :: q)).state = .authenticateSent n ch m := by
      intro q
      induction q using snocRec with
      | nil =>
        intro _
        rw [run_snoc, e]
        simp only [step, sendAuthenticate_eq, hm, serialize_of_enc (enc_authenticate cfg m hfm)]
        rfl
      | snoc q op ih =>
        intro hq'
        have ih := ih (fun o ho => hq' o (by simp [ho]))
        have e1 : before ++ Op.sendAuthenticate rnd junk :: (q ++ [op]) =
            (before ++ .sendAuthenticate rnd junk :: q) ++ [op] := by simp
        rw [e1, run_snoc]
        obtain ⟨s', b', e'⟩ := run_reset P cfg ver c (before ++ .sendAuthenticate rnd junk :: q)
        rw [e'] at ih ⊢
        have ih : s' = _ := ih
        subst ih
        cases op with
        | sendNegociate j => exact absurd ⟨j, rfl⟩ (hq' (.sendNegociate j) (by simp))
        | recvChallenge ch' => rfl
        | sendAuthenticate rnd' j =>
          simp only [step, sendAuthenticate_eq]
          split
          · rfl
          · split <;> rfl
    exact key after hq
  · rw [← authenticateMessage_session P cfg ver rnd c _ _ b0 [] rfl]
    exact hm

end Ntlm
