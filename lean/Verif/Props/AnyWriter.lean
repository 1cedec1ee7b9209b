import Verif.Lemmas.AnyWriter
import Verif.Props.Writer
/-
  C96: encoding into a writer with code of its own.
-/
namespace Ntlm.Props

open Spec Writer

/-- A NEGOTIATE message that fits: its encoding, cut into ten pieces, is given to `write_all` piece by piece; success is
    reported, with the length, when all have been taken, and otherwise the first error comes back as it is. -/
theorem C96_negotiate (cfg : Cfg) (m : Negotiate) (h : negotiateFits m) {σ ε : Type} (w : Object σ ε) (s : σ) :
    drive w (encode cfg m) s = offer w (.ok (negotiateBytes m).length) (cut negotiateSizes (negotiateBytes m)) s :=
  drive_of cfg m _ _ (enc_negotiate cfg m h) (careful_negotiate cfg m) (sizesEnd_negotiate cfg m) w s

/-- A CHALLENGE message that fits: twelve pieces. -/
theorem C96_challenge (cfg : Cfg) (m : Challenge) (h : challengeFits m) {σ ε : Type} (w : Object σ ε) (s : σ) :
    drive w (encode cfg m) s = offer w (.ok (challengeBytes m).length) (cut challengeSizes (challengeBytes m)) s :=
  drive_of cfg m _ _ (enc_challenge cfg m h) (careful_challenge cfg m) (sizesEnd_challenge cfg m) w s

/-- An AUTHENTICATE message that fits: twenty-two pieces. -/
theorem C96_authenticate (cfg : Cfg) (m : Authenticate) (h : authenticateFits m) {σ ε : Type} (w : Object σ ε) (s : σ) :
    drive w (encode cfg m) s = offer w (.ok (authenticateBytes m).length) (cut authenticateSizes (authenticateBytes m)) s :=
  drive_of cfg m _ _ (enc_authenticate cfg m h) (careful_authenticate cfg m) (sizesEnd_authenticate cfg m) w s

/-- The pieces are the encoding, in order, whatever the sizes. -/
theorem C96_pieces (ns : List Nat) (b : List UInt8) : (cut ns b).flatten = b := by
  induction ns generalizing b with
  | nil => simp [cut]
  | cons n ns ih => simp only [cut, List.flatten_cons, ih, List.take_append_drop]

example : (cut negotiateSizes (negotiateBytes exNegotiate)).length = 10 ∧
    (cut challengeSizes (challengeBytes exChallenge)).length = 12 ∧
    (cut authenticateSizes (authenticateBytes exAuthenticate)).length = 22 := by decide +kernel

/-- The recorder gets the ten pieces of the message. -/
example (cfg : Cfg) : drive recorder (encode cfg exNegotiate) [] =
    (.ok 47, cut negotiateSizes (negotiateBytes exNegotiate)) := by
  rw [C96_negotiate cfg _ exNegotiate_fits]
  rfl

/-- A writer whose error is a number: it takes three pieces and then fails with 7. -/
def failing : Object Nat Nat where
  writeAll s _ := if s < 3 then (.ok (), s + 1) else (.err 7, s)
  write s _ := (.panics, s)

example (cfg : Cfg) : drive failing (encode cfg exChallenge) 0 = (.err 7, 3) := by
  rw [C96_challenge cfg _ exChallenge_fits]
  rfl

/-- Any message that does not fit: there are pieces of at most the header's length that are given to `write_all`, and if
    all have been taken the encoder panics.  No writer makes it succeed. -/
theorem C96_refused (cfg : Cfg) :
    (∀ m : Negotiate, ¬ negotiateFits m → ∃ ps p, ps.flatten.length ≤ 32 ∧ ∀ {σ ε : Type} (w : Object σ ε) (s : σ),
      drive w (encode cfg m) s = offer w (.panic p) ps s) ∧
    (∀ m : Challenge, ¬ challengeFits m → ∃ ps p, ps.flatten.length ≤ 48 ∧ ∀ {σ ε : Type} (w : Object σ ε) (s : σ),
      drive w (encode cfg m) s = offer w (.panic p) ps s) ∧
    (∀ m : Authenticate, ¬ authenticateFits m → ∃ ps p, ps.flatten.length ≤ 64 ∧ ∀ {σ ε : Type} (w : Object σ ε) (s : σ),
      drive w (encode cfg m) s = offer w (.panic p) ps s) :=
  ⟨fun m h => drive_refuses cfg m 32 ⟨_, negotiate_err cfg m h []⟩ (careful_negotiate cfg m) (panicBy_negotiate cfg m),
   fun m h => drive_refuses cfg m 48 ((challenge_err cfg m h []).imp fun _ hp => hp.1) (careful_challenge cfg m)
    (panicBy_challenge cfg m),
   fun m h => drive_refuses cfg m 64 ((authenticate_err cfg m h []).imp fun _ hp => hp.1) (careful_authenticate cfg m)
    (panicBy_authenticate cfg m)⟩

/-- A domain of 65536 letters, with the recorder: a panic. -/
example (cfg : Cfg) : ∃ p, (drive recorder (encode cfg { exNegotiate with domainName := some ⟨List.replicate 65536 'a'⟩ }) []).1 =
    .panic p := by
  obtain ⟨ps, p, _, h⟩ := (C96_refused cfg).1 { exNegotiate with domainName := some ⟨List.replicate 65536 'a'⟩ } (by
    intro hf
    have h1 := hf.1 (List.replicate 65536 'a') rfl
    rw [utf8_replicate] at h1
    omega)
  refine ⟨p, ?_⟩
  rw [h]
  have hr : ∀ ps s, (offer recorder (.panic p) ps s).1 = .panic p := by
    intro ps
    induction ps with
    | nil => intro s; rfl
    | cons q qs ih => intro s; exact ih _
  exact hr _ _

/-- Success is reported only with the length of the encoding, and only if the writer has said of every piece that it has
    taken it: what a writer with a `write_all` of its own says last is what is reported. -/
theorem C96_reports {σ ε : Type} (w : Object σ ε) (n : Nat) (ps : List (List UInt8)) (s : σ) :
    match offer w (.ok n) ps s with
    | (.ok k, _) => k = n ∧ ∀ i (h : i < ps.length), ∃ s₁ s₂, w.writeAll s₁ ps[i] = (.ok (), s₂)
    | (.err e, s') => ∃ i, ∃ (_ : i < ps.length) (s₁ : σ), w.writeAll s₁ ps[i] = (.err e, s')
    | (.panic _, _) => False
    | (.writerPanics, s') => ∃ i, ∃ (_ : i < ps.length) (s₁ : σ), w.writeAll s₁ ps[i] = (.panics, s')
    | (.never, s') => ∃ i, ∃ (_ : i < ps.length) (s₁ : σ), w.writeAll s₁ ps[i] = (.never, s') := by
  induction ps generalizing s with
  | nil => exact ⟨rfl, fun i h => absurd h (Nat.not_lt_zero i)⟩
  | cons q qs ih =>
    unfold offer
    rcases hq : w.writeAll s q with ⟨⟨⟩ | e | _ | _, s'⟩
    · have ih := ih s'
      simp only
      revert ih
      rcases offer w (.ok n) qs s' with ⟨k | e | p | _ | _, s''⟩
      · rintro ⟨h1, h2⟩
        refine ⟨h1, fun i h => ?_⟩
        cases i with
        | zero => exact ⟨s, s', hq⟩
        | succ i => exact h2 i (Nat.lt_of_succ_lt_succ h)
      · rintro ⟨i, h, s₁, h1⟩
        exact ⟨i + 1, Nat.succ_lt_succ h, s₁, h1⟩
      · exact id
      · rintro ⟨i, h, s₁, h1⟩
        exact ⟨i + 1, Nat.succ_lt_succ h, s₁, h1⟩
      · rintro ⟨i, h, s₁, h1⟩
        exact ⟨i + 1, Nat.succ_lt_succ h, s₁, h1⟩
    · exact ⟨0, Nat.zero_lt_succ _, s, hq⟩
    · exact ⟨0, Nat.zero_lt_succ _, s, hq⟩
    · exact ⟨0, Nat.zero_lt_succ _, s, hq⟩

/-- The writers of C69 and C70 are among these. -/
theorem C96_stock (p : Prog Nat) (as : List Answer) (got : List UInt8) :
    run p as got = (asOutcome (drive stock p (as, got)).1, (drive stock p (as, got)).2.2) := by
  induction p generalizing as got with
  | done a => rfl
  | panic p => rfl
  | writeAll bs k ih =>
    obtain ⟨pre, _, _, h3⟩ := loop_spec bs as got
    simp only [run, drive, stock]
    revert h3
    rcases writeAllLoop bs as got with ⟨o | _ | _ | _, as', got'⟩ <;> intro h3
    · exact ih as' got'
    · rfl
    · exact h3.elim
    · rfl
  | write bs k ih =>
    cases as with
    | nil => rfl
    | cons a as =>
      cases a with
      | takes n => exact ih _ as _
      | interrupted => rfl
      | fails => rfl

example (cfg : Cfg) : (drive stock (encode cfg exNegotiate) ([.takes 8, .interrupted, .takes 3], [])).2.2 =
    (negotiateBytes exNegotiate).take 11 := by
  rw [C96_negotiate cfg _ exNegotiate_fits]
  decide +kernel

/-- A text pair given to a writer directly: the value goes through `write`, once, and whatever number that returns is added to
    what is reported, even if it is larger than the text.  (Numbers near 2^64, for which the addition overflows, are left out.) -/
theorem C96_pair (cfg : Cfg) (p : AvPair) (s : Str) (hs : textOf p = some s) (hfit : (utf16le s).length ≤ 65535)
    {σ ε : Type} (w : Object σ ε) (t t₁ t₂ t₃ : σ) (n : Nat) (_hn : 4 + n < 2 ^ 64)
    (h1 : w.writeAll t (le 2 (avIdValue p)) = (.ok (), t₁))
    (h2 : w.writeAll t₁ (le 2 (utf16le s).length) = (.ok (), t₂))
    (h3 : w.write t₂ (utf16le s) = (.ok n, t₃)) : drive w (encode cfg p) t = (.ok (4 + n), t₃) := by
  have hl : (u16sAsBytes (encodeUtf16 s)).length < 65536 := by rw [u16sAsBytes_encodeUtf16]; omega
  have he : (UInt16.ofNat (utf16le s).length).toNat = (utf16le s).length := by simp; omega
  have hb : encodeBody cfg p = Writer.encodeString s := by
    cases p <;> simp [textOf] at hs <;> subst hs <;> rfl
  show drive w (Writer.writeU16 p.getId.toU16 >>= fun a => encodeBody cfg p >>= fun b => pure (a + b)) t = _
  rw [hb]
  rw [le_eq] at h1 h2
  rw [← avId_toU16 p] at h1
  simp only [Writer.encodeString, hl, if_true]
  rw [u16sAsBytes_encodeUtf16]
  simp only [Writer.writeU16, Writer.writeLen, Writer.writeAll, Writer.write, prog_bind_eq, Prog.bind, prog_pure_eq, drive, he,
    h1, h2, h3, length_leBytes]
  congr 2
  omega

/-- A writer that says it has taken a hundred bytes: 104 is reported for a pair of ten bytes. -/
example (cfg : Cfg) : drive (⟨fun s _ => (.ok (), s), fun s _ => (.ok 100, s)⟩ : Object Unit Unit)
    (encode cfg (AvPair.nbDomainName ['D', 'O', 'M'])) () = (.ok 104, ()) :=
  C96_pair cfg _ ['D', 'O', 'M'] rfl (by decide) _ () () () () 100 (by decide) rfl rfl rfl

end Ntlm.Props
