import Verif.Lemmas.Writer
import Verif.Lemmas.Frame
import Verif.Props.Encoding
/-
  C69, C70: encoding into an arbitrary writer.
-/
namespace Ntlm.Props

open Spec Writer

theorem delivers_of {α : Type} [Wire α] [Encode α] [OnVec α] (cfg : Cfg) (x : α) (b : List UInt8)
    (hx : Enc cfg x b) (hc : Careful (encode cfg x)) (as : List Answer) (before : List UInt8) :
    Delivers b as before (run (encode cfg x) as before).1 (run (encode cfg x) as before).2 := by
  have h0 := hx []
  rw [← onVec, toVec_flat] at h0
  have hf : flat (encode cfg x) = (b, .ok b.length) := by
    revert h0
    rcases flat (encode cfg x) with ⟨c, r⟩
    cases r with
    | ok n => intro h0; simp at h0; simp [h0]
    | error e => intro h0; simp at h0
  obtain ⟨pre, h1, h2⟩ := run_careful _ hc as before
  rw [hf] at h2
  rw [h1]
  revert h2
  cases (run (encode cfg x) as before).1 with
  | ok n =>
    intro h2
    simp only [Prod.mk.injEq, Except.ok.injEq] at h2
    exact ⟨h2.2.symm, by rw [h2.1]⟩
  | panic e => intro h2; simp at h2
  | ioError => exact fun ⟨h, m, hm, hp⟩ => ⟨h, pre, m, hm, hp, rfl⟩
  | waiting => exact fun ⟨h, m, hm, hp⟩ => ⟨h, pre, m, hm, hp, rfl⟩

theorem refuses_of {α : Type} [Wire α] [Encode α] [OnVec α] (cfg : Cfg) (x : α) (k : Nat)
    (hx : ∃ p, Wire.serializeInto cfg x [] = .error p) (hc : Careful (encode cfg x)) (hk : PanicBy k (encode cfg x))
    (as : List Answer) (before : List UInt8) :
    Refuses k as before (run (encode cfg x) as before).1 (run (encode cfg x) as before).2 := by
  obtain ⟨p, h0⟩ := hx
  rw [← onVec, toVec_flat] at h0
  have hf : (flat (encode cfg x)).2 = .error p := by
    revert h0
    rcases flat (encode cfg x) with ⟨c, r⟩
    cases r with
    | ok n => intro h0; simp at h0
    | error e => intro h0; simp at h0; simp [h0]
  have hl := hk p hf
  obtain ⟨pre, h1, h2⟩ := run_careful _ hc as before
  rw [h1]
  revert h2
  generalize flat (encode cfg x) = r at hf hl
  rcases r with ⟨c, r⟩
  simp only at hf hl
  subst hf
  cases (run (encode cfg x) as before).1 with
  | ok n => intro h2; simp at h2
  | panic e =>
    intro h2
    simp only [Prod.mk.injEq] at h2
    exact ⟨⟨pre, rfl, h2.1 ▸ hl⟩, trivial⟩
  | ioError =>
    rintro ⟨h, m, hm, hp⟩
    refine ⟨⟨pre, rfl, ?_⟩, h⟩
    have := congrArg List.length hp
    simp only [List.length_append] at this
    omega
  | waiting =>
    rintro ⟨h, m, hm, hp⟩
    refine ⟨⟨pre, rfl, ?_⟩, Nat.lt_of_lt_of_le h hl⟩
    have := congrArg List.length hp
    simp only [List.length_append] at this
    omega

/-- A NEGOTIATE message whose texts fit, written to any writer. -/
theorem C69_negotiate (cfg : Cfg) (m : Negotiate) (h : negotiateFits m) (as : List Answer) (before : List UInt8) :
    Delivers (negotiateBytes m) as before
      (run (encode cfg m) as before).1 (run (encode cfg m) as before).2 :=
  delivers_of cfg m _ (enc_negotiate cfg m h) (careful_negotiate cfg m) as before

/-- A writer that takes five bytes, is interrupted and then fails gets the first five bytes of the message. -/
example : run (encode ⟨true, true, .unix⟩ exNegotiate) [.takes 5, .interrupted, .fails] [0xff] =
    (.ioError, 0xff :: (negotiateBytes exNegotiate).take 5) := by decide +kernel

/-- A writer that stops answering inside the payload. -/
example : run (encode ⟨false, false, .windows⟩ exNegotiate)
    [.takes 8, .takes 4, .takes 4, .takes 2, .takes 2, .takes 4, .takes 2, .takes 2, .takes 4, .takes 9] [] =
    (.waiting, (negotiateBytes exNegotiate).take 41) := by decide +kernel

/-- A CHALLENGE message that fits, written to any writer. -/
theorem C69_challenge (cfg : Cfg) (m : Challenge) (h : challengeFits m) (as : List Answer) (before : List UInt8) :
    Delivers (challengeBytes m) as before
      (run (encode cfg m) as before).1 (run (encode cfg m) as before).2 :=
  delivers_of cfg m _ (enc_challenge cfg m h) (careful_challenge cfg m) as before

example (cfg : Cfg) (as : List Answer) : Delivers (challengeBytes exChallenge) as []
    (run (encode cfg exChallenge) as []).1 (run (encode cfg exChallenge) as []).2 :=
  C69_challenge cfg _ exChallenge_fits as []

/-- An AUTHENTICATE message that fits, written to any writer. -/
theorem C69_authenticate (cfg : Cfg) (m : Authenticate) (h : authenticateFits m) (as : List Answer)
    (before : List UInt8) :
    Delivers (authenticateBytes m) as before
      (run (encode cfg m) as before).1 (run (encode cfg m) as before).2 :=
  delivers_of cfg m _ (enc_authenticate cfg m h) (careful_authenticate cfg m) as before

example (cfg : Cfg) (as : List Answer) : Delivers (authenticateBytes exAuthenticate) as []
    (run (encode cfg exAuthenticate) as []).1 (run (encode cfg exAuthenticate) as []).2 :=
  C69_authenticate cfg _ exAuthenticate_fits as []

/-- A NEGOTIATE message that does not fit. -/
theorem C69_negotiate_refused (cfg : Cfg) (m : Negotiate) (h : ¬ negotiateFits m) (as : List Answer)
    (before : List UInt8) :
    Refuses 32 as before (run (encode cfg m) as before).1 (run (encode cfg m) as before).2 :=
  refuses_of cfg m 32 ⟨_, negotiate_err cfg m h []⟩ (careful_negotiate cfg m) (panicBy_negotiate cfg m) as before

/-- A domain of 65536 letters. -/
example (cfg : Cfg) (as : List Answer) :
    let m : Negotiate := { exNegotiate with domainName := some ⟨List.replicate 65536 'a'⟩ }
    Refuses 32 as [] (run (encode cfg m) as []).1 (run (encode cfg m) as []).2 := by
  refine C69_negotiate_refused cfg _ ?_ as []
  intro h
  have := h.1 (List.replicate 65536 'a') rfl
  rw [utf8_replicate] at this
  omega

/-- A CHALLENGE message that does not fit. -/
theorem C69_challenge_refused (cfg : Cfg) (m : Challenge) (h : ¬ challengeFits m) (as : List Answer)
    (before : List UInt8) :
    Refuses 48 as before (run (encode cfg m) as before).1 (run (encode cfg m) as before).2 :=
  refuses_of cfg m 48 ((challenge_err cfg m h []).imp fun _ hp => hp.1) (careful_challenge cfg m)
    (panicBy_challenge cfg m) as before

/-- A target name of 65536 bytes. -/
example (cfg : Cfg) (as : List Answer) :
    let m : Challenge := { exChallenge with targetName := some ⟨List.replicate 32768 'a'⟩ }
    Refuses 48 as [] (run (encode cfg m) as []).1 (run (encode cfg m) as []).2 := by
  refine C69_challenge_refused cfg _ ?_ as []
  intro h
  have := h.1 (List.replicate 32768 'a') rfl
  rw [utf16le_replicate] at this
  omega

/-- An AUTHENTICATE message that does not fit. -/
theorem C69_authenticate_refused (cfg : Cfg) (m : Authenticate) (h : ¬ authenticateFits m) (as : List Answer)
    (before : List UInt8) :
    Refuses 64 as before (run (encode cfg m) as before).1 (run (encode cfg m) as before).2 :=
  refuses_of cfg m 64 ((authenticate_err cfg m h []).imp fun _ hp => hp.1) (careful_authenticate cfg m)
    (panicBy_authenticate cfg m) as before

/-- A user name of 65536 bytes. -/
example (cfg : Cfg) (as : List Answer) :
    let m : Authenticate := { exAuthenticate with user := some ⟨List.replicate 32768 'a'⟩ }
    Refuses 64 as [] (run (encode cfg m) as []).1 (run (encode cfg m) as []).2 := by
  refine C69_authenticate_refused cfg _ ?_ as []
  intro h
  have := h.2.2.1 (List.replicate 32768 'a') rfl
  rw [utf16le_replicate] at this
  omega

/-- A writer that never gives up and answers often enough gets the whole message, and success is reported. -/
theorem C69_completes (encoding : List UInt8) (as : List Answer) (before : List UInt8) (o : Outcome Nat)
    (after : List UInt8) (h : Delivers encoding as before o after) (hno : ∀ a ∈ as, ¬ stops a)
    (henough : encoding.length ≤ useful as) :
    o = .ok encoding.length ∧ after = before ++ encoding := by
  cases o with
  | ok n => exact ⟨by rw [h.1], h.2⟩
  | ioError =>
    obtain ⟨⟨a, ha, hs⟩, _⟩ := h
    exact absurd hs (hno a ha)
  | waiting => exact absurd h.1 (by omega)
  | panic p => exact h.elim

/-- One byte at a time, with an interruption before each. -/
example (cfg : Cfg) :
    let as := (List.replicate 47 [Answer.interrupted, .takes 1]).flatten
    run (encode cfg exNegotiate) as [] = (.ok 47, negotiateBytes exNegotiate) := by
  intro as
  have h := C69_completes _ as [] _ _ (C69_negotiate cfg exNegotiate exNegotiate_fits as [])
    (by
      intro a ha
      obtain ⟨l, hl, hal⟩ := List.mem_flatten.1 ha
      rw [(List.mem_replicate.1 hl).2] at hal
      rcases List.mem_cons.1 hal with h | h
      · subst h; exact id
      · rw [List.mem_singleton.1 h]; simp [stops])
    (by decide +kernel)
  have hl : (negotiateBytes exNegotiate).length = 47 := by decide
  exact Prod.ext (by rw [h.1, hl]) h.2

/-- On a `Vec` the encoders of this section are those of the rest of the model. -/
theorem C69_on_vec (cfg : Cfg) :
    (∀ m : Negotiate, toVec (encode cfg m) = Wire.serializeInto cfg m) ∧
    (∀ m : Challenge, toVec (encode cfg m) = Wire.serializeInto cfg m) ∧
    (∀ m : Authenticate, toVec (encode cfg m) = Wire.serializeInto cfg m) ∧
    (∀ c : Ntv2Challenge, toVec (encode cfg c) = Wire.serializeInto cfg c) ∧
    (∀ l : List AvPair, toVec (encode cfg l) = Wire.serializeInto cfg l) :=
  ⟨onVec cfg, onVec cfg, onVec cfg, onVec cfg, onVec cfg⟩

example (cfg : Cfg) : toVec (encode cfg exNegotiate) [] = .ok (47, negotiateBytes exNegotiate) := by
  rw [(C69_on_vec cfg).1]
  rfl

/-! ### Attribute pairs written directly -/

theorem careful_avPair (cfg : Cfg) (p : AvPair) (h : textOf p = none) : Careful (encode cfg p) := by
  refine careful_bind trivial fun _ => careful_bind ?_ fun _ => trivial
  cases p <;> first | trivial | simp [textOf] at h

theorem careful_avLoop (cfg : Cfg) (l : List AvPair) (h : ∀ p ∈ l, textOf p = none) (n : Nat) :
    Careful (encodeVecLoop cfg l n) := by
  induction l generalizing n with
  | nil => trivial
  | cons p l ih =>
    exact careful_bind (careful_avPair cfg p (h p (by simp))) fun _ => ih (fun p hp => h p (by simp [hp])) _

theorem careful_ntv2 (cfg : Cfg) (c : Ntv2Challenge) (h : ∀ p ∈ c.targetInfos, textOf p = none) :
    Careful (encode cfg c) := by
  refine careful_bind trivial fun _ => careful_bind trivial fun _ => careful_bind trivial fun _ =>
    careful_bind trivial fun _ => careful_bind trivial fun _ => careful_bind trivial fun _ =>
    careful_bind trivial fun _ => ?_
  dsimp only
  split
  · trivial
  · exact careful_bind (careful_avLoop cfg _ h 0) fun _ => trivial

theorem small_ntv2 (cfg : Cfg) (c : Ntv2Challenge) : SmallWrites (encode cfg c) := by
  refine small_bind trivial fun _ => small_bind trivial fun _ => small_bind trivial fun _ =>
    small_bind trivial fun _ => small_bind trivial fun _ => small_bind trivial fun _ =>
    small_bind trivial fun _ => ?_
  dsimp only
  split
  · trivial
  · exact small_bind (small_vecLoop cfg (small_avPair cfg) _ 0) fun _ => trivial

theorem flat_of_enc {α : Type} [Wire α] [Encode α] [OnVec α] {cfg : Cfg} {x : α} {b : List UInt8}
    (hx : Enc cfg x b) : flat (encode cfg x) = (b, .ok b.length) := by
  have h0 := hx []
  rw [← onVec, toVec_flat] at h0
  revert h0
  rcases flat (encode cfg x) with ⟨c, r⟩
  cases r with
  | ok n => intro h0; simp at h0; simp [h0]
  | error e => intro h0; simp at h0

theorem full_of {α : Type} [Wire α] [Encode α] [OnVec α] (cfg : Cfg) (x : α) (b : List UInt8)
    (hx : Enc cfg x b) (hc : SmallWrites (encode cfg x)) (as : List Answer)
    (hfull : ∀ n, .takes n ∈ as → 65536 ≤ n) (before : List UInt8) :
    ∃ got, (run (encode cfg x) as before).2 = before ++ got ∧ got <+: b ∧
      (∀ p, (run (encode cfg x) as before).1 ≠ .panic p) ∧
      ∀ n, (run (encode cfg x) as before).1 = .ok n → n = b.length ∧ got = b := by
  obtain ⟨pre, h1, h2⟩ := run_small _ hc as hfull before
  rw [flat_of_enc hx] at h2
  refine ⟨pre, h1, ?_⟩
  revert h2
  cases (run (encode cfg x) as before).1 with
  | ok n =>
    intro h2
    simp only [Prod.mk.injEq, Except.ok.injEq] at h2
    exact ⟨by rw [h2.1]; exact List.prefix_refl _, by simp, fun k hk => by cases hk; exact ⟨h2.2.symm, h2.1.symm⟩⟩
  | panic e => intro h2; simp at h2
  | ioError => exact fun h => ⟨h, by simp, by simp⟩
  | waiting => exact fun h => ⟨h, by simp, by simp⟩

/-- Pairs without a text, written to any writer. -/
theorem C70_no_text_partial (cfg : Cfg) (l : List AvPair) (h : ∀ p ∈ l, textOf p = none) (as : List Answer)
    (before : List UInt8) :
    Delivers (avListBytes l) as before (run (encode cfg l) as before).1 (run (encode cfg l) as before).2 := by
  refine delivers_of cfg l _ (enc_avList cfg l ?_) (careful_avLoop cfg l h 0) as before
  intro p hp
  have := h p hp
  cases p <;>
    first
    | simp [textOf] at this; done
    | simp [avPairFits, avValueBytes, fileTimeBytes, singleHostBytes]; done
    | (rename_i d; simp [avPairFits, avValueBytes, singleHostBytes, d.customData.property, d.machineId.property]; done)
    | (rename_i b; simp [avPairFits, avValueBytes, b.property])

example : ∀ p ∈ ([.flags ⟨true, false, true⟩, .timestamp ⟨5, 7⟩, .channelBindings (Bytes.zero 16), .eol] : List AvPair),
    textOf p = none := by decide

/-- Any pairs that fit, written to a writer that takes at least 64 KiB whenever it takes something (such as a `Vec`):
    success means that everything has arrived, and otherwise only the end is missing. -/
theorem C70_pairs_partial (cfg : Cfg) (l : List AvPair) (h : ∀ p ∈ l, avPairFits p) (as : List Answer)
    (hfull : ∀ n, .takes n ∈ as → 65536 ≤ n) (before : List UInt8) :
    ∃ got, (run (encode cfg l) as before).2 = before ++ got ∧ got <+: avListBytes l ∧
      (∀ p, (run (encode cfg l) as before).1 ≠ .panic p) ∧
      ∀ n, (run (encode cfg l) as before).1 = .ok n → n = (avListBytes l).length ∧ got = avListBytes l :=
  full_of cfg l _ (enc_avList cfg l h) (small_vecLoop cfg (small_avPair cfg) l 0) as hfull before

/-- What a `Vec` answers. -/
example : (∀ p ∈ exChallenge.targetInfos, avPairFits p) ∧
    ∀ n, Answer.takes n ∈ List.replicate 12 (Answer.takes 65536) → 65536 ≤ n :=
  ⟨exChallenge_fits.2.1, fun n hn => by simp at hn; omega⟩

example : run (encode ⟨true, true, .unix⟩ exChallenge.targetInfos) (List.replicate 12 (.takes 65536)) [] =
    (.ok 26, avListBytes exChallenge.targetInfos) := by decide +kernel

/-- The same for an NTLMv2 response. -/
theorem C70_response_partial (cfg : Cfg) (c : Ntv2Challenge) (h : ∀ p ∈ c.targetInfos, avPairFits p)
    (as : List Answer) (hfull : ∀ n, .takes n ∈ as → 65536 ≤ n) (before : List UInt8) :
    ∃ got, (run (encode cfg c) as before).2 = before ++ got ∧ got <+: ntv2Bytes c ∧
      (∀ p, (run (encode cfg c) as before).1 ≠ .panic p) ∧
      ∀ n, (run (encode cfg c) as before).1 = .ok n → n = (ntv2Bytes c).length ∧ got = ntv2Bytes c :=
  full_of cfg c _ (enc_ntv2 cfg c h) (small_ntv2 cfg c) as hfull before

example : ∀ p ∈ (⟨⟨5, 7⟩, Bytes.zero 8, exChallenge.targetInfos⟩ : Ntv2Challenge).targetInfos, avPairFits p :=
  exChallenge_fits.2.1

/-- The exact effect of a short write: the pair's length word announces the whole text, `n` bytes of it
    arrive, and the call reports success. -/
theorem C70_short_write (cfg : Cfg) (p : AvPair) (s : Str) (hs : textOf p = some s)
    (hfit : (utf16le s).length ≤ 65535) (n : Nat) (before : List UInt8) :
    run (encode cfg p) [.takes 2, .takes 2, .takes n] before =
      (.ok (4 + min n (utf16le s).length),
       before ++ le 2 (avIdValue p) ++ le 2 (utf16le s).length ++ (utf16le s).take n) := by
  have key : ∀ (id : UInt16), run (Writer.writeU16 id >>= fun a => Writer.encodeString s >>= fun b => pure (a + b))
      [.takes 2, .takes 2, .takes n] before =
      (.ok (4 + min n (utf16le s).length),
       before ++ le 2 id.toNat ++ le 2 (utf16le s).length ++ (utf16le s).take n) := by
    intro id
    have hl : (u16sAsBytes (encodeUtf16 s)).length < 65536 := by rw [u16sAsBytes_encodeUtf16]; omega
    have he : (UInt16.ofNat (utf16le s).length).toNat = (utf16le s).length := by simp; omega
    simp only [Writer.encodeString, hl, if_true]
    rw [u16sAsBytes_encodeUtf16]
    simp only [Writer.writeU16, Writer.writeLen, Writer.writeAll, Writer.write, prog_bind_eq, Prog.bind, prog_pure_eq, run, he, le_eq, leBytes,
      writeAllLoop]
    simp [writeAllLoop, run]
    omega
  have hid := avId_toU16 p
  have hb : encodeBody cfg p = Writer.encodeString s := by
    cases p <;> simp [textOf] at hs <;> subst hs <;> rfl
  show run (Writer.writeU16 p.getId.toU16 >>= fun a => encodeBody cfg p >>= fun b => pure (a + b)) _ _ = _
  rw [hb, key, hid]

/-- Success can be reported for a pair that has not arrived. -/
theorem C70_refuted : ∃ (p : AvPair) (as : List Answer), avPairFits p ∧
    ∀ cfg, (run (encode cfg p) as []).1 = .ok 6 ∧ (run (encode cfg p) as []).2 ≠ avPairBytes p ∧
      (avPairBytes p).length = 10 := by
  refine ⟨.nbDomainName ['D', 'O', 'M'], [.takes 2, .takes 2, .takes 2], by simp only [avPairFits]; decide, fun cfg => ?_⟩
  rw [C70_short_write cfg _ ['D', 'O', 'M'] rfl (by decide)]
  exact ⟨by decide, by decide, by decide⟩

end Ntlm.Props
