import Verif.Lemmas.Des
import Verif.Props.Server
/-
  C85: an answer fits the challenge it was made for.
-/
namespace Ntlm

open Spec Client

theorem isDesl_injective {P : Prims} (hP : desInjective P) {k r : List UInt8} {d d' : Bytes 8} (h : isDesl P k d r)
    (h' : isDesl P k d' r) : d = d' := by
  obtain ⟨c1, c2, c3, h1, _, _, hr⟩ := h
  obtain ⟨c1', c2', c3', h1', _, _, hr'⟩ := h'
  have hlen : ∀ {k d c}, isDes P k d c → c.length = 8 := by
    rintro k d c ⟨e, _, rfl⟩; exact (P.desBlock e d).property
  have e : c1 = c1' := by
    rw [hr, List.append_assoc, List.append_assoc] at hr'
    exact (List.append_inj hr' (by rw [hlen h1, hlen h1'])).1
  subst e
  have h2 : isDes P (k.take 7) d c1 := h1
  obtain ⟨e, he, hc⟩ := h1
  have h3 : isDes P (k.take 7) d' (P.desBlock e d').val := ⟨e, he, rfl⟩
  have := isDes_unique h3 h1'
  exact hP e d d' (Subtype.ext (by rw [this, hc]))

namespace Props

/-! ### C85 -/

/-- C85: DES, which the crate is linked with, never encrypts two blocks to the same under one key. -/
theorem C85_des : desInjective Prims.std := fun k x y h => Cipher.desBlock_injective k x y h

/-- C85: without extended session security (19), a server that knows the NT hash accepts an NTLMv1 message for the challenge it
    answers and for no other. -/
theorem C85_plain (P : Prims) (hP : desInjective P) (cm : CaseMap) (cfg : Cfg) (ver : UInt32) (hver : isV1 ver) (l : Login)
    (h : List Op) (ch : Challenge) (h19 : ¬ bit ch.negotiateFlags 19) (rnd : AuthRand) (b : List UInt8)
    (hb : Answers P cm cfg ver l h ch rnd b) (server : Bytes 8) :
    verifiesNtlmv1 P (P.md4 (utf16le l.password)) server b ↔ server = ch.serverChallenge := by
  have hacc := C56_v1_accepted P cm cfg ver hver l h ch rnd b hb
  constructor
  · intro hv
    have hx : ¬ flagAt b 60 19 := by
      rw [C38_v1 P cm cfg ver hver l h ch rnd b hb 19]; simpa using h19
    rcases hacc with ⟨hf, _⟩ | ⟨_, h1⟩
    · exact absurd hf hx
    · rcases hv with ⟨hf, _⟩ | ⟨_, h2⟩
      · exact absurd hf hx
      · exact isDesl_injective hP h2 h1
  · rintro rfl; exact hacc

/-- C85: with extended session security it accepts it for exactly the challenges that, followed by the client's nonce, have the same
    first eight bytes of MD5. -/
theorem C85_extended (P : Prims) (hP : desInjective P) (cm : CaseMap) (cfg : Cfg) (ver : UInt32) (hver : isV1 ver) (l : Login)
    (h : List Op) (ch : Challenge) (h19 : bit ch.negotiateFlags 19) (rnd : AuthRand) (b : List UInt8)
    (hb : Answers P cm cfg ver l h ch rnd b) (server : Bytes 8) :
    verifiesNtlmv1 P (P.md4 (utf16le l.password)) server b ↔
      (P.md5 (server.val ++ rnd.clientChallenge.val)).val.take 8 =
        (P.md5 (ch.serverChallenge.val ++ rnd.clientChallenge.val)).val.take 8 := by
  have hx : flagAt b 60 19 := by
    rw [C38_v1 P cm cfg ver hver l h ch rnd b hb 19]; simpa using h19
  obtain ⟨lmHash, nt, lm, sbk, ⟨_, hk⟩, _, hnt, hlm⟩ := C56_v1_responses P cm cfg ver hver l h ch rnd b hb
  rcases hk with ⟨_, ⟨d, hd, hr⟩, hl⟩ | ⟨hx', _⟩
  · have h12 : (fieldBytes b 12).take 8 = rnd.clientChallenge.val := by
      rw [hlm.1, hl, List.take_left' rnd.clientChallenge.property]
    rw [verifiesNtlmv1, h12, hnt.1, ← hd]
    constructor
    · rintro (⟨_, d', hd', hr'⟩ | ⟨hf, _⟩)
      · rw [← hd', isDesl_injective hP hr' hr]
      · exact absurd hx hf
    · intro e
      exact .inl ⟨hx, d, e.symm, hr⟩
  · exact absurd h19 hx'

/-- C85: the LM response of level 0 is accepted, by a server that knows the LM hash, for the challenge it answers and for no other. -/
theorem C85_lm (P : Prims) (hP : desInjective P) (cm : CaseMap) (cfg : Cfg) (l : Login) (ha : ascii l.password) (h : List Op)
    (ch : Challenge) (h19 : ¬ bit ch.negotiateFlags 19) (rnd : AuthRand) (b : List UInt8)
    (hb : Answers P cm cfg 0 l h ch rnd b) (lmHash : Bytes 16) (hh : isLmHash P (lmPassword l.password) lmHash.val)
    (server : Bytes 8) : verifiesLmv1 P lmHash server b ↔ server = ch.serverChallenge := by
  have h1 := (C56_v1_lm P cm cfg 0 (by simp [isV1]) l h ch h19 rnd b hb).1 rfl ha lmHash hh
  constructor
  · intro h2; exact isDesl_injective hP h2 h1
  · rintro rfl; exact h1

/-- C85: the LM response of an NTLMv2 message is accepted, by a server that knows the NTLMv2 hash, for exactly the challenges that,
    followed by the client's nonce, have the same HMAC-MD5 under that hash. -/
theorem C85_lmv2 (P : Prims) (cm : CaseMap) (cfg : Cfg) (ver : UInt32) (hver : isV2 ver) (l : Login) (h : List Op)
    (ch : Challenge) (rnd : AuthRand) (b : List UInt8) (hb : Answers P cm cfg ver l h ch rnd b) (server : Bytes 8) :
    verifiesLmv2 P (Spec.ntlmv2Hash P cm l) server b ↔
      P.hmacMd5 (Spec.ntlmv2Hash P cm l).val (server.val ++ rnd.clientChallenge.val) =
        P.hmacMd5 (Spec.ntlmv2Hash P cm l).val (ch.serverChallenge.val ++ rnd.clientChallenge.val) := by
  have h12 := (C29_lmv2_partial P cm cfg ver hver l h ch rnd b hb).1
  rw [verifiesLmv2, h12]
  constructor
  · rintro ⟨client, _, e⟩
    have := List.append_inj e (by rw [(P.hmacMd5 _ _).property, (P.hmacMd5 _ _).property])
    rw [← this.2] at this
    exact (Subtype.ext this.1).symm
  · intro e
    exact ⟨_, rnd.clientChallenge.property, by rw [e]⟩

/-- With the primitives the crate is linked with, answers to two challenges: neither answers the other. -/
example (cm : CaseMap) (cfg : Cfg) : ∃ b, Answers Prims.std cm cfg 2 exLogin (exHistory plainChallenge) plainChallenge exRand b ∧
    ∀ server, server ≠ plainChallenge.serverChallenge →
      ¬ verifiesNtlmv1 Prims.std (Prims.std.md4 (utf16le exLogin.password)) server b := by
  have h19 : ¬ bit plainChallenge.negotiateFlags 19 := by simp only [bit]; decide
  obtain ⟨b, hb⟩ := exAnswers_v1' Prims.std cm cfg 2 (by simp [isV1]) plainChallenge exRand
  exact ⟨b, hb, fun server hs hv => hs ((C85_plain _ C85_des cm cfg 2 (by simp [isV1]) _ _ _ h19 _ b hb server).mp hv)⟩

/-- The same for the LM response of level 0. -/
example (cm : CaseMap) (cfg : Cfg) : ∃ b, Answers Prims.std cm cfg 0 exLogin (exHistory plainChallenge) plainChallenge exRand b ∧
    ∀ lmHash : Bytes 16, isLmHash Prims.std (lmPassword exLogin.password) lmHash.val → ∀ server,
      server ≠ plainChallenge.serverChallenge → ¬ verifiesLmv1 Prims.std lmHash server b := by
  have h19 : ¬ bit plainChallenge.negotiateFlags 19 := by simp only [bit]; decide
  obtain ⟨b, hb⟩ := exAnswers_v1' Prims.std cm cfg 0 (by simp [isV1]) plainChallenge exRand
  exact ⟨b, hb, fun lmHash hh server hs hv =>
    hs ((C85_lm _ C85_des cm cfg exLogin (by simp [ascii, exLogin]) _ _ h19 _ b hb lmHash hh server).mp hv)⟩

/-- With extended session security, and at level 3. -/
example (cm : CaseMap) (cfg : Cfg) : ∃ b b', Answers Prims.std cm cfg 1 exLogin (exHistory exChallenge) exChallenge exRand b ∧
    Answers Prims.std cm cfg 3 exLogin (exHistory exChallenge) exChallenge exRand b' ∧
    verifiesNtlmv1 Prims.std (Prims.std.md4 (utf16le exLogin.password)) exChallenge.serverChallenge b ∧
    verifiesLmv2 Prims.std (Spec.ntlmv2Hash Prims.std cm exLogin) exChallenge.serverChallenge b' := by
  have h19 : bit exChallenge.negotiateFlags 19 := by simp only [bit]; decide
  obtain ⟨b, hb⟩ := exAnswers_v1 Prims.std cm cfg 1 (by simp [isV1])
  obtain ⟨b', hb'⟩ := exAnswers_v2 Prims.std cm cfg 3 (by simp [isV2])
  exact ⟨b, b', hb, hb', (C85_extended _ C85_des cm cfg 1 (by simp [isV1]) _ _ _ h19 _ b hb _).mpr rfl,
    (C85_lmv2 _ cm cfg 3 (by simp [isV2]) _ _ _ _ b' hb' _).mpr rfl⟩

end Props

end Ntlm
