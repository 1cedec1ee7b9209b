import Verif.Props.Server
import Verif.Props.Decode
import Verif.Spec.Offer
/-
  C89: what the answer of a client claims, compared with what the client offered.
-/
namespace Ntlm.Props
open Spec Client

/-- The flags of a negotiate message, read from its bytes. -/
theorem offers_flag {P : Prims} {cm : CaseMap} {cfg : Cfg} {ver : UInt32} {l : Login} {nb : List UInt8}
    (hn : Offers P cm cfg ver l nb) (k : Nat) : flagAt nb 12 k ↔ k ∈ advertised ver ∨ (k = 12 ∧ l.domain ≠ []) := by
  obtain ⟨c, h, junk, hc, hb⟩ := hn
  obtain ⟨n, hd, hf, _⟩ := C36_negotiate P cm cfg ver l c hc h junk nb hb cfg
  obtain ⟨_, _, hbits, _⟩ := (C51_negotiate_contents cfg nb n []).mp hd
  rw [flagAt_bit hbits.symm]
  exact hf k

theorem advertised_v2 {ver : UInt32} (hver : isV2 ver) : advertised ver = [0, 1, 2, 4, 5, 15, 17, 29, 19, 30, 23] := by
  have h0 : ver ≠ 0 := by rintro rfl; exact absurd hver.1 (by decide)
  have h1 : ver ≠ 1 := by rintro rfl; exact absurd hver.1 (by decide)
  simp only [advertised, if_neg h0, if_neg h1]
  rfl

theorem exOffers (P : Prims) (cm : CaseMap) (cfg : Cfg) (ver : UInt32) (hv : ver.toNat ≤ 5) :
    ∃ nb, Offers P cm cfg ver exLogin nb := by
  obtain ⟨c, hc⟩ := exLogin_created P cm
  obtain ⟨n, h1, h2⟩ := (negotiable_iff P cm exLogin c hc ver).mp (exLogin_negotiable ver hv)
  refine ⟨negotiateBytes n, c, [], [], hc, ?_⟩
  simp only [resultOf, step, run, List.foldl_nil, sendNegociate_eq, h1, (serialize_negotiate cfg n _).mpr ⟨h2, rfl⟩]

/-- C89, levels 3 to 5: the answer claims only what was offered, whatever the server asked for. -/
theorem C89_v2_partial (P : Prims) (cm : CaseMap) (cfg : Cfg) (ver : UInt32) (hver : isV2 ver) (l : Login) (h : List Op) (ch : Challenge)
    (rnd : AuthRand) (nb b : List UInt8) (hn : Offers P cm cfg ver l nb) (hb : Answers P cm cfg ver l h ch rnd b) :
    claimsOnlyOffered nb b := by
  intro k hk
  rw [offers_flag hn, advertised_v2 hver]
  rcases (C38_v2 P cm cfg ver hver l h ch rnd b hb k).mp hk with rfl | rfl | rfl | rfl <;> simp

example (P : Prims) (cm : CaseMap) (cfg : Cfg) : ∃ nb b, Offers P cm cfg 3 exLogin nb ∧
    Answers P cm cfg 3 exLogin (exHistory exChallenge) exChallenge exRand b := by
  obtain ⟨nb, hn⟩ := exOffers P cm cfg 3 (by decide)
  obtain ⟨b, hb⟩ := exAnswers_v2 P cm cfg 3 (by simp [isV2])
  exact ⟨nb, b, hn, hb⟩

/-- C89, level 2: the answer claims only what was offered exactly if the server set no flag that was not offered. -/
theorem C89_level2 (P : Prims) (cm : CaseMap) (cfg : Cfg) (l : Login) (h : List Op) (ch : Challenge)
    (rnd : AuthRand) (nb b : List UInt8) (hn : Offers P cm cfg 2 l nb) (hb : Answers P cm cfg 2 l h ch rnd b) :
    claimsOnlyOffered nb b ↔ serverWithin nb ch := by
  have hv : isV1 2 := by simp [isV1]
  constructor
  · intro hc k hk
    by_cases h1 : k = 1
    · subst h1; exact (offers_flag hn 1).mpr (.inl (by decide))
    · by_cases h17 : k = 17
      · subst h17; exact (offers_flag hn 17).mpr (.inl (by decide))
      · exact hc k ((C38_v1 P cm cfg 2 hv l h ch rnd b hb k).mpr (.inr (.inr (.inr ⟨h1, h17, hk⟩))))
  · intro hc k hk
    rcases (C38_v1 P cm cfg 2 hv l h ch rnd b hb k).mp hk with rfl | rfl | rfl | ⟨_, _, h3⟩
    · exact (offers_flag hn _).mpr (.inl (by decide))
    · exact (offers_flag hn _).mpr (.inl (by decide))
    · exact (offers_flag hn _).mpr (.inl (by decide))
    · exact hc k h3

/-- A server that stays within the offer, and one that does not (VERSION, 25). -/
example (P : Prims) (cm : CaseMap) (cfg : Cfg) : ∃ nb b b' ch ch', Offers P cm cfg 2 exLogin nb ∧
    Answers P cm cfg 2 exLogin (exHistory ch) ch exRand b ∧ claimsOnlyOffered nb b ∧
    Answers P cm cfg 2 exLogin (exHistory ch') ch' exRand b' ∧ ¬ claimsOnlyOffered nb b' := by
  obtain ⟨nb, hn⟩ := exOffers P cm cfg 2 (by decide)
  obtain ⟨b, hb⟩ := exAnswers_v1' P cm cfg 2 (by simp [isV1]) { plainChallenge with negotiateFlags := ⟨0x40080011⟩ } exRand
  obtain ⟨b', hb'⟩ := exAnswers_v1' P cm cfg 2 (by simp [isV1]) { plainChallenge with negotiateFlags := ⟨0x42080011⟩ } exRand
  refine ⟨nb, b, b', _, _, hn, hb, (C89_level2 P cm cfg _ _ _ _ nb b hn hb).mpr ?_, hb',
    fun hc => ?_⟩
  · intro k hk
    rw [offers_flag hn]
    left
    have hlt : k < 32 := by
      apply Classical.byContradiction
      intro hge
      simp only [bit] at hk
      rw [Nat.testBit_lt_two_pow (Nat.lt_of_lt_of_le (by decide : _ < 2 ^ 32) (Nat.pow_le_pow_right (by decide) (by omega)))] at hk
      exact absurd hk (by decide)
    revert hk
    simp only [bit]
    revert k
    decide
  · have := (C89_level2 P cm cfg _ _ _ _ nb b' hn hb').mp hc 25 (by simp only [bit]; decide)
    rw [offers_flag hn] at this
    rcases this with h | ⟨h, _⟩ <;> revert h <;> decide

/-- C89, levels 0 and 1: every answer claims TARGET_INFO (23), which these levels never offer; at level 1 also KEY_EXCH (30). -/
theorem C89_never (P : Prims) (cm : CaseMap) (cfg : Cfg) (ver : UInt32) (hver : ver.toNat ≤ 1) (l : Login) (h : List Op)
    (ch : Challenge) (rnd : AuthRand) (nb b : List UInt8) (hn : Offers P cm cfg ver l nb)
    (hb : Answers P cm cfg ver l h ch rnd b) :
    (flagAt b 60 23 ∧ ¬ flagAt nb 12 23) ∧ (ver = 1 → flagAt b 60 30 ∧ ¬ flagAt nb 12 30) ∧ ¬ claimsOnlyOffered nb b := by
  have hv : isV1 ver := by simp only [isV1]; omega
  have e : ver = 0 ∨ ver = 1 := by
    rcases Nat.le_one_iff_eq_zero_or_eq_one.mp hver with h | h
    · exact .inl (UInt32.toNat_inj.mp h)
    · exact .inr (UInt32.toNat_inj.mp h)
  have h23 : flagAt b 60 23 := (C38_v1 P cm cfg ver hv l h ch rnd b hb 23).mpr (.inr (.inl rfl))
  have n23 : ¬ flagAt nb 12 23 := by
    rw [offers_flag hn]
    rcases e with rfl | rfl <;> · rintro (h | ⟨h, _⟩) <;> revert h <;> decide
  refine ⟨⟨h23, n23⟩, ?_, fun hc => n23 (hc 23 h23)⟩
  rintro rfl
  refine ⟨(C38_v1 P cm cfg 1 hv l h ch rnd b hb 30).mpr (.inr (.inr (.inl rfl))), ?_⟩
  rw [offers_flag hn]
  rintro (h | ⟨h, _⟩) <;> revert h <;> decide

example (P : Prims) (cm : CaseMap) (cfg : Cfg) : ∃ nb b, Offers P cm cfg 1 exLogin nb ∧
    Answers P cm cfg 1 exLogin (exHistory plainChallenge) plainChallenge exRand b := by
  obtain ⟨nb, hn⟩ := exOffers P cm cfg 1 (by decide)
  obtain ⟨b, hb⟩ := exAnswers_v1' P cm cfg 1 (by simp [isV1]) plainChallenge exRand
  exact ⟨nb, b, hn, hb⟩

/-- C89: the property as first stated is false: a client at level 1 claims flags it did not offer; so does one at level 2 that
    is asked for a version block (25) it did not offer. -/
theorem C89_refuted (P : Prims) (cm : CaseMap) (cfg : Cfg) :
    (∃ l h ch rnd nb b, Offers P cm cfg 1 l nb ∧ Answers P cm cfg 1 l h ch rnd b ∧ ¬ claimsOnlyOffered nb b) ∧
    (∃ l h ch rnd nb b, Offers P cm cfg 2 l nb ∧ Answers P cm cfg 2 l h ch rnd b ∧ flagAt b 60 25 ∧ ¬ flagAt nb 12 25) := by
  constructor
  · obtain ⟨nb, hn⟩ := exOffers P cm cfg 1 (by decide)
    obtain ⟨b, hb⟩ := exAnswers_v1' P cm cfg 1 (by simp [isV1]) plainChallenge exRand
    exact ⟨_, _, _, _, nb, b, hn, hb, (C89_never P cm cfg 1 (by decide) _ _ _ _ nb b hn hb).2.2⟩
  · obtain ⟨nb, hn⟩ := exOffers P cm cfg 2 (by decide)
    obtain ⟨b, hb⟩ := exAnswers_v1' P cm cfg 2 (by simp [isV1]) { plainChallenge with negotiateFlags := ⟨0x02000001⟩ } exRand
    refine ⟨_, _, _, _, nb, b, hn, hb, (C38_v1 P cm cfg 2 (by simp [isV1]) _ _ _ _ b hb 25).mpr
      (.inr (.inr (.inr ⟨by decide, by decide, by simp only [bit]; decide⟩))), ?_⟩
    rw [offers_flag hn]
    rintro (h | ⟨h, _⟩) <;> revert h <;> decide

/-- C89: session security is the server's choice: a client at level 1 or 2 always offers EXTENDED_SESSIONSECURITY (19), claims it
    exactly if the server set it, and without it the NT response is the DES encryption of the server's challenge alone, so the
    same in every exchange. -/
theorem C89_downgrade (P : Prims) (cm : CaseMap) (cfg : Cfg) (ver : UInt32) (hver : ver = 1 ∨ ver = 2) (l : Login) (h : List Op)
    (ch : Challenge) (rnd : AuthRand) (nb b : List UInt8) (hn : Offers P cm cfg ver l nb)
    (hb : Answers P cm cfg ver l h ch rnd b) :
    flagAt nb 12 19 ∧ (flagAt b 60 19 ↔ bit ch.negotiateFlags 19) ∧
      (¬ bit ch.negotiateFlags 19 →
        ∃ nt, isDesl P (P.md4 (utf16le l.password)).val ch.serverChallenge nt ∧ fieldHolds b 20 nt) := by
  have hv : isV1 ver := by rcases hver with rfl | rfl <;> simp [isV1]
  refine ⟨(offers_flag hn 19).mpr (.inl (by rcases hver with rfl | rfl <;> decide)), ?_, ?_⟩
  · rw [C38_v1 P cm cfg ver hv l h ch rnd b hb 19]
    constructor
    · rintro (h | h | h | ⟨_, _, h⟩)
      · exact absurd h (by decide)
      · exact absurd h (by decide)
      · exact absurd h (by decide)
      · exact h
    · exact fun h => .inr (.inr (.inr ⟨by decide, by decide, h⟩))
  · intro h19
    obtain ⟨_, nt, _, _, ⟨_, hk⟩, _, hf, _⟩ := C56_v1_responses P cm cfg ver hv l h ch rnd b hb
    rcases hk with ⟨h, _⟩ | ⟨_, hd, _⟩
    · exact absurd h h19
    · exact ⟨nt, hd, hf⟩

/-- A server that did not set flag 19. -/
example (P : Prims) (cm : CaseMap) (cfg : Cfg) : ∃ nb b, Offers P cm cfg 2 exLogin nb ∧
    Answers P cm cfg 2 exLogin (exHistory plainChallenge) plainChallenge exRand b ∧ ¬ bit plainChallenge.negotiateFlags 19 := by
  obtain ⟨nb, hn⟩ := exOffers P cm cfg 2 (by decide)
  obtain ⟨b, hb⟩ := exAnswers_v1' P cm cfg 2 (by simp [isV1]) plainChallenge exRand
  exact ⟨nb, b, hn, hb, by simp only [bit]; decide⟩

end Ntlm.Props
