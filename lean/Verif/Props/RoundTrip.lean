import Verif.Lemmas.Frame
import Verif.Lemmas.DecodeChal
/-
  C01, C02, C03: the three messages survive encoding and decoding.
-/
namespace Ntlm.Props

open Spec

/-! ### Sample messages -/

theorem plainOf {s : Str} (h : s.all plainChar = true) : plain s := List.all_eq_true.mp h

/-- A NEGOTIATE message with a domain, a workstation outside ASCII and a version. -/
def exNegotiate : Negotiate :=
  { negotiateFlags := ⟨0x62093237⟩, domainName := some ⟨"DOM".toList⟩, workstation := some ⟨"Zoë".toList⟩,
    version := some ⟨10, 0, 19041, 15⟩ }

theorem exNegotiate_ok : negotiateOk exNegotiate := by
  refine ⟨⟨by decide, ?_⟩, by simp [notEmptyText, exNegotiate], by simp [notEmptyText, exNegotiate]⟩
  intro x hx
  simp only [exNegotiate, Option.some.injEq] at hx
  rw [← hx]

theorem exNegotiate_fits : negotiateFits exNegotiate := by
  constructor <;> intro x hx <;> simp [exNegotiate] at hx <;> subst hx <;> decide

/-- A CHALLENGE message with a terminated list. -/
def exChallenge : Challenge :=
  { targetName := some ⟨"SRV".toList⟩, negotiateFlags := ⟨0x628a8215⟩, serverChallenge := ⟨[1, 2, 3, 4, 5, 6, 7, 8], rfl⟩,
    targetInfos := [.nbDomainName "DOM".toList, .timestamp ⟨5, 7⟩, .eol], version := some ⟨6, 1, 7600, 15⟩ }

theorem exChallenge_ok (cfg : Cfg) : challengeOk cfg exChallenge := by
  refine ⟨⟨by decide, ?_⟩, ?_, Or.inr rfl, ?_⟩
  · intro x hx
    simp only [exChallenge, Option.some.injEq] at hx
    rw [← hx]
  · intro x hx
    simp only [exChallenge, Option.map_some, Option.some.injEq] at hx
    subst hx
    exact ⟨by decide, plainOf (by decide)⟩
  · intro p hp
    simp only [exChallenge, List.mem_cons, List.not_mem_nil, or_false] at hp
    rcases hp with h | h | h <;> subst h
    · exact plainOf (by decide)
    · cases hc : cfg.platform <;> simp [pairOk, timeOk, fileTimeValue, Platform.maxSecs, hc]
    · trivial

theorem exChallenge_fits : challengeFits exChallenge := by
  refine ⟨?_, ?_, by decide⟩
  · intro x hx; simp [exChallenge] at hx; subst hx; decide
  · intro p hp
    simp only [exChallenge, List.mem_cons, List.not_mem_nil, or_false] at hp
    rcases hp with h | h | h <;> subst h <;> simp only [avPairFits] <;> decide

/-- An AUTHENTICATE message with an NTLMv2 response. -/
def exAuthenticate : Authenticate :=
  { lmChallengeResponse := some (.v2 ⟨Bytes.zero 16, Bytes.zero 8⟩),
    ntChallengeResponse := some (.v2 ⟨⟨5, 7⟩, Bytes.zero 8, exChallenge.targetInfos⟩),
    domain := some ⟨"DOM".toList⟩, user := some ⟨"user".toList⟩, workstation := none,
    encryptedRandomSessionKey := some (Bytes.zero 16), negotiateFlags := ⟨0x40800005⟩, version := none,
    mic := Bytes.zero 16, exportedSessionKey := some (Bytes.zero 16) }

theorem exAuthenticate_ok (cfg : Cfg) : authenticateOk cfg exAuthenticate := by
  refine ⟨⟨by decide, by simp [exAuthenticate]⟩, rfl, ⟨?_, (exChallenge_ok cfg).2.2.2⟩, ?_, ?_, ?_, by decide⟩
  · cases hc : cfg.platform <;> simp [timeOk, fileTimeValue, Platform.maxSecs, hc]
  all_goals
    intro x hx
    simp [exAuthenticate] at hx
  all_goals
    subst hx
    exact ⟨by decide, plainOf (by decide)⟩

theorem exAuthenticate_fits : authenticateFits exAuthenticate := by
  refine ⟨?_, ?_, ?_, ?_⟩
  · intro c hc
    simp only [exAuthenticate, Option.some.injEq] at hc
    subst hc
    exact ⟨exChallenge_fits.2.1, by decide⟩
  all_goals
    intro x hx
    simp [exAuthenticate] at hx
  all_goals
    subst hx
    decide

/-! ### The theorems -/

/-- C01: decoding the encoding of a NEGOTIATE message gives the message back (and consumes everything) exactly when it is
    well formed. -/
theorem C01_negotiate_roundtrip (cfg : Cfg) (m : Negotiate) (b : List UInt8) (henc : Wire.serialize cfg m = .ok b) :
    (Wire.deserialize cfg : Parser Negotiate) b = .ok (m, []) ↔ negotiateOk m := by
  obtain ⟨hf, rfl⟩ := (serialize_negotiate cfg m b).mp henc
  exact negotiate_roundtrip cfg m hf

/-- The sample message survives; with a present but empty domain it would not (the domain reads back as absent). -/
example (cfg : Cfg) : ∃ b, Wire.serialize cfg exNegotiate = .ok b ∧
    (Wire.deserialize cfg : Parser Negotiate) b = .ok (exNegotiate, []) :=
  have h := (serialize_negotiate cfg exNegotiate _).mpr ⟨exNegotiate_fits, rfl⟩
  ⟨_, h, (C01_negotiate_roundtrip cfg _ _ h).mpr exNegotiate_ok⟩

example (cfg : Cfg) (b : List UInt8) (h : Wire.serialize cfg { exNegotiate with domainName := some ⟨[]⟩ } = .ok b) :
    (Wire.deserialize cfg : Parser Negotiate) b ≠ .ok ({ exNegotiate with domainName := some ⟨[]⟩ }, []) :=
  fun e => ((C01_negotiate_roundtrip cfg _ _ h).mp e).2.1 rfl

/-- C02: the same for CHALLENGE, in every build configuration. -/
theorem C02_challenge_roundtrip (cfg : Cfg) (m : Challenge) (b : List UInt8) (henc : Wire.serialize cfg m = .ok b) :
    (Wire.deserialize cfg : Parser Challenge) b = .ok (m, []) ↔ challengeOk cfg m := by
  obtain ⟨hf, rfl⟩ := (serialize_challenge cfg m b).mp henc
  exact challenge_roundtrip cfg m hf

example (cfg : Cfg) : ∃ b, Wire.serialize cfg exChallenge = .ok b ∧
    (Wire.deserialize cfg : Parser Challenge) b = .ok (exChallenge, []) :=
  have h := (serialize_challenge cfg exChallenge _).mpr ⟨exChallenge_fits, rfl⟩
  ⟨_, h, (C02_challenge_roundtrip cfg _ _ h).mpr (exChallenge_ok cfg)⟩

/-- C03: the same for AUTHENTICATE, apart from the exported session key, which stays local. -/
theorem C03_authenticate_roundtrip (cfg : Cfg) (m : Authenticate) (b : List UInt8)
    (henc : Wire.serialize cfg m = .ok b) :
    (Wire.deserialize cfg : Parser Authenticate) b = .ok ({ m with exportedSessionKey := none }, []) ↔
      authenticateOk cfg m := by
  obtain ⟨hf, rfl⟩ := (serialize_authenticate cfg m b).mp henc
  exact authenticate_roundtrip cfg m hf

example (cfg : Cfg) : ∃ b, Wire.serialize cfg exAuthenticate = .ok b ∧
    (Wire.deserialize cfg : Parser Authenticate) b = .ok ({ exAuthenticate with exportedSessionKey := none }, []) :=
  have h := (serialize_authenticate cfg exAuthenticate _).mpr ⟨exAuthenticate_fits, rfl⟩
  ⟨_, h, (C03_authenticate_roundtrip cfg _ _ h).mpr (exAuthenticate_ok cfg)⟩

/-- C01: two well-formed messages with the same encoding are equal. -/
theorem C01_negotiate_injective (cfg : Cfg) (m m' : Negotiate) (b : List UInt8) (h : Wire.serialize cfg m = .ok b)
    (h' : Wire.serialize cfg m' = .ok b) (hok : negotiateOk m) (hok' : negotiateOk m') : m = m' := by
  have h1 := (C01_negotiate_roundtrip cfg m b h).mpr hok
  have h2 := (C01_negotiate_roundtrip cfg m' b h').mpr hok'
  rw [h1] at h2
  cases h2
  rfl

/-- Any message with the encoding of the sample is the sample. -/
example (cfg : Cfg) (m : Negotiate) (h : Wire.serialize cfg m = .ok (negotiateBytes exNegotiate)) (hm : negotiateOk m) :
    m = exNegotiate :=
  C01_negotiate_injective cfg m exNegotiate _ h ((serialize_negotiate cfg _ _).mpr ⟨exNegotiate_fits, rfl⟩) hm exNegotiate_ok

/-- C02: the same for CHALLENGE. -/
theorem C02_challenge_injective (cfg : Cfg) (m m' : Challenge) (b : List UInt8) (h : Wire.serialize cfg m = .ok b)
    (h' : Wire.serialize cfg m' = .ok b) (hok : challengeOk cfg m) (hok' : challengeOk cfg m') : m = m' := by
  have h1 := (C02_challenge_roundtrip cfg m b h).mpr hok
  have h2 := (C02_challenge_roundtrip cfg m' b h').mpr hok'
  rw [h1] at h2
  cases h2
  rfl

example (cfg : Cfg) (m : Challenge) (h : Wire.serialize cfg m = .ok (challengeBytes exChallenge)) (hm : challengeOk cfg m) :
    m = exChallenge :=
  C02_challenge_injective cfg m exChallenge _ h ((serialize_challenge cfg _ _).mpr ⟨exChallenge_fits, rfl⟩) hm (exChallenge_ok cfg)

/-- C03: encoding loses nothing but the exported session key: two well-formed messages with the same encoding are equal. -/
theorem C03_authenticate_injective (cfg : Cfg) (m m' : Authenticate) (b : List UInt8)
    (h : Wire.serialize cfg m = .ok b) (h' : Wire.serialize cfg m' = .ok b)
    (hok : authenticateOk cfg m) (hok' : authenticateOk cfg m') :
    { m with exportedSessionKey := none } = { m' with exportedSessionKey := none } := by
  have h1 := (C03_authenticate_roundtrip cfg m b h).mpr hok
  have h2 := (C03_authenticate_roundtrip cfg m' b h').mpr hok'
  rw [h1] at h2
  simpa using h2

example (cfg : Cfg) (m : Authenticate) (h : Wire.serialize cfg m = .ok (authenticateBytes exAuthenticate))
    (hm : authenticateOk cfg m) : { m with exportedSessionKey := none } = { exAuthenticate with exportedSessionKey := none } :=
  C03_authenticate_injective cfg m exAuthenticate _ h ((serialize_authenticate cfg _ _).mpr ⟨exAuthenticate_fits, rfl⟩) hm
    (exAuthenticate_ok cfg)

end Ntlm.Props
