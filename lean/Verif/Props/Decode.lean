import Verif.Lemmas.Locality
import Verif.Props.RoundTrip
/-
  C07, C08, C13, C47, C48, C51: decoding untrusted bytes.
-/
namespace Ntlm.Props

open Spec

/-! ### C07: when does decoding abort? -/

/-- 40 bytes of NEGOTIATE whose domain field claims one byte at offset 255. -/
def badNegotiate : List UInt8 :=
  ntlmssp ++ [1, 0, 0, 0] ++ [0, 0, 0, 0] ++ [1, 0, 1, 0, 255, 0, 0, 0] ++ [0, 0, 0, 0, 0, 0, 0, 0] ++ [0, 0, 0, 0, 0, 0, 0, 0]

/-- 56 bytes of CHALLENGE whose target-name field claims one byte at offset 255. -/
def badChallenge : List UInt8 :=
  ntlmssp ++ [2, 0, 0, 0] ++ [1, 0, 1, 0, 255, 0, 0, 0] ++ [0, 0, 0, 0] ++ [1, 2, 3, 4, 5, 6, 7, 8] ++
    [0, 0, 0, 0, 0, 0, 0, 0] ++ [0, 0, 0, 0, 0, 0, 0, 0]

/-- A CHALLENGE whose only AV pair is a timestamp with 9 value bytes, all descriptors in range. -/
def longValueChallenge : List UInt8 :=
  ntlmssp ++ [2, 0, 0, 0] ++ [0, 0, 0, 0, 0, 0, 0, 0] ++ [0, 0, 0, 0] ++ [1, 2, 3, 4, 5, 6, 7, 8] ++
    [0, 0, 0, 0, 0, 0, 0, 0] ++ [13, 0, 13, 0, 48, 0, 0, 0] ++ [7, 0, 9, 0, 0, 0, 0, 0, 0, 0, 0, 0, 0]

/-- 80 bytes of AUTHENTICATE whose LM field claims one byte at offset 255. -/
def badAuthenticate : List UInt8 :=
  ntlmssp ++ [3, 0, 0, 0] ++ [1, 0, 1, 0, 255, 0, 0, 0] ++ List.replicate 60 0

/-- C07: decoding NEGOTIATE bytes aborts the process exactly in the cases of `negotiateAborts`: a valid header whose domain or
    workstation descriptor points outside the input. -/
theorem C07_negotiate_panics_iff (cfg : Cfg) (i : List UInt8) :
    panics ((Wire.deserialize cfg : Parser Negotiate) i) ↔ negotiateAborts i := negotiate_panics cfg i

example : negotiateAborts badNegotiate := by
  refine ⟨⟨by decide, by decide, by decide⟩, fun h => absurd h (by simp only [flagAt]; decide), .inl ?_⟩
  simp only [outOfRange]; decide
/-- The sample message does not abort the decoder. -/
example (cfg : Cfg) : ¬ negotiateAborts (negotiateBytes exNegotiate) := fun h => by
  obtain ⟨p, hp⟩ := (C07_negotiate_panics_iff cfg _).mpr h
  rw [(negotiate_roundtrip cfg exNegotiate exNegotiate_fits).mpr exNegotiate_ok] at hp
  cases hp

/-- C07: the same for CHALLENGE; a debug build also aborts on an AV pair whose value is longer than its content. -/
theorem C07_challenge_panics_iff (cfg : Cfg) (i : List UInt8) :
    panics ((Wire.deserialize cfg : Parser Challenge) i) ↔ challengeAborts cfg i := challenge_panics cfg i

example (cfg : Cfg) : challengeAborts cfg badChallenge := by
  refine ⟨⟨⟨by decide, by decide, by decide⟩, fun _ => by decide⟩, fun h => absurd h (by simp only [flagAt]; decide), .inl ?_⟩
  simp only [outOfRange]; decide
example (cfg : Cfg) : ¬ challengeAborts cfg (challengeBytes exChallenge) := fun h => by
  obtain ⟨p, hp⟩ := (C07_challenge_panics_iff cfg _).mpr h
  rw [(challenge_roundtrip cfg exChallenge exChallenge_fits).mpr (exChallenge_ok cfg)] at hp
  cases hp

/-- C07: the same for AUTHENTICATE. -/
theorem C07_authenticate_panics_iff (cfg : Cfg) (i : List UInt8) :
    panics ((Wire.deserialize cfg : Parser Authenticate) i) ↔ authenticateAborts cfg i := authenticate_panics cfg i

example (cfg : Cfg) : authenticateAborts cfg badAuthenticate := by
  refine ⟨⟨by decide, by decide, by decide⟩, fun h => absurd h (by simp only [flagAt]; decide), by decide, .inl ?_⟩
  simp only [outOfRange]; decide
example (cfg : Cfg) : ¬ authenticateAborts cfg (authenticateBytes exAuthenticate) := fun h => by
  obtain ⟨p, hp⟩ := (C07_authenticate_panics_iff cfg _).mpr h
  rw [(authenticate_roundtrip cfg exAuthenticate exAuthenticate_fits).mpr (exAuthenticate_ok cfg)] at hp
  cases hp

/-- C07, what holds of the full property (which is false, see `C07_refuted`): in a release build, an input whose
    descriptors all stay inside it decodes to a message or an error. -/
theorem C07_in_range_partial (cfg : Cfg) (hc : cfg.debug = false) (i : List UInt8) :
    ((∀ p ∈ [16, 24], ¬ outOfRange i p) → ¬ panics ((Wire.deserialize cfg : Parser Negotiate) i)) ∧
    ((∀ p ∈ [12, 40], ¬ outOfRange i p) → ¬ panics ((Wire.deserialize cfg : Parser Challenge) i)) ∧
    ((∀ p ∈ [12, 20, 28, 36, 44, 52], ¬ outOfRange i p) → ¬ panics ((Wire.deserialize cfg : Parser Authenticate) i)) := by
  refine ⟨?_, ?_, ?_⟩
  · intro h
    rw [C07_negotiate_panics_iff]
    rintro ⟨_, _, h1 | ⟨_, h1⟩⟩
    · exact h 16 (by simp) h1
    · exact h 24 (by simp) h1
  · intro h
    rw [C07_challenge_panics_iff]
    rintro ⟨_, _, h1 | h1 | ⟨h1, _⟩⟩
    · exact h 12 (by simp) h1
    · exact h 40 (by simp) h1
    · simp [hc] at h1
  · intro h
    rw [C07_authenticate_panics_iff]
    rintro ⟨_, _, _, h1 | h1 | ⟨h1, _⟩ | ⟨_, h1 | h1 | h1 | ⟨_, h1⟩⟩⟩
    · exact h 12 (by simp) h1
    · exact h 20 (by simp) h1
    · simp [hc] at h1
    · exact h 28 (by simp) h1
    · exact h 36 (by simp) h1
    · exact h 44 (by simp) h1
    · exact h 52 (by simp) h1

/-- The full C07 is false: for each message type some input aborts the decoder in every build, and a debug build aborts
    even on in-range descriptors. -/
theorem C07_refuted (cfg : Cfg) :
    panics ((Wire.deserialize cfg : Parser Negotiate) badNegotiate) ∧
    panics ((Wire.deserialize cfg : Parser Challenge) badChallenge) ∧
    panics ((Wire.deserialize cfg : Parser Authenticate) badAuthenticate) ∧
    (cfg.debug = true → panics ((Wire.deserialize cfg : Parser Challenge) longValueChallenge)) := by
  refine ⟨(C07_negotiate_panics_iff cfg _).mpr ?_, (C07_challenge_panics_iff cfg _).mpr ?_,
    (C07_authenticate_panics_iff cfg _).mpr ?_, fun hd => (C07_challenge_panics_iff cfg _).mpr ?_⟩
  · exact ⟨⟨by decide, by decide, by decide⟩, fun h => absurd h (by simp only [flagAt]; decide), .inl ⟨by decide, by decide⟩⟩
  · exact ⟨⟨⟨by decide, by decide, by decide⟩, fun _ => ⟨by decide, by decide⟩⟩,
      fun h => absurd h (by simp only [flagAt]; decide), .inl ⟨by decide, by decide⟩⟩
  · exact ⟨⟨by decide, by decide, by decide⟩, fun h => absurd h (by simp only [flagAt]; decide), by decide, .inl ⟨by decide, by decide⟩⟩
  · refine ⟨⟨⟨by decide, by decide, by decide⟩, fun _ => ⟨by decide, by decide⟩⟩,
      fun h => absurd h (by simp only [flagAt]; decide), .inr (.inr ⟨hd, by simp only [emptyField]; decide, ?_⟩)⟩
    refine .here (by decide) (by decide) (.inr (.inr (.inl ⟨by decide, by decide, ?_⟩)))
    exact Nat.le_trans (Nat.le_of_eq (by decide : _ = 0)) (Nat.zero_le _)

/-- The in-range theorem is not vacuous: a sample input that meets it (and decodes). -/
example : ∀ p ∈ [12, 40], ¬ outOfRange (challengeBytes exChallenge) p := by
  intro p hp
  simp only [List.mem_cons, List.not_mem_nil, or_false] at hp
  rcases hp with rfl | rfl <;> simp only [outOfRange] <;> decide

/-! ### C08: wrong headers -/

/-- C08: without the signature, the right message type or a complete header, decoding returns a parse error. -/
theorem C08_wrong_header (cfg : Cfg) (i : List UInt8) :
    ((i.length < 32 ∨ i.take 8 ≠ ntlmssp ∨ u32At i 8 ≠ 1) → (Wire.deserialize cfg : Parser Negotiate) i = .error .error) ∧
    ((i.length < 48 ∨ i.take 8 ≠ ntlmssp ∨ u32At i 8 ≠ 2) → (Wire.deserialize cfg : Parser Challenge) i = .error .error) ∧
    ((i.length < 80 ∨ i.take 8 ≠ ntlmssp ∨ u32At i 8 ≠ 3) →
      (Wire.deserialize cfg : Parser Authenticate) i = .error .error) := by
  refine ⟨fun h => negotiate_no cfg i ?_, fun h => challenge_no cfg i ?_, fun h => authenticate_no cfg i ?_⟩
  · rintro ⟨⟨h1, h2, h3⟩, _⟩
    rcases h with h | h | h
    · omega
    · exact h h2
    · exact h h3
  · rintro ⟨⟨⟨h1, h2, h3⟩, _⟩, _⟩
    rcases h with h | h | h
    · omega
    · exact h h2
    · exact h h3
  · rintro ⟨⟨h1, h2, h3⟩, _, h4⟩
    rcases h with h | h | h
    · omega
    · exact h h2
    · exact h h3

/-- A truncated NEGOTIATE message; a NEGOTIATE message taken for a CHALLENGE. -/
example (cfg : Cfg) : (Wire.deserialize cfg : Parser Negotiate) (badNegotiate.take 31) = .error .error :=
  (C08_wrong_header cfg _).1 (.inl (by decide))
example (cfg : Cfg) : (Wire.deserialize cfg : Parser Challenge) badNegotiate = .error .error :=
  (C08_wrong_header cfg _).2.1 (.inl (by decide))

/-- C08: hence no byte string is accepted as two different message types. -/
theorem C08_one_type (cfg : Cfg) (i : List UInt8) (n : Negotiate × List UInt8) (c : Challenge × List UInt8)
    (a : Authenticate × List UInt8) :
    ¬ ((Wire.deserialize cfg : Parser Negotiate) i = .ok n ∧ (Wire.deserialize cfg : Parser Challenge) i = .ok c) ∧
    ¬ ((Wire.deserialize cfg : Parser Negotiate) i = .ok n ∧ (Wire.deserialize cfg : Parser Authenticate) i = .ok a) ∧
    ¬ ((Wire.deserialize cfg : Parser Challenge) i = .ok c ∧ (Wire.deserialize cfg : Parser Authenticate) i = .ok a) := by
  obtain ⟨h1, h2, h3⟩ := C08_wrong_header cfg i
  refine ⟨?_, ?_, ?_⟩
  · rintro ⟨a1, a2⟩
    by_cases h : u32At i 8 = 1
    · rw [h2 (.inr (.inr (by omega)))] at a2; simp at a2
    · rw [h1 (.inr (.inr h))] at a1; simp at a1
  · rintro ⟨a1, a2⟩
    by_cases h : u32At i 8 = 1
    · rw [h3 (.inr (.inr (by omega)))] at a2; simp at a2
    · rw [h1 (.inr (.inr h))] at a1; simp at a1
  · rintro ⟨a1, a2⟩
    by_cases h : u32At i 8 = 2
    · rw [h3 (.inr (.inr (by omega)))] at a2; simp at a2
    · rw [h2 (.inr (.inr h))] at a1; simp at a1

/-- The sample challenge is accepted as a challenge, and so as nothing else. -/
example (cfg : Cfg) : (Wire.deserialize cfg : Parser Challenge) (challengeBytes exChallenge) = .ok (exChallenge, []) ∧
    ∀ n, (Wire.deserialize cfg : Parser Negotiate) (challengeBytes exChallenge) ≠ .ok n := by
  have h := (C02_challenge_roundtrip cfg exChallenge _ ((serialize_challenge cfg exChallenge _).mpr ⟨exChallenge_fits, rfl⟩)).mpr
    (exChallenge_ok cfg)
  exact ⟨h, fun n hn => (C08_one_type cfg _ n _ (exAuthenticate, [])).1 ⟨hn, h⟩⟩

/-! ### C51: what an accepted message contains -/

/-- C51: exactly which bytes are accepted as NEGOTIATE and what the result holds, by byte position. -/
theorem C51_negotiate_contents (cfg : Cfg) (i : List UInt8) (m : Negotiate) (r : List UInt8) :
    (Wire.deserialize cfg : Parser Negotiate) i = .ok (m, r) ↔
      r = [] ∧ hasHeader i 1 32 ∧ m.negotiateFlags.bits.toNat = u32At i 12 ∧ versionIs i 12 32 m.version ∧
        fieldIs i 16 oemIs m.domainName ∧ fieldIs i 24 oemIs m.workstation := negotiate_contents cfg i m r

/-- The sample message, read by position. -/
example (cfg : Cfg) : fieldIs (negotiateBytes exNegotiate) 24 oemIs (some ⟨"Zoë".toList⟩) :=
  ((C51_negotiate_contents cfg _ _ _).mp ((negotiate_roundtrip cfg exNegotiate exNegotiate_fits).mpr exNegotiate_ok)).2.2.2.2.2

/-- C51: the same for CHALLENGE. -/
theorem C51_challenge_contents (cfg : Cfg) (i : List UInt8) (m : Challenge) (r : List UInt8) :
    (Wire.deserialize cfg : Parser Challenge) i = .ok (m, r) ↔
      r = [] ∧ challengeHeader cfg i ∧ m.negotiateFlags.bits.toNat = u32At i 20 ∧
        m.serverChallenge.val = bytesAt i 24 8 ∧ versionIs i 20 48 m.version ∧
        fieldIs i 12 textIs m.targetName ∧ infosAre cfg i 40 m.targetInfos ∧
        (m.targetInfos = [] ∨ m.targetInfos.getLast? = some .eol) := challenge_contents cfg i m r

/-- C51: the same for AUTHENTICATE. -/
theorem C51_authenticate_contents (cfg : Cfg) (i : List UInt8) (m : Authenticate) (r : List UInt8) :
    (Wire.deserialize cfg : Parser Authenticate) i = .ok (m, r) ↔
      r = [] ∧ hasHeader i 3 64 ∧ m.negotiateFlags.bits.toNat = u32At i 60 ∧ versionIs i 60 64 m.version ∧
        m.mic.val = bytesAt i (64 + versionSize i 60) 16 ∧ lmIs i m.lmChallengeResponse ∧
        fieldIs i 20 (ntIs cfg) m.ntChallengeResponse ∧ fieldIs i 28 textIs m.domain ∧ fieldIs i 36 textIs m.user ∧
        fieldIs i 44 textIs m.workstation ∧ keyIs i m.encryptedRandomSessionKey ∧ m.exportedSessionKey = none :=
  authenticate_contents cfg i m r

example (cfg : Cfg) : fieldIs (authenticateBytes exAuthenticate) 36 textIs (some ⟨"user".toList⟩) :=
  ((C51_authenticate_contents cfg _ _ _).mp
    ((authenticate_roundtrip cfg exAuthenticate exAuthenticate_fits).mpr (exAuthenticate_ok cfg))).2.2.2.2.2.2.2.2.1

/-- A CHALLENGE message whose target name is one NUL unit, and which no encoder here would write: the reserved bytes are
    followed by two unused bytes and the descriptors' maximum lengths disagree with the lengths. -/
def oddChallenge : List UInt8 :=
  ntlmssp ++ [2, 0, 0, 0] ++ [2, 0, 9, 0, 50, 0, 0, 0] ++ [0, 0, 0, 0] ++ [1, 2, 3, 4, 5, 6, 7, 8] ++
    [0, 0, 0, 0, 0, 0, 0, 0] ++ [0, 0, 0, 0, 0, 0, 0, 0] ++ [77, 77] ++ [0, 0]

def oddChallengeRead : Challenge := ⟨some ⟨[]⟩, ⟨0⟩, ⟨[1, 2, 3, 4, 5, 6, 7, 8], rfl⟩, [], none⟩

theorem oddChallenge_accepted (cfg : Cfg) :
    (Wire.deserialize cfg : Parser Challenge) oddChallenge = .ok (oddChallengeRead, []) := by
  rw [C51_challenge_contents]
  refine ⟨rfl, ⟨⟨by decide, by decide, by decide⟩, fun _ => ⟨by decide, by decide⟩⟩, by decide, by decide,
    .inr ⟨by simp only [flagAt]; decide, rfl⟩, .inr ⟨by simp only [emptyField]; decide, ?_, _, rfl, ?_⟩,
    .inl ⟨by simp only [emptyField]; decide, rfl⟩, .inl rfl⟩
  · simp only [outOfRange]; decide
  · exact ⟨by intro c hc; simp at hc, [0, 0], by decide, .inr (.inl (by decide))⟩

/-- What C51 says about it: a target name that is present and empty. -/
example (cfg : Cfg) : fieldIs oddChallenge 12 textIs (some ⟨[]⟩) :=
  ((C51_challenge_contents cfg _ _ _).mp (oddChallenge_accepted cfg)).2.2.2.2.2.1

/-! ### C13: terminated target infos -/

/-- C13: an accepted CHALLENGE has no target infos, or a list ending with the terminator. -/
theorem C13_terminated (cfg : Cfg) (i : List UInt8) (m : Challenge) (r : List UInt8)
    (h : (Wire.deserialize cfg : Parser Challenge) i = .ok (m, r)) :
    m.targetInfos = [] ∨ ∃ l, m.targetInfos = l ++ [.eol] := by
  rcases ((C51_challenge_contents cfg i m r).mp h).2.2.2.2.2.2.2 with h | h
  · exact .inl h
  · obtain ⟨l, hl⟩ := List.getLast?_eq_some_iff.mp h
    exact .inr ⟨l, hl⟩

/-- A well-formed list inside an encoded message. -/
example (cfg : Cfg) : (Wire.deserialize cfg : Parser Challenge) (challengeBytes exChallenge) = .ok (exChallenge, []) ∧
    exChallenge.targetInfos = [.nbDomainName "DOM".toList, .timestamp ⟨5, 7⟩] ++ [.eol] :=
  ⟨(challenge_roundtrip cfg exChallenge exChallenge_fits).mpr (exChallenge_ok cfg), rfl⟩

/-- C13, the other direction: a list that is not terminated is refused, whatever else the message says. -/
theorem C13_unterminated_refused (cfg : Cfg) (i : List UInt8) (l : List AvPair) (hl : infosAre cfg i 40 l)
    (hne : l ≠ []) (hlast : l.getLast? ≠ some .eol) (m : Challenge) (r : List UInt8) :
    (Wire.deserialize cfg : Parser Challenge) i ≠ .ok (m, r) := by
  intro h
  obtain ⟨_, _, _, _, _, _, h1, h2⟩ := (C51_challenge_contents cfg i m r).mp h
  have e : m.targetInfos = l := by
    rw [← infosAre_iff] at h1 hl
    rw [h1] at hl
    simpa using hl
  rw [e] at h2
  rcases h2 with h2 | h2
  · exact hne h2
  · exact hlast h2

/-- A message with one flags pair and no terminator. -/
def unterminated : List UInt8 :=
  ntlmssp ++ [2, 0, 0, 0] ++ [0, 0, 0, 0, 0, 0, 0, 0] ++ [0, 0, 0, 0] ++ [1, 2, 3, 4, 5, 6, 7, 8] ++ [0, 0, 0, 0, 0, 0, 0, 0] ++
    [8, 0, 8, 0, 48, 0, 0, 0] ++ [6, 0, 4, 0, 2, 0, 0, 0]
example (m : Challenge) (r : List UInt8) : (Wire.deserialize ⟨false, false, .unix⟩ : Parser Challenge) unterminated ≠ .ok (m, r) := by
  refine C13_unterminated_refused _ _ [.flags ⟨false, true, false⟩] (.inr ⟨by simp only [emptyField]; decide, ?_, [], ?_⟩) (by simp) (by simp) m r
  · simp only [outOfRange]; decide
  · exact (many0_walk _ _ _ _).mp rfl

/-! ### C47: locality -/

/-- C47: the result of decoding a NEGOTIATE depends only on the length, the header with its version block, and the bytes the two
    descriptors refer to. -/
theorem C47_negotiate_local (cfg : Cfg) (i j : List UInt8) (hl : i.length = j.length)
    (h : i.take (32 + versionSize i 12) = j.take (32 + versionSize i 12))
    (hf : ∀ p ∈ [16, 24], fieldBytes i p = fieldBytes j p) :
    (Wire.deserialize cfg : Parser Negotiate) i = Wire.deserialize cfg j :=
  negotiate_local cfg i j hl h (hf 16 (by simp)) (hf 24 (by simp))

/-- Bytes between header and payload do not matter. -/
example (cfg : Cfg) :
    (Wire.deserialize cfg : Parser Negotiate) (ntlmssp ++ [1, 0, 0, 0, 0, 0, 0, 0, 1, 0, 1, 0, 33, 0, 0, 0, 0, 0, 0, 0, 0, 0, 0, 0, 7, 65]) =
      Wire.deserialize cfg (ntlmssp ++ [1, 0, 0, 0, 0, 0, 0, 0, 1, 0, 1, 0, 33, 0, 0, 0, 0, 0, 0, 0, 0, 0, 0, 0, 8, 65]) :=
  C47_negotiate_local cfg _ _ (by decide) (by decide) (by decide)

/-- C47: the same for CHALLENGE. -/
theorem C47_challenge_local (cfg : Cfg) (i j : List UInt8) (hl : i.length = j.length)
    (h : i.take (48 + versionSize i 20) = j.take (48 + versionSize i 20))
    (hf : ∀ p ∈ [12, 40], fieldBytes i p = fieldBytes j p) :
    (Wire.deserialize cfg : Parser Challenge) i = Wire.deserialize cfg j :=
  challenge_local cfg i j hl h (hf 12 (by simp)) (hf 40 (by simp))

/-- The two unused bytes of the message above do not matter. -/
example (cfg : Cfg) : (Wire.deserialize cfg : Parser Challenge)
    (oddChallenge.take 48 ++ [1, 2] ++ oddChallenge.drop 50) = .ok (oddChallengeRead, []) := by
  rw [← oddChallenge_accepted cfg]
  exact (C47_challenge_local cfg _ _ (by decide) (by decide) (by decide)).symm

/-- C47: the same for AUTHENTICATE (header, version block and MIC); the session-key range counts only with the KEY_EXCH
    flag. -/
theorem C47_authenticate_local (cfg : Cfg) (i j : List UInt8) (hl : i.length = j.length)
    (h : i.take (64 + versionSize i 60 + 16) = j.take (64 + versionSize i 60 + 16))
    (hf : ∀ p ∈ [12, 20, 28, 36, 44], fieldBytes i p = fieldBytes j p)
    (hk : flagAt i 60 30 → fieldBytes i 52 = fieldBytes j 52) :
    (Wire.deserialize cfg : Parser Authenticate) i = Wire.deserialize cfg j :=
  authenticate_local cfg i j hl h hf hk

/-- Nor does a session key without the KEY_EXCH flag. -/
example (cfg : Cfg) :
    (Wire.deserialize cfg : Parser Authenticate) (ntlmssp ++ [3, 0, 0, 0] ++ List.replicate 40 0 ++ [1, 0, 1, 0, 80, 0, 0, 0] ++
        [0, 0, 0, 0] ++ List.replicate 16 0 ++ [7]) =
      Wire.deserialize cfg (ntlmssp ++ [3, 0, 0, 0] ++ List.replicate 40 0 ++ [1, 0, 1, 0, 80, 0, 0, 0] ++
        [0, 0, 0, 0] ++ List.replicate 16 0 ++ [8]) :=
  C47_authenticate_local cfg _ _ (by decide) (by decide) (by decide) (fun h => absurd h (by simp only [flagAt]; decide))

/-! ### C48: re-encoding what was received -/

/-- A decoded CHALLENGE fits its own encoding. -/
theorem decoded_fits {cfg : Cfg} {i : List UInt8} {m : Challenge} {r : List UInt8}
    (h : (Wire.deserialize cfg : Parser Challenge) i = .ok (m, r)) :
    challengeFits m ∧ versionOk m.negotiateFlags m.version ∧ (∀ s, m.targetName = some s → plain s.s) ∧
      (m.targetInfos = [] ∨ m.targetInfos.getLast? = some .eol) ∧ ∀ p ∈ m.targetInfos, pairOk cfg p := by
  obtain ⟨_, hh, hf, _, hv, ht, hi, hlast⟩ := (C51_challenge_contents cfg i m r).mp h
  have hbl : ∀ p, (fieldBytes i p).length ≤ 65535 := by
    intro p
    have := u16At_lt i p
    simp only [fieldBytes, bytesAt, List.length_take]
    omega
  have hti : ∀ s, m.targetName = some s → plain s.s ∧ (utf16le s.s).length ≤ 65535 := by
    intro s hs
    rcases ht with ⟨_, h1⟩ | ⟨_, _, v, h1, h2, r, h3, _⟩
    · simp [hs] at h1
    · rw [hs] at h1
      simp only [Option.some.injEq] at h1
      subst h1
      refine ⟨h2, ?_⟩
      have := hbl 12
      rw [h3, List.length_append] at this
      omega
  have hin : (∀ p ∈ m.targetInfos, pairOk cfg p ∧ avPairFits p) ∧ (avListBytes m.targetInfos).length ≤ 65535 := by
    rcases hi with ⟨_, h1⟩ | ⟨_, _, r, h1⟩
    · simp [h1, avListBytes]
    · obtain ⟨h2, h3⟩ := walk_decoded h1
      have := hbl 40
      exact ⟨h2, by omega⟩
  refine ⟨⟨?_, fun p hp => (hin.1 p hp).2, hin.2⟩, ?_, fun s hs => (hti s hs).1, hlast, fun p hp => (hin.1 p hp).1⟩
  · intro x hx
    simp only [Option.map_eq_some_iff] at hx
    obtain ⟨s, hs, rfl⟩ := hx
    exact (hti s hs).2
  · simp only [versionOk, hf]
    rcases hv with ⟨h1, x, h2, h3, _⟩ | ⟨h1, h2⟩
    · refine ⟨?_, ?_⟩
      · rw [h2]
        simpa [flagAt] using h1
      · intro y hy
        rw [h2] at hy
        simp only [Option.some.injEq] at hy
        rw [← hy]; exact h3
    · refine ⟨?_, ?_⟩
      · rw [h2]
        simpa [flagAt] using h1
      · intro y hy
        rw [h2] at hy
        simp at hy

/-- C48: a received CHALLENGE can always be encoded again, and that encoding decodes to the same challenge, except that a
    target name that was present but read as empty becomes absent. -/
theorem C48_reencode_partial (cfg : Cfg) (i : List UInt8) (m : Challenge) (r : List UInt8)
    (h : (Wire.deserialize cfg : Parser Challenge) i = .ok (m, r)) :
    ∃ b, Wire.serialize cfg m = .ok b ∧
      (Wire.deserialize cfg : Parser Challenge) b =
        .ok ({ m with targetName := if m.targetName = some ⟨[]⟩ then none else m.targetName }, []) := by
  obtain ⟨hf, hv, ht, hlast, hp⟩ := decoded_fits h
  refine ⟨challengeBytes m, (serialize_challenge cfg m _).mpr ⟨hf, rfl⟩, ?_⟩
  rw [challenge_decode cfg m hf]
  have hver := version_rest cfg m.negotiateFlags m.version hv (payload (chT m) ++ payload (chI m))
  rw [hver]
  simp only [(infos_iff cfg m.targetInfos hf.2).mpr hp, (lastIsEol_iff _).mpr hlast, if_true]
  obtain ⟨t, f, c, l, v⟩ := m
  simp only [Except.ok.injEq, Prod.mk.injEq, Challenge.mk.injEq, and_true]
  cases t with
  | none => rfl
  | some s =>
    obtain ⟨s⟩ := s
    cases s with
    | nil => rfl
    | cons a s =>
      have := (takeWhile_plain (ht _ rfl)).1
      simp only at this
      simp [Option.filter, this]

example (cfg : Cfg) : ∃ b, Wire.serialize cfg oddChallengeRead = .ok b ∧
    (Wire.deserialize cfg : Parser Challenge) b = .ok ({ oddChallengeRead with targetName := none }, []) :=
  C48_reencode_partial cfg _ _ _ (oddChallenge_accepted cfg)

/-- C48: the re-encoding decodes to the very same challenge exactly when the target name was not read as empty. -/
theorem C48_reencode_same_iff (cfg : Cfg) (i : List UInt8) (m : Challenge) (r : List UInt8)
    (h : (Wire.deserialize cfg : Parser Challenge) i = .ok (m, r)) (b : List UInt8) (hb : Wire.serialize cfg m = .ok b) :
    (Wire.deserialize cfg : Parser Challenge) b = .ok (m, []) ↔ m.targetName ≠ some ⟨[]⟩ := by
  obtain ⟨b', hb', hd⟩ := C48_reencode_partial cfg i m r h
  rw [hb] at hb'
  simp only [Except.ok.injEq] at hb'
  subst hb'
  rw [hd]
  obtain ⟨t, f, c, l, v⟩ := m
  simp only [Except.ok.injEq, Prod.mk.injEq, Challenge.mk.injEq, and_true]
  by_cases ht : t = some ⟨[]⟩
  · simp [ht]
  · simp [ht]

/-- The sample message is received and re-encoded unchanged. -/
example (cfg : Cfg) : ∃ b, Wire.serialize cfg exChallenge = .ok b ∧ (Wire.deserialize cfg : Parser Challenge) b = .ok (exChallenge, []) :=
  have hr := (challenge_roundtrip cfg exChallenge exChallenge_fits).mpr (exChallenge_ok cfg)
  have h := (serialize_challenge cfg exChallenge _).mpr ⟨exChallenge_fits, rfl⟩
  ⟨_, h, (C48_reencode_same_iff cfg _ _ _ hr _ h).mpr (by simp [exChallenge])⟩

/-- The byte-level reading of C48 is false: a challenge is accepted whose re-encoding is other bytes, which moreover decode to
    a different challenge. -/
theorem C48_bytes_refuted (cfg : Cfg) : ∃ i m b, (Wire.deserialize cfg : Parser Challenge) i = .ok (m, []) ∧
    Wire.serialize cfg m = .ok b ∧ b ≠ i ∧ (Wire.deserialize cfg : Parser Challenge) b ≠ .ok (m, []) := by
  obtain ⟨b, hb, _⟩ := C48_reencode_partial cfg _ _ _ (oddChallenge_accepted cfg)
  have hs : (Wire.deserialize cfg : Parser Challenge) b ≠ .ok (oddChallengeRead, []) := fun hc =>
    (C48_reencode_same_iff cfg _ _ _ (oddChallenge_accepted cfg) b hb).mp hc rfl
  refine ⟨_, _, b, oddChallenge_accepted cfg, hb, ?_, hs⟩
  rintro rfl
  exact hs (oddChallenge_accepted cfg)

end Ntlm.Props
