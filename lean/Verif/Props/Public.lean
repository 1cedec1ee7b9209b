import Verif.Spec.Public
import Verif.Props.Edit
import Verif.Props.Handshake
import Verif.Props.RoundTrip
/-
  C86: what a program that uses the crate can build, and hand to a client.
-/
namespace Ntlm

open Spec

namespace Props

/-- A call that adds exactly this pair. -/
def callFor : AvPair → ChallengeCall
  | .eol => .targetName none
  | .nbComputerName s => .computername s
  | .nbDomainName s => .domainname s
  | .dnsComputerName s => .dnscomputername s
  | .dnsDomainName s => .dnsdomainname s
  | .dnsTreeName s => .dnstreename s
  | .flags f => .flags f
  | .timestamp t => .timestamp t
  | .singleHost d => .singlehost d
  | .targetName s => .targetname s
  | .channelBindings h => .channelbindings h

theorem callFor_pairs (cm : CaseMap) (p : AvPair) (h : p ≠ .eol) : (callFor p).pairs cm = [p] := by
  cases p <;> first | rfl | exact absurd rfl h

theorem calls_pairs (cm : CaseMap) (l : List AvPair) (h : AvPair.eol ∉ l) :
    (l.map callFor).flatMap (ChallengeCall.pairs cm) = l := by
  induction l with
  | nil => rfl
  | cons p l ih =>
    simp only [List.mem_cons, not_or] at h
    rw [List.map_cons, List.flatMap_cons, callFor_pairs cm p (fun e => h.1 e.symm), ih h.2]; rfl

theorem pairs_noEol (cm : CaseMap) (c : ChallengeCall) : AvPair.eol ∉ c.pairs cm := by
  cases c <;> simp [ChallengeCall.pairs]

theorem held_calls (cm : CaseMap) (calls : List ChallengeCall) : ∀ m, HeldChallenge cm m →
    HeldChallenge cm (calls.foldl (ChallengeCall.apply cm) m) := by
  induction calls with
  | nil => exact fun m h => h
  | cons c cs ih => exact fun m h => ih _ (.call m c h)

/-! ### C86 -/

/-- C86: a program that uses the crate can get hold of exactly the challenges whose target infos are empty, or pairs that are no
    terminators followed by one terminator; everything else about them is free. -/
theorem C86_challenges (cm : CaseMap) (m : Challenge) :
    HeldChallenge cm m ↔ ∃ l, AvPair.eol ∉ l ∧ m.getTargetInfos = terminatedList l := by
  constructor
  · intro h
    induction h with
    | fresh => exact ⟨[], by simp, rfl⟩
    | flags m f _ ih => exact ih
    | server m s _ ih => exact ih
    | version m v _ ih => exact ih
    | call m c _ ih =>
      obtain ⟨l, hl, e⟩ := ih
      obtain ⟨h1, h2, _⟩ := C60_builder cm [c] m
      simp only [List.foldl_cons, List.foldl_nil, List.flatMap_cons, List.flatMap_nil, List.append_nil] at h1 h2
      by_cases hn : l = []
      · subst hn
        exact ⟨c.pairs cm, pairs_noEol cm c, h1 e⟩
      · refine ⟨l ++ c.pairs cm, by simp [hl, pairs_noEol cm c], ?_⟩
        rw [terminatedList, if_neg hn] at e
        rw [h2 l .eol e, terminatedList, if_neg (by simp [hn])]
  · rintro ⟨l, hl, e⟩
    -- the pairs, then the name, then the public fields
    let calls := ChallengeCall.targetName m.getTargetName :: l.map callFor
    have hb := held_calls cm calls _ .fresh
    obtain ⟨h1, _, _, h4, _⟩ := C60_builder cm calls Challenge.default
    have hp : calls.flatMap (ChallengeCall.pairs cm) = l := by
      show [] ++ (l.map callFor).flatMap (ChallengeCall.pairs cm) = l
      rw [calls_pairs cm l hl]; rfl
    have hn : targetNamesGiven calls = [m.getTargetName] := by
      have : ∀ l : List AvPair, AvPair.eol ∉ l → targetNamesGiven (l.map callFor) = [] := by
        intro l
        induction l with
        | nil => exact fun _ => rfl
        | cons p l ih =>
          intro hl
          simp only [List.mem_cons, not_or] at hl
          have ih := ih hl.2
          simp only [targetNamesGiven] at ih ⊢
          cases p <;> first | exact absurd rfl hl.1 | exact ih
      simp only [calls, targetNamesGiven, List.filterMap_cons] at this ⊢
      rw [this l hl]
    have ht := h1 rfl
    rw [hp] at ht
    rw [hn] at h4
    have := HeldChallenge.version _ m.version (.server _ m.serverChallenge (.flags _ m.negotiateFlags hb))
    generalize calls.foldl (ChallengeCall.apply cm) Challenge.default = r at ht h4 this
    have e1 : r.targetInfos = m.targetInfos := ht.trans e.symm
    have e2 : r.targetName = m.targetName := by
      have : r.targetName.map (·.s) = m.targetName.map (·.s) := h4
      revert this
      cases r.targetName <;> cases m.targetName <;> simp
      rename_i a b
      cases a; cases b; simp
    rw [e1, e2] at this
    exact this

/-- Two names and a terminator. -/
example (cm : CaseMap) : HeldChallenge cm
    (⟨some ⟨"Server".toList⟩, ⟨0x628a0215⟩, ⟨[1, 2, 3, 4, 5, 6, 7, 8], rfl⟩,
      [.nbDomainName "D".toList, .nbComputerName "C".toList, .eol], none⟩ : Challenge) :=
  (C86_challenges cm _).mpr ⟨[.nbDomainName "D".toList, .nbComputerName "C".toList], by simp, rfl⟩

/-- C86: a challenge the crate's decoder accepts can be built by such a program exactly when no terminator but the last is in its
    target infos. -/
theorem C86_received (cm : CaseMap) (cfg : Cfg) (i : List UInt8) (m : Challenge) (r : List UInt8)
    (h : (Wire.deserialize cfg : Parser Challenge) i = .ok (m, r)) :
    HeldChallenge cm m ↔ m.getTargetInfos ≠ [.eol] ∧ AvPair.eol ∉ m.getTargetInfos.dropLast := by
  rw [C86_challenges]
  constructor
  · rintro ⟨l, hl, e⟩
    rw [e, terminatedList]
    by_cases hn : l = []
    · simp [hn]
    · rw [if_neg hn, List.dropLast_concat]
      refine ⟨?_, hl⟩
      intro e
      have := congrArg List.length e
      simp at this
      exact hn this
  · rintro ⟨h1, h2⟩
    rcases C13_terminated cfg i m r h with e | ⟨l, e⟩
    · exact ⟨[], by simp, e⟩
    · refine ⟨l, ?_, ?_⟩
      · have : m.getTargetInfos = l ++ [.eol] := e
        rw [this, List.dropLast_concat] at h2; exact h2
      · have : m.getTargetInfos = l ++ [.eol] := e
        rw [this] at h1 ⊢
        rw [terminatedList, if_neg]
        rintro rfl; exact h1 rfl

/-- The example of the round trip can be built. -/
example (cm : CaseMap) (cfg : Cfg) :
    (Wire.deserialize cfg : Parser Challenge) (challengeBytes exChallenge) = .ok (exChallenge, []) ∧ HeldChallenge cm exChallenge := by
  have h := (challenge_roundtrip cfg exChallenge exChallenge_fits).mpr (exChallenge_ok cfg)
  exact ⟨h, (C86_received cm cfg _ _ _ h).mpr ⟨by simp [Challenge.getTargetInfos, exChallenge], by simp [Challenge.getTargetInfos, exChallenge]⟩⟩

/-- A challenge with a terminator and a name behind it. -/
def innerEnd : Challenge := { exChallenge with targetInfos := [.nbDomainName "DOM".toList, .eol, .timestamp ⟨5, 7⟩, .eol] }

/-- C86: there are challenges a decoder accepts and no such program can build: the list of target infos goes on behind a
    terminator. -/
theorem C86_received_only (cm : CaseMap) (cfg : Cfg) :
    ∃ i m, (Wire.deserialize cfg : Parser Challenge) i = .ok (m, []) ∧ ¬ HeldChallenge cm m := by
  have hf : challengeFits innerEnd := by
    refine ⟨exChallenge_fits.1, ?_, by decide⟩
    intro p hp
    simp only [innerEnd, List.mem_cons, List.not_mem_nil, or_false] at hp
    rcases hp with h | h | h | h <;> subst h <;> simp only [avPairFits] <;> decide
  have hok : challengeOk cfg innerEnd := by
    obtain ⟨h1, h2, _, h4⟩ := exChallenge_ok cfg
    refine ⟨h1, h2, .inr rfl, ?_⟩
    intro p hp
    apply h4
    simp only [innerEnd, exChallenge, List.mem_cons, List.not_mem_nil, or_false] at hp ⊢
    rcases hp with h | h | h | h
    · exact .inl h
    · exact .inr (.inr h)
    · exact .inr (.inl h)
    · exact .inr (.inr h)
  have h := (challenge_roundtrip cfg innerEnd hf).mpr hok
  refine ⟨_, innerEnd, h, fun hh => ?_⟩
  have := ((C86_received cm cfg _ _ _ h).mp hh).2
  simp [Challenge.getTargetInfos, innerEnd] at this

/-- C86: every negotiate message and every authenticate message whatever can be built. -/
theorem C86_messages (n : Negotiate) (a : Authenticate) : HeldNegotiate n ∧ HeldAuthenticate a := by
  constructor
  · have := HeldNegotiate.version _ n.version (.flags _ n.negotiateFlags
      (.call _ (.workstation (n.workstation.map (·.s))) (.call _ (.domain (n.domainName.map (·.s))) .fresh)))
    obtain ⟨f, d, w, v⟩ := n
    cases d <;> cases w <;> exact this
  · have := HeldAuthenticate.fields _ a.lmChallengeResponse a.ntChallengeResponse a.domain a.user a.workstation
      a.negotiateFlags a.version a.mic a.exportedSessionKey (.key _ a.encryptedRandomSessionKey .fresh)
    obtain ⟨_, _, _, _, _, k, _, _, _, _⟩ := a
    cases k <;> exact this

/-- A message with an encrypted session key but without the flag that announces it. -/
example : HeldAuthenticate { Authenticate.default with encryptedRandomSessionKey := some (Bytes.zero 16) } :=
  (C86_messages Negotiate.default _).2

/-- C86: what a program sends as a challenge it built arrives unchanged exactly when the version agrees with its flag, the target name
    is plain text and the values of the pairs survive: the terminator is in its place by construction. -/
theorem C86_wire (cm : CaseMap) (cfg : Cfg) (m : Challenge) (hm : HeldChallenge cm m) (b : List UInt8)
    (hb : Wire.serialize cfg m = .ok b) :
    (Wire.deserialize cfg : Parser Challenge) b = .ok (m, []) ↔
      versionOk m.negotiateFlags m.version ∧ plainField m.getTargetName ∧ ∀ p ∈ m.getTargetInfos, pairOk cfg p := by
  rw [C02_challenge_roundtrip cfg m b hb, challengeOk]
  have : m.targetInfos = [] ∨ m.targetInfos.getLast? = some .eol := by
    obtain ⟨l, _, e⟩ := (C86_challenges cm m).mp hm
    have e : m.targetInfos = terminatedList l := e
    rw [e, terminatedList]
    by_cases hn : l = []
    · simp [hn]
    · rw [if_neg hn]; simp
  exact ⟨fun ⟨a, b, _, c⟩ => ⟨a, b, c⟩, fun ⟨a, b, c⟩ => ⟨a, b, this, c⟩⟩

example (cm : CaseMap) (cfg : Cfg) : HeldChallenge cm exChallenge ∧ Wire.serialize cfg exChallenge = .ok (challengeBytes exChallenge) ∧
    versionOk exChallenge.negotiateFlags exChallenge.version ∧ plainField exChallenge.getTargetName ∧
    ∀ p ∈ exChallenge.getTargetInfos, pairOk cfg p := by
  obtain ⟨h1, h2, _, h4⟩ := exChallenge_ok cfg
  exact ⟨(C86_challenges cm _).mpr ⟨[.nbDomainName "DOM".toList, .timestamp ⟨5, 7⟩], by simp, rfl⟩,
    (serialize_challenge cfg exChallenge _).mpr ⟨exChallenge_fits, rfl⟩, h1, h2, h4⟩

/-- One that is built and does not arrive unchanged: the flag promises a version that is missing. -/
example (cm : CaseMap) : HeldChallenge cm { exChallenge with version := none } ∧
    ¬ versionOk exChallenge.negotiateFlags none := by
  refine ⟨.version _ none ((C86_challenges cm _).mpr ⟨[.nbDomainName "DOM".toList, .timestamp ⟨5, 7⟩], by simp, rfl⟩), ?_⟩
  intro h
  exact absurd h.1 (by decide)

end Props

end Ntlm
