import Verif.Props.Builders
import Verif.Props.Decode
/-
  C60: builder calls on any challenge, in particular a received one, and what they give on the wire.
-/
namespace Ntlm.Props

open Spec

theorem addTargetInfo_any (m : Challenge) (p : AvPair) :
    (m.targetInfos = [] → (m.addTargetInfo p).targetInfos = [p, .eol] ∧
      ∀ k, bit (m.addTargetInfo p).negotiateFlags k ↔ bit m.negotiateFlags k ∨ k = 23) ∧
    (∀ l x, m.targetInfos = l ++ [x] → (m.addTargetInfo p).targetInfos = l ++ [p] ++ [x] ∧
      (m.addTargetInfo p).negotiateFlags = m.negotiateFlags) ∧
    (m.addTargetInfo p).getTargetName = m.getTargetName ∧ (m.addTargetInfo p).serverChallenge = m.serverChallenge ∧
    (m.addTargetInfo p).version = m.version := by
  refine ⟨fun he => ?_, fun l x he => ?_, ?_⟩
  · simp only [Challenge.addTargetInfo, he, List.isEmpty_nil, if_true]
    exact ⟨trivial, fun k => setFlag_bit _ _ k⟩
  · have hne : m.targetInfos.isEmpty = false := by rw [he]; simp
    simp only [Challenge.addTargetInfo, hne, Bool.false_eq_true, if_false]
    rw [he]
    simp
  · simp only [Challenge.addTargetInfo]
    split <;> exact ⟨rfl, rfl, rfl⟩

/-- C60: builder calls on any challenge whatever.  If it has no target infos yet, they become the added pairs and a
    terminator; otherwise the added pairs are put, in call order, in front of the last pair.  TARGET_INFO (flag 23) is set by
    the first pair added to an empty list and never touched otherwise; REQUEST_TARGET (flag 2) follows the last target
    name given; nothing else changes. -/
theorem C60_builder (cm : CaseMap) (calls : List ChallengeCall) (m : Challenge) :
    let r := calls.foldl (ChallengeCall.apply cm) m
    let added := calls.flatMap (ChallengeCall.pairs cm)
    (m.getTargetInfos = [] → r.getTargetInfos = terminatedList added) ∧
    (∀ l x, m.getTargetInfos = l ++ [x] → r.getTargetInfos = l ++ added ++ [x]) ∧
    (bit r.negotiateFlags 23 ↔ bit m.negotiateFlags 23 ∨ (m.getTargetInfos = [] ∧ added ≠ [])) ∧
    r.getTargetName = latest (targetNamesGiven calls) m.getTargetName ∧
    (bit r.negotiateFlags 2 ↔ if targetNamesGiven calls = [] then bit m.negotiateFlags 2 else r.getTargetName.isSome = true) ∧
    (∀ k, k ≠ 2 → k ≠ 23 → (bit r.negotiateFlags k ↔ bit m.negotiateFlags k)) ∧
    r.serverChallenge = m.serverChallenge ∧ r.version = m.version := by
  -- the state reached after adding `l` and giving the names `t`
  let Inv : Challenge → List AvPair → List (Option Str) → Prop := fun r l t =>
    (m.targetInfos = [] → r.targetInfos = terminatedList l) ∧
    (∀ l0 x, m.targetInfos = l0 ++ [x] → r.targetInfos = l0 ++ l ++ [x]) ∧
    (∀ k, bit r.negotiateFlags k ↔
      if k = 23 then bit m.negotiateFlags 23 ∨ (m.targetInfos = [] ∧ l ≠ [])
      else if k = 2 then (if t = [] then bit m.negotiateFlags 2 else r.getTargetName.isSome = true)
      else bit m.negotiateFlags k) ∧
    r.getTargetName = latest t m.getTargetName ∧ r.serverChallenge = m.serverChallenge ∧ r.version = m.version
  have add : ∀ r l t p, Inv r l t → Inv (r.addTargetInfo p) (l ++ [p]) t := by
    rintro r l t p ⟨h1, h2, h3, h4, h5, h6⟩
    obtain ⟨s1, s2, s3, s4, s5⟩ := addTargetInfo_any r p
    have hne : l ++ [p] ≠ [] := by simp
    refine ⟨fun hm => ?_, fun l0 x hm => ?_, fun k => ?_, s3.trans h4, s4.trans h5, s5.trans h6⟩
    · have h1 := h1 hm
      by_cases hl : l = []
      · subst hl
        rw [(s1 h1).1]
        rfl
      · rw [terminatedList, if_neg hl] at h1
        rw [(s2 _ _ h1).1, terminatedList, if_neg hne]
    · rw [(s2 _ _ (h2 l0 x hm)).1]
      simp
    · rw [s3]
      simp only [ne_eq, hne, not_false_eq_true, and_true]
      by_cases hm : m.targetInfos = []
      · have h1 := h1 hm
        by_cases hl : l = []
        · subst hl
          rw [(s1 h1).2 k, h3 k]
          by_cases k23 : k = 23
          · simp [k23, hm]
          · simp [k23]
        · rw [terminatedList, if_neg hl] at h1
          rw [(s2 _ _ h1).2, h3 k]
          by_cases k23 : k = 23
          · simp [k23, hm, hl]
          · simp [k23]
      · obtain ⟨l0, x, hx⟩ : ∃ l0 x, m.targetInfos = l0 ++ [x] :=
          ⟨_, _, (List.dropLast_concat_getLast hm).symm⟩
        rw [(s2 _ _ (h2 l0 x hx)).2, h3 k]
        simp [hm]
  have addOpt : ∀ r l t (o : Option AvPair), Inv r l t →
      Inv (match o with | some p => r.addTargetInfo p | none => r) (l ++ o.toList) t := by
    intro r l t o h
    cases o with
    | none => simpa using h
    | some p => exact add r l t p h
  have step : ∀ r l t c, Inv r l t → Inv (ChallengeCall.apply cm r c) (l ++ c.pairs cm) (t ++ targetNamesGiven [c]) := by
    intro r l t c h
    have e : (∀ x, c ≠ .targetName x) → targetNamesGiven [c] = [] := by
      intro hc
      cases c <;> first | rfl | exact absurd rfl (hc _)
    cases c with
    | targetName x =>
      obtain ⟨h1, h2, h3, h4, h5, h6⟩ := h
      obtain ⟨s0, s1, s2, s3, s4⟩ := setTargetName_spec r x
      simp only [ChallengeCall.apply, ChallengeCall.pairs, List.append_nil]
      refine ⟨fun hm => s3.trans (h1 hm), fun l0 y hm => s3.trans (h2 l0 y hm), fun k => ?_, ?_, s2.trans h5, s4.trans h6⟩
      · rw [s1, s0]
        have hne : t ++ targetNamesGiven [.targetName x] ≠ [] := by simp [targetNamesGiven]
        simp only [hne, if_false]
        by_cases k2 : k = 2
        · simp [k2]
        · simp only [k2, if_false]
          rw [h3 k]
          simp [k2]
      · rw [s0]
        simp [latest, targetNamesGiven]
    | fillFromEnv env =>
      rw [e (by simp), List.append_nil]
      have a1 := addOpt r l t ((env "COMPUTERNAME").map fun s => AvPair.nbComputerName (cm.upper s)) h
      have a2 := addOpt _ _ t ((env "COMPUTERDNSNAME").map fun s => AvPair.dnsComputerName s) a1
      have a3 := addOpt _ _ t ((env "USERDOMAIN").map fun s => AvPair.nbDomainName (cm.upper s)) a2
      have a4 := addOpt _ _ t ((env "USERDNSDOMAIN").map fun s => AvPair.dnsDomainName s) a3
      simp only [List.append_assoc] at a4
      simp only [ChallengeCall.apply, ChallengeCall.pairs, List.append_assoc, Challenge.fillFromEnv]
      cases e1 : env "COMPUTERNAME" <;> cases e2 : env "COMPUTERDNSNAME" <;> cases e3 : env "USERDOMAIN" <;>
        cases e4 : env "USERDNSDOMAIN" <;> simp only [e1, e2, e3, e4, Option.map_none, Option.map_some] at a4 <;>
        exact a4
    | computername s => rw [e (by simp), List.append_nil]; exact add r l t _ h
    | domainname s => rw [e (by simp), List.append_nil]; exact add r l t _ h
    | dnscomputername s => rw [e (by simp), List.append_nil]; exact add r l t _ h
    | dnsdomainname s => rw [e (by simp), List.append_nil]; exact add r l t _ h
    | dnstreename s => rw [e (by simp), List.append_nil]; exact add r l t _ h
    | flags s => rw [e (by simp), List.append_nil]; exact add r l t _ h
    | timestamp s => rw [e (by simp), List.append_nil]; exact add r l t _ h
    | singlehost s => rw [e (by simp), List.append_nil]; exact add r l t _ h
    | targetname s => rw [e (by simp), List.append_nil]; exact add r l t _ h
    | channelbindings s => rw [e (by simp), List.append_nil]; exact add r l t _ h
  have run : ∀ calls r l t, Inv r l t →
      Inv (calls.foldl (ChallengeCall.apply cm) r) (l ++ calls.flatMap (ChallengeCall.pairs cm))
        (t ++ targetNamesGiven calls) := by
    intro calls
    induction calls with
    | nil => intro r l t h; simpa [targetNamesGiven] using h
    | cons c calls ih =>
      intro r l t h
      have h1 := ih _ _ _ (step r l t c h)
      have e : targetNamesGiven (c :: calls) = targetNamesGiven [c] ++ targetNamesGiven calls := by
        simp only [targetNamesGiven, ← List.filterMap_append, List.cons_append, List.nil_append]
      simp only [List.append_assoc] at h1
      simp only [List.foldl_cons, List.flatMap_cons, e]
      exact h1
  have h0 : Inv m [] [] := by
    refine ⟨fun h => h, fun l0 x h => by simpa using h, fun k => ?_, rfl, rfl, rfl⟩
    by_cases k23 : k = 23
    · simp [k23]
    · by_cases k2 : k = 2
      · simp [k2]
      · simp [k23, k2]
  obtain ⟨r1, r2, r3, r4, r5, r6⟩ := run calls _ _ _ h0
  simp only [List.nil_append] at r1 r2 r3 r4
  refine ⟨r1, r2, ?_, r4, ?_, fun k k2 k23 => ?_, r5, r6⟩
  · rw [r3]; simp [Challenge.getTargetInfos]
  · rw [r3]; simp
  · rw [r3]; simp [k2, k23]

/-- C60: whatever was built from a fresh or a received challenge, and can be encoded, is decoded by the peer to the very same
    challenge exactly when its target name is absent or plain text, and every pair added can be transmitted. -/
theorem C60_wire (cm : CaseMap) (cfg : Cfg) (m : Challenge) (hm : Source cfg m) (calls : List ChallengeCall) (b : List UInt8)
    (hb : Wire.serialize cfg (calls.foldl (ChallengeCall.apply cm) m) = .ok b) :
    (Wire.deserialize cfg : Parser Challenge) b = .ok (calls.foldl (ChallengeCall.apply cm) m, []) ↔
      plainField (calls.foldl (ChallengeCall.apply cm) m).getTargetName ∧
        ∀ p ∈ calls.flatMap (ChallengeCall.pairs cm), pairOk cfg p := by
  obtain ⟨b1, b2, _, _, _, b6, _, b8⟩ := C60_builder cm calls m
  rw [C02_challenge_roundtrip cfg _ b hb, challengeOk]
  have hv : versionOk m.negotiateFlags m.version ∧ (m.targetInfos = [] ∨ m.targetInfos.getLast? = some .eol) ∧
      ∀ p ∈ m.targetInfos, pairOk cfg p := by
    cases hm with
    | fresh => exact ⟨⟨by decide, by simp [Challenge.default]⟩, .inl rfl, by simp [Challenge.default]⟩
    | received i m r h =>
      obtain ⟨_, h1, _, h2, h3⟩ := decoded_fits h
      exact ⟨h1, h2, h3⟩
  generalize calls.foldl (ChallengeCall.apply cm) m = r at b1 b2 b6 b8
  generalize calls.flatMap (ChallengeCall.pairs cm) = added at b1 b2
  have v : versionOk r.negotiateFlags r.version := by
    have := b6 25 (by omega) (by omega)
    simp only [bit] at this
    simp only [versionOk, this, b8]
    exact hv.1
  have e : r.getTargetName = r.targetName.map (·.s) := rfl
  simp only [v, true_and, e]
  simp only [Challenge.getTargetInfos] at b1 b2
  constructor
  · rintro ⟨h1, h2, h3⟩
    refine ⟨h1, fun p hp => h3 p ?_⟩
    by_cases he : m.targetInfos = []
    · rw [b1 he, terminatedList, if_neg (List.ne_nil_of_mem hp)]
      exact List.mem_append_left _ hp
    · rw [b2 _ _ (List.dropLast_concat_getLast he).symm]
      exact List.mem_append_left _ (List.mem_append_right _ hp)
  · rintro ⟨h1, h2⟩
    refine ⟨h1, ?_⟩
    rcases hv.2.1 with he | he
    · rw [b1 he, terminatedList]
      split
      · simp
      · refine ⟨.inr (by simp), fun p hp => ?_⟩
        rcases List.mem_append.mp hp with hp | hp
        · exact h2 p hp
        · rw [List.mem_singleton.mp hp]; trivial
    · obtain ⟨l, hl⟩ := List.getLast?_eq_some_iff.mp he
      rw [b2 l .eol hl]
      refine ⟨.inr (by simp), fun p hp => ?_⟩
      have hi := hv.2.2
      rw [hl] at hi
      simp only [List.mem_append] at hp hi
      rcases hp with (hp | hp) | hp
      · exact hi p (.inl hp)
      · exact h2 p hp
      · exact hi p (.inr hp)

/-- A timestamp and a host name are put in front of the terminator of a received challenge. -/
example (cm : CaseMap) :
    ([ChallengeCall.timestamp ⟨1, 2⟩, .dnscomputername "h".toList].foldl (ChallengeCall.apply cm) exChallenge).getTargetInfos =
      [.nbDomainName "DOM".toList, .timestamp ⟨5, 7⟩, .timestamp ⟨1, 2⟩, .dnsComputerName "h".toList, .eol] :=
  (C60_builder cm [ChallengeCall.timestamp ⟨1, 2⟩, .dnscomputername "h".toList] exChallenge).2.1
    [.nbDomainName "DOM".toList, .timestamp ⟨5, 7⟩] .eol rfl

/-- That challenge can be received, and the one built from it is transmitted faithfully. -/
example (cm : CaseMap) (cfg : Cfg) :
    Source cfg exChallenge ∧ ∃ b, Wire.serialize cfg ([ChallengeCall.dnscomputername "h".toList].foldl
      (ChallengeCall.apply cm) exChallenge) = .ok b ∧
      (Wire.deserialize cfg : Parser Challenge) b =
        .ok ([ChallengeCall.dnscomputername "h".toList].foldl (ChallengeCall.apply cm) exChallenge, []) := by
  have hs : Source cfg exChallenge := .received (challengeBytes exChallenge) _ []
    ((challenge_roundtrip cfg exChallenge exChallenge_fits).mpr (exChallenge_ok cfg))
  have hb : Wire.serialize cfg ([ChallengeCall.dnscomputername "h".toList].foldl
      (ChallengeCall.apply cm) exChallenge) = .ok (challengeBytes ([ChallengeCall.dnscomputername "h".toList].foldl
      (ChallengeCall.apply cm) exChallenge)) := by
    refine (serialize_challenge cfg _ _).mpr ⟨⟨exChallenge_fits.1, ?_, ?_⟩, rfl⟩
    case refine_2 => exact show (avListBytes [.nbDomainName "DOM".toList, .timestamp ⟨5, 7⟩, .dnsComputerName "h".toList,
      .eol]).length ≤ 65535 by decide
    intro p hp
    have e : ([ChallengeCall.dnscomputername "h".toList].foldl (ChallengeCall.apply cm) exChallenge).targetInfos =
      [.nbDomainName "DOM".toList, .timestamp ⟨5, 7⟩, .dnsComputerName "h".toList, .eol] := rfl
    rw [e] at hp
    simp only [List.mem_cons, List.not_mem_nil, or_false] at hp
    rcases hp with h | h | h | h <;> subst h <;> simp only [avPairFits] <;> decide
  refine ⟨hs, _, hb, (C60_wire cm cfg _ hs _ _ hb).mpr ⟨(exChallenge_ok cfg).2.1, ?_⟩⟩
  intro p hp
  simp only [List.flatMap_cons, ChallengeCall.pairs, List.flatMap_nil, List.append_nil, List.mem_singleton] at hp
  subst hp
  exact plainOf (by decide)

/-! ### C61: re-encoding received NEGOTIATE and AUTHENTICATE messages -/

theorem fieldBytes_length (i : List UInt8) (p : Nat) : (fieldBytes i p).length ≤ 65535 := by
  have := u16At_lt i p
  simp only [fieldBytes, bytesAt, List.length_take]
  omega

theorem versionIs_ok {i : List UInt8} {fp size : Nat} {f : Flags} {v : Option Version} (hf : f.bits.toNat = u32At i fp)
    (h : versionIs i fp size v) : versionOk f v := by
  simp only [versionOk, hf]
  rcases h with ⟨h1, x, rfl, h3, _⟩ | ⟨h1, rfl⟩
  · exact ⟨by simpa [flagAt] using h1, fun y hy => by simp only [Option.some.injEq] at hy; rw [← hy]; exact h3⟩
  · exact ⟨by simpa [flagAt] using h1, by simp⟩

theorem oemField_ok {i : List UInt8} {p : Nat} {s : Option OEMString} (h : fieldIs i p oemIs s) :
    strFits utf8Bytes (s.map (·.s)) ∧ notEmptyText (s.map (·.s)) := by
  rcases h with ⟨_, rfl⟩ | ⟨h1, h2, v, rfl, hv⟩
  · simp [strFits, notEmptyText]
  · have hv : fieldBytes i p = utf8Bytes v.s := hv
    have hl := fieldBytes_length i p
    refine ⟨?_, ?_⟩
    · intro x hx
      simp only [Option.map_some, Option.some.injEq] at hx
      subst hx
      rw [← hv]; exact hl
    · intro hc
      simp only [Option.map_some, Option.some.injEq] at hc
      rw [(utf8Bytes_nil_iff _).mpr hc] at hv
      have := congrArg List.length hv
      simp only [fieldBytes, bytesAt, List.length_take, List.length_drop, List.length_nil, emptyField, outOfRange] at *
      omega

theorem textField_ok {i : List UInt8} {p : Nat} {s : Option UnicodeString} (h : fieldIs i p textIs s) :
    strFits utf16le (s.map (·.s)) ∧ ∀ x, s = some x → plain x.s := by
  rcases h with ⟨_, rfl⟩ | ⟨_, _, v, rfl, hp, r, hv, _⟩
  · simp [strFits]
  · have hl := fieldBytes_length i p
    rw [hv, List.length_append] at hl
    refine ⟨?_, ?_⟩
    · intro x hx
      simp only [Option.map_some, Option.some.injEq] at hx
      subst hx
      omega
    · intro x hx
      simp only [Option.some.injEq] at hx
      subst hx
      exact hp

/-- C61: a received NEGOTIATE message can be encoded again, and that encoding decodes to the same message. -/
theorem C61_negotiate (cfg : Cfg) (i : List UInt8) (m : Negotiate) (r : List UInt8)
    (h : (Wire.deserialize cfg : Parser Negotiate) i = .ok (m, r)) :
    ∃ b, Wire.serialize cfg m = .ok b ∧ (Wire.deserialize cfg : Parser Negotiate) b = .ok (m, []) := by
  obtain ⟨_, _, hf, hv, hd, hw⟩ := (C51_negotiate_contents cfg i m r).mp h
  obtain ⟨d1, d2⟩ := oemField_ok hd
  obtain ⟨w1, w2⟩ := oemField_ok hw
  exact ⟨_, (serialize_negotiate cfg m _).mpr ⟨⟨d1, w1⟩, rfl⟩,
    (negotiate_roundtrip cfg m ⟨d1, w1⟩).mpr ⟨versionIs_ok hf hv, d2, w2⟩⟩

example (cfg : Cfg) : ∃ b, Wire.serialize cfg exNegotiate = .ok b ∧ (Wire.deserialize cfg : Parser Negotiate) b = .ok (exNegotiate, []) :=
  C61_negotiate cfg _ _ _ ((negotiate_roundtrip cfg exNegotiate exNegotiate_fits).mpr exNegotiate_ok)

theorem dropEmpty_eq {s : Option UnicodeString} (h : ∀ x, s = some x → plain x.s) :
    ((s.filter fun x => !x.s.isEmpty).map fun x => (⟨x.s.takeWhile plainChar⟩ : UnicodeString)) = dropEmpty s := by
  rcases s with _ | ⟨⟨s⟩⟩
  · rfl
  · cases s with
    | nil => rfl
    | cons a s =>
      have := (takeWhile_plain (h _ rfl)).1
      simp only at this
      simp [Option.filter, this, dropEmpty]

theorem fileTimeBytes_value {b : List UInt8} {k : Nat} {t : FileTime} (hl : k + 8 ≤ b.length)
    (h : fileTimeBytes t = bytesAt b k 8) : fileTimeValue t = 2 ^ 32 * u32At b (k + 4) + u32At b k := by
  have e1 := bytesAt4_eq b k (by omega)
  have e2 := bytesAt4_eq b (k + 4) (by omega)
  have u1 := u32At_lt b k
  have u2 := u32At_lt b (k + 4)
  have t1 : le 4 t.low.toNat = le 4 (UInt32.ofNat (u32At b k)).toNat := by
    rw [UInt32.toNat_ofNat_of_lt' u1, ← e1]
    have := congrArg (List.take 4) h
    simp only [fileTimeBytes, List.take_left' (length_le 4 _), bytesAt, List.take_take] at this
    exact this
  have t2 : le 4 t.high.toNat = le 4 (UInt32.ofNat (u32At b (k + 4))).toNat := by
    rw [UInt32.toNat_ofNat_of_lt' u2, ← e2]
    have := congrArg (List.drop 4) h
    simp only [fileTimeBytes, List.drop_left' (length_le 4 _), bytesAt, List.drop_take, List.drop_drop] at this
    exact this
  have a1 := le4_inj t1
  have a2 := le4_inj t2
  simp only [fileTimeValue, a1, a2, UInt32.toNat_ofNat_of_lt' u1, UInt32.toNat_ofNat_of_lt' u2]

theorem ntIs_ok {cfg : Cfg} {b : List UInt8} {x : NtChallenge} (hb : b.length ≤ 65535) (h : ntIs cfg b x) :
    ntFits x ∧ ntOk cfg (some x) := by
  rcases h with ⟨hf, c, r, rfl, ht, _, hw⟩ | ⟨_, c, rfl, _⟩
  · obtain ⟨w1, w2⟩ := walk_decoded hw
    obtain ⟨hl, _, _, _, _, hm, _⟩ := hf
    refine ⟨⟨fun p hp => (w1 p hp).2, ?_⟩, ?_, fun p hp => (w1 p hp).1⟩
    · simp only [ntv2Bytes, fileTimeBytes, List.length_append, length_le, c.challengeFromClient.property]
      rw [List.length_drop] at w2
      simp
      omega
    · rw [timeOk, fileTimeBytes_value (by omega) ht]
      exact hm
  · exact ⟨trivial, trivial⟩

theorem ntField_ok {cfg : Cfg} {i : List UInt8} {p : Nat} {x : Option NtChallenge} (h : fieldIs i p (ntIs cfg) x) :
    (∀ c, x = some c → ntFits c) ∧ ntOk cfg x := by
  rcases h with ⟨_, rfl⟩ | ⟨_, _, v, rfl, hv⟩
  · exact ⟨by simp, trivial⟩
  · obtain ⟨h1, h2⟩ := ntIs_ok (fieldBytes_length i p) hv
    exact ⟨fun c hc => by simp only [Option.some.injEq] at hc; rw [← hc]; exact h1, h2⟩

theorem lmIs_ok {i : List UInt8} {f : Flags} {x : Option LmChallenge} (hf : f.bits.toNat = u32At i 60) (h : lmIs i x) :
    lmOk f x := by
  rcases h with ⟨_, rfl⟩ | ⟨_, _, ⟨_, rfl⟩ | ⟨c, rfl, _, hc⟩⟩
  · trivial
  · trivial
  · cases c with
    | v1 d =>
      simp only [lmOk, hf]
      exact hc.mp ⟨d, rfl⟩
    | v2 d =>
      simp only [lmOk, hf]
      have : ¬ flagAt i 60 9 := fun h => by
        obtain ⟨_, hd⟩ := hc.mpr h
        simp at hd
      simpa [flagAt] using this

/-- C61: a received AUTHENTICATE message can be encoded again, and that encoding decodes to the same message, except that a
    domain, user or workstation that was present but read as empty becomes absent. -/
theorem C61_authenticate (cfg : Cfg) (i : List UInt8) (m : Authenticate) (r : List UInt8)
    (h : (Wire.deserialize cfg : Parser Authenticate) i = .ok (m, r)) :
    ∃ b, Wire.serialize cfg m = .ok b ∧
      (Wire.deserialize cfg : Parser Authenticate) b =
        .ok ({ m with domain := dropEmpty m.domain, user := dropEmpty m.user, workstation := dropEmpty m.workstation },
          []) := by
  obtain ⟨_, _, hf, hv, _, hlm, hnt, hd, hu, hw, hk, hx⟩ := (C51_authenticate_contents cfg i m r).mp h
  obtain ⟨n1, n2⟩ := ntField_ok hnt
  obtain ⟨d1, d2⟩ := textField_ok hd
  obtain ⟨u1, u2⟩ := textField_ok hu
  obtain ⟨w1, w2⟩ := textField_ok hw
  have hfits : authenticateFits m := ⟨n1, d1, u1, w1⟩
  refine ⟨_, (serialize_authenticate cfg m _).mpr ⟨hfits, rfl⟩, ?_⟩
  show Authenticate.deserialize cfg _ = _
  unfold Authenticate.deserialize
  have hh := authenticate_header cfg m hfits (auV m ++ (m.mic.val ++ (payload (auL m) ++ (payload (auN m) ++
    (payload (auD m) ++ (payload (auU m) ++ (payload (auW m) ++ payload (auK m))))))))
  rw [← authenticateBytes_eq] at hh
  rw [hh]
  simp only []
  rw [version_rest cfg _ _ (versionIs_ok hf hv)]
  simp only []
  rw [dec_bytes cfg m.mic]
  simp only []
  rw [authenticate_body cfg m hfits, (ntField_iff cfg m hfits).mpr n2, dropEmpty_eq d2, dropEmpty_eq u2, dropEmpty_eq w2,
    (lmReadBack_iff _ _).mpr (lmIs_ok hf hlm)]
  have hkey : (if m.negotiateFlags.bits.toNat.testBit 30 then m.encryptedRandomSessionKey else none) =
      m.encryptedRandomSessionKey := by
    rw [hf]
    rcases hk with ⟨h1, h2⟩ | ⟨h1, _⟩
    · rw [h2]; simp
    · rw [if_pos (show (u32At i 60).testBit 30 = true from h1)]
  rw [hkey]
  obtain ⟨a1, a2, a3, a4, a5, a6, a7, a8, a9, a10⟩ := m
  simp only at hx
  subst hx
  rfl

/-- The sample message is received, so the theorem applies to it. -/
example (cfg : Cfg) : ∃ b, Wire.serialize cfg { exAuthenticate with exportedSessionKey := none } = .ok b ∧
    (Wire.deserialize cfg : Parser Authenticate) b = .ok ({ exAuthenticate with exportedSessionKey := none }, []) :=
  C61_authenticate cfg _ _ _ ((authenticate_roundtrip cfg exAuthenticate exAuthenticate_fits).mpr (exAuthenticate_ok cfg))

/-- C61: hence encoding and decoding once is enough: doing it again changes nothing. -/
theorem C61_stable (cfg : Cfg) (i : List UInt8) (m : Authenticate) (r : List UInt8)
    (h : (Wire.deserialize cfg : Parser Authenticate) i = .ok (m, r)) :
    ∃ b m' b', Wire.serialize cfg m = .ok b ∧ (Wire.deserialize cfg : Parser Authenticate) b = .ok (m', []) ∧
      Wire.serialize cfg m' = .ok b' ∧ (Wire.deserialize cfg : Parser Authenticate) b' = .ok (m', []) := by
  obtain ⟨b, h1, h2⟩ := C61_authenticate cfg i m r h
  obtain ⟨b', h3, h4⟩ := C61_authenticate cfg b _ _ h2
  have e : ∀ s, dropEmpty (dropEmpty s) = dropEmpty s := by
    intro s
    simp only [dropEmpty]
    by_cases hs : s = some ⟨[]⟩
    · simp [hs]
    · simp [hs]
  simp only [e] at h4
  exact ⟨b, _, b', h1, h2, h3, h4⟩

/-- The example messages of C01 and C03 are received, so the theorems apply to them. -/
example (cfg : Cfg) : (Wire.deserialize cfg : Parser Authenticate) (authenticateBytes exAuthenticate) =
    .ok ({ exAuthenticate with exportedSessionKey := none }, []) :=
  (authenticate_roundtrip cfg exAuthenticate exAuthenticate_fits).mpr (exAuthenticate_ok cfg)

end Ntlm.Props
