import Verif.Lemmas.DecodeMsg
/-
  Decoding of CHALLENGE and AUTHENTICATE from their own encodings.
-/
namespace Ntlm

open Spec

/-! ### CHALLENGE -/

theorem dec_reserved (cfg : Cfg) (r : List UInt8) : Challenge.parseReserved cfg (le 8 0 ++ r) = .ok (0, r) := by
  have h := leU64_le 0 r
  have e : (0 : UInt64).toNat = 0 := rfl
  rw [e] at h
  unfold Challenge.parseReserved
  split
  · exact verify_ok h rfl
  · exact h

/-- The three payload pieces of a CHALLENGE message. -/
abbrev chV (m : Challenge) : List UInt8 := payload (m.version.map versionBytes)
abbrev chT (m : Challenge) : Option (List UInt8) := m.targetName.map fun s => utf16le s.s
abbrev chI (m : Challenge) : Option (List UInt8) := infosField m.targetInfos

theorem challenge_header (cfg : Cfg) (m : Challenge) (h : challengeFits m) :
    Challenge.header cfg (challengeBytes m) =
      .ok ((fieldOf (chT m) (48 + (chV m).length), m.negotiateFlags, m.serverChallenge,
        fieldOf (chI m) (48 + (chV m).length + (payload (chT m)).length)),
        chV m ++ (payload (chT m) ++ payload (chI m))) := by
  obtain ⟨ht, hi⟩ := h
  have hv : (chV m).length ≤ 8 := length_payload_version m.version
  have ht' : (payload (chT m)).length ≤ 65535 := strFits_payload ht
  have hi' : (payload (chI m)).length ≤ 65535 := length_payload_infos hi
  have o1 : 48 + (chV m).length < 2 ^ 32 := by omega
  have o2 : 48 + (chV m).length + (payload (chT m)).length < 2 ^ 32 := by omega
  simp only [challengeBytes, List.append_assoc]
  unfold Challenge.header
  rw [signature_eq, Parser.bind_ok (tag_append _ _),
    Parser.bind_ok (verify_ok (leU32_leNat (n := 2) (by omega) _) rfl),
    Parser.bind_ok (dec_descriptor cfg ht' o1 _),
    Parser.bind_ok (dec_flags cfg _ _), Parser.bind_ok (dec_bytes cfg _ _),
    Parser.bind_ok (dec_reserved cfg _), Parser.bind_ok (dec_descriptor cfg hi' o2 _)]
  rfl

/-- What an encoded CHALLENGE message decodes to. -/
theorem challenge_decode (cfg : Cfg) (m : Challenge) (h : challengeFits m) :
    (Wire.deserialize cfg : Parser Challenge) (challengeBytes m) =
      match cond (m.negotiateFlags.hasFlag Flags.NTLMSSP_NEGOTIATE_VERSION) (Wire.deserialize cfg : Parser Version)
        (chV m ++ (payload (chT m) ++ payload (chI m))) with
      | .error e => .error e
      | .ok (v, _) =>
        match (if m.targetInfos = [] then .ok []
          else match many0 (Wire.deserialize cfg : Parser AvPair) (avListBytes m.targetInfos) with
            | .ok (x, _) => .ok x
            | .error e => .error e : Except PErr (List AvPair)) with
        | .error e => .error e
        | .ok l =>
          if Challenge.lastIsEol l then
            .ok ((⟨(m.targetName.filter fun x => !x.s.isEmpty).map fun x => (⟨x.s.takeWhile plainChar⟩ : UnicodeString),
              m.negotiateFlags, m.serverChallenge, l, v⟩ : Challenge), [])
          else .error .error := by
  have hv : (chV m).length ≤ 8 := length_payload_version m.version
  have ht' : (payload (chT m)).length ≤ 65535 := strFits_payload h.1
  have e1 : (fieldOf (chT m) (48 + (chV m).length)).getDataIf cfg (challengeBytes m) true =
      .ok ((m.targetName.filter fun x => !x.s.isEmpty).map fun x =>
        (⟨x.s.takeWhile plainChar⟩ : UnicodeString)) := by
    refine getDataIf_unicode cfg h.1 (by omega)
      (pre := ntlmssp ++ le 4 2 ++ descriptor (chT m) (48 + (chV m).length) ++
        le 4 m.negotiateFlags.bits.toNat ++ m.serverChallenge.val ++ le 8 0 ++
        descriptor (chI m) (48 + (chV m).length + (payload (chT m)).length) ++ chV m)
      (post := payload (chI m)) ?_ (by simp only [challengeBytes, List.append_assoc])
    simp only [List.length_append, length_ntlmssp, length_le, length_descriptor, m.serverChallenge.property]
  have e2 := getManyIf_fieldOf cfg h.2 (o := 48 + (chV m).length + (payload (chT m)).length) (by omega)
      (input := challengeBytes m)
      (pre := ntlmssp ++ le 4 2 ++ descriptor (chT m) (48 + (chV m).length) ++
        le 4 m.negotiateFlags.bits.toNat ++ m.serverChallenge.val ++ le 8 0 ++
        descriptor (chI m) (48 + (chV m).length + (payload (chT m)).length) ++ chV m ++ payload (chT m))
      (post := [])
      (by simp only [List.length_append, length_ntlmssp, length_le, length_descriptor, m.serverChallenge.property])
      (by simp only [challengeBytes, List.append_assoc, List.append_nil])
  show Challenge.deserialize cfg _ = _
  unfold Challenge.deserialize
  rw [challenge_header cfg m h]
  simp only [Bool.or_true, e1, e2]
  rfl

theorem lastIsEol_iff (l : List AvPair) : Challenge.lastIsEol l = true ↔ l = [] ∨ l.getLast? = some .eol := by
  unfold Challenge.lastIsEol
  cases h : l.getLast? with
  | none => simp [List.getLast?_eq_none_iff.mp h]
  | some p =>
    have : l ≠ [] := by
      intro hc; simp [hc] at h
    cases p <;> simp [this]

/-- Reading the target infos back. -/
theorem infos_iff (cfg : Cfg) (l : List AvPair) (h : avListFits l) :
    (if l = [] then .ok []
      else match many0 (Wire.deserialize cfg : Parser AvPair) (avListBytes l) with
        | .ok (x, _) => .ok x
        | .error e => .error e : Except PErr (List AvPair)) = .ok l ↔ ∀ p ∈ l, pairOk cfg p := by
  by_cases hl : l = []
  · simp [hl]
  · simp only [hl, if_false]
    constructor
    · intro hd
      apply Classical.byContradiction
      intro hk
      have hne := avList_decode_ne cfg l h.1 hk []
      rw [List.append_nil] at hne
      split at hd
      · rename_i x r heq
        simp only [Except.ok.injEq] at hd
        rw [hd] at heq
        exact hne _ heq
      · simp at hd
    · intro hk
      have := avList_decode cfg l h.1 hk [] (avPair_nil cfg)
      rw [List.append_nil] at this
      rw [this]

theorem challenge_roundtrip (cfg : Cfg) (m : Challenge) (h : challengeFits m) :
    Wire.deserialize cfg (challengeBytes m) = .ok (m, []) ↔ challengeOk cfg m := by
  rw [challenge_decode cfg m h, challengeOk, ← plainField_iff, ← lastIsEol_iff, ← infos_iff cfg _ h.2,
    version_iff cfg m.negotiateFlags m.version (payload (chT m) ++ payload (chI m))]
  obtain ⟨t, f, sc, l, v⟩ := m
  simp only
  generalize cond _ _ _ = x
  generalize (if l = [] then _ else _ : Except PErr (List AvPair)) = y
  rcases x with e | ⟨v', r⟩
  · simp
  · rcases y with e | l'
    · simp
    · simp only [Except.ok.injEq, Prod.mk.injEq, exists_eq_right']
      by_cases hl : Challenge.lastIsEol l'
      · simp only [hl, if_true, Except.ok.injEq, Prod.mk.injEq, Challenge.mk.injEq, true_and, and_true]
        grind
      · simp only [hl, if_false, Bool.false_eq_true]
        constructor
        · intro hc; simp at hc
        · intro hc
          rw [hc.2.2.2] at hl
          exact absurd hc.2.2.1 hl

/-! ### AUTHENTICATE -/

abbrev auV (m : Authenticate) : List UInt8 := payload (m.version.map versionBytes)
abbrev auL (m : Authenticate) : Option (List UInt8) := m.lmChallengeResponse.map lmBytes
abbrev auN (m : Authenticate) : Option (List UInt8) := m.ntChallengeResponse.map ntBytes
abbrev auD (m : Authenticate) : Option (List UInt8) := m.domain.map fun s => utf16le s.s
abbrev auU (m : Authenticate) : Option (List UInt8) := m.user.map fun s => utf16le s.s
abbrev auW (m : Authenticate) : Option (List UInt8) := m.workstation.map fun s => utf16le s.s
abbrev auK (m : Authenticate) : Option (List UInt8) := m.encryptedRandomSessionKey.map fun b => b.val
abbrev auO1 (m : Authenticate) : Nat := 64 + (auV m).length + 16
abbrev auO2 (m : Authenticate) : Nat := auO1 m + (payload (auL m)).length
abbrev auO3 (m : Authenticate) : Nat := auO2 m + (payload (auN m)).length
abbrev auO4 (m : Authenticate) : Nat := auO3 m + (payload (auD m)).length
abbrev auO5 (m : Authenticate) : Nat := auO4 m + (payload (auU m)).length
abbrev auO6 (m : Authenticate) : Nat := auO5 m + (payload (auW m)).length

/-- The 64 header bytes. -/
abbrev auH (m : Authenticate) : List UInt8 :=
  ntlmssp ++ le 4 3 ++ descriptor (auL m) (auO1 m) ++ descriptor (auN m) (auO2 m) ++ descriptor (auD m) (auO3 m) ++
    descriptor (auU m) (auO4 m) ++ descriptor (auW m) (auO5 m) ++ descriptor (auK m) (auO6 m) ++
    le 4 m.negotiateFlags.bits.toNat

theorem authenticateBytes_eq (m : Authenticate) : authenticateBytes m =
    auH m ++ (auV m ++ (m.mic.val ++ (payload (auL m) ++ (payload (auN m) ++ (payload (auD m) ++ (payload (auU m) ++
      (payload (auW m) ++ payload (auK m)))))))) := by
  simp only [authenticateBytes, List.append_assoc]

theorem length_auH (m : Authenticate) : (auH m).length = 64 := by
  simp only [List.length_append, length_ntlmssp, length_le, length_descriptor]

/-- The decoded header of an encoded message. -/
abbrev auHeader (m : Authenticate) : Authenticate.Header :=
  ⟨fieldOf (auL m) (auO1 m), fieldOf (auN m) (auO2 m), fieldOf (auD m) (auO3 m), fieldOf (auU m) (auO4 m),
    fieldOf (auW m) (auO5 m), fieldOf (auK m) (auO6 m), m.negotiateFlags⟩

theorem length_auK (m : Authenticate) : (payload (auK m)).length ≤ 16 := by
  simp only [auK]
  cases m.encryptedRandomSessionKey with
  | none => simp [payload]
  | some k => simp [payload, k.property]

theorem authenticate_offsets (m : Authenticate) (h : authenticateFits m) :
    (payload (auL m)).length ≤ 65535 ∧ (payload (auN m)).length ≤ 65535 ∧ (payload (auD m)).length ≤ 65535 ∧
    (payload (auU m)).length ≤ 65535 ∧ (payload (auW m)).length ≤ 65535 ∧ (payload (auK m)).length ≤ 65535 ∧
    auO1 m < 2 ^ 32 ∧ auO2 m < 2 ^ 32 ∧ auO3 m < 2 ^ 32 ∧ auO4 m < 2 ^ 32 ∧ auO5 m < 2 ^ 32 ∧ auO6 m < 2 ^ 32 := by
  obtain ⟨hn, hd, hu, hw⟩ := h
  have hv : (auV m).length ≤ 8 := length_payload_version m.version
  have l1 : (payload (auL m)).length ≤ 24 := length_payload_lm m.lmChallengeResponse
  have l2 : (payload (auN m)).length ≤ 65535 := length_payload_nt hn
  have l3 : (payload (auD m)).length ≤ 65535 := strFits_payload hd
  have l4 : (payload (auU m)).length ≤ 65535 := strFits_payload hu
  have l5 : (payload (auW m)).length ≤ 65535 := strFits_payload hw
  have l6 := length_auK m
  have o1 : auO1 m = 64 + (auV m).length + 16 := rfl
  have o2 : auO2 m = auO1 m + (payload (auL m)).length := rfl
  have o3 : auO3 m = auO2 m + (payload (auN m)).length := rfl
  have o4 : auO4 m = auO3 m + (payload (auD m)).length := rfl
  have o5 : auO5 m = auO4 m + (payload (auU m)).length := rfl
  have o6 : auO6 m = auO5 m + (payload (auW m)).length := rfl
  omega

theorem authenticate_header (cfg : Cfg) (m : Authenticate) (h : authenticateFits m) (r : List UInt8) :
    Authenticate.header cfg (auH m ++ r) = .ok (auHeader m, r) := by
  obtain ⟨l1, l2, l3, l4, l5, l6, o1, o2, o3, o4, o5, o6⟩ := authenticate_offsets m h
  simp only [auH, List.append_assoc]
  unfold Authenticate.header
  rw [signature_eq, Parser.bind_ok (tag_append _ _),
    Parser.bind_ok (verify_ok (leU32_leNat (n := 3) (by omega) _) rfl),
    Parser.bind_ok (dec_descriptor cfg l1 o1 _),
    Parser.bind_ok (dec_descriptor cfg l2 o2 _),
    Parser.bind_ok (dec_descriptor cfg l3 o3 _),
    Parser.bind_ok (dec_descriptor cfg l4 o4 _),
    Parser.bind_ok (dec_descriptor cfg l5 o5 _),
    Parser.bind_ok (dec_descriptor cfg l6 o6 _),
    Parser.bind_ok (dec_flags cfg _ _)]
  rfl

theorem lmBytes_ne_nil (c : LmChallenge) : lmBytes c ≠ [] := by
  intro h
  have := congrArg List.length h
  rw [length_lmBytes] at this
  simp at this

/-- What the LM response reads back as. -/
def lmReadBack (f : Flags) (c : LmChallenge) : LmChallenge :=
  if f.bits.toNat.testBit 9 then
    .v1 ⟨⟨lmBytes c, length_lmBytes c⟩⟩
  else
    .v2 ⟨⟨(lmBytes c).take 16, by simp [length_lmBytes]⟩, ⟨(lmBytes c).drop 16, by simp [length_lmBytes]⟩⟩

theorem lmResponse_eq (cfg : Cfg) (m : Authenticate) (h : authenticateFits m) :
    Authenticate.lmResponse cfg (auHeader m) (authenticateBytes m) =
      .ok (m.lmChallengeResponse.map (lmReadBack m.negotiateFlags)) := by
  obtain ⟨l1, _, _, _, _, _, o1, _⟩ := authenticate_offsets m h
  have hi : authenticateBytes m = (auH m ++ auV m ++ m.mic.val) ++ payload (auL m) ++ (payload (auN m) ++
      (payload (auD m) ++ (payload (auU m) ++ (payload (auW m) ++ payload (auK m))))) := by
    rw [authenticateBytes_eq]; simp only [List.append_assoc]
  have ho : auO1 m = (auH m ++ auV m ++ m.mic.val).length := by
    rw [List.length_append, List.length_append, length_auH, m.mic.property]
  have hf : m.negotiateFlags.hasFlag Flags.NTLMSSP_NEGOTIATE_NTLM = m.negotiateFlags.bits.toNat.testBit 9 :=
    hasFlag_testBit _ 9 (by decide)
  unfold Authenticate.lmResponse
  simp only [hf]
  have g1 := getDataIf_fieldOf (α := Lmv1Challenge) cfg (v := auL m) l1 (o := auO1 m) o1 ho hi
  have g2 := getDataIf_fieldOf (α := Lmv2Challenge) cfg (v := auL m) l1 (o := auO1 m) o1 ho hi
  rw [g1, g2]
  cases hc : m.lmChallengeResponse with
  | none => simp [auL, hc, payload, Authenticate.okFlatten]
  | some c =>
    simp only [auL, hc, Option.map_some, payload, Option.getD_some, lmBytes_ne_nil, if_false]
    have d1 : (Wire.deserialize cfg : Parser Lmv1Challenge) (lmBytes c) =
        .ok (⟨⟨lmBytes c, length_lmBytes c⟩⟩, []) := by
      have := dec_lmv1 cfg ⟨⟨lmBytes c, length_lmBytes c⟩⟩ []
      rwa [List.append_nil] at this
    have d2 : (Wire.deserialize cfg : Parser Lmv2Challenge) (lmBytes c) =
        .ok (⟨⟨(lmBytes c).take 16, by simp [length_lmBytes]⟩, ⟨(lmBytes c).drop 16, by simp [length_lmBytes]⟩⟩, []) := by
      have := dec_lmv2 cfg ⟨⟨(lmBytes c).take 16, by simp [length_lmBytes]⟩,
        ⟨(lmBytes c).drop 16, by simp [length_lmBytes]⟩⟩ []
      rwa [List.append_nil, List.take_append_drop] at this
    simp only [d1, d2, Authenticate.okFlatten, Option.map_some, lmReadBack]
    split <;> rfl

theorem lmReadBack_iff (f : Flags) (c : Option LmChallenge) : c.map (lmReadBack f) = c ↔ lmOk f c := by
  cases c with
  | none => simp [lmOk]
  | some c =>
    cases c with
    | v1 c =>
      simp only [Option.map_some, lmReadBack, lmOk, lmBytes]
      cases f.bits.toNat.testBit 9 <;> simp
    | v2 c =>
      simp only [Option.map_some, lmReadBack, lmOk, lmBytes]
      have e1 : (c.response.val ++ c.challengeFromClient.val).take 16 = c.response.val :=
        List.take_left' c.response.property
      have e2 : (c.response.val ++ c.challengeFromClient.val).drop 16 = c.challengeFromClient.val :=
        List.drop_left' c.response.property
      cases f.bits.toNat.testBit 9 <;> simp [e1, e2]

theorem length_ntBytes (c : NtChallenge) : 24 ≤ (ntBytes c).length := by
  cases c with
  | v1 c => simp [ntBytes, c.response.property]
  | v2 c =>
    simp only [ntBytes, ntv2Bytes, fileTimeBytes, List.length_append, length_le, c.challengeFromClient.property]
    simp; omega

/-- Reading the NT response back. -/
theorem nt_iff (cfg : Cfg) (c : NtChallenge) (h : ∀ c', c = .v2 c' → ∀ p ∈ c'.targetInfos, avPairFits p) :
    (∃ r, (Wire.deserialize cfg : Parser NtChallenge) (ntBytes c) = .ok (c, r)) ↔ ntOk cfg (some c) := by
  have unf : ∀ i, (Wire.deserialize cfg : Parser NtChallenge) i =
    alt (pmap (Wire.deserialize cfg : Parser Ntv2Challenge) .v2)
        (pmap (Wire.deserialize cfg : Parser Ntv1Challenge) .v1) i := fun _ => rfl
  rw [unf]
  cases c with
  | v1 c =>
    simp only [ntOk, ntBytes, iff_true]
    refine ⟨[], ?_⟩
    have h2 : (Wire.deserialize cfg : Parser Ntv2Challenge) c.response.val = .error .error :=
      short_ntv2 cfg _ (by rw [c.response.property]; omega)
    have h1 := dec_ntv1 cfg c []
    rw [List.append_nil] at h1
    simp only [alt, pmap, h2, h1]
  | v2 c =>
    simp only [ntOk, ntBytes]
    constructor
    · rintro ⟨r, hr⟩
      apply Classical.byContradiction
      intro hk
      have hne : ∀ r, (Wire.deserialize cfg : Parser Ntv2Challenge) (ntv2Bytes c) ≠ .ok (c, r) := by
        intro r
        by_cases ht : timeOk cfg c.timestamp
        · rw [ntv2Bytes, ntv2_decode_eq cfg _ _ _ ht]
          have hp : ¬ ∀ p ∈ c.targetInfos, pairOk cfg p := fun hp => hk ⟨ht, hp⟩
          have := avList_decode_ne cfg c.targetInfos (h c rfl) hp []
          rw [List.append_nil] at this
          split
          · rename_i l r' heq
            intro hc
            simp only [Except.ok.injEq, Prod.mk.injEq] at hc
            obtain ⟨hc, _⟩ := hc
            have hl : l = c.targetInfos := by rw [← hc]
            rw [hl] at heq
            exact this _ heq
          · simp
        · rw [ntv2Bytes, ntv2_decode_time cfg _ _ _ ht]
          simp
      simp only [alt, pmap] at hr
      generalize hx : (Wire.deserialize cfg : Parser Ntv2Challenge) (ntv2Bytes c) = x at hr
      rcases x with e | ⟨c', r'⟩
      · generalize (Wire.deserialize cfg : Parser Ntv1Challenge) (ntv2Bytes c) = y at hr
        cases e <;> rcases y with e' | ⟨_, _⟩ <;> simp at hr
      · simp only [Except.ok.injEq, Prod.mk.injEq, NtChallenge.v2.injEq] at hr
        rw [hr.1] at hx
        exact hne _ hx
    · rintro ⟨ht, hp⟩
      exact ⟨[], by simp only [alt, pmap, ntv2_decode cfg c ht (h c rfl) hp]⟩

/-- What the NT response field reads back as. -/
theorem ntField_iff (cfg : Cfg) (m : Authenticate) (h : authenticateFits m) :
    (auHeader m).nt.getDataIf cfg (authenticateBytes m) true = .ok m.ntChallengeResponse ↔
      ntOk cfg m.ntChallengeResponse := by
  obtain ⟨_, l2, _, _, _, _, _, o2, _⟩ := authenticate_offsets m h
  have hi : authenticateBytes m = (auH m ++ auV m ++ m.mic.val ++ payload (auL m)) ++ payload (auN m) ++
      (payload (auD m) ++ (payload (auU m) ++ (payload (auW m) ++ payload (auK m)))) := by
    rw [authenticateBytes_eq]; simp only [List.append_assoc]
  have ho : auO2 m = (auH m ++ auV m ++ m.mic.val ++ payload (auL m)).length := by
    rw [List.length_append, List.length_append, List.length_append, length_auH, m.mic.property]
  rw [getDataIf_fieldOf (α := NtChallenge) cfg l2 o2 ho hi]
  cases hc : m.ntChallengeResponse with
  | none => simp [auN, hc, payload, ntOk]
  | some c =>
    have hl := length_ntBytes c
    have hn : ntBytes c ≠ [] := by intro hc; simp [hc] at hl
    simp only [auN, hc, Option.map_some, payload, Option.getD_some, hn, if_false]
    rw [← nt_iff cfg c (by intro c' hc'; subst hc'; exact (h.1 _ hc).1)]
    split
    · rename_i x r heq
      simp [heq]
    · rename_i e heq
      simp [heq]

theorem domainField_eq (cfg : Cfg) (m : Authenticate) (h : authenticateFits m) :
    (auHeader m).domain.getDataIf cfg (authenticateBytes m) true =
      .ok ((m.domain.filter fun x => !x.s.isEmpty).map fun x => (⟨x.s.takeWhile plainChar⟩ : UnicodeString)) := by
  obtain ⟨_, _, _, _, _, _, _, _, o, _⟩ := authenticate_offsets m h
  refine getDataIf_unicode cfg h.2.1 o
    (pre := auH m ++ auV m ++ m.mic.val ++ payload (auL m) ++ payload (auN m))
    (post := payload (auU m) ++ (payload (auW m) ++ payload (auK m))) ?_ ?_
  · rw [List.length_append, List.length_append, List.length_append, List.length_append, length_auH, m.mic.property]
  · rw [authenticateBytes_eq]; simp only [List.append_assoc]

theorem userField_eq (cfg : Cfg) (m : Authenticate) (h : authenticateFits m) :
    (auHeader m).user.getDataIf cfg (authenticateBytes m) true =
      .ok ((m.user.filter fun x => !x.s.isEmpty).map fun x => (⟨x.s.takeWhile plainChar⟩ : UnicodeString)) := by
  obtain ⟨_, _, _, _, _, _, _, _, _, o, _⟩ := authenticate_offsets m h
  refine getDataIf_unicode cfg h.2.2.1 o
    (pre := auH m ++ auV m ++ m.mic.val ++ payload (auL m) ++ payload (auN m) ++ payload (auD m))
    (post := payload (auW m) ++ payload (auK m)) ?_ ?_
  · rw [List.length_append, List.length_append, List.length_append, List.length_append, List.length_append,
      length_auH, m.mic.property]
  · rw [authenticateBytes_eq]; simp only [List.append_assoc]

theorem workstationField_eq (cfg : Cfg) (m : Authenticate) (h : authenticateFits m) :
    (auHeader m).workstation.getDataIf cfg (authenticateBytes m) true =
      .ok ((m.workstation.filter fun x => !x.s.isEmpty).map fun x => (⟨x.s.takeWhile plainChar⟩ : UnicodeString)) := by
  obtain ⟨_, _, _, _, _, _, _, _, _, _, o, _⟩ := authenticate_offsets m h
  refine getDataIf_unicode cfg h.2.2.2 o
    (pre := auH m ++ auV m ++ m.mic.val ++ payload (auL m) ++ payload (auN m) ++ payload (auD m) ++ payload (auU m))
    (post := payload (auK m)) ?_ ?_
  · rw [List.length_append, List.length_append, List.length_append, List.length_append, List.length_append,
      List.length_append, length_auH, m.mic.property]
  · rw [authenticateBytes_eq]; simp only [List.append_assoc]

theorem erskField_eq (cfg : Cfg) (m : Authenticate) (h : authenticateFits m) :
    (auHeader m).ersk.getDataIf cfg (authenticateBytes m)
      ((auHeader m).flags.hasFlag Flags.NTLMSSP_NEGOTIATE_KEY_EXCH) =
      .ok (if m.negotiateFlags.bits.toNat.testBit 30 then m.encryptedRandomSessionKey else none) := by
  have hf : m.negotiateFlags.hasFlag Flags.NTLMSSP_NEGOTIATE_KEY_EXCH = m.negotiateFlags.bits.toNat.testBit 30 :=
    hasFlag_testBit _ 30 (by decide)
  simp only [hf]
  cases m.negotiateFlags.bits.toNat.testBit 30 with
  | false => rfl
  | true =>
    obtain ⟨_, _, _, _, _, l, _, _, _, _, _, o⟩ := authenticate_offsets m h
    have hi : authenticateBytes m = (auH m ++ auV m ++ m.mic.val ++ payload (auL m) ++ payload (auN m) ++
        payload (auD m) ++ payload (auU m) ++ payload (auW m)) ++ payload (auK m) ++ [] := by
      rw [authenticateBytes_eq]; simp only [List.append_assoc, List.append_nil]
    have ho : auO6 m = (auH m ++ auV m ++ m.mic.val ++ payload (auL m) ++ payload (auN m) ++
        payload (auD m) ++ payload (auU m) ++ payload (auW m)).length := by
      rw [List.length_append, List.length_append, List.length_append, List.length_append, List.length_append,
        List.length_append, List.length_append, length_auH, m.mic.property]
    rw [getDataIf_fieldOf (α := Bytes 16) cfg l o ho hi]
    cases hc : m.encryptedRandomSessionKey with
    | none => simp [auK, hc, payload]
    | some k =>
      have hn : k.val ≠ [] := by
        intro hc; have := k.property; simp [hc] at this
      have hd := dec_bytes cfg k []
      rw [List.append_nil] at hd
      simp only [auK, hc, Option.map_some, payload, Option.getD_some, hn, if_false, hd, if_true]

theorem erskField_iff (f : Flags) (k : Option (Bytes 16)) :
    (if f.bits.toNat.testBit 30 then k else none) = k ↔ (k.isSome → f.bits.toNat.testBit 30 = true) := by
  cases k <;> cases f.bits.toNat.testBit 30 <;> simp

/-- Everything after version and MIC. -/
theorem authenticate_body (cfg : Cfg) (m : Authenticate) (h : authenticateFits m) (v : Option Version) (mic : Bytes 16) :
    Authenticate.body cfg (auHeader m) v mic (authenticateBytes m) =
      match ((auHeader m).nt.getDataIf cfg (authenticateBytes m) true : Except PErr (Option NtChallenge)) with
      | .error e => .error e
      | .ok nt => .ok (⟨m.lmChallengeResponse.map (lmReadBack m.negotiateFlags), nt,
          (m.domain.filter fun x => !x.s.isEmpty).map fun x => (⟨x.s.takeWhile plainChar⟩ : UnicodeString),
          (m.user.filter fun x => !x.s.isEmpty).map fun x => (⟨x.s.takeWhile plainChar⟩ : UnicodeString),
          (m.workstation.filter fun x => !x.s.isEmpty).map fun x => (⟨x.s.takeWhile plainChar⟩ : UnicodeString),
          if m.negotiateFlags.bits.toNat.testBit 30 then m.encryptedRandomSessionKey else none,
          m.negotiateFlags, v, mic, none⟩ : Authenticate) := by
  unfold Authenticate.body
  rw [lmResponse_eq cfg m h, domainField_eq cfg m h, userField_eq cfg m h, workstationField_eq cfg m h,
    erskField_eq cfg m h]
  generalize (Field.getDataIf cfg (auHeader m).nt (authenticateBytes m) true : Except PErr (Option NtChallenge)) = x
  rcases x with e | x <;> rfl

theorem authenticate_roundtrip (cfg : Cfg) (m : Authenticate) (h : authenticateFits m) :
    Wire.deserialize cfg (authenticateBytes m) = .ok ({ m with exportedSessionKey := none }, []) ↔
      authenticateOk cfg m := by
  rw [authenticateOk, ← lmReadBack_iff, ← ntField_iff cfg m h, ← plainField_iff, ← plainField_iff, ← plainField_iff,
    ← erskField_iff]
  show Authenticate.deserialize cfg _ = _ ↔ _
  unfold Authenticate.deserialize
  have hh := authenticate_header cfg m h (auV m ++ (m.mic.val ++ (payload (auL m) ++ (payload (auN m) ++
    (payload (auD m) ++ (payload (auU m) ++ (payload (auW m) ++ payload (auK m))))))))
  rw [← authenticateBytes_eq] at hh
  rw [hh]
  simp only []
  by_cases hv : versionOk m.negotiateFlags m.version
  · rw [version_rest cfg _ _ hv]
    simp only []
    rw [dec_bytes cfg m.mic]
    simp only []
    rw [authenticate_body cfg m h]
    generalize (Field.getDataIf cfg (auHeader m).nt (authenticateBytes m) true : Except PErr (Option NtChallenge)) = x
    rcases x with e | x
    · simp
    · obtain ⟨a1, a2, a3, a4, a5, a6, a7, a8, a9, a10⟩ := m
      simp only [Except.ok.injEq, Prod.mk.injEq, Authenticate.mk.injEq, and_true, true_and, hv]
  · simp only [hv, false_and, iff_false]
    have hv' := hv
    rw [version_iff cfg _ _ (m.mic.val ++ (payload (auL m) ++ (payload (auN m) ++
      (payload (auD m) ++ (payload (auU m) ++ (payload (auW m) ++ payload (auK m)))))))] at hv'
    generalize cond _ _ _ = x at hv'
    rcases x with e | ⟨v', r⟩
    · simp
    · simp only []
      have hne : v' ≠ m.version := fun hc => hv' ⟨r, by rw [hc]⟩
      generalize (Wire.deserialize cfg : Parser (Bytes 16)) r = y
      rcases y with e | ⟨mic, r'⟩
      · simp
      · simp only []
        rw [authenticate_body cfg m h]
        generalize (Field.getDataIf cfg (auHeader m).nt (authenticateBytes m) true : Except PErr (Option NtChallenge)) = x
        rcases x with e | x
        · simp
        · simp [hne]

end Ntlm
