import Verif.Lemmas.Log
import Verif.Props.RoundTrip
/-
  C71, C72: what decoding logs.
-/
namespace Ntlm.Props

open Spec

/-! ### C71 -/

/-- Logging has no effect on results: with it, the decoders return what they return without. -/
theorem C71_same_result (cfg : Cfg) (i : List UInt8) :
    (Log.negotiate cfg i).1 = (Wire.deserialize cfg : Parser Negotiate) i ∧
    (Log.challenge cfg i).1 = (Wire.deserialize cfg : Parser Challenge) i ∧
    (Log.authenticate cfg i).1 = (Wire.deserialize cfg : Parser Authenticate) i :=
  ⟨Log.negotiate_fst cfg i, Log.challenge_fst cfg i, Log.authenticate_fst cfg i⟩

/-- The same on a message that is logged about and one that is refused. -/
example (cfg : Cfg) : (Log.negotiate cfg (negotiateBytes exNegotiate)).1 = .ok (exNegotiate, []) ∧
    (Log.negotiate cfg [1, 2, 3]).1 = .error .error := by
  rw [(C71_same_result cfg _).1, (C71_same_result cfg _).1]
  refine ⟨(C01_negotiate_roundtrip cfg exNegotiate _ ((serialize_negotiate cfg exNegotiate _).mpr ⟨exNegotiate_fits, rfl⟩)).mpr
    exNegotiate_ok, rfl⟩

/-- An accepted NEGOTIATE message: lines about its flags, then its domain, then its workstation, each only if empty. -/
theorem C71_negotiate (cfg : Cfg) (i : List UInt8) (m : Negotiate) (r : List UInt8)
    (h : (Wire.deserialize cfg : Parser Negotiate) i = .ok (m, r)) :
    (Log.negotiate cfg i).2.map Log.Warn.text = flagLines (u32At i 12) ++
      fieldLines "domain" (u16At i 16) 0 ++ fieldLines "workstation" (u16At i 24) 0 :=
  Log.negotiate_lines cfg i m r h

/-- A message of 32 bytes with the flags R10 and UNICODE and no names. -/
def exLogNegotiate : List UInt8 :=
  ntlmssp ++ [1, 0, 0, 0, 9, 0, 0, 0] ++ List.replicate 16 0

example (cfg : Cfg) : (Log.negotiate cfg exLogNegotiate).2.map Log.Warn.text =
    ["flags.has_flag(R10)", "Flag for domain is set but field is empty",
     "Flag for workstation is set but field is empty"] := by
  have h : (Wire.deserialize cfg : Parser Negotiate) exLogNegotiate =
      .ok (⟨⟨9⟩, none, none, none⟩, []) := by
    obtain ⟨_, b, _ | _⟩ := cfg <;> rfl
  rw [C71_negotiate cfg _ _ _ h]
  decide

/-- An accepted CHALLENGE message: lines about its flags, then the target name and the target information, each if empty
    or with bytes not used. -/
theorem C71_challenge (cfg : Cfg) (i : List UInt8) (m : Challenge) (r : List UInt8)
    (h : (Wire.deserialize cfg : Parser Challenge) i = .ok (m, r)) :
    ∃ n, (u16At i 40 ≠ 0 → walkUnused cfg (fieldBytes i 40) m.targetInfos n) ∧
      (Log.challenge cfg i).2.map Log.Warn.text = flagLines (u32At i 20) ++
        fieldLines "target_name" (u16At i 12) (textUnused i 12 m.targetName) ++
        fieldLines "target_infos" (u16At i 40) n :=
  Log.challenge_lines cfg i m r h

/-- A challenge with a target name of five bytes, `A`, NUL and one byte more, and the end-of-list pair. -/
def exLogChallenge : List UInt8 :=
  ntlmssp ++ [2, 0, 0, 0] ++ [5, 0, 5, 0, 48, 0, 0, 0] ++ [1, 0, 3, 0] ++ List.replicate 16 0 ++
    [4, 0, 4, 0, 53, 0, 0, 0] ++ [65, 0, 0, 0, 7] ++ [0, 0, 0, 0]

example : (Log.challenge ⟨true, false, .unix⟩ exLogChallenge).2.map Log.Warn.text =
    ["flags cannot have NTLMSSP_TARGET_TYPE_DOMAIN and NTLMSSP_TARGET_TYPE_SERVER",
     "Not all is consumed for target_name. 3 bytes remaning"] := by
  decide +kernel

/-- An accepted AUTHENTICATE message: lines about its flags, then the LM response, the NT response, domain, user,
    workstation and session key. -/
theorem C71_authenticate (cfg : Cfg) (i : List UInt8) (m : Authenticate) (r : List UInt8)
    (h : (Wire.deserialize cfg : Parser Authenticate) i = .ok (m, r)) :
    ∃ n, (u16At i 20 ≠ 0 → ntUnused cfg (fieldBytes i 20) m.ntChallengeResponse n) ∧
      (Log.authenticate cfg i).2.map Log.Warn.text = flagLines (u32At i 60) ++ lmLines i ++
        fieldLines "nt_challenge_response" (u16At i 20) n ++
        fieldLines "domain" (u16At i 28) (textUnused i 28 m.domain) ++
        fieldLines "user" (u16At i 36) (textUnused i 36 m.user) ++
        fieldLines "workstation" (u16At i 44) (textUnused i 44 m.workstation) ++ keyLines i :=
  Log.authenticate_lines cfg i m r h

/-- The sample message: everything is used, but there is no workstation. -/
example (cfg : Cfg) : emptyLine "workstation" ∈
    (Log.authenticate cfg (authenticateBytes exAuthenticate)).2.map Log.Warn.text := by
  have h := (serialize_authenticate cfg exAuthenticate _).mpr ⟨exAuthenticate_fits, rfl⟩
  obtain ⟨n, _, e⟩ := C71_authenticate cfg _ _ _ ((C03_authenticate_roundtrip cfg _ _ h).mpr (exAuthenticate_ok cfg))
  have hw : u16At (authenticateBytes exAuthenticate) 44 = 0 := by decide
  rw [e, hw]
  simp [fieldLines]

/-- Whatever the input, accepted or not: each line is a fixed text, or names a field with a number of bytes.  No part of
    a message gets into the log. -/
theorem C71_plain (cfg : Cfg) (i : List UInt8) :
    (∀ l ∈ (Log.negotiate cfg i).2.map Log.Warn.text, plainLine l) ∧
    (∀ l ∈ (Log.challenge cfg i).2.map Log.Warn.text, plainLine l) ∧
    (∀ l ∈ (Log.authenticate cfg i).2.map Log.Warn.text, plainLine l) := by
  refine ⟨?_, ?_, ?_⟩ <;> intro l hl <;> obtain ⟨w, hw, rfl⟩ := List.mem_map.mp hl <;> apply Log.plain_text
  · exact Log.negotiate_all cfg i w hw
  · exact Log.challenge_all cfg i w hw
  · exact Log.authenticate_all cfg i w hw

/-- A line that holds text of a message is not plain. -/
example : ¬ plainLine "domain: CORP" := by
  intro h
  refine h.elim (fun h => absurd h (by decide)) fun h => h.elim (fun h => absurd h (by decide)) fun h =>
    h.elim (fun h => h.elim fun n h => ?_) fun h => h.elim fun n h => h.2.elim fun k h => ?_
  · have h1 := Log.head_empty n
    rw [← h.2] at h1
    exact absurd h1 (by decide)
  · have h1 := Log.head_unused n k
    rw [← h.2.2] at h1
    exact absurd h1 (by decide)

/-- A field of a payload has the length of its value. -/
theorem payloadIs_len {b : List UInt8} {start pos : Nat} {x : Option (List UInt8)} {l : List (Nat × Option (List UInt8))}
    (h : payloadIs b start ((pos, x) :: l)) :
    u16At b pos = (payload x).length ∧ (∀ v, x = some v → bytesAt b (u32At b (pos + 4)) (u16At b pos) = v) ∧
      ∃ start', payloadIs b start' l := by
  cases x with
  | none =>
    obtain ⟨h1, h2⟩ := h
    refine ⟨?_, by simp, _, h2⟩
    have e : ∀ k, k < 8 → b.getD (pos + k) 0 = 0 := by
      intro k hk
      have h3 : (bytesAt b pos 8)[k]? = some 0 := by
        rw [h1]
        have : k = 0 ∨ k = 1 ∨ k = 2 ∨ k = 3 ∨ k = 4 ∨ k = 5 ∨ k = 6 ∨ k = 7 := by omega
        rcases this with rfl | rfl | rfl | rfl | rfl | rfl | rfl | rfl <;> rfl
      rw [bytesAt, List.getElem?_take, if_pos hk, List.getElem?_drop] at h3
      rw [List.getD_eq_getElem?_getD, h3]
      rfl
    show b.getD pos 0 |>.toNat |> (· + 256 * (b.getD (pos + 1) 0).toNat) |> (· = 0)
    have e0 := e 0 (by omega)
    have e1 := e 1 (by omega)
    rw [Nat.add_zero] at e0
    rw [e0, e1]
    rfl
  | some v =>
    obtain ⟨h1, h2, h3, h4, h5, h6⟩ := h
    exact ⟨h1, fun w hw => by rw [Option.some.injEq] at hw; rw [h3, h1, h5, hw], _, h6⟩

/-- What the library says about a field of its own making. -/
theorem own_text (name : String) (b : List UInt8) (pos : Nat) (x : Option UnicodeString) (hx : plainField (x.map (·.s)))
    (h : u16At b pos = (payload (x.map fun s => utf16le s.s)).length) :
    fieldLines name (u16At b pos) (textUnused b pos x) = absentLines name x.isSome := by
  cases x with
  | none => simp [fieldLines, absentLines, h, payload]
  | some s =>
    have hs := (hx s.s rfl).1
    have h0 : (utf16le s.s).length ≠ 0 := fun h0 => hs ((utf16le_nil_iff s.s).mp (List.eq_nil_of_length_eq_zero h0))
    have hu : u16At b pos = (utf16le s.s).length := h
    simp only [fieldLines, textUnused, hu, h0, if_false, Nat.sub_self, if_true, absentLines, Option.isSome_some]

/-- A NEGOTIATE message the library encoded and can read back: a line for each absent field, apart from those about
    its flags. -/
theorem C71_own_negotiate (cfg : Cfg) (m : Negotiate) (b : List UInt8) (henc : Wire.serialize cfg m = .ok b)
    (hok : negotiateOk m) :
    (Log.negotiate cfg b).2.map Log.Warn.text = flagLines m.negotiateFlags.bits.toNat ++
      absentLines "domain" m.domainName.isSome ++ absentLines "workstation" m.workstation.isSome := by
  rw [C71_negotiate cfg b m [] ((C01_negotiate_roundtrip cfg m b henc).mpr hok)]
  obtain ⟨_, _, h3, _, h5⟩ := C05_negotiate_layout cfg m b henc
  obtain ⟨h6, _, _, h7⟩ := payloadIs_len h5
  obtain ⟨h8, _, _, _⟩ := payloadIs_len h7
  have oem : ∀ (name : String) (pos : Nat) (x : Option OEMString), notEmptyText (x.map (·.s)) →
      u16At b pos = (payload (x.map fun s => utf8Bytes s.s)).length →
      fieldLines name (u16At b pos) 0 = absentLines name x.isSome := by
    intro name pos x hx h
    cases x with
    | none => simp [fieldLines, absentLines, h, payload]
    | some s =>
      have h0 : (utf8Bytes s.s).length ≠ 0 := fun h0 =>
        hx (by rw [Option.map_some, (utf8Bytes_nil_iff s.s).mp (List.eq_nil_of_length_eq_zero h0)])
      have hu : u16At b pos = (utf8Bytes s.s).length := h
      simp only [fieldLines, hu, h0, if_false, if_true, absentLines, Option.isSome_some]
  rw [h3, oem _ 16 _ hok.2.1 h6, oem _ 24 _ hok.2.2 h8]

/-- The sample message, whose flags have no oddities, leaves no line. -/
example (cfg : Cfg) : (Log.negotiate cfg (negotiateBytes exNegotiate)).2.map Log.Warn.text = [] := by
  rw [C71_own_negotiate cfg exNegotiate _ ((serialize_negotiate cfg exNegotiate _).mpr ⟨exNegotiate_fits, rfl⟩)
    exNegotiate_ok]
  decide

/-- The same for CHALLENGE messages. -/
theorem C71_own_challenge (cfg : Cfg) (m : Challenge) (b : List UInt8) (henc : Wire.serialize cfg m = .ok b)
    (hok : challengeOk cfg m) :
    (Log.challenge cfg b).2.map Log.Warn.text = flagLines m.negotiateFlags.bits.toNat ++
      absentLines "target_name" m.targetName.isSome ++ absentLines "target_infos" (!m.targetInfos.isEmpty) := by
  obtain ⟨n, hn, h⟩ := C71_challenge cfg b m [] ((C02_challenge_roundtrip cfg m b henc).mpr hok)
  have hf := ((serialize_challenge cfg m b).mp henc).1.2.1
  rw [h]
  obtain ⟨_, _, h3, _, _, _, h5⟩ := C05_challenge_layout cfg m b henc
  obtain ⟨h6, _, _, h7⟩ := payloadIs_len h5
  obtain ⟨h8, h9, _, _⟩ := payloadIs_len h7
  rw [h3, own_text _ b 12 _ hok.2.1 h6]
  congr 1
  by_cases hl : m.targetInfos = []
  · rw [if_pos hl] at h8
    simp only [h8, payload, fieldLines, absentLines, hl, Option.getD_none, List.length_nil, if_true, List.isEmpty_nil,
      Bool.not_true, Bool.false_eq_true, if_false]
  · rw [if_neg hl] at h8 h9
    have hu : u16At b 40 = (avListBytes m.targetInfos).length := h8
    have h0 : u16At b 40 ≠ 0 := by
      rw [hu]
      intro hc
      obtain ⟨p, l, hp⟩ := List.exists_cons_of_ne_nil hl
      rw [hp, avListBytes_cons, List.length_append] at hc
      have := length_avPairBytes p
      omega
    obtain ⟨r, hr, rfl⟩ := hn h0
    have hb : fieldBytes b 40 = avListBytes m.targetInfos := h9 _ rfl
    rw [hb, ← many0_walk] at hr
    have hd := avList_decode cfg m.targetInfos hf hok.2.2.2 [] (avPair_nil cfg)
    rw [List.append_nil, hr] at hd
    simp only [Except.ok.injEq, Prod.mk.injEq, true_and] at hd
    subst hd
    have he : m.targetInfos.isEmpty = false := by cases hm : m.targetInfos with
      | nil => exact absurd hm hl
      | cons => rfl
    simp only [fieldLines, h0, if_false, List.length_nil, if_true, absentLines, he, Bool.not_false]

example (cfg : Cfg) : (Log.challenge cfg (challengeBytes exChallenge)).2.map Log.Warn.text =
    flagLines exChallenge.negotiateFlags.bits.toNat := by
  rw [C71_own_challenge cfg exChallenge _ ((serialize_challenge cfg exChallenge _).mpr ⟨exChallenge_fits, rfl⟩)
    (exChallenge_ok cfg)]
  decide

/-- The same for AUTHENTICATE messages; the LM response has the name of the version the flags announce, and the session
    key counts only with the KEY_EXCH flag (bit 30). -/
theorem C71_own_authenticate (cfg : Cfg) (m : Authenticate) (b : List UInt8) (henc : Wire.serialize cfg m = .ok b)
    (hok : authenticateOk cfg m) :
    (Log.authenticate cfg b).2.map Log.Warn.text = flagLines m.negotiateFlags.bits.toNat ++
      absentLines (if m.negotiateFlags.bits.toNat.testBit 9 then "lmv1_challenge_response"
        else "lmv2_challenge_response") m.lmChallengeResponse.isSome ++
      absentLines "nt_challenge_response" m.ntChallengeResponse.isSome ++
      absentLines "domain" m.domain.isSome ++ absentLines "user" m.user.isSome ++
      absentLines "workstation" m.workstation.isSome ++
      (if m.negotiateFlags.bits.toNat.testBit 30 then
        absentLines "encrypted_random_session_key" m.encryptedRandomSessionKey.isSome else []) := by
  obtain ⟨n, hn, h⟩ := C71_authenticate cfg b _ [] ((C03_authenticate_roundtrip cfg m b henc).mpr hok)
  have hf := ((serialize_authenticate cfg m b).mp henc).1
  obtain ⟨_, _, h3, _, _, h5⟩ := C05_authenticate_layout cfg m b henc
  obtain ⟨l1, _, _, h5⟩ := payloadIs_len h5
  obtain ⟨l2, b2, _, h5⟩ := payloadIs_len h5
  obtain ⟨l3, _, _, h5⟩ := payloadIs_len h5
  obtain ⟨l4, _, _, h5⟩ := payloadIs_len h5
  obtain ⟨l5, _, _, h5⟩ := payloadIs_len h5
  obtain ⟨l6, _, _, _⟩ := payloadIs_len h5
  obtain ⟨_, _, hnt, hd, hu, hw, _⟩ := hok
  simp only at hn h
  rw [h, h3, own_text _ b 28 _ hd l3, own_text _ b 36 _ hu l4, own_text _ b 44 _ hw l5]
  have e1 : lmLines b = absentLines (if m.negotiateFlags.bits.toNat.testBit 9 then "lmv1_challenge_response"
        else "lmv2_challenge_response") m.lmChallengeResponse.isSome := by
    unfold lmLines
    rw [h3, l1]
    cases m.lmChallengeResponse with
    | none => rfl
    | some c =>
      have hc : (payload (Option.map lmBytes (some c))).length = 24 := by
        cases c with
        | v1 c => exact c.response.property
        | v2 c => simp only [payload, Option.map_some, Option.getD_some, lmBytes, List.length_append, c.response.property,
            c.challengeFromClient.property]
      rw [hc]
      rfl
  have e2 : fieldLines "nt_challenge_response" (u16At b 20) n =
      absentLines "nt_challenge_response" m.ntChallengeResponse.isSome := by
    cases hx : m.ntChallengeResponse with
    | none =>
      rw [hx] at l2
      rw [l2]
      rfl
    | some c =>
      rw [hx] at l2 b2 hn hnt
      have hu : u16At b 20 = (ntBytes c).length := l2
      have hb : fieldBytes b 20 = ntBytes c := b2 _ rfl
      have key : u16At b 20 ≠ 0 ∧ n = 0 := by
        cases c with
        | v1 c =>
          have hl : (ntBytes (.v1 c)).length = 24 := c.response.property
          refine ⟨by omega, ?_⟩
          have := hn (by omega)
          change n = _ - 24 at this
          rw [hb, hl] at this
          omega
        | v2 c =>
          have hl : (ntBytes (.v2 c)).length = 28 + (avListBytes c.targetInfos).length := by
            simp only [ntBytes, ntv2Bytes, fileTimeBytes, List.length_append, length_le, List.length_cons, List.length_nil,
              c.challengeFromClient.property]
          refine ⟨by omega, ?_⟩
          obtain ⟨r, hr, rfl⟩ := hn (by omega)
          have hd28 : (ntBytes (.v2 c)).drop 28 = avListBytes c.targetInfos := by
            show ntv2Bytes c |>.drop 28 |> (· = _)
            unfold ntv2Bytes
            exact List.drop_left' (by simp only [fileTimeBytes, List.length_append, length_le, List.length_cons,
              List.length_nil, c.challengeFromClient.property])
          rw [hb, hd28, ← many0_walk] at hr
          have hfit : ∀ p ∈ c.targetInfos, avPairFits p := (hf.1 _ hx).1
          have hdec := avList_decode cfg c.targetInfos hfit hnt.2 [] (avPair_nil cfg)
          rw [List.append_nil, hr] at hdec
          simp only [Except.ok.injEq, Prod.mk.injEq, true_and] at hdec
          rw [hdec]
          rfl
      simp only [fieldLines, key, if_false, if_true, absentLines, Option.isSome_some]
  have e3 : keyLines b = if m.negotiateFlags.bits.toNat.testBit 30 then
        absentLines "encrypted_random_session_key" m.encryptedRandomSessionKey.isSome else [] := by
    unfold keyLines
    rw [h3, l6]
    cases m.encryptedRandomSessionKey with
    | none => rfl
    | some c =>
      have hc : (payload (Option.map (fun k : Bytes 16 => k.val) (some c))).length = 16 := c.property
      rw [hc]
      rfl
  rw [e1, e2, e3]

example (cfg : Cfg) : (Log.authenticate cfg (authenticateBytes exAuthenticate)).2.map Log.Warn.text =
    flagLines exAuthenticate.negotiateFlags.bits.toNat ++ ["Flag for workstation is set but field is empty"] := by
  rw [C71_own_authenticate cfg exAuthenticate _ ((serialize_authenticate cfg exAuthenticate _).mpr
    ⟨exAuthenticate_fits, rfl⟩) (exAuthenticate_ok cfg)]
  decide

/-- `compute_mic` warns exactly when there is no session key, and then changes nothing. -/
theorem C71_mic (P : Prims) (cfg : Cfg) (m : Authenticate) (neg : Negotiate) (chal : Challenge) :
    (Log.computeMic P cfg m neg chal).1 = m.computeMic P cfg neg chal ∧
    ((Log.computeMic P cfg m neg chal).2.map Log.Warn.text =
      if m.exportedSessionKey = none then ["Cannot compute MIC as there is no `exported_session_key`."] else []) ∧
    (m.exportedSessionKey = none → (Log.computeMic P cfg m neg chal).1 = .ok m) := by
  refine ⟨rfl, ?_, ?_⟩
  · unfold Log.computeMic
    cases m.exportedSessionKey <;> rfl
  · intro h
    simp only [Log.computeMic, Authenticate.computeMic, h]

/-- A message with a session key: no line. -/
example (P : Prims) (cfg : Cfg) (neg : Negotiate) (chal : Challenge) :
    (Log.computeMic P cfg { exAuthenticate with exportedSessionKey := some (Bytes.zero 16) } neg chal).2 = [] := rfl

/-! ### C72 -/

/-- Refuted: a NEGOTIATE message without the flag for a supplied domain (bit 12) is accepted, and the log says that the
    flag for the domain is set. -/
theorem C72_refuted : ∃ (cfg : Cfg) (i : List UInt8) (m : Negotiate),
    (Wire.deserialize cfg : Parser Negotiate) i = .ok (m, []) ∧ ¬ flagAt i 12 12 ∧
      "Flag for domain is set but field is empty" ∈ (Log.negotiate cfg i).2.map Log.Warn.text :=
  ⟨⟨false, false, .unix⟩, exLogNegotiate, ⟨⟨9⟩, none, none, none⟩, by rfl, by simp only [flagAt]; decide, by decide +kernel⟩

/-- What the line does mean, in an accepted NEGOTIATE message: the field is empty, whatever the flags. -/
theorem C72_negotiate (cfg : Cfg) (i : List UInt8) (m : Negotiate) (r : List UInt8)
    (h : (Wire.deserialize cfg : Parser Negotiate) i = .ok (m, r)) :
    (emptyLine "domain" ∈ (Log.negotiate cfg i).2.map Log.Warn.text ↔ emptyField i 16) ∧
    (emptyLine "workstation" ∈ (Log.negotiate cfg i).2.map Log.Warn.text ↔ emptyField i 24) := by
  rw [C71_negotiate cfg i m r h]
  simp only [List.mem_append, Log.empty_not_flag, Log.empty_mem_field, emptyField, false_or, true_and]
  have n1 : ¬ "domain" = "workstation" := by decide
  have n2 : ¬ "workstation" = "domain" := by decide
  simp [n1, n2]

/-- The 32-byte sample message has two empty fields, and both lines. -/
example (cfg : Cfg) : emptyLine "domain" ∈ (Log.negotiate cfg exLogNegotiate).2.map Log.Warn.text ∧
    emptyLine "workstation" ∈ (Log.negotiate cfg exLogNegotiate).2.map Log.Warn.text := by
  have h : (Wire.deserialize cfg : Parser Negotiate) exLogNegotiate = .ok (⟨⟨9⟩, none, none, none⟩, []) := by
    obtain ⟨_, b, _ | _⟩ := cfg <;> rfl
  have := C72_negotiate cfg _ _ _ h
  exact ⟨this.1.mpr (by simp only [emptyField]; decide), this.2.mpr (by simp only [emptyField]; decide)⟩

/-- In an accepted CHALLENGE message. -/
theorem C72_challenge (cfg : Cfg) (i : List UInt8) (m : Challenge) (r : List UInt8)
    (h : (Wire.deserialize cfg : Parser Challenge) i = .ok (m, r)) :
    (emptyLine "target_name" ∈ (Log.challenge cfg i).2.map Log.Warn.text ↔ emptyField i 12) ∧
    (emptyLine "target_infos" ∈ (Log.challenge cfg i).2.map Log.Warn.text ↔ emptyField i 40) := by
  obtain ⟨n, _, e⟩ := C71_challenge cfg i m r h
  rw [e]
  simp only [List.mem_append, Log.empty_not_flag, Log.empty_mem_field, emptyField, false_or, true_and]
  have n1 : ¬ "target_name" = "target_infos" := by decide
  have n2 : ¬ "target_infos" = "target_name" := by decide
  simp [n1, n2]

/-- The sample challenge has both fields, and neither line. -/
example (cfg : Cfg) : emptyLine "target_name" ∉ (Log.challenge cfg (challengeBytes exChallenge)).2.map Log.Warn.text := by
  have h := (serialize_challenge cfg exChallenge _).mpr ⟨exChallenge_fits, rfl⟩
  rw [(C72_challenge cfg _ _ _ ((C02_challenge_roundtrip cfg _ _ h).mpr (exChallenge_ok cfg))).1]
  simp only [emptyField]
  decide

/-- In an accepted AUTHENTICATE message; only for the session key does the line tell the truth about the flag. -/
theorem C72_authenticate_partial (cfg : Cfg) (i : List UInt8) (m : Authenticate) (r : List UInt8)
    (h : (Wire.deserialize cfg : Parser Authenticate) i = .ok (m, r)) :
    (emptyLine "encrypted_random_session_key" ∈ (Log.authenticate cfg i).2.map Log.Warn.text ↔
      flagAt i 60 30 ∧ emptyField i 52) ∧
    (emptyLine "nt_challenge_response" ∈ (Log.authenticate cfg i).2.map Log.Warn.text ↔ emptyField i 20) ∧
    (emptyLine "domain" ∈ (Log.authenticate cfg i).2.map Log.Warn.text ↔ emptyField i 28) ∧
    (emptyLine "user" ∈ (Log.authenticate cfg i).2.map Log.Warn.text ↔ emptyField i 36) ∧
    (emptyLine "workstation" ∈ (Log.authenticate cfg i).2.map Log.Warn.text ↔ emptyField i 44) := by
  obtain ⟨n, _, e⟩ := C71_authenticate cfg i m r h
  have hlm : ∀ name, name ≠ "lmv1_challenge_response" → name ≠ "lmv2_challenge_response" →
      emptyLine name ∉ lmLines i := by
    intro name h1 h2 hm
    unfold lmLines at hm
    split at hm
    · cases hm
    · rw [Log.empty_mem_field] at hm
      split at hm
      · exact h1 hm.1
      · exact h2 hm.1
  have hk : ∀ name, emptyLine name ∈ keyLines i ↔
      name = "encrypted_random_session_key" ∧ flagAt i 60 30 ∧ emptyField i 52 := by
    intro name
    unfold keyLines flagAt
    cases (u32At i 60).testBit 30 with
    | false => simp
    | true => simp [Log.empty_mem_field, emptyField]
  rw [e]
  simp only [List.mem_append, Log.empty_not_flag, Log.empty_mem_field, hk, emptyField, false_or]
  refine ⟨?_, ?_, ?_, ?_, ?_⟩
  · simp [hlm "encrypted_random_session_key" (by decide) (by decide)]
  · simp [hlm "nt_challenge_response" (by decide) (by decide)]
  · simp [hlm "domain" (by decide) (by decide)]
  · simp [hlm "user" (by decide) (by decide)]
  · simp [hlm "workstation" (by decide) (by decide)]

/-- The sample has no workstation. -/
example (cfg : Cfg) :
    emptyLine "workstation" ∈ (Log.authenticate cfg (authenticateBytes exAuthenticate)).2.map Log.Warn.text ∧
    emptyLine "user" ∉ (Log.authenticate cfg (authenticateBytes exAuthenticate)).2.map Log.Warn.text := by
  have h := (serialize_authenticate cfg exAuthenticate _).mpr ⟨exAuthenticate_fits, rfl⟩
  have e := C72_authenticate_partial cfg _ _ _ ((C03_authenticate_roundtrip cfg _ _ h).mpr (exAuthenticate_ok cfg))
  exact ⟨e.2.2.2.2.mpr (by simp only [emptyField]; decide), fun hc => absurd (e.2.2.2.1.mp hc) (by
    simp only [emptyField]; decide)⟩

end Ntlm.Props
