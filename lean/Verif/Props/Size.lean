import Verif.Props.Edit
import Verif.Props.History
import Verif.Props.Encoding
/-
  C77: how large messages can be.
-/
namespace Ntlm.Props

open Spec Client

theorem length_negotiateBytes (m : Negotiate) : (negotiateBytes m).length =
    32 + (payload (m.version.map versionBytes)).length + (payload (m.domainName.map fun s => utf8Bytes s.s)).length +
      (payload (m.workstation.map fun s => utf8Bytes s.s)).length := by
  simp only [negotiateBytes, List.length_append, length_ntlmssp, length_le, length_descriptor]

theorem length_challengeBytes (m : Challenge) : (challengeBytes m).length =
    48 + (chV m).length + (payload (chT m)).length + (payload (chI m)).length := by
  simp only [challengeBytes, List.length_append, length_ntlmssp, length_le, length_descriptor, m.serverChallenge.property]

theorem length_authenticateBytes (m : Authenticate) : (authenticateBytes m).length =
    80 + (auV m).length + (payload (auL m)).length + (payload (auN m)).length + (payload (auD m)).length +
      (payload (auU m)).length + (payload (auW m)).length + (payload (auK m)).length := by
  simp only [authenticateBytes, List.length_append, length_ntlmssp, length_le, length_descriptor, m.mic.property, auV, auL, auN,
    auD, auU, auW, auK]
  omega

/-- C77: the size limits of what is sent. -/
theorem C77_sent (cfg : Cfg) (b : List UInt8) :
    (∀ m : Negotiate, Wire.serialize cfg m = .ok b → 32 ≤ b.length ∧ b.length ≤ 40 + 2 * 65535) ∧
    (∀ m : Challenge, Wire.serialize cfg m = .ok b → 48 ≤ b.length ∧ b.length ≤ 56 + 2 * 65535) ∧
    (∀ m : Authenticate, Wire.serialize cfg m = .ok b → 80 ≤ b.length ∧ b.length ≤ 88 + 24 + 16 + 4 * 65535) := by
  refine ⟨?_, ?_, ?_⟩
  · intro m h
    obtain ⟨hf, rfl⟩ := (serialize_negotiate cfg m _).mp h
    have hv := length_payload_version m.version
    have h1 : (payload (m.domainName.map fun s => utf8Bytes s.s)).length ≤ 65535 := strFits_payload hf.1
    have h2 : (payload (m.workstation.map fun s => utf8Bytes s.s)).length ≤ 65535 := strFits_payload hf.2
    rw [length_negotiateBytes]
    omega
  · intro m h
    obtain ⟨hf, rfl⟩ := (serialize_challenge cfg m _).mp h
    have hv : (chV m).length ≤ 8 := length_payload_version m.version
    have h1 : (payload (chT m)).length ≤ 65535 := strFits_payload hf.1
    have h2 : (payload (chI m)).length ≤ 65535 := length_payload_infos hf.2
    rw [length_challengeBytes]
    omega
  · intro m h
    obtain ⟨hf, rfl⟩ := (serialize_authenticate cfg m _).mp h
    have hv : (auV m).length ≤ 8 := length_payload_version m.version
    have l1 : (payload (auL m)).length ≤ 24 := length_payload_lm m.lmChallengeResponse
    have l2 : (payload (auN m)).length ≤ 65535 := length_payload_nt hf.1
    have l3 : (payload (auD m)).length ≤ 65535 := strFits_payload hf.2.1
    have l4 : (payload (auU m)).length ≤ 65535 := strFits_payload hf.2.2.1
    have l5 : (payload (auW m)).length ≤ 65535 := strFits_payload hf.2.2.2
    have l6 := length_auK m
    rw [length_authenticateBytes]
    omega

/-- The limit for negotiate messages is reached, with `n = 65535`. -/
example (cfg : Cfg) (n : Nat) (hn : n ≤ 65535) : ∃ b, Wire.serialize cfg (⟨⟨0⟩, some ⟨List.replicate n 'a'⟩,
    some ⟨List.replicate n 'a'⟩, some ⟨10, 0, 19041, 15⟩⟩ : Negotiate) = .ok b ∧ b.length = 40 + 2 * n := by
  have h := (serialize_negotiate cfg ⟨⟨0⟩, some ⟨List.replicate n 'a'⟩, some ⟨List.replicate n 'a'⟩,
    some ⟨10, 0, 19041, 15⟩⟩ _).mpr ⟨⟨fun x hx => by cases hx; rw [utf8_replicate]; exact hn,
      fun x hx => by cases hx; rw [utf8_replicate]; exact hn⟩, rfl⟩
  refine ⟨_, h, ?_⟩
  rw [length_negotiateBytes]
  simp only [Option.map_some, payload, Option.getD_some, utf8_replicate]
  have : (versionBytes ⟨10, 0, 19041, 15⟩).length = 8 := by decide
  omega

/-- C77: whatever the server sends and whatever was done before, the client sends no more than that. -/
theorem C77_client (P : Prims) (cfg : Cfg) (ver : UInt32) (c : Client) (h : List Op) (b : List UInt8) :
    (∀ junk, resultOf P cfg ver c h (.sendNegociate junk) = .ok b → b.length ≤ 40 + 2 * 65535) ∧
    (∀ rnd junk, resultOf P cfg ver c h (.sendAuthenticate rnd junk) = .ok b → b.length ≤ 88 + 24 + 16 + 4 * 65535) := by
  have hc := C43_exact_encoding P cfg ver (run P cfg ver c h) b
  constructor
  · intro junk hr
    obtain ⟨n, _, hn⟩ := hc.1 junk hr
    exact ((C77_sent cfg b).1 n hn).2
  · intro rnd junk hr
    obtain ⟨a, ha, _⟩ := hc.2 rnd junk hr
    exact ((C77_sent cfg b).2.2 a ha).2

example (P : Prims) (cm : CaseMap) (cfg : Cfg) : ∃ c junk b, created P cm exLogin c ∧
    resultOf P cfg 3 c (exHistory exChallenge) (.sendAuthenticate exRand junk) = .ok b ∧ b.length ≤ 88 + 24 + 16 + 4 * 65535 := by
  obtain ⟨b, hb⟩ := exAnswers_v2 P cm cfg (ver := 3) ⟨by decide, by decide⟩
  obtain ⟨c, junk, hc, hr⟩ := hb.sent
  exact ⟨c, junk, b, hc, hr, (C77_client P cfg 3 c _ b).2 exRand _ hr⟩

theorem declared_le {i : List UInt8} {p : Nat} (h : ¬ outOfRange i p) : (fieldBytes i p).length = u16At i p := by
  simp only [outOfRange] at h
  simp only [fieldBytes, bytesAt, List.length_take, List.length_drop]
  omega

theorem versionIs_length {i : List UInt8} {p size : Nat} {v : Option Version} (h : versionIs i p size v) :
    (payload (v.map versionBytes)).length = versionSize i p := by
  rcases h with ⟨h, x, rfl, _⟩ | ⟨h, rfl⟩
  · have : versionSize i p = 8 := by simp only [versionSize, if_pos (show (u32At i p).testBit 25 = true from h)]
    rw [this]
    simp [payload, versionBytes, length_le]
  · have : versionSize i p = 0 := by simp only [versionSize, if_neg (show ¬ (u32At i p).testBit 25 = true from h)]
    rw [this]
    rfl

theorem textIs_length {i : List UInt8} {p : Nat} {x : Option UnicodeString} (h : fieldIs i p textIs x) :
    (payload (x.map fun s => utf16le s.s)).length ≤ u16At i p := by
  rcases h with ⟨_, rfl⟩ | ⟨_, ho, v, rfl, _, r, hr, _⟩
  · exact Nat.zero_le _
  · rw [← declared_le ho, hr]
    simp [payload]

theorem oemIs_length {i : List UInt8} {p : Nat} {x : Option OEMString} (h : fieldIs i p oemIs x) :
    (payload (x.map fun s => utf8Bytes s.s)).length = u16At i p := by
  rcases h with ⟨h, rfl⟩ | ⟨_, ho, v, rfl, hv⟩
  · exact h.symm
  · rw [← declared_le ho, show fieldBytes i p = utf8Bytes v.s from hv]
    rfl

/-- C77: a received negotiate message, encoded again, has the length of its header plus the lengths its descriptors declare. -/
theorem C77_received_negotiate (cfg : Cfg) (i : List UInt8) (m : Negotiate) (r : List UInt8)
    (h : (Wire.deserialize cfg : Parser Negotiate) i = .ok (m, r)) :
    ∃ b, Wire.serialize cfg m = .ok b ∧ b.length = 32 + versionSize i 12 + u16At i 16 + u16At i 24 := by
  obtain ⟨b, hb, _⟩ := C61_negotiate cfg i m r h
  obtain ⟨_, _, _, hv, hd, hw⟩ := (C51_negotiate_contents cfg i m r).mp h
  obtain ⟨_, rfl⟩ := (serialize_negotiate cfg m _).mp hb
  refine ⟨_, hb, ?_⟩
  rw [length_negotiateBytes, versionIs_length hv, oemIs_length hd, oemIs_length hw]

/-- Two fields may be the same bytes: 34 bytes are received that take 36 when encoded again. -/
example (cfg : Cfg) : ∃ m r b, (Wire.deserialize cfg : Parser Negotiate) (ntlmssp ++ [1, 0, 0, 0, 0, 0, 0, 0, 2, 0, 2, 0, 32, 0, 0, 0,
      2, 0, 2, 0, 32, 0, 0, 0, 0x61, 0x62]) = .ok (m, r) ∧ Wire.serialize cfg m = .ok b ∧ b.length = 36 := by
  have h := (C51_negotiate_contents cfg (ntlmssp ++ [1, 0, 0, 0, 0, 0, 0, 0, 2, 0, 2, 0, 32, 0, 0, 0,
    2, 0, 2, 0, 32, 0, 0, 0, 0x61, 0x62]) ⟨⟨0⟩, some ⟨"ab".toList⟩, some ⟨"ab".toList⟩, none⟩ []).mpr
    ⟨rfl, ⟨by decide, by decide, by decide⟩, by decide, .inr ⟨by simp only [flagAt]; decide, rfl⟩,
      .inr ⟨by simp only [emptyField]; decide, by simp only [outOfRange]; decide, _, rfl, by simp only [oemIs]; decide⟩,
      .inr ⟨by simp only [emptyField]; decide, by simp only [outOfRange]; decide, _, rfl, by simp only [oemIs]; decide⟩⟩
  obtain ⟨b, hb, hl⟩ := C77_received_negotiate cfg _ _ _ h
  exact ⟨_, _, b, h, hb, hl.trans (by decide)⟩

/-- C77: a received challenge message holds at most what its descriptors declare: encoded again it is no longer than header, name
    and list, its name has at most half as many characters as bytes were declared, and its list a quarter as many pairs. -/
theorem C77_received_challenge (cfg : Cfg) (i : List UInt8) (m : Challenge) (r : List UInt8)
    (h : (Wire.deserialize cfg : Parser Challenge) i = .ok (m, r)) :
    (∃ b, Wire.serialize cfg m = .ok b ∧ b.length ≤ 48 + versionSize i 20 + u16At i 12 + u16At i 40) ∧
      (∀ s, m.targetName = some s → 2 * s.s.length ≤ u16At i 12) ∧ 4 * m.targetInfos.length ≤ u16At i 40 := by
  obtain ⟨b, hb, _⟩ := C48_reencode_partial cfg i m r h
  obtain ⟨_, _, _, _, hv, ht, hi, _⟩ := (C51_challenge_contents cfg i m r).mp h
  obtain ⟨_, rfl⟩ := (serialize_challenge cfg m _).mp hb
  have hlist : (avListBytes m.targetInfos).length ≤ u16At i 40 := by
    rcases hi with ⟨_, hi⟩ | ⟨_, ho, r', hw⟩
    · simp [hi, avListBytes]
    · have := (walk_decoded hw).2
      rw [← declared_le ho]
      omega
  have hfour (l : List AvPair) : 4 * l.length ≤ (avListBytes l).length := by
    induction l with
    | nil => simp
    | cons p l ih =>
      rw [avListBytes_cons, List.length_append, length_avPairBytes]
      simp only [List.length_cons]
      omega
  have htwo (s : Str) : 2 * s.length ≤ (utf16le s).length := by
    induction s with
    | nil => simp
    | cons c s ih =>
      rw [utf16le_cons, List.length_append, List.length_cons]
      have : 2 ≤ ((utf16Units c).flatMap (le 2)).length := by
        simp only [utf16Units]
        split <;> simp [length_le]
      omega
  have htl := textIs_length ht
  refine ⟨⟨_, hb, ?_⟩, ?_, Nat.le_trans (hfour _) hlist⟩
  · rw [length_challengeBytes]
    have e1 : (chV m).length = versionSize i 20 := versionIs_length hv
    have e2 : (payload (chI m)).length ≤ (avListBytes m.targetInfos).length := by
      simp only [chI, infosField]
      split <;> simp [payload]
    have e3 : (payload (chT m)).length ≤ u16At i 12 := htl
    omega
  · intro s hs
    rw [hs] at htl
    exact Nat.le_trans (htwo s.s) htl

/-- The sample challenge: three pairs in 26 bytes. -/
example (cfg : Cfg) : 4 * 3 ≤ u16At (challengeBytes exChallenge) 40 :=
  (C77_received_challenge cfg _ _ _ ((challenge_roundtrip cfg exChallenge exChallenge_fits).mpr (exChallenge_ok cfg))).2.2

/-- C77: the same for an authenticate message, whose session key counts only with the KEY_EXCH flag and with 16 bytes. -/
theorem C77_received_authenticate (cfg : Cfg) (i : List UInt8) (m : Authenticate) (r : List UInt8)
    (h : (Wire.deserialize cfg : Parser Authenticate) i = .ok (m, r)) :
    ∃ b, Wire.serialize cfg m = .ok b ∧
      b.length ≤ 80 + versionSize i 60 + u16At i 12 + u16At i 20 + u16At i 28 + u16At i 36 + u16At i 44 + 16 := by
  obtain ⟨b, hb, _⟩ := C61_authenticate cfg i m r h
  obtain ⟨_, _, hf, hv, _, hlm, hnt, hd, hu, hw, hk, _⟩ := (C51_authenticate_contents cfg i m r).mp h
  obtain ⟨_, rfl⟩ := (serialize_authenticate cfg m _).mp hb
  refine ⟨_, hb, ?_⟩
  rw [length_authenticateBytes]
  have e1 : (auV m).length = versionSize i 60 := versionIs_length hv
  have e2 : (payload (auL m)).length ≤ u16At i 12 := by
    simp only [auL]
    rcases hlm with ⟨_, e⟩ | ⟨_, ho, ⟨_, e⟩ | ⟨c, e, hc, _⟩⟩
    · simp [e, payload]
    · simp [e, payload]
    · rw [e]
      simp only [Option.map_some, payload, Option.getD_some, hc, ← declared_le ho, List.length_take]
      omega
  have e3 : (payload (auN m)).length ≤ u16At i 20 := by
    simp only [auN]
    rcases hnt with ⟨_, e⟩ | ⟨_, ho, v, e, hv⟩
    · simp [e, payload]
    · rw [e]
      simp only [Option.map_some, payload, Option.getD_some, ← declared_le ho]
      rcases hv with ⟨hfix, c, r', rfl, _, _, hw⟩ | ⟨_, c, rfl, hc⟩
      · have := (walk_decoded hw).2
        have h28 := hfix.1
        simp only [ntBytes, ntv2Bytes, List.length_append, fileTimeBytes, length_le, c.challengeFromClient.property,
          List.length_cons, List.length_nil, List.length_drop] at this ⊢
        omega
      · simp only [ntBytes, hc, List.length_take]
        omega
  have e4 : (payload (auD m)).length ≤ u16At i 28 := textIs_length hd
  have e5 : (payload (auU m)).length ≤ u16At i 36 := textIs_length hu
  have e6 : (payload (auW m)).length ≤ u16At i 44 := textIs_length hw
  have e7 := length_auK m
  omega

example (cfg : Cfg) : ∃ b, Wire.serialize cfg exAuthenticate = .ok b ∧ b.length ≤ 500 := by
  obtain ⟨b, hb, hl⟩ := C77_received_authenticate cfg _ _ _
    ((authenticate_roundtrip cfg exAuthenticate exAuthenticate_fits).mpr (exAuthenticate_ok cfg))
  exact ⟨b, hb, Nat.le_trans hl (by decide)⟩

end Ntlm.Props
