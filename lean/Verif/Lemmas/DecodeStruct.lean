import Verif.Lemmas.Fixed
/-
  Decoding of the structures from their own encodings.
-/
namespace Ntlm

open Spec

/-- `b` decodes to `x`, leaving whatever follows. -/
def Dec {α : Type} [Wire α] (cfg : Cfg) (b : List UInt8) (x : α) : Prop :=
  ∀ r, Wire.deserialize cfg (b ++ r) = .ok (x, r)

theorem leU8_le (n : UInt8) (r : List UInt8) : leU8 (le 1 n.toNat ++ r) = .ok (n, r) := by
  rw [le_eq]; exact leU8_append n r
theorem leU16_le (n : UInt16) (r : List UInt8) : leU16 (le 2 n.toNat ++ r) = .ok (n, r) := by
  rw [le_eq]; exact leU16_append n r
theorem leU32_le (n : UInt32) (r : List UInt8) : leU32 (le 4 n.toNat ++ r) = .ok (n, r) := by
  rw [le_eq]; exact leU32_append n r
theorem leU64_le (n : UInt64) (r : List UInt8) : leU64 (le 8 n.toNat ++ r) = .ok (n, r) := by
  rw [le_eq]; exact leU64_append n r

theorem leU16_leNat {n : Nat} (h : n ≤ 65535) (r : List UInt8) :
    leU16 (le 2 n ++ r) = .ok (UInt16.ofNat n, r) := by
  have e : (UInt16.ofNat n).toNat = n := by simp only [UInt16.toNat_ofNat']; omega
  rw [← leU16_le, e]

theorem leU32_leNat {n : Nat} (h : n < 2 ^ 32) (r : List UInt8) :
    leU32 (le 4 n ++ r) = .ok (UInt32.ofNat n, r) := by
  have e : (UInt32.ofNat n).toNat = n := by simp only [UInt32.toNat_ofNat']; omega
  rw [← leU32_le, e]

theorem dec_bytes (cfg : Cfg) {n : Nat} (b : Bytes n) : Dec cfg b.val b := takeBytes_append b

theorem validate_true (cfg : Cfg) (f : UInt32) : Flags.validate cfg f = true := by
  simp [Flags.validate, Flags.validateWith, Flags.cfgFeaturesStrict]

theorem dec_flags (cfg : Cfg) (f : Flags) : Dec cfg (le 4 f.bits.toNat) f := by
  intro r
  exact pmap_ok (verify_ok (leU32_le f.bits r) (validate_true cfg _))

theorem dec_field (cfg : Cfg) (f : Field) :
    Dec cfg (le 2 f.len.toNat ++ le 2 f.maxLen.toNat ++ le 4 f.offset.toNat) f := by
  intro r
  rw [List.append_assoc, List.append_assoc]
  show (leU16 >>= _) _ = _
  rw [Parser.bind_ok (leU16_le _ _), Parser.bind_ok (leU16_le _ _), Parser.bind_ok (leU32_le _ _)]
  rfl

/-! ### VERSION -/

/-- The decoder on a version block, whatever its revision. -/
theorem version_decode (cfg : Cfg) (v : Version) (r : List UInt8) :
    (Wire.deserialize cfg : Parser Version) (versionBytes v ++ r) =
      if v.revisionCount = 15 then .ok (v, r) else .error .error := by
  simp only [versionBytes, List.append_assoc]
  show (leU8 >>= _) _ = _
  rw [Parser.bind_ok (leU8_le _ _), Parser.bind_ok (leU8_le _ _), Parser.bind_ok (leU16_le _ _)]
  have h24 : verify leU24 (fun r => r == 0) ([0, 0, 0] ++ (le 1 v.revisionCount.toNat ++ r)) =
      .ok (0, le 1 v.revisionCount.toNat ++ r) := by
    apply verify_ok _ rfl
    rw [leU24_eq]
    simp [leVal]
  rw [Parser.bind_ok h24]
  by_cases hv : v.revisionCount = 15
  · rw [Parser.bind_ok (verify_ok (leU8_le _ _) (by simp [hv, NTLMSSP_REVISION_W2K3]))]
    simp [hv]
    rw [← hv]
  · have : verify leU8 (fun rc => rc == NTLMSSP_REVISION_W2K3) (le 1 v.revisionCount.toNat ++ r) = .error .error := by
      simp [verify, leU8_le, NTLMSSP_REVISION_W2K3, hv]
    rw [Parser.bind_err this]
    simp [hv]

/-! ### FILETIME -/

theorem fileTime_asU64 (t : FileTime) : t.asU64.toNat = fileTimeValue t := by
  have h1 := t.high.toNat_lt
  have h2 := t.low.toNat_lt
  simp only [FileTime.asU64, fileTimeValue, UInt64.toNat_or, UInt64.toNat_shiftLeft, UInt32.toNat_toUInt64]
  have e : t.high.toNat <<< (UInt64.toNat 32 % 64) % 2 ^ 64 = t.high.toNat <<< 32 := by
    have : (UInt64.toNat 32 % 64) = 32 := rfl
    rw [this, Nat.shiftLeft_eq]; omega
  rw [e, ← Nat.shiftLeft_add_eq_or_of_lt h2, Nat.shiftLeft_eq]
  omega

instance (cfg : Cfg) (t : FileTime) : Decidable (timeOk cfg t) := inferInstanceAs (Decidable (_ ≤ _))

theorem fileTime_toSystemTime (cfg : Cfg) (t : FileTime) :
    (t.toSystemTime cfg).isNone = !decide (timeOk cfg t) := by
  simp only [FileTime.toSystemTime, fileTime_asU64, NANO_TO_MILLI, timeOk]
  split <;> rename_i h <;> simp [h]

theorem fileTime_decode (cfg : Cfg) (t : FileTime) (r : List UInt8) :
    (Wire.deserialize cfg : Parser FileTime) (fileTimeBytes t ++ r) =
      if timeOk cfg t then .ok (t, r) else .error .error := by
  simp only [fileTimeBytes, List.append_assoc]
  have h : (do let low ← leU32; let high ← leU32; return ({ low, high } : FileTime) : Parser FileTime)
      (le 4 t.low.toNat ++ (le 4 t.high.toNat ++ r)) = .ok (t, r) := by
    rw [Parser.bind_ok (leU32_le _ _), Parser.bind_ok (leU32_le _ _)]
    rfl
  simp only [Wire.deserialize]
  rw [h]
  simp only [fileTime_toSystemTime]
  by_cases ht : timeOk cfg t <;> simp [ht]

/-- On Unix every file time is representable. -/
theorem timeOk_unix (cfg : Cfg) (h : cfg.platform = .unix) (t : FileTime) : timeOk cfg t := by
  have h1 := t.high.toNat_lt
  have h2 := t.low.toNat_lt
  simp only [timeOk, fileTimeValue, h, Platform.maxSecs]
  omega

/-! ### Single host data, signature, AV flags -/

theorem singleHost_decode (cfg : Cfg) (d : SingleHostData) (r : List UInt8) :
    (Wire.deserialize cfg : Parser SingleHostData) (singleHostBytes d ++ r) =
      if d.z4 = 0 then .ok (d, r) else .error .error := by
  simp only [singleHostBytes, List.append_assoc]
  show (leU32 >>= _) _ = _
  rw [Parser.bind_ok (leU32_le _ _)]
  by_cases hz : d.z4 = 0
  · rw [Parser.bind_ok (verify_ok (leU32_le _ _) (by simp [hz])), Parser.bind_ok (takeBytes_append _ _),
      Parser.bind_ok (takeBytes_append _ _)]
    simp [hz]
    rw [← hz]
  · have : verify leU32 (fun v => v == 0) (le 4 d.z4.toNat ++ (d.customData.val ++ (d.machineId.val ++ r))) =
        .error .error := by
      simp [verify, leU32_le, hz]
    rw [Parser.bind_err this]
    simp [hz]

theorem dec_signature (cfg : Cfg) (x : MessageSignature) : Dec cfg (signatureBytes x) x := by
  intro r
  simp only [signatureBytes, List.append_assoc]
  show (verify leU32 _ >>= _) _ = _
  rw [Parser.bind_ok (verify_ok (leU32_leNat (n := 1) (by omega) _) rfl), Parser.bind_ok (dec_bytes cfg _ _), Parser.bind_ok (leU32_le _ _),
    Parser.bind_ok (leU32_le _ _)]
  rfl

theorem dec_avFlags (cfg : Cfg) (f : MsvAvFlags) : Dec cfg (le 4 (avFlagsValue f)) f := by
  intro r
  show (verify leU32 _ >>= _) _ = _
  rw [← toU32_avFlags, Parser.bind_ok (verify_ok (leU32_le _ _) (by
    obtain ⟨a, b, c⟩ := f
    cases a <;> cases b <;> cases c <;> rfl))]
  obtain ⟨a, b, c⟩ := f
  cases a <;> cases b <;> cases c <;> rfl

/-! ### AV pairs -/

theorem avId_ofU16 (i : AvId) : AvId.ofU16 i.toU16 = some i := by
  cases i <;> rfl

theorem dec_avId (cfg : Cfg) (i : AvId) : Dec cfg (le 2 i.toU16.toNat) i := by
  intro r
  simp only [Wire.deserialize, mapOpt, leU16_le, avId_ofU16]

/-- The decoder after identifier and length have been read. -/
theorem avPair_frame (cfg : Cfg) (i : AvId) (v r : List UInt8) (h : v.length ≤ 65535) :
    (Wire.deserialize cfg : Parser AvPair) (le 2 i.toU16.toNat ++ le 2 v.length ++ v ++ r) =
      AvPair.deserializeValue cfg i v r := by
  rw [List.append_assoc, List.append_assoc]
  show ((Wire.deserialize cfg : Parser AvId) >>= _) _ = _
  rw [Parser.bind_ok (dec_avId cfg i _)]
  have hl : lengthData leU16 (le 2 v.length ++ (v ++ r)) = .ok (v, r) := by
    have e : (UInt16.ofNat v.length).toNat = v.length := by simp only [UInt16.toNat_ofNat']; omega
    simp [lengthData, leU16_leNat h, e]
  exact Parser.bind_ok (f := fun data after => AvPair.deserializeValue cfg i data after) hl

theorem avPair_decode_eq (cfg : Cfg) (p : AvPair) (h : avPairFits p) (r : List UInt8) :
    (Wire.deserialize cfg : Parser AvPair) (avPairBytes p ++ r) =
      AvPair.deserializeValue cfg p.getId (avValueBytes p) r := by
  rw [avPairBytes, ← avId_toU16]
  exact avPair_frame cfg p.getId _ r h

theorem avValue_ok {α : Type} {cfg : Cfg} {p : Parser α} {mk : α → AvPair} {data after : List UInt8} {a : α}
    (h : p data = .ok (a, [])) : avValue cfg p mk data after = .ok (mk a, after) := by
  simp [avValue, h]

theorem avValue_err {α : Type} {cfg : Cfg} {p : Parser α} {mk : α → AvPair} {data after : List UInt8} {e : PErr}
    (h : p data = .error e) : avValue cfg p mk data after = .error e := by
  simp [avValue, h]

/-- A text value: what a pair holding `s` decodes to. -/
theorem avValue_text (cfg : Cfg) (mk : UnicodeString → AvPair) (s : Str) (after : List UInt8) :
    avValue cfg (Wire.deserialize cfg : Parser UnicodeString) mk (utf16le s) after =
      if cfg.debug && (utf16le (s.dropWhile plainChar)).length != 0 then .error (.panic .debugAssert)
      else .ok (mk ⟨s.takeWhile plainChar⟩, after) := by
  simp only [avValue, unicode_decode]

theorem avPair_decode (cfg : Cfg) (p : AvPair) (h : avPairFits p) (hk : pairOk cfg p) : Dec cfg (avPairBytes p) p := by
  intro r
  rw [avPair_decode_eq cfg p h]
  cases p with
  | eol => rfl
  | nbComputerName s => exact avValue_ok (unicode_decode_plain cfg s hk)
  | nbDomainName s => exact avValue_ok (unicode_decode_plain cfg s hk)
  | dnsComputerName s => exact avValue_ok (unicode_decode_plain cfg s hk)
  | dnsDomainName s => exact avValue_ok (unicode_decode_plain cfg s hk)
  | dnsTreeName s => exact avValue_ok (unicode_decode_plain cfg s hk)
  | targetName s => exact avValue_ok (unicode_decode_plain cfg s hk)
  | flags f => exact avValue_ok (by simpa [avValueBytes] using dec_avFlags cfg f [])
  | timestamp t =>
    refine avValue_ok ?_
    have := fileTime_decode cfg t []
    rw [List.append_nil, if_pos (show timeOk cfg t from hk)] at this
    exact this
  | singleHost d =>
    refine avValue_ok ?_
    have := singleHost_decode cfg d []
    rw [List.append_nil, if_pos (show d.z4 = 0 from hk)] at this
    exact this
  | channelBindings b => exact avValue_ok (by simpa [avValueBytes] using takeBytes_append b [])

theorem avValue_text_ne (cfg : Cfg) (mk : UnicodeString → AvPair) (s : Str) (after : List UInt8)
    (hmk : ∀ a b, mk a = mk b → a = b) (h : ¬ plain s) :
    ∀ r, avValue cfg (Wire.deserialize cfg : Parser UnicodeString) mk (utf16le s) after ≠ .ok (mk ⟨s⟩, r) := by
  intro r
  rw [avValue_text]
  split
  · simp
  · intro hc
    simp only [Except.ok.injEq, Prod.mk.injEq] at hc
    have := hmk _ _ hc.1
    simp only [UnicodeString.mk.injEq] at this
    exact h (plain_of_takeWhile this)

theorem avPair_decode_ne (cfg : Cfg) (p : AvPair) (h : avPairFits p) (hk : ¬ pairOk cfg p) (r r' : List UInt8) :
    (Wire.deserialize cfg : Parser AvPair) (avPairBytes p ++ r) ≠ .ok (p, r') := by
  rw [avPair_decode_eq cfg p h]
  cases p with
  | eol => exact absurd trivial hk
  | nbComputerName s => exact avValue_text_ne cfg _ s r (by intro ⟨a⟩ ⟨b⟩ h; simpa using h) hk r'
  | nbDomainName s => exact avValue_text_ne cfg _ s r (by intro ⟨a⟩ ⟨b⟩ h; simpa using h) hk r'
  | dnsComputerName s => exact avValue_text_ne cfg _ s r (by intro ⟨a⟩ ⟨b⟩ h; simpa using h) hk r'
  | dnsDomainName s => exact avValue_text_ne cfg _ s r (by intro ⟨a⟩ ⟨b⟩ h; simpa using h) hk r'
  | dnsTreeName s => exact avValue_text_ne cfg _ s r (by intro ⟨a⟩ ⟨b⟩ h; simpa using h) hk r'
  | targetName s => exact avValue_text_ne cfg _ s r (by intro ⟨a⟩ ⟨b⟩ h; simpa using h) hk r'
  | flags f => exact absurd trivial hk
  | timestamp t =>
    have := fileTime_decode cfg t []
    rw [List.append_nil, if_neg (show ¬ timeOk cfg t from hk)] at this
    simp [AvPair.getId, AvPair.deserializeValue, avValueBytes, avValue_err this]
  | singleHost d =>
    have := singleHost_decode cfg d []
    rw [List.append_nil, if_neg (show ¬ d.z4 = 0 from hk)] at this
    simp [AvPair.getId, AvPair.deserializeValue, avValueBytes, avValue_err this]
  | channelBindings b => exact absurd trivial hk

theorem length_avPairBytes (p : AvPair) : (avPairBytes p).length = 4 + (avValueBytes p).length := by
  simp only [avPairBytes, List.length_append, length_le]

/-- The pair decoder on an input too short for an identifier. -/
theorem avPair_nil (cfg : Cfg) : (Wire.deserialize cfg : Parser AvPair) [] = .error .error := rfl

theorem avListBytes_cons (p : AvPair) (l : List AvPair) : avListBytes (p :: l) = avPairBytes p ++ avListBytes l := by
  simp [avListBytes]

theorem avList_decode (cfg : Cfg) (l : List AvPair) (h : ∀ p ∈ l, avPairFits p) (hk : ∀ p ∈ l, pairOk cfg p)
    (r : List UInt8) (hr : (Wire.deserialize cfg : Parser AvPair) r = .error .error) :
    many0 (Wire.deserialize cfg : Parser AvPair) (avListBytes l ++ r) = .ok (l, r) := by
  induction l with
  | nil => exact many0_stop hr
  | cons p l ih =>
    rw [avListBytes_cons, List.append_assoc]
    refine many0_cons (avPair_decode cfg p (h p (by simp)) (hk p (by simp)) _) ?_
      (ih (fun q hq => h q (by simp [hq])) (fun q hq => hk q (by simp [hq])))
    have := length_avPairBytes p
    simp only [List.length_append]; omega

theorem avList_decode_ne (cfg : Cfg) (l : List AvPair) (h : ∀ p ∈ l, avPairFits p) (hk : ¬ ∀ p ∈ l, pairOk cfg p)
    (r r' : List UInt8) :
    many0 (Wire.deserialize cfg : Parser AvPair) (avListBytes l ++ r) ≠ .ok (l, r') := by
  induction l with
  | nil => exact absurd (by simp) hk
  | cons p l ih =>
    rw [avListBytes_cons, List.append_assoc, many0_eq]
    by_cases hp : pairOk cfg p
    · rw [avPair_decode cfg p (h p (by simp)) hp]
      have hl : ¬ ∀ p ∈ l, pairOk cfg p := by
        intro hl
        apply hk
        intro q hq
        rcases List.mem_cons.mp hq with rfl | hq
        · exact hp
        · exact hl q hq
      have hlen : (avListBytes l ++ r).length < (avPairBytes p ++ (avListBytes l ++ r)).length := by
        have := length_avPairBytes p
        simp only [List.length_append]; omega
      simp only [hlen, if_true]
      have := ih (fun q hq => h q (by simp [hq])) hl
      split
      · rename_i as r'' heq
        intro hc
        simp only [Except.ok.injEq, Prod.mk.injEq, List.cons.injEq, true_and] at hc
        rw [hc.1, hc.2] at heq
        exact this heq
      · simp
    · have hne := avPair_decode_ne cfg p (h p (by simp)) hp (avListBytes l ++ r)
      split
      · simp
      · simp
      · rename_i a r'' heq
        split
        · split
          · intro hc
            simp only [Except.ok.injEq, Prod.mk.injEq, List.cons.injEq] at hc
            rw [hc.1.1] at heq
            exact hne _ heq
          · simp
        · simp

/-! ### Responses -/

theorem dec_lmv1 (cfg : Cfg) (c : Lmv1Challenge) : Dec cfg c.response.val c := by
  intro r
  show ((Wire.deserialize cfg : Parser (Bytes 24)) >>= _) _ = _
  rw [Parser.bind_ok (dec_bytes cfg c.response r)]
  rfl

theorem dec_ntv1 (cfg : Cfg) (c : Ntv1Challenge) : Dec cfg c.response.val c := by
  intro r
  show ((Wire.deserialize cfg : Parser (Bytes 24)) >>= _) _ = _
  rw [Parser.bind_ok (dec_bytes cfg c.response r)]
  rfl

theorem dec_lmv2 (cfg : Cfg) (c : Lmv2Challenge) : Dec cfg (c.response.val ++ c.challengeFromClient.val) c := by
  intro r
  rw [List.append_assoc]
  show ((Wire.deserialize cfg : Parser (Bytes 16)) >>= _) _ = _
  rw [Parser.bind_ok (dec_bytes cfg c.response _), Parser.bind_ok (dec_bytes cfg c.challengeFromClient _)]
  rfl

/-- The fixed part of the NTLMv2 response decoder. -/
theorem ntv2_decode_eq (cfg : Cfg) (t : FileTime) (cc : Bytes 8) (tail : List UInt8) (ht : timeOk cfg t) :
    (Wire.deserialize cfg : Parser Ntv2Challenge)
        ([1, 1, 0, 0, 0, 0, 0, 0] ++ fileTimeBytes t ++ cc.val ++ [0, 0, 0, 0] ++ tail) =
      match many0 (Wire.deserialize cfg : Parser AvPair) tail with
      | .ok (l, r) => .ok (⟨t, cc, l⟩, r)
      | .error e => .error e := by
  have e : [1, 1, 0, 0, 0, 0, 0, 0] ++ fileTimeBytes t ++ cc.val ++ [0, 0, 0, 0] ++ tail =
      le 1 (1 : UInt8).toNat ++ (le 1 (1 : UInt8).toNat ++ (le 2 (0 : UInt16).toNat ++ (le 4 (0 : UInt32).toNat ++
        (fileTimeBytes t ++ (cc.val ++ (le 4 (0 : UInt32).toNat ++ tail)))))) := by
    simp only [List.append_assoc]
    rfl
  rw [e]
  show (verify leU8 _ >>= _) _ = _
  have hft := fileTime_decode cfg t (cc.val ++ (le 4 (0 : UInt32).toNat ++ tail))
  rw [if_pos ht] at hft
  rw [Parser.bind_ok (verify_ok (leU8_le 1 _) rfl), Parser.bind_ok (verify_ok (leU8_le 1 _) rfl),
    Parser.bind_ok (verify_ok (leU16_le 0 _) rfl), Parser.bind_ok (verify_ok (leU32_le 0 _) rfl),
    Parser.bind_ok hft, Parser.bind_ok (dec_bytes cfg cc _), Parser.bind_ok (verify_ok (leU32_le 0 _) rfl)]
  have hdef : (Wire.deserialize cfg : Parser (List AvPair)) tail =
      many0 (Wire.deserialize cfg : Parser AvPair) tail := rfl
  rw [Parser.bind_apply, hdef]
  generalize many0 (Wire.deserialize cfg : Parser AvPair) tail = x
  rcases x with _ | ⟨_, _⟩ <;> rfl

/-- The NTLMv2 response decoder fails on a file time the platform cannot represent. -/
theorem ntv2_decode_time (cfg : Cfg) (t : FileTime) (cc : Bytes 8) (tail : List UInt8) (ht : ¬ timeOk cfg t) :
    (Wire.deserialize cfg : Parser Ntv2Challenge)
        ([1, 1, 0, 0, 0, 0, 0, 0] ++ fileTimeBytes t ++ cc.val ++ [0, 0, 0, 0] ++ tail) = .error .error := by
  have e : [1, 1, 0, 0, 0, 0, 0, 0] ++ fileTimeBytes t ++ cc.val ++ [0, 0, 0, 0] ++ tail =
      le 1 (1 : UInt8).toNat ++ (le 1 (1 : UInt8).toNat ++ (le 2 (0 : UInt16).toNat ++ (le 4 (0 : UInt32).toNat ++
        (fileTimeBytes t ++ (cc.val ++ (le 4 (0 : UInt32).toNat ++ tail)))))) := by
    simp only [List.append_assoc]
    rfl
  rw [e]
  show (verify leU8 _ >>= _) _ = _
  have hft := fileTime_decode cfg t (cc.val ++ (le 4 (0 : UInt32).toNat ++ tail))
  rw [if_neg ht] at hft
  rw [Parser.bind_ok (verify_ok (leU8_le 1 _) rfl), Parser.bind_ok (verify_ok (leU8_le 1 _) rfl),
    Parser.bind_ok (verify_ok (leU16_le 0 _) rfl), Parser.bind_ok (verify_ok (leU32_le 0 _) rfl),
    Parser.bind_err hft]

/-- An NTLMv2 response that survives the wire. -/
theorem ntv2_decode (cfg : Cfg) (c : Ntv2Challenge) (ht : timeOk cfg c.timestamp)
    (h : ∀ p ∈ c.targetInfos, avPairFits p) (hk : ∀ p ∈ c.targetInfos, pairOk cfg p) :
    (Wire.deserialize cfg : Parser Ntv2Challenge) (ntv2Bytes c) = .ok (c, []) := by
  rw [ntv2Bytes, ntv2_decode_eq cfg _ _ _ ht]
  have := avList_decode cfg c.targetInfos h hk [] (avPair_nil cfg)
  rw [List.append_nil] at this
  rw [this]

end Ntlm
