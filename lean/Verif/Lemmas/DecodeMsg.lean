import Verif.Lemmas.DecodeStruct
/-
  Decoding of messages from their own encodings.
-/
namespace Ntlm

open Spec

/-! ### Flags as bits -/

theorem and_two_pow_eq (x i : Nat) : x &&& 2 ^ i = if x.testBit i then 2 ^ i else 0 := by
  apply Nat.eq_of_testBit_eq
  intro j
  rw [Nat.testBit_and, Nat.testBit_two_pow]
  by_cases hij : i = j
  · subst hij
    cases x.testBit i <;> simp
  · split <;> simp [hij]

theorem hasFlag_testBit (f : Flags) (b : UInt32) (h : b.toNat < 32) : f.hasFlag b = f.bits.toNat.testBit b.toNat := by
  have e : (f.bits &&& (1 <<< b)).toNat = f.bits.toNat &&& 2 ^ b.toNat := by
    simp only [UInt32.toNat_and, UInt32.toNat_shiftLeft]
    congr 1
    have h1 : UInt32.toNat 1 = 1 := rfl
    rw [h1, Nat.mod_eq_of_lt h, Nat.one_shiftLeft, Nat.mod_eq_of_lt]
    exact Nat.pow_lt_pow_right (by omega) h
  rw [and_two_pow_eq] at e
  rw [Flags.hasFlag]
  cases ht : f.bits.toNat.testBit b.toNat with
  | false =>
    rw [ht] at e
    have : f.bits &&& (1 <<< b) = 0 := by
      apply UInt32.toNat_inj.mp
      rw [e]; simp
    simp [this]
  | true =>
    rw [ht] at e
    have : f.bits &&& (1 <<< b) ≠ 0 := by
      intro hc
      rw [hc] at e
      have h2 : 0 < 2 ^ b.toNat := Nat.two_pow_pos _
      simp at e
      omega
    simpa using this

/-! ### Descriptors and slices -/

/-- The descriptor of an optional payload at an offset. -/
def fieldOf (v : Option (List UInt8)) (o : Nat) : Field :=
  match v with
  | some b => ⟨UInt16.ofNat b.length, UInt16.ofNat b.length, UInt32.ofNat o⟩
  | none => Field.zeroed

theorem dec_descriptor (cfg : Cfg) {v : Option (List UInt8)} {o : Nat} (hv : (payload v).length ≤ 65535)
    (ho : o < 2 ^ 32) : Dec cfg (descriptor v o) (fieldOf v o) := by
  intro r
  cases v with
  | none =>
    have := dec_field cfg Field.zeroed r
    simpa [descriptor, fieldOf, Field.zeroed, le_eq, leBytes] using this
  | some b =>
    simp only [payload, Option.getD_some] at hv
    have := dec_field cfg (fieldOf (some b) o) r
    have e1 : (UInt16.ofNat b.length).toNat = b.length := by simp only [UInt16.toNat_ofNat']; omega
    have e2 : (UInt32.ofNat o).toNat = o := by simp only [UInt32.toNat_ofNat']; omega
    simpa only [descriptor, fieldOf, e1, e2] using this

theorem slice_mid {f : Field} {pre mid post : List UInt8} (ho : f.offset.toNat = pre.length)
    (hl : f.len.toNat = mid.length) : f.slice (pre ++ mid ++ post) = .ok mid := by
  simp only [Field.slice, ho, hl]
  rw [if_pos (by simp only [List.length_append]; omega)]
  simp

theorem ofNat16_eq_zero {n : Nat} (h : n ≤ 65535) : UInt16.ofNat n = 0 ↔ n = 0 := by
  constructor
  · intro hc
    have := congrArg UInt16.toNat hc
    simp only [UInt16.toNat_ofNat'] at this
    have h0 : UInt16.toNat 0 = 0 := rfl
    omega
  · rintro rfl; rfl

/-- Reading an optional value back through its descriptor. -/
theorem getDataIf_fieldOf {α : Type} [Wire α] (cfg : Cfg) {v : Option (List UInt8)} (hv : (payload v).length ≤ 65535)
    {o : Nat} (ho : o < 2 ^ 32) {input pre post : List UInt8} (hp : o = pre.length)
    (hi : input = pre ++ payload v ++ post) :
    (fieldOf v o).getDataIf cfg input true =
      if payload v = [] then .ok none
      else match (Wire.deserialize cfg : Parser α) (payload v) with
        | .ok (x, _) => .ok (some x)
        | .error e => .error e := by
  cases v with
  | none => simp [Field.getDataIf, fieldOf, Field.zeroed, payload]
  | some b =>
    simp only [payload, Option.getD_some] at hv ⊢
    have e1 : (UInt16.ofNat b.length).toNat = b.length := by simp only [UInt16.toNat_ofNat']; omega
    have e2 : (UInt32.ofNat o).toNat = o := by simp only [UInt32.toNat_ofNat']; omega
    have hs := slice_mid (f := fieldOf (some b) o) (pre := pre) (mid := b) (post := post)
      (by simp only [fieldOf]; rw [e2, hp]) (by simp only [fieldOf]; rw [e1])
    simp only [payload, Option.getD_some] at hi
    rw [← hi] at hs
    simp only [Field.getDataIf, if_true, hs]
    have hz : (fieldOf (some b) o).len = 0 ↔ b = [] := by
      rw [fieldOf, ofNat16_eq_zero hv, List.length_eq_zero_iff]
    by_cases hb : b = []
    · rw [if_pos (hz.mpr hb)]; simp [hb]
    · have : ¬ (fieldOf (some b) o).len = 0 := fun h => hb (hz.mp h)
      simp only [this, hb, if_false]
      rfl

theorem getManyIf_fieldOf (cfg : Cfg) {l : List AvPair} (hl : avListFits l)
    {o : Nat} (ho : o < 2 ^ 32) {input pre post : List UInt8} (hp : o = pre.length)
    (hi : input = pre ++ payload (infosField l) ++ post) :
    (fieldOf (infosField l) o).getManyIf cfg input true =
      if l = [] then .ok []
      else match many0 (Wire.deserialize cfg : Parser AvPair) (avListBytes l) with
        | .ok (x, _) => .ok x
        | .error e => .error e := by
  by_cases hn : l = []
  · simp [hn, infosField, fieldOf, Field.getManyIf, Field.zeroed]
  · simp only [infosField, hn, if_false, payload, Option.getD_some] at hi ⊢
    have h2 := hl.2
    have e1 : (UInt16.ofNat (avListBytes l).length).toNat = (avListBytes l).length := by
      simp only [UInt16.toNat_ofNat']; omega
    have e2 : (UInt32.ofNat o).toNat = o := by simp only [UInt32.toNat_ofNat']; omega
    have hs := slice_mid (f := fieldOf (some (avListBytes l)) o) (pre := pre) (mid := avListBytes l) (post := post)
      (by simp only [fieldOf]; rw [e2, hp]) (by simp only [fieldOf]; rw [e1])
    rw [← hi] at hs
    have hb : avListBytes l ≠ [] := by
      cases l with
      | nil => exact absurd rfl hn
      | cons p l =>
        intro hc
        have := congrArg List.length hc
        rw [avListBytes_cons, List.length_append, length_avPairBytes] at this
        simp at this
    have : ¬ (fieldOf (some (avListBytes l)) o).len = 0 := by
      rw [fieldOf, ofNat16_eq_zero h2, List.length_eq_zero_iff]; exact hb
    simp only [Field.getManyIf, if_true, hs, this, if_false]
    generalize many0 (Wire.deserialize cfg : Parser AvPair) (avListBytes l) = x
    rcases x with _ | ⟨_, _⟩ <;> rfl

/-- The version block of a decoded message. -/
theorem cond_version_true (cfg : Cfg) (v : Version) (r : List UInt8) :
    cond true (Wire.deserialize cfg : Parser Version) (versionBytes v ++ r) =
      if v.revisionCount = 15 then .ok (some v, r) else .error .error := by
  simp only [cond, if_true, pmap, version_decode]
  by_cases h : v.revisionCount = 15 <;> simp [h]

theorem cond_false {α : Type} (p : Parser α) (r : List UInt8) : cond false p r = .ok (none, r) := rfl

theorem cond_true_some {α : Type} {p : Parser α} {i r : List UInt8} {x : Option α} (h : cond true p i = .ok (x, r)) :
    x.isSome := by
  simp only [cond, if_true, pmap] at h
  split at h
  · simp only [Except.ok.injEq, Prod.mk.injEq] at h
    rw [← h.1]; rfl
  · simp at h

theorem payload_ofVersion {v : Option Version} {x : Version} (h : v = some x) :
    payload (v.map versionBytes) = versionBytes x := by subst h; rfl

/-- Agreement of the version block with the flag, from both sides. -/
theorem version_iff (cfg : Cfg) (f : Flags) (v : Option Version) (r : List UInt8) :
    versionOk f v ↔
      ∃ r', cond (f.hasFlag Flags.NTLMSSP_NEGOTIATE_VERSION) (Wire.deserialize cfg : Parser Version)
        (payload (v.map versionBytes) ++ r) = .ok (v, r') := by
  have hf : f.hasFlag Flags.NTLMSSP_NEGOTIATE_VERSION = f.bits.toNat.testBit 25 := hasFlag_testBit f 25 (by decide)
  rw [hf]
  simp only [versionOk]
  cases ht : f.bits.toNat.testBit 25 with
  | false =>
    cases v with
    | none => simp [cond_false, payload]
    | some v => simp [cond_false]
  | true =>
    cases v with
    | none =>
      simp only [true_iff, Option.isSome_none, Bool.false_eq_true, false_and, false_iff, not_exists]
      intro r' hc
      exact absurd (cond_true_some hc) (by simp)
    | some v =>
      simp only [payload, Option.map_some, Option.getD_some, cond_version_true]
      by_cases hv : v.revisionCount = 15 <;> simp [hv]

/-- With an agreeing version the parse continues right after it. -/
theorem version_rest (cfg : Cfg) (f : Flags) (v : Option Version) (h : versionOk f v) (r : List UInt8) :
    cond (f.hasFlag Flags.NTLMSSP_NEGOTIATE_VERSION) (Wire.deserialize cfg : Parser Version)
      (payload (v.map versionBytes) ++ r) = .ok (v, r) := by
  have hf : f.hasFlag Flags.NTLMSSP_NEGOTIATE_VERSION = f.bits.toNat.testBit 25 := hasFlag_testBit f 25 (by decide)
  obtain ⟨h1, h2⟩ := h
  rw [hf]
  cases v with
  | none =>
    have : f.bits.toNat.testBit 25 = false := by simpa using h1
    rw [this]
    simp [cond_false, payload]
  | some v =>
    have : f.bits.toNat.testBit 25 = true := by simpa using h1
    rw [this]
    simp [payload, cond_version_true, h2 v rfl]

/-! ### Reading text fields back -/

theorem utf8Bytes_nil_iff (s : Str) : utf8Bytes s = [] ↔ s = [] := by
  constructor
  · intro h
    rw [utf8Bytes_eq] at h
    have h1 := fromUtf8_utf8 s
    rw [h] at h1
    have h2 := fromUtf8_utf8 []
    rw [show utf8 [] = [] from rfl] at h2
    rw [h2] at h1
    simpa using h1.symm
  · rintro rfl; rfl

theorem utf16le_nil_iff (s : Str) : utf16le s = [] ↔ s = [] := by
  constructor
  · intro h
    cases s with
    | nil => rfl
    | cons c s =>
      have := congrArg List.length h
      rw [utf16le_cons, List.length_append] at this
      have := length_units c
      simp at *
      omega
  · rintro rfl; rfl

/-- An OEM field reads back as itself, with the empty text read as absent. -/
theorem getDataIf_oem (cfg : Cfg) {s : Option OEMString} (hv : strFits utf8Bytes (s.map (·.s))) {o : Nat} (ho : o < 2 ^ 32)
    {input pre post : List UInt8} (hp : o = pre.length)
    (hi : input = pre ++ payload (s.map fun x => utf8Bytes x.s) ++ post) :
    (fieldOf (s.map fun x => utf8Bytes x.s) o).getDataIf cfg input true =
      .ok (s.filter fun x => !x.s.isEmpty) := by
  rw [getDataIf_fieldOf cfg (strFits_payload hv) ho hp hi]
  cases s with
  | none => simp [payload]
  | some x =>
    obtain ⟨x⟩ := x
    simp only [payload, Option.map_some, Option.getD_some, utf8Bytes_nil_iff, oem_decode]
    cases x <;> simp [Option.filter]

/-- A UTF-16 field reads back as its longest plain prefix, with the empty text read as absent. -/
theorem getDataIf_unicode (cfg : Cfg) {s : Option UnicodeString} (hv : strFits utf16le (s.map (·.s))) {o : Nat}
    (ho : o < 2 ^ 32) {input pre post : List UInt8} (hp : o = pre.length)
    (hi : input = pre ++ payload (s.map fun x => utf16le x.s) ++ post) :
    (fieldOf (s.map fun x => utf16le x.s) o).getDataIf cfg input true =
      .ok ((s.filter fun x => !x.s.isEmpty).map fun x => (⟨x.s.takeWhile plainChar⟩ : UnicodeString)) := by
  rw [getDataIf_fieldOf cfg (strFits_payload hv) ho hp hi]
  cases s with
  | none => simp [payload]
  | some x =>
    obtain ⟨x⟩ := x
    simp only [payload, Option.map_some, Option.getD_some, utf16le_nil_iff, unicode_decode]
    cases x <;> simp [Option.filter]

theorem notEmptyText_iff (s : Option OEMString) :
    (s.filter fun x => !x.s.isEmpty) = s ↔ notEmptyText (s.map (·.s)) := by
  cases s with
  | none => simp [notEmptyText]
  | some x =>
    obtain ⟨x⟩ := x
    cases x <;> simp [notEmptyText, Option.filter]

theorem plainField_iff (s : Option UnicodeString) :
    ((s.filter fun x => !x.s.isEmpty).map fun x => (⟨x.s.takeWhile plainChar⟩ : UnicodeString)) = s ↔
      plainField (s.map (·.s)) := by
  cases s with
  | none => simp [plainField]
  | some x =>
    obtain ⟨x⟩ := x
    cases x with
    | nil => simp [plainField, Option.filter]
    | cons c t =>
      simp only [plainField, Option.filter, List.isEmpty_cons, Bool.not_false, if_true, Option.map_some,
        Option.some.injEq, UnicodeString.mk.injEq]
      constructor
      · intro h y hy
        subst hy
        exact ⟨by simp, plain_of_takeWhile h⟩
      · intro h
        exact (takeWhile_plain (h _ rfl).2).1

/-! ### NEGOTIATE -/

theorem negotiate_header (cfg : Cfg) (m : Negotiate) (h : negotiateFits m) :
    Negotiate.header cfg (negotiateBytes m) =
      .ok ((m.negotiateFlags,
        fieldOf (m.domainName.map fun s => utf8Bytes s.s) (32 + (payload (m.version.map versionBytes)).length),
        fieldOf (m.workstation.map fun s => utf8Bytes s.s) (32 + (payload (m.version.map versionBytes)).length +
          (payload (m.domainName.map fun s => utf8Bytes s.s)).length)),
        payload (m.version.map versionBytes) ++ (payload (m.domainName.map fun s => utf8Bytes s.s) ++
          payload (m.workstation.map fun s => utf8Bytes s.s))) := by
  obtain ⟨hd, hw⟩ := h
  have hv := length_payload_version m.version
  have hd' := strFits_payload hd
  have hw' := strFits_payload hw
  simp only [negotiateBytes, List.append_assoc]
  unfold Negotiate.header
  rw [signature_eq, Parser.bind_ok (tag_append _ _),
    Parser.bind_ok (verify_ok (leU32_leNat (n := 1) (by omega) _) rfl),
    Parser.bind_ok (dec_flags cfg _ _), Parser.bind_ok (dec_descriptor cfg hd' (by omega) _),
    Parser.bind_ok (dec_descriptor cfg hw' (by omega) _)]
  rfl

/-- What an encoded NEGOTIATE message decodes to. -/
theorem negotiate_decode (cfg : Cfg) (m : Negotiate) (h : negotiateFits m) :
    (Wire.deserialize cfg : Parser Negotiate) (negotiateBytes m) =
      match cond (m.negotiateFlags.hasFlag Flags.NTLMSSP_NEGOTIATE_VERSION) (Wire.deserialize cfg : Parser Version)
        (payload (m.version.map versionBytes) ++ (payload (m.domainName.map fun s => utf8Bytes s.s) ++
          payload (m.workstation.map fun s => utf8Bytes s.s))) with
      | .error e => .error e
      | .ok (v, _) => .ok ((⟨m.negotiateFlags, m.domainName.filter fun x => !x.s.isEmpty,
          m.workstation.filter fun x => !x.s.isEmpty, v⟩ : Negotiate), []) := by
  have hv := length_payload_version m.version
  have hd' := strFits_payload h.1
  have e1 : (fieldOf (m.domainName.map fun s => utf8Bytes s.s) (32 + (payload (m.version.map versionBytes)).length)).getDataIf
      cfg (negotiateBytes m) true = .ok (m.domainName.filter fun x => !x.s.isEmpty) := by
    refine getDataIf_oem cfg h.1 (by omega)
      (pre := ntlmssp ++ le 4 1 ++ le 4 m.negotiateFlags.bits.toNat ++
        descriptor (m.domainName.map fun s => utf8Bytes s.s) (32 + (payload (m.version.map versionBytes)).length) ++
        descriptor (m.workstation.map fun s => utf8Bytes s.s) (32 + (payload (m.version.map versionBytes)).length +
          (payload (m.domainName.map fun s => utf8Bytes s.s)).length) ++ payload (m.version.map versionBytes))
      (post := payload (m.workstation.map fun s => utf8Bytes s.s)) ?_
      (by simp only [negotiateBytes, List.append_assoc])
    simp only [List.length_append, length_ntlmssp, length_le, length_descriptor]
  have e2 : (fieldOf (m.workstation.map fun s => utf8Bytes s.s) (32 + (payload (m.version.map versionBytes)).length +
      (payload (m.domainName.map fun s => utf8Bytes s.s)).length)).getDataIf
      cfg (negotiateBytes m) true = .ok (m.workstation.filter fun x => !x.s.isEmpty) := by
    refine getDataIf_oem cfg h.2 (by omega)
      (pre := ntlmssp ++ le 4 1 ++ le 4 m.negotiateFlags.bits.toNat ++
        descriptor (m.domainName.map fun s => utf8Bytes s.s) (32 + (payload (m.version.map versionBytes)).length) ++
        descriptor (m.workstation.map fun s => utf8Bytes s.s) (32 + (payload (m.version.map versionBytes)).length +
          (payload (m.domainName.map fun s => utf8Bytes s.s)).length) ++ payload (m.version.map versionBytes) ++
          payload (m.domainName.map fun s => utf8Bytes s.s))
      (post := []) ?_ (by simp only [negotiateBytes, List.append_assoc, List.append_nil])
    simp only [List.length_append, length_ntlmssp, length_le, length_descriptor]
  show Negotiate.deserialize cfg _ = _
  unfold Negotiate.deserialize
  rw [negotiate_header cfg m h]
  simp only [Bool.or_true, e1, e2]
  rfl

theorem negotiate_roundtrip (cfg : Cfg) (m : Negotiate) (h : negotiateFits m) :
    Wire.deserialize cfg (negotiateBytes m) = .ok (m, []) ↔ negotiateOk m := by
  rw [negotiate_decode cfg m h, negotiateOk, ← notEmptyText_iff, ← notEmptyText_iff,
    version_iff cfg m.negotiateFlags m.version (payload (m.domainName.map fun s => utf8Bytes s.s) ++
      payload (m.workstation.map fun s => utf8Bytes s.s))]
  obtain ⟨f, d, w, v⟩ := m
  generalize cond _ _ _ = x
  rcases x with e | ⟨v', r⟩
  · simp
  · simp
    grind

end Ntlm
