import Verif.Lemmas.Encode
/-
  Message encoders produce exactly the bytes of `Spec.Layout`, and panic exactly when something does not fit.
-/
namespace Ntlm

open Spec

theorem enc_field (cfg : Cfg) (f : Field) :
    Enc cfg f (le 2 f.len.toNat ++ le 2 f.maxLen.toNat ++ le 4 f.offset.toNat) := by
  intro w
  simp [Wire.serializeInto, W.bind_apply, writeU16, writeU32, le_eq]

theorem place_ok {α : Type} [Wire α] {cfg : Cfg} {v : α} {b : List UInt8} (h : Enc cfg v b)
    (hb : b.length ≤ 65535) {data : List UInt8} (hd : data.length < 2 ^ 32) :
    Field.place cfg v data = .ok (⟨UInt16.ofNat b.length, UInt16.ofNat b.length, UInt32.ofNat data.length⟩, data ++ b) := by
  have hb' : b.length < 2 ^ 16 := by omega
  simp only [Field.place, hd, if_true, h data, hb']

theorem place_err {α : Type} [Wire α] {cfg : Cfg} {v : α} {data : List UInt8} {e : Panic}
    (h : Wire.serializeInto cfg v data = .error e) (hd : data.length < 2 ^ 32) :
    Field.place cfg v data = .error e := by
  simp only [Field.place, hd, if_true, h]

theorem place_long {α : Type} [Wire α] {cfg : Cfg} {v : α} {b : List UInt8} (h : Enc cfg v b)
    (hb : ¬ b.length ≤ 65535) {data : List UInt8} (hd : data.length < 2 ^ 32) :
    Field.place cfg v data = .error .fieldLen := by
  have hb' : ¬ b.length < 2 ^ 16 := by omega
  simp only [Field.place, hd, if_true, h data, hb', if_false]

theorem field_write (cfg : Cfg) (b data w : List UInt8) (hb : b.length ≤ 65535) (hd : data.length < 2 ^ 32) :
    Wire.serializeInto cfg (⟨UInt16.ofNat b.length, UInt16.ofNat b.length, UInt32.ofNat data.length⟩ : Field) w = .ok (8, w ++ descriptor (some b) data.length) := by
  rw [enc_field]
  have e1 : (UInt16.ofNat b.length).toNat = b.length := by simp only [UInt16.toNat_ofNat']; omega
  have e2 : (UInt32.ofNat data.length).toNat = data.length := by simp only [UInt32.toNat_ofNat']; omega
  simp [descriptor, e1, e2]

theorem zeroed_write (cfg : Cfg) (w : List UInt8) (o : Nat) :
    Wire.serializeInto cfg Field.zeroed w = .ok (8, w ++ descriptor none o) := by
  rw [enc_field]
  simp [descriptor, Field.zeroed, le_eq, leBytes]

@[simp] theorem length_descriptor (v : Option (List UInt8)) (o : Nat) : (descriptor v o).length = 8 := by
  cases v <;> simp [descriptor]

theorem append_ok {α : Type} [Wire α] {cfg : Cfg} {value : Option α} {enc : α → List UInt8}
    (h : ∀ v, value = some v → Enc cfg v (enc v) ∧ (enc v).length ≤ 65535)
    {data : List UInt8} (hd : data.length < 2 ^ 32) (w : List UInt8) :
    Field.append cfg value data w =
      .ok ((8, data ++ payload (value.map enc)), w ++ descriptor (value.map enc) data.length) := by
  cases value with
  | none => simp [Field.append, W.bind_apply, zeroed_write cfg w data.length, payload]
  | some v =>
    obtain ⟨h1, h2⟩ := h v rfl
    simp only [Field.append, place_ok h1 h2 hd, W.bind_apply, field_write cfg _ _ _ h2 hd, W.pure_apply,
      Option.map_some, payload, Option.getD_some]

theorem append_err {α : Type} [Wire α] {cfg : Cfg} {v : α} {data : List UInt8} {e : Panic}
    (h : Field.place cfg v data = .error e) (w : List UInt8) :
    Field.append cfg (some v) data w = .error e := by
  simp [Field.append, h]

theorem pushVersion_ok (cfg : Cfg) (v : Option Version) (data : List UInt8) :
    pushVersion cfg v data = .ok (data ++ payload (v.map versionBytes)) := by
  cases v with
  | none => simp [pushVersion, payload]
  | some v => simp [pushVersion, enc_version cfg v data, payload]

theorem length_payload_version (v : Option Version) :
    (payload (v.map versionBytes)).length ≤ 8 := by
  cases v <;> simp [payload, versionBytes]

theorem strFits_payload {β : Type} {g : β → Str} {enc : Str → List UInt8} {s : Option β}
    (h : strFits enc (s.map g)) : (payload (s.map fun x => enc (g x))).length ≤ 65535 := by
  cases s with
  | none => simp [payload]
  | some x => simpa [payload] using h (g x) rfl

theorem signature_eq : signature = ntlmssp := by decide

@[simp] theorem length_ntlmssp : ntlmssp.length = 8 := by decide

theorem drop_replicate_append (n : Nat) (x y : List UInt8) :
    (List.replicate n 0 ++ x ++ y).drop n = x ++ y := by
  rw [List.append_assoc]
  exact List.drop_left' (by simp)

theorem not_strFits {β : Type} {g : β → Str} {enc : Str → List UInt8} {s : Option β}
    (h : ¬ strFits enc (s.map g)) : ∃ x, s = some x ∧ ¬ (enc (g x)).length ≤ 65535 := by
  cases s with
  | none => exact absurd (by simp [strFits]) h
  | some x =>
    refine ⟨x, rfl, fun hx => h ?_⟩
    intro y hy
    simp only [Option.map_some, Option.some.injEq] at hy
    rw [← hy]; exact hx

/-- The common end of the three message encoders. -/
theorem finish_ok {n hdr : Nat} (h : hdr = n) (body w : List UInt8) :
    (if (hdr != n) = true then W.panic .headerAssert
      else do
        writeAll body
        pure (hdr + body.length) : W Nat) w = .ok (n + body.length, w ++ body) := by
  subst h
  simp [W.bind_apply]

/-! ### NEGOTIATE -/

theorem ofExcept_version (cfg : Cfg) (v : Option Version) (n : Nat) (w : List UInt8) :
    W.ofExcept (pushVersion cfg v (List.replicate n 0)) w =
      .ok (List.replicate n 0 ++ payload (v.map versionBytes), w) := by
  simp [W.ofExcept, pushVersion_ok]

theorem enc_negotiate (cfg : Cfg) (m : Negotiate) (h : negotiateFits m) : Enc cfg m (negotiateBytes m) := by
  intro w
  obtain ⟨hd, hw⟩ := h
  have hv := length_payload_version m.version
  have hd' := strFits_payload hd
  have a1 := fun data hdata w => append_ok (cfg := cfg) (value := m.domainName) (enc := fun s => utf8Bytes s.s)
    (fun v hv => ⟨enc_oem cfg v, hd v.s (by simp [hv])⟩) (data := data) hdata w
  have a2 := fun data hdata w => append_ok (cfg := cfg) (value := m.workstation) (enc := fun s => utf8Bytes s.s)
    (fun v hv => ⟨enc_oem cfg v, hw v.s (by simp [hv])⟩) (data := data) hdata w
  show Negotiate.serializeInto cfg m w = _
  unfold Negotiate.serializeInto
  rw [W.bind_ok (ofExcept_version ..), W.bind_ok (writeAll_apply _ _)]
  rw [W.bind_ok (show writeU32 1 _ = _ from writeLen_apply _ _)]
  rw [W.bind_ok (enc_flags cfg _ _)]
  rw [W.bind_ok (a1 _ (by simp; omega) _)]
  simp only []
  rw [W.bind_ok (a2 _ (by simp; omega) _)]
  simp only [length_le, length_leBytes, signature_eq, length_ntlmssp]
  rw [finish_ok (by rfl)]
  simp only [List.append_assoc, List.drop_left' (List.length_replicate (n := 32) (a := (0 : UInt8))),
    List.length_append, List.length_replicate, negotiateBytes, le_eq, length_leBytes, length_ntlmssp,
    length_descriptor, UInt32.toNat_ofNat]
  congr 2
  · omega
  · simp only [Nat.add_assoc]

/-- What `Field.append` does when its value cannot be written: the panic of the value, or `fieldLen`. -/
theorem append_long {α : Type} [Wire α] {cfg : Cfg} {v : α} {b : List UInt8} (h : Enc cfg v b)
    (hb : ¬ b.length ≤ 65535) {data : List UInt8} (hd : data.length < 2 ^ 32) (w : List UInt8) :
    Field.append cfg (some v) data w = .error .fieldLen := append_err (place_long h hb hd) w

theorem negotiate_err (cfg : Cfg) (m : Negotiate) (h : ¬ negotiateFits m) (w : List UInt8) :
    Wire.serializeInto cfg m w = .error .fieldLen := by
  have hv := length_payload_version m.version
  show Negotiate.serializeInto cfg m w = _
  unfold Negotiate.serializeInto
  rw [W.bind_ok (ofExcept_version ..), W.bind_ok (writeAll_apply _ _)]
  rw [W.bind_ok (show writeU32 1 _ = _ from writeLen_apply _ _)]
  rw [W.bind_ok (enc_flags cfg _ _)]
  by_cases hd : strFits utf8Bytes (m.domainName.map (·.s))
  · have hd' := strFits_payload hd
    rw [W.bind_ok (append_ok (enc := fun s => utf8Bytes s.s)
      (fun v hv => ⟨enc_oem cfg v, hd v.s (by simp [hv])⟩) (by simp; omega) _)]
    simp only []
    have hw : ¬ strFits utf8Bytes (m.workstation.map (·.s)) := fun hw => h ⟨hd, hw⟩
    obtain ⟨x, hx, hl⟩ := not_strFits hw
    rw [hx, W.bind_err (append_long (enc_oem cfg x) hl (by simp; omega) _)]
  · obtain ⟨x, hx, hl⟩ := not_strFits hd
    rw [hx, W.bind_err (append_long (enc_oem cfg x) hl (by simp; omega) _)]

/-! ### CHALLENGE -/

theorem appendMany_ok {cfg : Cfg} {l : List AvPair} (h : avListFits l)
    {data : List UInt8} (hd : data.length < 2 ^ 32) (w : List UInt8) :
    Field.appendMany cfg l data w =
      .ok ((8, data ++ payload (infosField l)), w ++ descriptor (infosField l) data.length) := by
  cases l with
  | nil => simp [Field.appendMany, W.bind_apply, zeroed_write cfg w data.length, payload, infosField]
  | cons p l =>
    obtain ⟨h1, h2⟩ := h
    simp only [Field.appendMany, place_ok (enc_avList cfg _ h1) h2 hd, W.bind_apply, field_write cfg _ _ _ h2 hd,
      W.pure_apply, infosField, payload, reduceCtorEq, if_false, Option.getD_some]

/-- Why a list of AV pairs cannot be written. -/
def infosPanic (l : List AvPair) (p : Panic) : Prop :=
  ((¬ ∀ q ∈ l, avPairFits q) → p = .stringTooLong) ∧ ((∀ q ∈ l, avPairFits q) → p = .fieldLen)

theorem appendMany_err {cfg : Cfg} {l : List AvPair} (h : ¬ avListFits l)
    {data : List UInt8} (hd : data.length < 2 ^ 32) (w : List UInt8) :
    ∃ p, Field.appendMany cfg l data w = .error p ∧ infosPanic l p := by
  cases l with
  | nil => exact absurd (by simp [avListFits, avListBytes]) h
  | cons q l =>
    by_cases h1 : ∀ p ∈ q :: l, avPairFits p
    · have h2 : ¬ (avListBytes (q :: l)).length ≤ 65535 := fun h2 => h ⟨h1, h2⟩
      exact ⟨.fieldLen, by simp [Field.appendMany, place_long (enc_avList cfg _ h1) h2 hd],
        fun h => absurd h1 h, fun _ => rfl⟩
    · exact ⟨.stringTooLong, by simp [Field.appendMany, place_err (avList_err cfg _ h1 _) hd],
        fun _ => rfl, fun h => absurd h h1⟩

theorem length_payload_infos {l : List AvPair} (h : avListFits l) : (payload (infosField l)).length ≤ 65535 := by
  simp only [infosField]
  split
  · simp [payload]
  · simpa [payload] using h.2

theorem enc_challenge (cfg : Cfg) (m : Challenge) (h : challengeFits m) : Enc cfg m (challengeBytes m) := by
  intro w
  obtain ⟨ht, hi⟩ := h
  have hv := length_payload_version m.version
  have ht' := strFits_payload ht
  have a1 := fun data hdata w => append_ok (cfg := cfg) (value := m.targetName) (enc := fun s => utf16le s.s)
    (fun v hv => ⟨enc_unicode cfg v, ht v.s (by simp [hv])⟩) (data := data) hdata w
  show Challenge.serializeInto cfg m w = _
  unfold Challenge.serializeInto
  rw [W.bind_ok (ofExcept_version ..), W.bind_ok (writeAll_apply _ _)]
  rw [W.bind_ok (show writeU32 2 _ = _ from writeLen_apply _ _)]
  rw [W.bind_ok (a1 _ (by simp; omega) _)]
  simp only []
  rw [W.bind_ok (enc_flags cfg _ _)]
  rw [W.bind_ok (enc_bytes cfg _ _)]
  rw [W.bind_ok (show writeU64 0 _ = _ from writeLen_apply _ _)]
  rw [W.bind_ok (appendMany_ok hi (by simp; omega) _)]
  simp only [length_le, length_leBytes, signature_eq, length_ntlmssp, m.serverChallenge.property]
  rw [finish_ok (by rfl)]
  simp only [List.append_assoc, List.drop_left' (List.length_replicate (n := 48) (a := (0 : UInt8))),
    List.length_append, List.length_replicate, challengeBytes, le_eq, length_leBytes, length_ntlmssp,
    length_descriptor, UInt32.toNat_ofNat, m.serverChallenge.property]
  congr 2
  · omega
  · simp only [Nat.add_assoc]; rfl

theorem challenge_err (cfg : Cfg) (m : Challenge) (h : ¬ challengeFits m) (w : List UInt8) :
    ∃ p, Wire.serializeInto cfg m w = .error p ∧ (p = .fieldLen ∨ p = .stringTooLong) := by
  have hv := length_payload_version m.version
  show ∃ p, Challenge.serializeInto cfg m w = _ ∧ _
  unfold Challenge.serializeInto
  rw [W.bind_ok (ofExcept_version ..), W.bind_ok (writeAll_apply _ _)]
  rw [W.bind_ok (show writeU32 2 _ = _ from writeLen_apply _ _)]
  by_cases ht : strFits utf16le (m.targetName.map (·.s))
  · have ht' := strFits_payload ht
    rw [W.bind_ok (append_ok (enc := fun s => utf16le s.s)
      (fun v hv => ⟨enc_unicode cfg v, ht v.s (by simp [hv])⟩) (by simp; omega) _)]
    simp only []
    rw [W.bind_ok (enc_flags cfg _ _)]
    rw [W.bind_ok (enc_bytes cfg _ _)]
    rw [W.bind_ok (show writeU64 0 _ = _ from writeLen_apply _ _)]
    have hi : ¬ avListFits m.targetInfos := fun hi => h ⟨ht, hi⟩
    obtain ⟨p, hp, h1, h2⟩ := appendMany_err (cfg := cfg) hi
      (data := List.replicate 48 0 ++ payload (m.version.map versionBytes) ++
        payload (m.targetName.map fun s => utf16le s.s)) (by simp; omega)
      (w ++ signature ++ leBytes 4 (UInt32.toNat 2) ++ descriptor (m.targetName.map fun s => utf16le s.s)
        (List.replicate 48 0 ++ payload (m.version.map versionBytes)).length ++
        le 4 m.negotiateFlags.bits.toNat ++ m.serverChallenge.val ++ leBytes 8 (UInt64.toNat 0))
    refine ⟨p, W.bind_err hp, ?_⟩
    by_cases hq : ∀ q ∈ m.targetInfos, avPairFits q
    · exact .inl (h2 hq)
    · exact .inr (h1 hq)
  · obtain ⟨x, hx, hl⟩ := not_strFits ht
    rw [hx, W.bind_err (append_long (enc_unicode cfg x) hl (by simp; omega) _)]
    exact ⟨_, rfl, .inl rfl⟩

/-! ### AUTHENTICATE -/

theorem enc_nt (cfg : Cfg) (c : NtChallenge) (h : ntFits c) :
    Enc cfg c (ntBytes c) ∧ (ntBytes c).length ≤ 65535 := by
  cases c with
  | v1 c => exact ⟨fun w => enc_bytes cfg c.response w, by simp [ntBytes, c.response.property]⟩
  | v2 c => exact ⟨fun w => enc_ntv2 cfg c h.1 w, h.2⟩

theorem nt_err (cfg : Cfg) (c : NtChallenge) (h : ¬ ntFits c) {data : List UInt8} (hd : data.length < 2 ^ 32)
    (w : List UInt8) :
    ∃ p, Field.append cfg (some c) data w = .error p ∧ (p = .fieldLen ∨ p = .stringTooLong) := by
  cases c with
  | v1 c => exact absurd trivial h
  | v2 c =>
    by_cases h1 : ∀ p ∈ c.targetInfos, avPairFits p
    · have h2 : ¬ (ntv2Bytes c).length ≤ 65535 := fun h2 => h ⟨h1, h2⟩
      have he : Enc cfg (NtChallenge.v2 c) (ntv2Bytes c) := fun w => enc_ntv2 cfg c h1 w
      exact ⟨_, append_long he h2 hd w, .inl rfl⟩
    · exact ⟨_, append_err (place_err (e := .stringTooLong) (ntv2_err cfg c h1 data) hd) w, .inr rfl⟩

theorem length_payload_lm (c : Option LmChallenge) : (payload (c.map lmBytes)).length ≤ 24 := by
  cases c <;> simp [payload, length_lmBytes]

theorem length_payload_nt {c : Option NtChallenge} (h : ∀ x, c = some x → ntFits x) :
    (payload (c.map ntBytes)).length ≤ 65535 := by
  cases c with
  | none => simp [payload]
  | some c => simpa [payload] using (enc_nt ⟨false, false, .unix⟩ c (h c rfl)).2

theorem enc_authenticate (cfg : Cfg) (m : Authenticate) (h : authenticateFits m) :
    Enc cfg m (authenticateBytes m) := by
  intro w
  obtain ⟨hn, hd, hu, hw⟩ := h
  have hv := length_payload_version m.version
  have hm := m.mic.property
  have l1 := length_payload_lm m.lmChallengeResponse
  have l2 := length_payload_nt hn
  have l3 := strFits_payload hd
  have l4 := strFits_payload hu
  have l5 := strFits_payload hw
  have a1 := fun data hdata w => append_ok (cfg := cfg) (value := m.lmChallengeResponse) (enc := lmBytes)
    (fun v _ => ⟨enc_lm cfg v, by rw [length_lmBytes]; omega⟩) (data := data) hdata w
  have a2 := fun data hdata w => append_ok (cfg := cfg) (value := m.ntChallengeResponse) (enc := ntBytes)
    (fun v hv => enc_nt cfg v (hn v hv)) (data := data) hdata w
  have a3 := fun data hdata w => append_ok (cfg := cfg) (value := m.domain) (enc := fun s => utf16le s.s)
    (fun v hv => ⟨enc_unicode cfg v, hd v.s (by simp [hv])⟩) (data := data) hdata w
  have a4 := fun data hdata w => append_ok (cfg := cfg) (value := m.user) (enc := fun s => utf16le s.s)
    (fun v hv => ⟨enc_unicode cfg v, hu v.s (by simp [hv])⟩) (data := data) hdata w
  have a5 := fun data hdata w => append_ok (cfg := cfg) (value := m.workstation) (enc := fun s => utf16le s.s)
    (fun v hv => ⟨enc_unicode cfg v, hw v.s (by simp [hv])⟩) (data := data) hdata w
  have a6 := fun data hdata w => append_ok (cfg := cfg) (value := m.encryptedRandomSessionKey)
    (enc := fun b => b.val) (fun v hv => ⟨enc_bytes cfg v, by rw [v.property]; omega⟩) (data := data) hdata w
  show Authenticate.serializeInto cfg m w = _
  unfold Authenticate.serializeInto
  rw [W.bind_ok (ofExcept_version ..), W.bind_ok (writeAll_apply _ _)]
  rw [W.bind_ok (show writeU32 3 _ = _ from writeLen_apply _ _)]
  rw [W.bind_ok (a1 _ (by simp; omega) _)]
  simp only []
  rw [W.bind_ok (a2 _ (by simp; omega) _)]
  simp only []
  rw [W.bind_ok (a3 _ (by simp; omega) _)]
  simp only []
  rw [W.bind_ok (a4 _ (by simp; omega) _)]
  simp only []
  rw [W.bind_ok (a5 _ (by simp; omega) _)]
  simp only []
  rw [W.bind_ok (a6 _ (by simp; omega) _)]
  simp only []
  rw [W.bind_ok (enc_flags cfg _ _)]
  simp only [length_le, length_leBytes, signature_eq, length_ntlmssp]
  rw [finish_ok (by rfl)]
  simp only [List.append_assoc, List.drop_left' (List.length_replicate (n := 64) (a := (0 : UInt8))),
    List.length_append, List.length_replicate, authenticateBytes, le_eq, length_leBytes, length_ntlmssp,
    length_descriptor, UInt32.toNat_ofNat, m.mic.property]
  congr 2
  · omega
  · simp only [Nat.add_assoc]

theorem authenticate_err (cfg : Cfg) (m : Authenticate) (h : ¬ authenticateFits m) (w : List UInt8) :
    ∃ p, Wire.serializeInto cfg m w = .error p ∧ (p = .fieldLen ∨ p = .stringTooLong) := by
  have hv := length_payload_version m.version
  have hm := m.mic.property
  have l1 := length_payload_lm m.lmChallengeResponse
  show ∃ p, Authenticate.serializeInto cfg m w = _ ∧ _
  unfold Authenticate.serializeInto
  rw [W.bind_ok (ofExcept_version ..), W.bind_ok (writeAll_apply _ _)]
  rw [W.bind_ok (show writeU32 3 _ = _ from writeLen_apply _ _)]
  rw [W.bind_ok (append_ok (enc := lmBytes)
    (fun v _ => ⟨enc_lm cfg v, by rw [length_lmBytes]; omega⟩) (by simp; omega) _)]
  simp only []
  by_cases hn : ∀ c, m.ntChallengeResponse = some c → ntFits c
  · have l2 := length_payload_nt hn
    rw [W.bind_ok (append_ok (enc := ntBytes) (fun v hv => enc_nt cfg v (hn v hv)) (by simp; omega) _)]
    simp only []
    by_cases hd : strFits utf16le (m.domain.map (·.s))
    · have l3 := strFits_payload hd
      rw [W.bind_ok (append_ok (enc := fun s => utf16le s.s)
        (fun v hv => ⟨enc_unicode cfg v, hd v.s (by simp [hv])⟩) (by simp; omega) _)]
      simp only []
      by_cases hu : strFits utf16le (m.user.map (·.s))
      · have l4 := strFits_payload hu
        rw [W.bind_ok (append_ok (enc := fun s => utf16le s.s)
          (fun v hv => ⟨enc_unicode cfg v, hu v.s (by simp [hv])⟩) (by simp; omega) _)]
        simp only []
        have hw : ¬ strFits utf16le (m.workstation.map (·.s)) := fun hw => h ⟨hn, hd, hu, hw⟩
        obtain ⟨x, hx, hl⟩ := not_strFits hw
        rw [hx, W.bind_err (append_long (enc_unicode cfg x) hl (by simp; omega) _)]
        exact ⟨_, rfl, .inl rfl⟩
      · obtain ⟨x, hx, hl⟩ := not_strFits hu
        rw [hx, W.bind_err (append_long (enc_unicode cfg x) hl (by simp; omega) _)]
        exact ⟨_, rfl, .inl rfl⟩
    · obtain ⟨x, hx, hl⟩ := not_strFits hd
      rw [hx, W.bind_err (append_long (enc_unicode cfg x) hl (by simp; omega) _)]
      exact ⟨_, rfl, .inl rfl⟩
  · simp only [Classical.not_forall] at hn
    obtain ⟨c, hc, hf⟩ := hn
    rw [hc]
    obtain ⟨p, hp, hp2⟩ := nt_err cfg c hf (data := List.replicate 64 0 ++ payload (m.version.map versionBytes) ++
      m.mic.val ++ payload (m.lmChallengeResponse.map lmBytes)) (by simp; omega)
      (w ++ signature ++ leBytes 4 (UInt32.toNat 3) ++ descriptor (m.lmChallengeResponse.map lmBytes)
        (List.replicate 64 0 ++ payload (m.version.map versionBytes) ++ m.mic.val).length)
    exact ⟨p, W.bind_err hp, hp2⟩

end Ntlm
