import Verif.Spec.Bytes
import Verif.Lemmas.Frame
import Verif.Lemmas.DecodeStruct
import Verif.Props.RoundTrip
/-
  C04, C05, C06: what encoding writes, and when it fails.
-/
namespace Ntlm

open Spec

/-! ### Helper lemmas -/

theorem appendOnly_enc {α : Type} [Wire α] (f : α → List UInt8) (h : ∀ cfg (x : α), Enc cfg x (f x)) : AppendOnly α :=
  fun cfg x => ⟨.ok (f x), fun w => h cfg x w⟩

theorem appendOnly_fits {α : Type} [Wire α] (fits : α → Prop) (f : α → List UInt8)
    (hok : ∀ cfg (x : α), fits x → Enc cfg x (f x))
    (herr : ∀ cfg (x : α), ¬ fits x → ∃ p, ∀ w, Wire.serializeInto cfg x w = .error p) : AppendOnly α := by
  intro cfg x
  by_cases h : fits x
  · exact ⟨.ok (f x), fun w => hok cfg x h w⟩
  · obtain ⟨p, hp⟩ := herr cfg x h
    exact ⟨.error p, fun w => hp w⟩

theorem length_avPairBytes_ge (p : AvPair) : (avPairBytes p).length = 4 + (avValueBytes p).length := by
  simp [avPairBytes]; omega

/-! ### C04 -/

namespace Props

/-- C04: every wire type of the crate only appends, and returns the number of bytes appended. -/
theorem C04_append_only :
    (∀ n, AppendOnly (Bytes n)) ∧ AppendOnly Flags ∧ AppendOnly Version ∧ AppendOnly FileTime ∧
      AppendOnly SingleHostData ∧ AppendOnly MessageSignature ∧ AppendOnly AvId ∧ AppendOnly MsvAvFlags ∧
      AppendOnly AvPair ∧ AppendOnly OEMString ∧ AppendOnly UnicodeString ∧ AppendOnly Lmv1Challenge ∧
      AppendOnly Lmv2Challenge ∧ AppendOnly LmChallenge ∧ AppendOnly Ntv1Challenge ∧ AppendOnly Ntv2Challenge ∧
      AppendOnly NtChallenge ∧ AppendOnly Field ∧ AppendOnly Negotiate ∧ AppendOnly Challenge ∧
      AppendOnly Authenticate := by
  refine ⟨fun n => appendOnly_enc (fun x => x.val) fun cfg x => enc_bytes cfg x, appendOnly_enc _ enc_flags,
    appendOnly_enc _ enc_version, appendOnly_enc _ enc_fileTime, appendOnly_enc _ enc_singleHost,
    appendOnly_enc _ enc_signature, ?_, appendOnly_enc _ enc_avFlags, ?_, appendOnly_enc _ enc_oem,
    appendOnly_enc _ enc_unicode, ?_, ?_, appendOnly_enc _ enc_lm, ?_, ?_, ?_, appendOnly_enc _ enc_field, ?_, ?_, ?_⟩
  · exact appendOnly_enc (fun x => le 2 x.toU16.toNat) fun cfg x w => by simp [Wire.serializeInto, writeU16, le_eq]
  · exact appendOnly_fits avPairFits _ enc_avPair fun cfg x h => ⟨_, avPair_err cfg x h⟩
  · exact appendOnly_enc (fun x => x.response.val) fun cfg x => enc_bytes cfg x.response
  · exact appendOnly_enc (fun x => lmBytes (.v2 x)) fun cfg x => enc_lm cfg (.v2 x)
  · exact appendOnly_enc (fun x => x.response.val) fun cfg x => enc_bytes cfg x.response
  · exact appendOnly_fits (fun x => ∀ p ∈ x.targetInfos, avPairFits p) _ enc_ntv2 fun cfg x h => ⟨_, ntv2_err cfg x h⟩
  · intro cfg x
    cases x with
    | v1 c => exact ⟨.ok c.response.val, enc_bytes cfg c.response⟩
    | v2 c =>
      by_cases h : ∀ p ∈ c.targetInfos, avPairFits p
      · exact ⟨.ok (ntv2Bytes c), enc_ntv2 cfg c h⟩
      · exact ⟨.error .stringTooLong, ntv2_err cfg c h⟩
  · exact appendOnly_fits negotiateFits _ enc_negotiate fun cfg x h => ⟨_, negotiate_err cfg x h⟩
  · exact appendOnly_fits challengeFits _ enc_challenge fun cfg x h =>
      (challenge_err cfg x h []).imp fun p hp => framed_error (framed_challenge cfg x) hp.1
  · exact appendOnly_fits authenticateFits _ enc_authenticate fun cfg x h =>
      (authenticate_err cfg x h []).imp fun p hp => framed_error (framed_authenticate cfg x) hp.1

/-- The sample challenge after three bytes of something else. -/
example (cfg : Cfg) : ∃ added, Wire.serializeInto cfg exChallenge [1, 2, 3] = .ok (added.length, [1, 2, 3] ++ added) :=
  ⟨_, enc_challenge cfg exChallenge exChallenge_fits [1, 2, 3]⟩

/-- C04 for vectors of any wire type. -/
theorem C04_append_only_vec (α : Type) [Wire α] (h : AppendOnly α) : AppendOnly (List α) := by
  intro cfg xs
  have key : ∀ xs : List α, ∃ r : Except Panic (List UInt8), ∀ (n : Nat) (w : List UInt8),
      serializeVecLoop cfg xs n w =
        match r with
        | .ok added => .ok (n + added.length, w ++ added)
        | .error p => .error p := by
    intro xs
    induction xs with
    | nil => exact ⟨.ok [], fun n w => by simp [serializeVecLoop]⟩
    | cons x xs ih =>
      obtain ⟨r1, h1⟩ := h cfg x
      obtain ⟨r2, h2⟩ := ih
      cases r1 with
      | error p =>
        refine ⟨.error p, fun n w => ?_⟩
        simp only [serializeVecLoop]
        exact W.bind_err (h1 w)
      | ok e1 =>
        cases r2 with
        | error p =>
          refine ⟨.error p, fun n w => ?_⟩
          simp only [serializeVecLoop]
          rw [W.bind_ok (h1 w)]
          exact h2 _ _
        | ok e2 =>
          refine ⟨.ok (e1 ++ e2), fun n w => ?_⟩
          simp only [serializeVecLoop]
          rw [W.bind_ok (h1 w)]
          simp only [h2, List.length_append, List.append_assoc, Nat.add_assoc]
  obtain ⟨r, hr⟩ := key xs
  refine ⟨r, fun w => ?_⟩
  have := hr 0 w
  show serializeVecLoop cfg xs 0 w = _
  rw [this]
  cases r <;> simp

example : AppendOnly (List AvPair) := C04_append_only_vec AvPair C04_append_only.2.2.2.2.2.2.2.2.1
example (cfg : Cfg) : Wire.serializeInto cfg [AvPair.nbDomainName "D".toList, AvPair.eol] [7] =
    .ok (10, [7, 2, 0, 2, 0, 0x44, 0, 0, 0, 0, 0]) := rfl

/-- The standalone `serialize` returns exactly what `serialize_into` appends (the debug assertion on the count
    never fires), for every append-only type. -/
theorem C04_serialize (α : Type) [Wire α] (h : AppendOnly α) (cfg : Cfg) (x : α) (buffer : List UInt8) :
    Wire.serializeInto cfg x buffer =
      match Wire.serialize cfg x with
      | .ok added => .ok (added.length, buffer ++ added)
      | .error p => .error p := by
  obtain ⟨r, hr⟩ := h cfg x
  rw [hr buffer]
  cases r with
  | error p => rw [serialize_of_error (hr [])]
  | ok e => rw [serialize_of_enc (b := e) (fun w => hr w)]

/-- Concrete case: an AV pair written after two bytes. -/
example : Wire.serializeInto ⟨true, true, .unix⟩ (AvPair.nbDomainName "D".toList) [7, 8] =
    .ok (6, [7, 8, 2, 0, 2, 0, 0x44, 0]) := by rfl

end Props

/-! ### C05 -/

theorem byteAt_append {pre b : List UInt8} {i k : Nat} (h : i = pre.length + k) : byteAt (pre ++ b) i = byteAt b k := by
  subst h
  simp only [byteAt, List.getD_eq_getElem?_getD]
  rw [List.getElem?_append_right (by omega), Nat.add_sub_cancel_left]

theorem byteAt_le {k n i : Nat} (r : List UInt8) (h : i < k) : byteAt (le k n ++ r) i = n / 256 ^ i % 256 := by
  simp only [byteAt, List.getD_eq_getElem?_getD]
  rw [List.getElem?_append_left (by simp [length_le, h])]
  simp only [le, List.getElem?_map, List.getElem?_range h, Option.map_some, Option.getD_some, UInt8.toNat_ofNat']
  omega

theorem u16At_append {pre b : List UInt8} {i k : Nat} (h : i = pre.length + k) : u16At (pre ++ b) i = u16At b k := by
  rw [u16At, u16At, byteAt_append h, byteAt_append (k := k + 1) (by omega)]

theorem u32At_append {pre b : List UInt8} {i k : Nat} (h : i = pre.length + k) : u32At (pre ++ b) i = u32At b k := by
  rw [u32At, u32At, u16At_append h, u16At_append (k := k + 2) (by omega)]

theorem u16At_le {n : Nat} (hn : n < 65536) (r : List UInt8) : u16At (le 2 n ++ r) 0 = n := by
  rw [u16At, byteAt_le r (by omega), byteAt_le r (by omega)]
  simp only [Nat.pow_zero, Nat.zero_add, Nat.pow_one, Nat.div_one]
  omega

theorem u32At_le {n : Nat} (hn : n < 2 ^ 32) (r : List UInt8) : u32At (le 4 n ++ r) 0 = n := by
  simp only [u32At, u16At]
  rw [byteAt_le r (by omega), byteAt_le r (by omega), byteAt_le r (by omega), byteAt_le r (by omega)]
  simp only [Nat.pow_zero, Nat.zero_add, Nat.pow_one, Nat.div_one]
  omega

theorem bytesAt_mid (pre v post : List UInt8) {i n : Nat} (hi : i = pre.length) (hn : n = v.length) :
    bytesAt (pre ++ (v ++ post)) i n = v := by
  subst hi hn
  simp [bytesAt]

/-- The bytes `x` are found at position `i` of `b`. -/
def At (b : List UInt8) (i : Nat) (x : List UInt8) : Prop := ∃ pre post, b = pre ++ (x ++ post) ∧ i = pre.length

theorem At.head (x r : List UInt8) : At (x ++ r) 0 x := ⟨[], r, rfl, rfl⟩

theorem At.last (x : List UInt8) : At x 0 x := ⟨[], [], by simp, rfl⟩

theorem At.skip {b x : List UInt8} {i j : Nat} {y : List UInt8} (h : At b i x) (hj : j = y.length + i) : At (y ++ b) j x := by
  obtain ⟨pre, post, rfl, rfl⟩ := h
  exact ⟨y ++ pre, post, by simp, by simp [hj]⟩

theorem At.bytes {b x : List UInt8} {i n : Nat} (h : At b i x) (hn : n = x.length) : bytesAt b i n = x := by
  obtain ⟨pre, post, rfl, hi⟩ := h
  exact bytesAt_mid _ _ _ hi hn

theorem At.u32 {b : List UInt8} {i n : Nat} (h : At b i (le 4 n)) (hn : n < 2 ^ 32) : u32At b i = n := by
  obtain ⟨pre, post, rfl, hi⟩ := h
  rw [u32At_append (k := 0) (by omega)]
  exact u32At_le hn _

theorem At.le {b x : List UInt8} {i : Nat} (h : At b i x) : i + x.length ≤ b.length := by
  obtain ⟨pre, post, rfl, hi⟩ := h
  simp only [List.length_append]; omega

/-- One field of the payload. -/
theorem payloadIs_cons {b : List UInt8} {start pos : Nat} {v : Option (List UInt8)}
    {fields : List (Nat × Option (List UInt8))} (hv : (payload v).length ≤ 65535) (hs : start < 2 ^ 32)
    (hd : At b pos (descriptor v start)) (hp : At b start (payload v))
    (hrest : payloadIs b (start + (payload v).length) fields) : payloadIs b start ((pos, v) :: fields) := by
  cases v with
  | none => exact ⟨hd.bytes rfl, by simpa [payload] using hrest⟩
  | some v =>
    simp only [payload, Option.getD_some] at hv hp hrest
    have e : descriptor (some v) start = Spec.le 2 v.length ++ (Spec.le 2 v.length ++ Spec.le 4 start) := by
      simp [descriptor]
    refine ⟨?_, ?_, ?_, hp.le, hp.bytes rfl, hrest⟩
    all_goals
      obtain ⟨pre, post, hb, hpos⟩ := hd
      rw [hb, e]
    · rw [u16At_append (k := 0) (by omega), List.append_assoc]
      exact u16At_le (by omega) _
    · rw [u16At_append (k := 2) (by omega), List.append_assoc, u16At_append (k := 0) (by simp), List.append_assoc]
      exact u16At_le (by omega) _
    · rw [u32At_append (k := 4) (by omega), List.append_assoc, u32At_append (k := 2) (by simp),
        List.append_assoc, u32At_append (k := 0) (by simp)]
      exact u32At_le hs _

theorem payloadIs_nil {b : List UInt8} {start : Nat} (h : start = b.length) : payloadIs b start [] := h

/-- Find a segment of a concatenation. -/
theorem At.seg {b : List UInt8} {i : Nat} (segs : List (List UInt8)) (k : Nat) (hk : k < segs.length)
    (hb : b = segs.flatten) (hi : i = ((segs.take k).map List.length).sum) : At b i segs[k] := by
  refine ⟨(segs.take k).flatten, (segs.drop (k + 1)).flatten, ?_, by rw [hi, List.length_flatten]⟩
  rw [hb, ← List.flatten_cons, ← List.flatten_append, List.getElem_cons_drop, List.take_append_drop]

namespace Props

/-- C05 for NEGOTIATE: signature, type and flags in front; then the descriptors of domain (offset 16) and workstation
    (offset 24) describe exactly the payload, which starts after the 32-byte header and the optional
    version block. -/
theorem C05_negotiate_layout (cfg : Cfg) (m : Negotiate) (b : List UInt8) (henc : Wire.serialize cfg m = .ok b) :
    bytesAt b 0 8 = ntlmssp ∧ u32At b 8 = 1 ∧ u32At b 12 = m.negotiateFlags.bits.toNat ∧
      bytesAt b 32 (payload (m.version.map versionBytes)).length = payload (m.version.map versionBytes) ∧
      payloadIs b (32 + (payload (m.version.map versionBytes)).length)
        [(16, m.domainName.map fun s => utf8Bytes s.s), (24, m.workstation.map fun s => utf8Bytes s.s)] := by
  obtain ⟨⟨hd, hw⟩, rfl⟩ := (serialize_negotiate cfg m b).mp henc
  have l0 := length_payload_version m.version
  have l1 := strFits_payload hd
  have l2 := strFits_payload hw
  have hfl := m.negotiateFlags.bits.toNat_lt
  have hb : negotiateBytes m = [ntlmssp, le 4 1, le 4 m.negotiateFlags.bits.toNat,
      descriptor (m.domainName.map fun s => utf8Bytes s.s) (32 + (payload (m.version.map versionBytes)).length),
      descriptor (m.workstation.map fun s => utf8Bytes s.s) (32 + (payload (m.version.map versionBytes)).length +
        (payload (m.domainName.map fun s => utf8Bytes s.s)).length),
      payload (m.version.map versionBytes), payload (m.domainName.map fun s => utf8Bytes s.s),
      payload (m.workstation.map fun s => utf8Bytes s.s)].flatten := by
    simp only [negotiateBytes, List.append_assoc, List.flatten_cons, List.flatten_nil, List.append_nil]
  refine ⟨(At.seg _ 0 (by simp) hb rfl).bytes rfl, (At.seg _ 1 (by simp) hb ?_).u32 (by decide),
    (At.seg _ 2 (by simp) hb ?_).u32 hfl, (At.seg _ 5 (by simp) hb ?_).bytes rfl,
    payloadIs_cons l1 (by omega) (At.seg _ 3 (by simp) hb ?_) (At.seg _ 6 (by simp) hb ?_)
    (payloadIs_cons l2 (by omega) (At.seg _ 4 (by simp) hb ?_) (At.seg _ 7 (by simp) hb ?_) (payloadIs_nil ?_))⟩
  all_goals
    simp only [negotiateBytes, List.take_succ_cons, List.take_zero, List.map_cons, List.map_nil, List.sum_cons,
      List.sum_nil, length_ntlmssp, length_le, length_descriptor, List.length_append]
    try omega

/-- The sample message: the domain has 3 bytes at 40, the workstation "Zoë" 4 bytes at 43. -/
example (cfg : Cfg) : ∃ b, Wire.serialize cfg exNegotiate = .ok b ∧ u16At b 16 = 3 ∧ u32At b 20 = 40 ∧ u16At b 24 = 4 ∧ u32At b 28 = 43 ∧
    bytesAt b 43 4 = [0x5a, 0x6f, 0xc3, 0xab] := by
  have h := (serialize_negotiate cfg exNegotiate _).mpr ⟨exNegotiate_fits, rfl⟩
  obtain ⟨_, _, _, _, h1⟩ := C05_negotiate_layout cfg _ _ h
  obtain ⟨h2, _, h3, _, _, h4, _, h5, _, h6, _⟩ := h1
  exact ⟨_, h, h2, h3, h4, h5, h6⟩

/-- C05 for CHALLENGE: target name (descriptor at 12), target infos (descriptor at 40), payload after the 48-byte header
    and the optional version block. -/
theorem C05_challenge_layout (cfg : Cfg) (m : Challenge) (b : List UInt8) (henc : Wire.serialize cfg m = .ok b) :
    bytesAt b 0 8 = ntlmssp ∧ u32At b 8 = 2 ∧ u32At b 20 = m.negotiateFlags.bits.toNat ∧
      bytesAt b 24 8 = m.serverChallenge.val ∧ bytesAt b 32 8 = [0, 0, 0, 0, 0, 0, 0, 0] ∧
      bytesAt b 48 (payload (m.version.map versionBytes)).length = payload (m.version.map versionBytes) ∧
      payloadIs b (48 + (payload (m.version.map versionBytes)).length)
        [(12, m.targetName.map fun s => utf16le s.s),
          (40, if m.targetInfos = [] then none else some (avListBytes m.targetInfos))] := by
  obtain ⟨⟨ht, hi⟩, rfl⟩ := (serialize_challenge cfg m b).mp henc
  have l0 := length_payload_version m.version
  have l1 := strFits_payload ht
  have l2 := length_payload_infos hi
  have hfl := m.negotiateFlags.bits.toNat_lt
  have hsc := m.serverChallenge.property
  have hb : challengeBytes m = [ntlmssp, le 4 2,
      descriptor (m.targetName.map fun s => utf16le s.s) (48 + (payload (m.version.map versionBytes)).length),
      le 4 m.negotiateFlags.bits.toNat, m.serverChallenge.val, le 8 0,
      descriptor (infosField m.targetInfos) (48 + (payload (m.version.map versionBytes)).length +
        (payload (m.targetName.map fun s => utf16le s.s)).length),
      payload (m.version.map versionBytes), payload (m.targetName.map fun s => utf16le s.s),
      payload (infosField m.targetInfos)].flatten := by
    simp only [challengeBytes, List.append_assoc, List.flatten_cons, List.flatten_nil, List.append_nil]
  refine ⟨(At.seg _ 0 (by simp) hb rfl).bytes rfl, (At.seg _ 1 (by simp) hb ?_).u32 (by decide),
    (At.seg _ 3 (by simp) hb ?_).u32 hfl, (At.seg _ 4 (by simp) hb ?_).bytes hsc.symm,
    (At.seg _ 5 (by simp) hb ?_).bytes rfl, (At.seg _ 7 (by simp) hb ?_).bytes rfl,
    payloadIs_cons l1 (by omega) (At.seg _ 2 (by simp) hb ?_) (At.seg _ 8 (by simp) hb ?_)
    (payloadIs_cons l2 (by omega) (At.seg _ 6 (by simp) hb ?_) (At.seg _ 9 (by simp) hb ?_) (payloadIs_nil ?_))⟩
  all_goals
    simp only [challengeBytes, infosField, List.take_succ_cons, List.take_zero, List.map_cons, List.map_nil, List.sum_cons,
      List.sum_nil, length_ntlmssp, length_le, length_descriptor, List.length_append, hsc]
    try omega

/-- The sample message: the target name has 6 bytes at 56, the target info 26 at 62. -/
example (cfg : Cfg) : ∃ b, Wire.serialize cfg exChallenge = .ok b ∧ u16At b 12 = 6 ∧ u32At b 16 = 56 ∧ u16At b 40 = 26 ∧ u32At b 44 = 62 := by
  have h := (serialize_challenge cfg exChallenge _).mpr ⟨exChallenge_fits, rfl⟩
  obtain ⟨_, _, _, _, _, _, h1⟩ := C05_challenge_layout cfg _ _ h
  obtain ⟨h2, _, h3, _, _, h4, _, h5, _⟩ := h1
  exact ⟨_, h, h2, h3, h4, h5⟩

/-- C05 for AUTHENTICATE: six descriptors in the 64-byte header; the payload starts after the optional version block and
    the 16-byte MIC. -/
theorem C05_authenticate_layout (cfg : Cfg) (m : Authenticate) (b : List UInt8) (henc : Wire.serialize cfg m = .ok b) :
    bytesAt b 0 8 = ntlmssp ∧ u32At b 8 = 3 ∧ u32At b 60 = m.negotiateFlags.bits.toNat ∧
      bytesAt b 64 (payload (m.version.map versionBytes)).length = payload (m.version.map versionBytes) ∧
      bytesAt b (64 + (payload (m.version.map versionBytes)).length) 16 = m.mic.val ∧
      payloadIs b (64 + (payload (m.version.map versionBytes)).length + 16)
        [(12, m.lmChallengeResponse.map lmBytes), (20, m.ntChallengeResponse.map ntBytes),
          (28, m.domain.map fun s => utf16le s.s), (36, m.user.map fun s => utf16le s.s),
          (44, m.workstation.map fun s => utf16le s.s), (52, m.encryptedRandomSessionKey.map fun k => k.val)] := by
  obtain ⟨hf, rfl⟩ := (serialize_authenticate cfg m b).mp henc
  obtain ⟨l1, l2, l3, l4, l5, l6, o1, o2, o3, o4, o5, o6⟩ := authenticate_offsets m hf
  have hfl := m.negotiateFlags.bits.toNat_lt
  have hmic := m.mic.property
  have hb : authenticateBytes m = [ntlmssp, le 4 3, descriptor (auL m) (auO1 m), descriptor (auN m) (auO2 m),
      descriptor (auD m) (auO3 m), descriptor (auU m) (auO4 m), descriptor (auW m) (auO5 m),
      descriptor (auK m) (auO6 m), le 4 m.negotiateFlags.bits.toNat, auV m, m.mic.val, payload (auL m),
      payload (auN m), payload (auD m), payload (auU m), payload (auW m), payload (auK m)].flatten := by
    rw [authenticateBytes_eq]
    simp only [auH, List.append_assoc, List.flatten_cons, List.flatten_nil, List.append_nil]
  refine ⟨(At.seg _ 0 (by simp) hb rfl).bytes rfl, (At.seg _ 1 (by simp) hb ?_).u32 (by decide),
    (At.seg _ 8 (by simp) hb ?_).u32 hfl, (At.seg _ 9 (by simp) hb ?_).bytes rfl,
    (At.seg _ 10 (by simp) hb ?_).bytes hmic.symm,
    payloadIs_cons l1 o1 (At.seg _ 2 (by simp) hb ?_) (At.seg _ 11 (by simp) hb ?_)
    (payloadIs_cons l2 o2 (At.seg _ 3 (by simp) hb ?_) (At.seg _ 12 (by simp) hb ?_)
    (payloadIs_cons l3 o3 (At.seg _ 4 (by simp) hb ?_) (At.seg _ 13 (by simp) hb ?_)
    (payloadIs_cons l4 o4 (At.seg _ 5 (by simp) hb ?_) (At.seg _ 14 (by simp) hb ?_)
    (payloadIs_cons l5 o5 (At.seg _ 6 (by simp) hb ?_) (At.seg _ 15 (by simp) hb ?_)
    (payloadIs_cons l6 o6 (At.seg _ 7 (by simp) hb ?_) (At.seg _ 16 (by simp) hb ?_) (payloadIs_nil ?_))))))⟩
  all_goals
    simp only [authenticateBytes, auV, auL, auN, auD, auU, auW, auK, List.take_succ_cons, List.take_zero, List.map_cons, List.map_nil, List.sum_cons,
      List.sum_nil, length_ntlmssp, length_le, length_descriptor, List.length_append, hmic]
    try omega

/-- The theorem applies to the sample message: the NT response is found where the descriptor at 20 says. -/
example (cfg : Cfg) : ∃ b, Wire.serialize cfg exAuthenticate = .ok b ∧ u16At b 20 = 54 ∧ u32At b 24 = 104 ∧ u32At b 60 = 0x40800005 := by
  have h := (serialize_authenticate cfg exAuthenticate _).mpr ⟨exAuthenticate_fits, rfl⟩
  have hl := C05_authenticate_layout cfg _ _ h
  exact ⟨_, h, by decide +kernel, by decide +kernel, hl.2.2.1⟩

/-! ### C06 -/

theorem utf16le_replicate (n : Nat) : (utf16le (List.replicate n 'a')).length = 2 * n := by
  induction n with
  | zero => rfl
  | succ n ih =>
    rw [List.replicate_succ, utf16le_cons, List.length_append, ih]
    have : ((utf16Units 'a').flatMap (le 2)).length = 2 := by decide
    omega

theorem utf8_replicate (n : Nat) : (utf8Bytes (List.replicate n 'a')).length = n := by
  induction n with
  | zero => rfl
  | succ n ih =>
    rw [List.replicate_succ, show utf8Bytes ('a' :: List.replicate n 'a') = utf8Bytes ['a'] ++ utf8Bytes (List.replicate n 'a') by simp [utf8Bytes],
      List.length_append, ih]
    have : (utf8Bytes ['a']).length = 1 := by decide
    omega

/-- C06 for NEGOTIATE: encoding aborts exactly when a name encodes to more than 65535 bytes, and always with the
    16-bit-length failure. -/
theorem C06_negotiate_fails_iff (cfg : Cfg) (m : Negotiate) (p : Panic) :
    Wire.serialize cfg m = .error p ↔
      p = .fieldLen ∧ ((∃ s, m.domainName = some s ∧ 65535 < (utf8Bytes s.s).length) ∨
        (∃ s, m.workstation = some s ∧ 65535 < (utf8Bytes s.s).length)) := by
  by_cases h : negotiateFits m
  · rw [serialize_of_enc (enc_negotiate cfg m h)]
    simp only [reduceCtorEq, false_iff]
    rintro ⟨_, ⟨s, hs, hl⟩ | ⟨s, hs, hl⟩⟩
    · have := h.1 s.s (by simp [hs]); omega
    · have := h.2 s.s (by simp [hs]); omega
  · rw [serialize_of_error (negotiate_err cfg m h [])]
    simp only [Except.error.injEq]
    constructor
    · rintro rfl
      refine ⟨rfl, ?_⟩
      by_cases hd : strFits utf8Bytes (m.domainName.map (·.s))
      · have hw : ¬ strFits utf8Bytes (m.workstation.map (·.s)) := fun hw => h ⟨hd, hw⟩
        obtain ⟨x, hx, hl⟩ := not_strFits hw
        exact Or.inr ⟨x, hx, by omega⟩
      · obtain ⟨x, hx, hl⟩ := not_strFits hd
        exact Or.inl ⟨x, hx, by omega⟩
    · rintro ⟨rfl, _⟩; rfl

/-- A domain of 65536 letters does not fit. -/
example (cfg : Cfg) : Wire.serialize cfg { exNegotiate with domainName := some ⟨List.replicate 65536 'a'⟩ } = .error .fieldLen :=
  (C06_negotiate_fails_iff cfg _ _).mpr ⟨rfl, .inl ⟨_, rfl, by rw [utf8_replicate]; omega⟩⟩

/-- C06 for CHALLENGE: the target name, one AV pair's value, or the whole target-info list is longer than 65535 bytes; the
    abort is one of the two 16-bit-length failures, never the offset or header check. -/
theorem C06_challenge_fails_iff (cfg : Cfg) (m : Challenge) :
    (∃ p, Wire.serialize cfg m = .error p) ↔
      (∃ s, m.targetName = some s ∧ 65535 < (utf16le s.s).length) ∨
        (∃ q ∈ m.targetInfos, 65535 < (avValueBytes q).length) ∨ 65535 < (avListBytes m.targetInfos).length := by
  by_cases h : challengeFits m
  · rw [serialize_of_enc (enc_challenge cfg m h)]
    simp only [reduceCtorEq, exists_false, false_iff]
    rintro (⟨s, hs, hl⟩ | ⟨q, hq, hl⟩ | hl)
    · have := h.1 s.s (by simp [hs]); omega
    · have := h.2.1 q hq; simp only [avPairFits] at this; omega
    · have := h.2.2; omega
  · obtain ⟨p, hp, _⟩ := challenge_err cfg m h []
    rw [serialize_of_error hp]
    simp only [Except.error.injEq, exists_eq', true_iff]
    by_cases ht : strFits utf16le (m.targetName.map (·.s))
    · by_cases hq : ∀ q ∈ m.targetInfos, avPairFits q
      · refine Or.inr (Or.inr ?_)
        have : ¬ (avListBytes m.targetInfos).length ≤ 65535 := fun hl => h ⟨ht, hq, hl⟩
        omega
      · simp only [Classical.not_forall] at hq
        obtain ⟨q, hq, hf⟩ := hq
        exact Or.inr (Or.inl ⟨q, hq, by simp only [avPairFits] at hf; omega⟩)
    · obtain ⟨x, hx, hl⟩ := not_strFits ht
      exact Or.inl ⟨x, hx, by omega⟩

/-- A target name of 32768 letters does not fit, one of 32767 letters does. -/
example (cfg : Cfg) : (∃ p, Wire.serialize cfg { exChallenge with targetName := some ⟨List.replicate 32768 'a'⟩ } = .error p) :=
  (C06_challenge_fails_iff cfg _).mpr (.inl ⟨_, rfl, by rw [utf16le_replicate]; omega⟩)

example (cfg : Cfg) : (∃ b, Wire.serialize cfg
      { exChallenge with targetName := some ⟨List.replicate 32767 'a'⟩ } = .ok b) := by
  refine ⟨_, (serialize_challenge _ _ _).mpr ⟨⟨?_, exChallenge_fits.2⟩, rfl⟩⟩
  intro x hx
  simp only [Option.map_some, Option.some.injEq] at hx
  rw [← hx, utf16le_replicate]; omega

/-- The same for the kind of failure. -/
theorem C06_challenge_failure_kind (cfg : Cfg) (m : Challenge) (p : Panic) (h : Wire.serialize cfg m = .error p) :
    p = .fieldLen ∨ p = .stringTooLong := by
  by_cases hf : challengeFits m
  · rw [serialize_of_enc (enc_challenge cfg m hf)] at h; simp at h
  · obtain ⟨q, hq, hk⟩ := challenge_err cfg m hf []
    rw [serialize_of_error hq] at h
    simp only [Except.error.injEq] at h
    exact h ▸ hk

/-- An AV pair too long for its own length field. -/
example (cfg : Cfg) : ∃ p, Wire.serialize cfg { exChallenge with targetInfos := [.nbDomainName (List.replicate 32768 'a'), .eol] } = .error p ∧
    (p = .fieldLen ∨ p = .stringTooLong) := by
  obtain ⟨p, hp⟩ := (C06_challenge_fails_iff cfg { exChallenge with targetInfos := [.nbDomainName (List.replicate 32768 'a'), .eol] }).mpr
    (.inr (.inl ⟨_, List.mem_cons_self, by simp only [avValueBytes]; rw [utf16le_replicate]; omega⟩))
  exact ⟨p, hp, C06_challenge_failure_kind cfg _ p hp⟩

/-- C06 for AUTHENTICATE: a name, one AV pair's value, or the whole NT response is longer than 65535 bytes. -/
theorem C06_authenticate_fails_iff (cfg : Cfg) (m : Authenticate) :
    (∃ p, Wire.serialize cfg m = .error p) ↔
      (∃ s, (m.domain = some s ∨ m.user = some s ∨ m.workstation = some s) ∧ 65535 < (utf16le s.s).length) ∨
        (∃ c, m.ntChallengeResponse = some (.v2 c) ∧
          ((∃ q ∈ c.targetInfos, 65535 < (avValueBytes q).length) ∨ 65535 < (ntv2Bytes c).length)) := by
  by_cases h : authenticateFits m
  · rw [serialize_of_enc (enc_authenticate cfg m h)]
    simp only [reduceCtorEq, exists_false, false_iff]
    obtain ⟨hn, hd, hu, hw⟩ := h
    rintro (⟨s, hs | hs | hs, hl⟩ | ⟨c, hc, ⟨q, hq, hl⟩ | hl⟩)
    · have := hd s.s (by simp [hs]); omega
    · have := hu s.s (by simp [hs]); omega
    · have := hw s.s (by simp [hs]); omega
    · have := (hn _ hc).1 q hq; simp only [avPairFits] at this; omega
    · have := (hn _ hc).2; omega
  · obtain ⟨p, hp, _⟩ := authenticate_err cfg m h []
    rw [serialize_of_error hp]
    simp only [Except.error.injEq, exists_eq', true_iff]
    by_cases hn : ∀ c, m.ntChallengeResponse = some c → ntFits c
    · refine Or.inl ?_
      by_cases hd : strFits utf16le (m.domain.map (·.s))
      · by_cases hu : strFits utf16le (m.user.map (·.s))
        · have hw : ¬ strFits utf16le (m.workstation.map (·.s)) := fun hw => h ⟨hn, hd, hu, hw⟩
          obtain ⟨x, hx, hl⟩ := not_strFits hw
          exact ⟨x, Or.inr (Or.inr hx), by omega⟩
        · obtain ⟨x, hx, hl⟩ := not_strFits hu
          exact ⟨x, Or.inr (Or.inl hx), by omega⟩
      · obtain ⟨x, hx, hl⟩ := not_strFits hd
        exact ⟨x, Or.inl hx, by omega⟩
    · refine Or.inr ?_
      simp only [Classical.not_forall] at hn
      obtain ⟨c, hc, hf⟩ := hn
      cases c with
      | v1 c => exact absurd trivial hf
      | v2 c =>
        refine ⟨c, hc, ?_⟩
        by_cases hq : ∀ q ∈ c.targetInfos, avPairFits q
        · have : ¬ (ntv2Bytes c).length ≤ 65535 := fun hl => hf ⟨hq, hl⟩
          exact Or.inr (by omega)
        · simp only [Classical.not_forall] at hq
          obtain ⟨q, hq, hf⟩ := hq
          exact Or.inl ⟨q, hq, by simp only [avPairFits] at hf; omega⟩

/-- The same for the kind of failure: never the 32-bit offset check, never the header-size assertion. -/
theorem C06_authenticate_failure_kind (cfg : Cfg) (m : Authenticate) (p : Panic) (h : Wire.serialize cfg m = .error p) :
    p = .fieldLen ∨ p = .stringTooLong := by
  by_cases hf : authenticateFits m
  · rw [serialize_of_enc (enc_authenticate cfg m hf)] at h; simp at h
  · obtain ⟨q, hq, hk⟩ := authenticate_err cfg m hf []
    rw [serialize_of_error hq] at h
    simp only [Except.error.injEq] at h
    exact h ▸ hk

/-- A user name of 32768 letters does not fit. -/
example (cfg : Cfg) : ∃ p, Wire.serialize cfg { exAuthenticate with user := some ⟨List.replicate 32768 'a'⟩ } = .error p ∧
    (p = .fieldLen ∨ p = .stringTooLong) := by
  obtain ⟨p, hp⟩ := (C06_authenticate_fails_iff cfg { exAuthenticate with user := some ⟨List.replicate 32768 'a'⟩ }).mpr
    (.inl ⟨_, .inr (.inl rfl), by rw [utf16le_replicate]; omega⟩)
  exact ⟨p, hp, C06_authenticate_failure_kind cfg _ p hp⟩

end Props

end Ntlm
