import Verif.Lemmas.Basic
import Verif.Spec.Layout
/-
  The encoders produce exactly the bytes of `Spec.Layout`.
-/
namespace Ntlm

open Spec

theorem le_eq (k n : Nat) : le k n = leBytes k n := by
  induction k generalizing n with
  | zero => rfl
  | succ k ih =>
    rw [leBytes, ← ih]
    simp only [le, List.range_succ_eq_map, List.map_cons, List.map_map, Nat.pow_zero, Nat.div_one]
    congr 1
    apply List.map_congr_left
    intro i _
    simp only [Function.comp, Nat.succ_eq_add_one, Nat.pow_succ', Nat.div_div_eq_div_mul]

@[simp] theorem length_le (k n : Nat) : (le k n).length = k := by simp [le]

theorem leBytes_mod (k n : Nat) : leBytes k (n % 256 ^ k) = leBytes k n := by
  have h1 := leBytes_leVal (leBytes k n)
  rw [leVal_leBytes, length_leBytes] at h1
  exact h1

theorem leVal_le (k n : Nat) : leVal (le k n) = n % 256 ^ k := by rw [le_eq, leVal_leBytes]

theorem leVal_le_lt {k n : Nat} (h : n < 256 ^ k) : leVal (le k n) = n := by
  rw [leVal_le, Nat.mod_eq_of_lt h]

theorem utf8Bytes_eq (s : Str) : utf8Bytes s = utf8 s := by
  simp [utf8Bytes, utf8, List.utf8Encode, List.data_toByteArray]

theorem char_lt (c : Char) : c.toNat < 0x110000 := by
  have h := c.valid
  have h2 : c.toNat = c.val.toNat := rfl
  simp only [UInt32.isValidChar, Nat.isValidChar] at h
  omega

theorem utf16Char_bytes (c : Char) :
    (utf16Char c).flatMap (fun u => leBytes 2 u.toNat) = (utf16Units c).flatMap (le 2) := by
  have hc := char_lt c
  simp only [utf16Char, utf16Units]
  by_cases h : c.toNat < 0x10000
  · have h' : c.toNat ≤ 0xFFFF := by omega
    simp only [h, h', if_true, List.flatMap_cons, List.flatMap_nil, List.append_nil, le_eq]
    have : (UInt16.ofNat c.toNat).toNat = c.toNat := by simp; omega
    rw [this]
  · have h' : ¬ c.toNat ≤ 0xFFFF := by omega
    simp only [h, h', if_false, List.flatMap_cons, List.flatMap_nil, List.append_nil, le_eq]
    have e1 : (UInt16.ofNat (0xD800 + (c.toNat - 0x10000) / 0x400)).toNat =
        0xD800 + ((c.toNat - 0x10000) >>> 10) := by
      rw [Nat.shiftRight_eq_div_pow]; simp only [UInt16.toNat_ofNat']; omega
    have e2 : (UInt16.ofNat (0xDC00 + (c.toNat - 0x10000) % 0x400)).toNat =
        0xDC00 + ((c.toNat - 0x10000) &&& 0x3FF) := by
      have : (0x3FF : Nat) = 2 ^ 10 - 1 := rfl
      rw [this, Nat.and_two_pow_sub_one_eq_mod]; simp only [UInt16.toNat_ofNat']; omega
    rw [e1, e2]

theorem u16sAsBytes_encodeUtf16 (s : Str) : u16sAsBytes (encodeUtf16 s) = utf16le s := by
  induction s with
  | nil => rfl
  | cons c s ih =>
    simp only [u16sAsBytes, encodeUtf16, utf16le, List.flatMap_cons, List.flatMap_append] at ih ⊢
    rw [ih, utf16Char_bytes]

@[simp] theorem length_u16sAsBytes (us : List UInt16) : (u16sAsBytes us).length = 2 * us.length := by
  induction us with
  | nil => rfl
  | cons u us ih =>
    simp only [u16sAsBytes, List.flatMap_cons, List.length_append, length_leBytes, List.length_cons] at ih ⊢
    omega

/-! ### Exact encodings -/

/-- `x` is encoded as `b`: appended to the writer, and the returned count is `b.length`. -/
def Enc {α : Type} [Wire α] (cfg : Cfg) (x : α) (b : List UInt8) : Prop :=
  ∀ w, Wire.serializeInto cfg x w = .ok (b.length, w ++ b)

theorem enc_bytes (cfg : Cfg) {n : Nat} (b : Bytes n) : Enc cfg b b.val := by
  intro w
  simp [Wire.serializeInto, W.bind_apply, b.property]

theorem enc_flags (cfg : Cfg) (f : Flags) : Enc cfg f (le 4 f.bits.toNat) := by
  intro w
  simp [Wire.serializeInto, writeU32, le_eq]

theorem enc_version (cfg : Cfg) (v : Version) : Enc cfg v (versionBytes v) := by
  intro w
  simp [Wire.serializeInto, W.bind_apply, writeU8, writeU16, versionBytes, le_eq, leBytes]

theorem enc_fileTime (cfg : Cfg) (t : FileTime) : Enc cfg t (fileTimeBytes t) := by
  intro w
  simp [Wire.serializeInto, W.bind_apply, writeU32, fileTimeBytes, le_eq]

theorem enc_singleHost (cfg : Cfg) (d : SingleHostData) : Enc cfg d (singleHostBytes d) := by
  intro w
  simp [Wire.serializeInto, W.bind_apply, writeU32, singleHostBytes, le_eq, d.customData.property,
    d.machineId.property]

theorem length_singleHostBytes (d : SingleHostData) : (singleHostBytes d).length = 48 := by
  simp [singleHostBytes, d.customData.property, d.machineId.property]

theorem enc_signature (cfg : Cfg) (x : MessageSignature) : Enc cfg x (signatureBytes x) := by
  intro w
  have := enc_bytes cfg x.randomPad
  simp [Wire.serializeInto, W.bind_apply, writeU32, signatureBytes, le_eq, x.randomPad.property]

theorem toU32_avFlags (f : MsvAvFlags) : f.toU32.toNat = avFlagsValue f := by
  obtain ⟨a, b, c⟩ := f
  cases a <;> cases b <;> cases c <;> rfl

theorem enc_avFlags (cfg : Cfg) (f : MsvAvFlags) : Enc cfg f (le 4 (avFlagsValue f)) := by
  intro w
  simp [Wire.serializeInto, writeU32, le_eq, toU32_avFlags]

theorem enc_oem (cfg : Cfg) (s : OEMString) : Enc cfg s (utf8Bytes s.s) := by
  intro w
  simp [Wire.serializeInto, utf8Bytes_eq]

theorem writeUnits_apply (us : List UInt16) (n : Nat) (w : List UInt8) :
    writeUnits us n w = .ok (n + (u16sAsBytes us).length, w ++ u16sAsBytes us) := by
  induction us generalizing n w with
  | nil => simp [writeUnits, u16sAsBytes]
  | cons u us ih =>
    rw [writeUnits, W.bind_apply]
    simp only [writeU16, writeLen_apply, ih]
    simp [u16sAsBytes]
    omega

theorem enc_unicode (cfg : Cfg) (s : UnicodeString) : Enc cfg s (utf16le s.s) := by
  intro w
  simp only [Wire.serializeInto, writeUnits_apply, u16sAsBytes_encodeUtf16]
  simp

theorem length_utf16le_even (s : Str) : 2 ∣ (utf16le s).length := by
  rw [← u16sAsBytes_encodeUtf16, length_u16sAsBytes]; exact Nat.dvd_mul_right ..

/-! ### AV pairs -/

theorem avId_toU16 (p : AvPair) : p.getId.toU16.toNat = avIdValue p := by
  cases p <;> rfl

theorem encodeString_ok (s : Str) (h : (utf16le s).length ≤ 65535) (w : List UInt8) :
    encodeString s w = .ok (2 + (utf16le s).length, w ++ (le 2 (utf16le s).length ++ utf16le s)) := by
  have h' : (utf16le s).length < 65536 := by omega
  have e : (UInt16.ofNat (utf16le s).length).toNat = (utf16le s).length := by
    simp only [UInt16.toNat_ofNat']; omega
  simp only [encodeString, u16sAsBytes_encodeUtf16, h', if_true, W.bind_apply, writeU16, writeLen_apply, e,
    W.pure_apply, le_eq, length_leBytes, List.append_assoc]

theorem encodeString_err (s : Str) (h : ¬ (utf16le s).length ≤ 65535) (w : List UInt8) :
    encodeString s w = .error .stringTooLong := by
  have h' : ¬ (utf16le s).length < 65536 := by omega
  simp only [encodeString, u16sAsBytes_encodeUtf16, h', if_false, W.panic_apply]

theorem serializeBody_ok (cfg : Cfg) (p : AvPair) (h : avPairFits p) (w : List UInt8) :
    p.serializeBody cfg w =
      .ok (2 + (avValueBytes p).length, w ++ (le 2 (avValueBytes p).length ++ avValueBytes p)) := by
  cases p with
  | eol => simp [AvPair.serializeBody, writeU16, avValueBytes, le_eq]
  | nbComputerName s => exact encodeString_ok s h w
  | nbDomainName s => exact encodeString_ok s h w
  | dnsComputerName s => exact encodeString_ok s h w
  | dnsDomainName s => exact encodeString_ok s h w
  | dnsTreeName s => exact encodeString_ok s h w
  | targetName s => exact encodeString_ok s h w
  | flags f =>
    simp [AvPair.serializeBody, W.bind_apply, writeU16, enc_avFlags cfg f _, avValueBytes, le_eq]
  | timestamp t =>
    simp [AvPair.serializeBody, W.bind_apply, writeU16, enc_fileTime cfg t _, avValueBytes, fileTimeBytes, le_eq]
  | singleHost d =>
    simp [AvPair.serializeBody, W.bind_apply, writeU16, enc_singleHost cfg d _, avValueBytes,
      length_singleHostBytes, le_eq]
  | channelBindings b =>
    simp [AvPair.serializeBody, W.bind_apply, writeU16, avValueBytes, b.property, le_eq]

theorem serializeBody_err (cfg : Cfg) (p : AvPair) (h : ¬ avPairFits p) (w : List UInt8) :
    p.serializeBody cfg w = .error .stringTooLong := by
  cases p with
  | eol => exact absurd (by simp [avPairFits, avValueBytes]) h
  | nbComputerName s => exact encodeString_err s h w
  | nbDomainName s => exact encodeString_err s h w
  | dnsComputerName s => exact encodeString_err s h w
  | dnsDomainName s => exact encodeString_err s h w
  | dnsTreeName s => exact encodeString_err s h w
  | targetName s => exact encodeString_err s h w
  | flags f => exact absurd (by simp [avPairFits, avValueBytes]) h
  | timestamp t => exact absurd (by simp [avPairFits, avValueBytes, fileTimeBytes]) h
  | singleHost d => exact absurd (by simp [avPairFits, avValueBytes, length_singleHostBytes]) h
  | channelBindings b => exact absurd (by simp [avPairFits, avValueBytes, b.property]) h

theorem enc_avPair (cfg : Cfg) (p : AvPair) (h : avPairFits p) : Enc cfg p (avPairBytes p) := by
  intro w
  show (Wire.serializeInto cfg p.getId >>= fun a => p.serializeBody cfg >>= fun b => pure (a + b)) w = _
  have h1 : Wire.serializeInto cfg p.getId w = .ok (2, w ++ le 2 (avIdValue p)) := by
    simp [Wire.serializeInto, writeU16, le_eq, avId_toU16]
  rw [W.bind_ok h1, W.bind_ok (serializeBody_ok cfg p h _)]
  simp [avPairBytes]

theorem avPair_err (cfg : Cfg) (p : AvPair) (h : ¬ avPairFits p) (w : List UInt8) :
    Wire.serializeInto cfg p w = .error .stringTooLong := by
  show (Wire.serializeInto cfg p.getId >>= fun a => p.serializeBody cfg >>= fun b => pure (a + b)) w = _
  have h1 : Wire.serializeInto cfg p.getId w = .ok (2, w ++ le 2 (avIdValue p)) := by
    simp [Wire.serializeInto, writeU16, le_eq, avId_toU16]
  rw [W.bind_ok h1, W.bind_err (serializeBody_err cfg p h _)]

theorem serializeVecLoop_ok (cfg : Cfg) (l : List AvPair) (h : ∀ p ∈ l, avPairFits p) (n : Nat) (w : List UInt8) :
    serializeVecLoop cfg l n w = .ok (n + (avListBytes l).length, w ++ avListBytes l) := by
  induction l generalizing n w with
  | nil => simp [serializeVecLoop, avListBytes]
  | cons p l ih =>
    rw [serializeVecLoop, W.bind_ok (enc_avPair cfg p (h p (by simp)) w),
      ih (fun q hq => h q (by simp [hq]))]
    simp [avListBytes]
    omega

theorem serializeVecLoop_err (cfg : Cfg) (l : List AvPair) (h : ¬ ∀ p ∈ l, avPairFits p) (n : Nat)
    (w : List UInt8) : serializeVecLoop cfg l n w = .error .stringTooLong := by
  induction l generalizing n w with
  | nil => simp at h
  | cons p l ih =>
    by_cases hp : avPairFits p
    · rw [serializeVecLoop, W.bind_ok (enc_avPair cfg p hp w), ih]
      intro hl
      apply h
      intro q hq
      rcases List.mem_cons.mp hq with rfl | hq
      · exact hp
      · exact hl q hq
    · rw [serializeVecLoop, W.bind_err (avPair_err cfg p hp w)]

theorem enc_avList (cfg : Cfg) (l : List AvPair) (h : ∀ p ∈ l, avPairFits p) : Enc cfg l (avListBytes l) := by
  intro w
  show serializeVecLoop cfg l 0 w = _
  rw [serializeVecLoop_ok cfg l h]
  simp

theorem avList_err (cfg : Cfg) (l : List AvPair) (h : ¬ ∀ p ∈ l, avPairFits p) (w : List UInt8) :
    Wire.serializeInto cfg l w = .error .stringTooLong := serializeVecLoop_err cfg l h 0 w

/-! ### Responses -/

theorem enc_lm (cfg : Cfg) (c : LmChallenge) : Enc cfg c (lmBytes c) := by
  intro w
  cases c with
  | v1 c => exact enc_bytes cfg c.response w
  | v2 c =>
    simp [Wire.serializeInto, W.bind_apply, lmBytes, c.response.property, c.challengeFromClient.property]

theorem length_lmBytes (c : LmChallenge) : (lmBytes c).length = 24 := by
  cases c with
  | v1 c => simp [lmBytes, c.response.property]
  | v2 c => simp [lmBytes, c.response.property, c.challengeFromClient.property]

theorem ntv2_prefix (cfg : Cfg) (c : Ntv2Challenge) (w : List UInt8) :
    Wire.serializeInto cfg c w =
      match Wire.serializeInto cfg c.targetInfos (w ++ ([1, 1, 0, 0, 0, 0, 0, 0] ++ fileTimeBytes c.timestamp ++
          c.challengeFromClient.val ++ [0, 0, 0, 0])) with
      | .ok (n, w') => .ok (28 + n, w')
      | .error e => .error e := by
  have e1 : ∀ w, Wire.serializeInto cfg c.timestamp w = .ok (8, w ++ fileTimeBytes c.timestamp) := by
    intro w; rw [enc_fileTime cfg c.timestamp w]; simp [fileTimeBytes]
  have e2 : ∀ w, Wire.serializeInto cfg c.challengeFromClient w = .ok (8, w ++ c.challengeFromClient.val) := by
    intro w; rw [enc_bytes cfg c.challengeFromClient w, c.challengeFromClient.property]
  rw [Wire.serializeInto, instWireNtv2Challenge]
  simp [W.bind_apply, writeU8, writeU16, writeU32, e1, e2, leBytes]
  generalize Wire.serializeInto cfg c.targetInfos _ = x
  rcases x with _ | ⟨_, _⟩ <;> rfl

theorem enc_ntv2 (cfg : Cfg) (c : Ntv2Challenge) (h : ∀ p ∈ c.targetInfos, avPairFits p) :
    Enc cfg c (ntv2Bytes c) := by
  intro w
  rw [ntv2_prefix, enc_avList cfg _ h]
  simp [ntv2Bytes, fileTimeBytes, c.challengeFromClient.property]
  omega

theorem ntv2_err (cfg : Cfg) (c : Ntv2Challenge) (h : ¬ ∀ p ∈ c.targetInfos, avPairFits p) (w : List UInt8) :
    Wire.serializeInto cfg c w = .error .stringTooLong := by
  rw [ntv2_prefix, avList_err cfg _ h]

end Ntlm
