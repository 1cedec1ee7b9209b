import Verif.Spec.Target
import Verif.Spec.Crypto
import Verif.Lemmas.DecodeChal
/-
  The code on other machines.
-/
namespace Ntlm

namespace Target

open Spec

theorem le2 (n : Nat) : le 2 n = [UInt8.ofNat (n % 256), UInt8.ofNat (n / 256 % 256)] := by
  simp [le, List.range_succ]

theorem ofNat_mod (n : Nat) : UInt8.ofNat (n % 256) = UInt8.ofNat n := by
  apply UInt8.toNat_inj.mp; simp

theorem unit_le (t : Target) (h : t.bigEndian = false) (u : UInt16) : t.unitBytes u = le 2 u.toNat := by
  simp only [unitBytes, h, le2, ofNat_mod, Bool.false_eq_true, if_false]

theorem unit_be (t : Target) (h : t.bigEndian = true) (u : UInt16) : t.unitBytes u = (le 2 u.toNat).reverse := by
  simp only [unitBytes, h, le2, ofNat_mod, if_true, List.reverse_cons, List.reverse_nil, List.nil_append,
    List.singleton_append]

theorem utf16Char_units (c : Char) : (utf16Char c).map UInt16.toNat = utf16Units c := by
  have hc := char_lt c
  simp only [utf16Char, utf16Units]
  by_cases h : c.toNat < 0x10000
  · have h' : c.toNat ≤ 0xFFFF := by omega
    simp only [h, h', if_true, List.map_cons, List.map_nil]
    have : (UInt16.ofNat c.toNat).toNat = c.toNat := by simp; omega
    rw [this]
  · have h' : ¬ c.toNat ≤ 0xFFFF := by omega
    simp only [h, h', if_false, List.map_cons, List.map_nil]
    have e1 : (UInt16.ofNat (0xD800 + (c.toNat - 0x10000) / 0x400)).toNat =
        0xD800 + ((c.toNat - 0x10000) >>> 10) := by
      rw [Nat.shiftRight_eq_div_pow]; simp only [UInt16.toNat_ofNat']; omega
    have e2 : (UInt16.ofNat (0xDC00 + (c.toNat - 0x10000) % 0x400)).toNat =
        0xDC00 + ((c.toNat - 0x10000) &&& 0x3FF) := by
      have : (0x3FF : Nat) = 2 ^ 10 - 1 := rfl
      rw [this, Nat.and_two_pow_sub_one_eq_mod]; simp only [UInt16.toNat_ofNat']; omega
    rw [e1, e2]

theorem units_map (s : Str) : (encodeUtf16 s).map UInt16.toNat = s.flatMap utf16Units := by
  simp only [encodeUtf16, List.map_flatMap, utf16Char_units]

theorem text_le (t : Target) (h : t.bigEndian = false) (s : Str) : t.unitsAsBytes (encodeUtf16 s) = utf16le s := by
  simp only [unitsAsBytes, utf16le, ← units_map, List.flatMap_map]
  rw [funext (unit_le t h)]

theorem text_be (t : Target) (h : t.bigEndian = true) (s : Str) : t.unitsAsBytes (encodeUtf16 s) = utf16be s := by
  simp only [unitsAsBytes, utf16be, ← units_map, List.flatMap_map]
  rw [funext (unit_be t h)]

theorem length_be (s : Str) : (utf16be s).length = (utf16le s).length := by
  simp only [utf16be, utf16le]
  generalize s.flatMap utf16Units = us
  induction us with
  | nil => rfl
  | cons u us ih => simp [List.flatMap_cons, ih]

theorem encodeString_be (t : Target) (h : t.bigEndian = true) (s : Str) (hs : (utf16le s).length ≤ 65535) (w : List UInt8) :
    t.encodeString s w = .ok (2 + (utf16le s).length, w ++ (le 2 (utf16le s).length ++ utf16be s)) := by
  have h' : (utf16le s).length < 65536 := by omega
  have e : (UInt16.ofNat (utf16le s).length).toNat = (utf16le s).length := by
    simp only [UInt16.toNat_ofNat']; omega
  simp only [encodeString, text_be t h, length_be, h', if_true, W.bind_apply, writeU16, writeLen_apply, e,
    W.pure_apply, le_eq, length_leBytes, List.append_assoc]

theorem encodeString_be_err (t : Target) (h : t.bigEndian = true) (s : Str) (hs : ¬ (utf16le s).length ≤ 65535)
    (w : List UInt8) : t.encodeString s w = .error .stringTooLong := by
  have h' : ¬ (utf16le s).length < 65536 := by omega
  simp only [encodeString, text_be t h, length_be, h', if_false, W.panic_apply]

theorem encodeString_le (t : Target) (h : t.bigEndian = false) (s : Str) : t.encodeString s = Ntlm.encodeString s := by
  simp only [encodeString, Ntlm.encodeString, text_le t h, u16sAsBytes_encodeUtf16]

theorem pair_le (t : Target) (h : t.bigEndian = false) (cfg : Cfg) (p : AvPair) : t.pair cfg p = Wire.serializeInto cfg p := by
  show (_ >>= _) = (_ >>= _)
  congr 1
  funext a
  congr 1
  cases p <;> first | exact encodeString_le t h _ | rfl

theorem pairs_le (t : Target) (h : t.bigEndian = false) (cfg : Cfg) (l : List AvPair) (n : Nat) :
    t.pairs cfg l n = serializeVecLoop cfg l n := by
  induction l generalizing n with
  | nil => rfl
  | cons p l ih =>
    simp only [pairs, serializeVecLoop, pair_le t h, ih]

theorem pair_be (t : Target) (h : t.bigEndian = true) (cfg : Cfg) (p : AvPair) (hp : avPairFits p) (w : List UInt8) :
    t.pair cfg p w = .ok ((swappedPair p).length, w ++ swappedPair p) := by
  have h1 : Wire.serializeInto cfg p.getId w = .ok (2, w ++ le 2 (avIdValue p)) := by
    simp [Wire.serializeInto, writeU16, le_eq, avId_toU16]
  have h2 : ∀ v, t.pairBody cfg p v = .ok (2 + (avValueBytes p).length, v ++ (le 2 (avValueBytes p).length ++
      swappedValue p)) := by
    intro v
    cases p with
    | nbComputerName s => exact encodeString_be t h s hp v
    | nbDomainName s => exact encodeString_be t h s hp v
    | dnsComputerName s => exact encodeString_be t h s hp v
    | dnsDomainName s => exact encodeString_be t h s hp v
    | dnsTreeName s => exact encodeString_be t h s hp v
    | targetName s => exact encodeString_be t h s hp v
    | eol => exact serializeBody_ok cfg _ hp v
    | flags => exact serializeBody_ok cfg _ hp v
    | timestamp => exact serializeBody_ok cfg _ hp v
    | singleHost => exact serializeBody_ok cfg _ hp v
    | channelBindings => exact serializeBody_ok cfg _ hp v
  have h3 : (swappedValue p).length = (avValueBytes p).length := by
    cases p <;> first | exact length_be _ | rfl
  show (Wire.serializeInto cfg p.getId >>= fun a => t.pairBody cfg p >>= fun b => pure (a + b)) w = _
  rw [W.bind_ok h1, W.bind_ok (h2 _)]
  have h4 : (swappedPair p).length = 2 + (2 + (avValueBytes p).length) := by
    rw [← h3]
    simp only [swappedPair, List.length_append, length_le]
    omega
  rw [h4]
  simp only [swappedPair, W.pure_apply, List.append_assoc]

theorem pair_be_err (t : Target) (h : t.bigEndian = true) (cfg : Cfg) (p : AvPair) (hp : ¬ avPairFits p) (w : List UInt8) :
    t.pair cfg p w = .error .stringTooLong := by
  have h1 : Wire.serializeInto cfg p.getId w = .ok (2, w ++ le 2 (avIdValue p)) := by
    simp [Wire.serializeInto, writeU16, le_eq, avId_toU16]
  have h2 : ∀ v, t.pairBody cfg p v = .error .stringTooLong := by
    intro v
    cases p with
    | nbComputerName s => exact encodeString_be_err t h s hp v
    | nbDomainName s => exact encodeString_be_err t h s hp v
    | dnsComputerName s => exact encodeString_be_err t h s hp v
    | dnsDomainName s => exact encodeString_be_err t h s hp v
    | dnsTreeName s => exact encodeString_be_err t h s hp v
    | targetName s => exact encodeString_be_err t h s hp v
    | eol => exact serializeBody_err cfg _ hp v
    | flags => exact serializeBody_err cfg _ hp v
    | timestamp => exact serializeBody_err cfg _ hp v
    | singleHost => exact serializeBody_err cfg _ hp v
    | channelBindings => exact serializeBody_err cfg _ hp v
  show (Wire.serializeInto cfg p.getId >>= fun a => t.pairBody cfg p >>= fun b => pure (a + b)) w = _
  rw [W.bind_ok h1, W.bind_err (h2 _)]

theorem pairs_be (t : Target) (h : t.bigEndian = true) (cfg : Cfg) (l : List AvPair) (hl : ∀ p ∈ l, avPairFits p) (n : Nat)
    (w : List UInt8) :
    t.pairs cfg l n w = .ok (n + (l.flatMap swappedPair).length, w ++ l.flatMap swappedPair) := by
  induction l generalizing n w with
  | nil => simp [pairs]
  | cons p l ih =>
    rw [pairs, W.bind_ok (pair_be t h cfg p (hl p (by simp)) w), ih (fun q hq => hl q (by simp [hq]))]
    simp
    omega

theorem pairs_be_err (t : Target) (h : t.bigEndian = true) (cfg : Cfg) (l : List AvPair) (hl : ¬ ∀ p ∈ l, avPairFits p)
    (n : Nat) (w : List UInt8) : t.pairs cfg l n w = .error .stringTooLong := by
  induction l generalizing n w with
  | nil => simp at hl
  | cons p l ih =>
    by_cases hp : avPairFits p
    · rw [pairs, W.bind_ok (pair_be t h cfg p hp w), ih]
      intro hq
      apply hl
      intro q hm
      rcases List.mem_cons.mp hm with rfl | hm
      · exact hp
      · exact hq q hm
    · rw [pairs, W.bind_err (pair_be_err t h cfg p hp w)]

/-- Swapping changes nothing exactly for symmetric texts. -/
theorem be_eq_le (s : Str) : utf16be s = utf16le s ↔ symmetricText s := by
  simp only [utf16be, utf16le, symmetricText]
  have hlt : ∀ u ∈ s.flatMap utf16Units, u < 65536 := by
    intro u hu
    rw [← units_map, List.mem_map] at hu
    obtain ⟨v, _, rfl⟩ := hu
    exact v.toNat_lt
  revert hlt
  generalize s.flatMap utf16Units = us
  intro hlt
  induction us with
  | nil => simp
  | cons u us ih =>
    have hu := hlt u (by simp)
    specialize ih fun v hv => hlt v (by simp [hv])
    simp only [List.flatMap_cons, List.forall_mem_cons]
    refine Iff.trans ?_ (and_congr_right fun _ => ih)
    constructor
    · intro he
      have := List.append_inj he (by simp)
      refine ⟨?_, this.2⟩
      have h1 := this.1
      rw [le2] at h1
      simp only [List.reverse_cons, List.reverse_nil, List.nil_append, List.singleton_append, List.cons.injEq] at h1
      have h2 := congrArg UInt8.toNat h1.1
      simp only [UInt8.toNat_ofNat'] at h2
      omega
    · rintro ⟨h1, h2⟩
      rw [h2, le2]
      have : u / 256 % 256 = u % 256 := by omega
      rw [this]
      rfl

theorem length_swapped (p : AvPair) : (swappedPair p).length = (avPairBytes p).length := by
  have : (swappedValue p).length = (avValueBytes p).length := by
    cases p <;> first | exact length_be _ | rfl
  simp only [swappedPair, avPairBytes, List.length_append, this]

theorem swapped_iff (p : AvPair) : swappedPair p = avPairBytes p ↔ ∀ s, pairText p = some s → symmetricText s := by
  have h : swappedPair p = avPairBytes p ↔ swappedValue p = avValueBytes p := by
    simp only [swappedPair, avPairBytes, List.append_cancel_left_eq]
  rw [h]
  cases p <;> simp only [swappedValue, pairText, avValueBytes, Option.some.injEq, forall_eq', be_eq_le, reduceCtorEq,
    false_implies, implies_true]

/-- An ASCII text with its bytes swapped is another text. -/
theorem be_misread (s : Str) (h : ascii s) : utf16be s = utf16le (misread s) := by
  induction s with
  | nil => rfl
  | cons c s ih =>
    have hc : c.toNat < 128 := h c (by simp)
    specialize ih fun d hd => h d (by simp [hd])
    have hv : (256 * c.toNat).isValidChar := by left; omega
    have e : (Char.ofNat (256 * c.toNat)).toNat = 256 * c.toNat := by
      rw [Char.ofNat, dif_pos hv]; rfl
    simp only [utf16be, utf16le, misread, List.map_cons, List.flatMap_cons, List.flatMap_append] at ih ⊢
    rw [ih]
    congr 1
    simp only [utf16Units, e, if_pos (show c.toNat ≤ 0xFFFF by omega), if_pos (show 256 * c.toNat ≤ 0xFFFF by omega),
      List.flatMap_cons, List.flatMap_nil, List.append_nil, le2, List.reverse_cons, List.reverse_nil, List.nil_append,
      List.singleton_append]
    have e1 : c.toNat / 256 % 256 = 256 * c.toNat % 256 := by omega
    have e2 : c.toNat % 256 = 256 * c.toNat / 256 % 256 := by omega
    rw [← e1, ← e2]

theorem misread_toNat (c : Char) (h : c.toNat < 128) : (Char.ofNat (256 * c.toNat)).toNat = 256 * c.toNat := by
  have hv : (256 * c.toNat).isValidChar := by left; omega
  rw [Char.ofNat, dif_pos hv]
  rfl

theorem misread_plain (s : Str) (h : ascii s) (hp : plain s) : plain (misread s) := by
  intro d hd
  simp only [misread, List.mem_map] at hd
  obtain ⟨c, hc, rfl⟩ := hd
  have h1 := h c hc
  have h2 := hp c hc
  have e := misread_toNat c h1
  simp only [plainChar, Bool.and_eq_true, decide_eq_true_eq] at h2 ⊢
  refine ⟨fun h0 => h2.1 ?_, by omega⟩
  rw [h0] at e
  have : c.toNat = 0 := by
    have e0 : (0 : Nat) = 256 * c.toNat := e
    omega
  rw [← Char.ofNat_toNat c, this]

theorem slice_eq (t : Target) (h : 32 ≤ t.bits) (f : Field) (input : List UInt8) (hi : input.length < 2 ^ t.bits) :
    t.slice f input = (f.slice input).toOption := by
  have h1 := f.offset.toNat_lt
  have h2 := f.len.toNat_lt
  have h3 : 2 ^ 32 ≤ 2 ^ t.bits := Nat.pow_le_pow_right (by decide) h
  simp only [slice, Field.slice]
  generalize 2 ^ t.bits = N at *
  rw [Nat.mod_eq_of_lt (show f.offset.toNat < N by omega), Nat.mod_eq_of_lt (show f.len.toNat < N by omega)]
  by_cases hs : N ≤ f.offset.toNat + f.len.toNat
  · have e : (f.offset.toNat + f.len.toNat) % N = f.offset.toNat + f.len.toNat - N := by
      rw [Nat.mod_eq_sub_mod hs, Nat.mod_eq_of_lt (by omega)]
    have hb : ¬ (f.offset.toNat ≤ f.offset.toNat + f.len.toNat - N ∧
        f.offset.toNat + f.len.toNat - N ≤ input.length) := by omega
    rw [e, if_neg hb, if_neg (show ¬ f.offset.toNat + f.len.toNat ≤ input.length by omega)]
    split <;> rfl
  · rw [if_neg (fun h => hs h.1), Nat.mod_eq_of_lt (by omega)]
    by_cases hb : f.offset.toNat + f.len.toNat ≤ input.length
    · rw [if_pos hb, if_pos ⟨by omega, hb⟩, Nat.add_sub_cancel_left]
      rfl
    · rw [if_neg hb, if_neg (fun h => hb h.2)]
      rfl

end Target

end Ntlm
