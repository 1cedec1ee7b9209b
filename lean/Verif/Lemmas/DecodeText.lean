import Verif.Lemmas.EncodeMsg
import Verif.Spec.Text
/-
  Decoding of text.
-/
namespace Ntlm

open Spec

/-- The element parser of `UnicodeString`. -/
abbrev unitP : Parser Char := mapOpt leU16 decodeUnit

theorem decodeUnit_char (c : Char) (h : plainChar c = true) : decodeUnit (UInt16.ofNat c.toNat) = some c := by
  simp only [plainChar, Bool.and_eq_true, decide_eq_true_eq] at h
  obtain ⟨h0, h1⟩ := h
  have e : (UInt16.ofNat c.toNat).toNat = c.toNat := by simp only [UInt16.toNat_ofNat']; omega
  have hz : ¬ UInt16.ofNat c.toNat = 0 := by
    intro h
    apply h0
    have := congrArg UInt16.toNat h
    rw [e] at this
    apply Char.toNat_inj.mp
    simpa using this
  have hv : c.toNat.isValidChar := c.valid
  simp only [decodeUnit, hz, if_false, e, hv, dite_true, Option.some.injEq]
  apply Char.toNat_inj.mp
  rfl

theorem decodeUnit_some {b : UInt16} {c : Char} (h : decodeUnit b = some c) :
    plainChar c = true ∧ c.toNat = b.toNat := by
  simp only [decodeUnit] at h
  split at h
  · simp at h
  · rename_i h0
    split at h
    · rename_i hv
      simp only [Option.some.injEq] at h
      have hc : c.toNat = b.toNat := by rw [← h]; rfl
      refine ⟨?_, hc⟩
      have := b.toNat_lt
      simp only [plainChar, Bool.and_eq_true, decide_eq_true_eq]
      refine ⟨?_, by omega⟩
      intro hz
      apply h0
      apply UInt16.toNat_inj.mp
      rw [← hc, hz]; rfl
    · simp at h

theorem utf16le_cons (c : Char) (s : Str) : utf16le (c :: s) = (utf16Units c).flatMap (le 2) ++ utf16le s := by
  simp [utf16le]

theorem utf16le_append (s t : Str) : utf16le (s ++ t) = utf16le s ++ utf16le t := by
  simp [utf16le]

theorem units_plain (c : Char) (h : plainChar c = true) :
    (utf16Units c).flatMap (le 2) = leBytes 2 (UInt16.ofNat c.toNat).toNat := by
  simp only [plainChar, Bool.and_eq_true, decide_eq_true_eq] at h
  have e : (UInt16.ofNat c.toNat).toNat = c.toNat := by simp only [UInt16.toNat_ofNat']; omega
  simp [utf16Units, h.2, le_eq, e]

theorem unitP_plain (c : Char) (h : plainChar c = true) (r : List UInt8) :
    unitP ((utf16Units c).flatMap (le 2) ++ r) = .ok (c, r) := by
  rw [units_plain c h]
  simp only [unitP, mapOpt, leU16_append, decodeUnit_char c h]

theorem decodeUnit_surrogate (n : Nat) (h1 : 0xD800 ≤ n) (h2 : n < 0xE000) :
    decodeUnit (UInt16.ofNat n) = none := by
  have e1 : (UInt16.ofNat n).toNat = n := by simp only [UInt16.toNat_ofNat']; omega
  have hn : ¬ UInt16.ofNat n = 0 := by
    intro h
    have := congrArg UInt16.toNat h
    rw [e1] at this
    have h00 : UInt16.toNat 0 = 0 := rfl
    omega
  have hs : ¬ (UInt16.ofNat n).toNat.isValidChar := by
    rw [e1]; simp only [Nat.isValidChar]; omega
  simp only [decodeUnit, hn, if_false, hs, dite_false]

theorem unitP_surrogate (n : Nat) (h1 : 0xD800 ≤ n) (h2 : n < 0xE000) (r : List UInt8) :
    unitP (leBytes 2 (UInt16.ofNat n).toNat ++ r) = .error .error := by
  simp only [unitP, mapOpt, leU16_append, decodeUnit_surrogate n h1 h2]

theorem unitP_notPlain (c : Char) (h : ¬ plainChar c = true) (r : List UInt8) :
    unitP ((utf16Units c).flatMap (le 2) ++ r) = .error .error := by
  have hc := char_lt c
  have hv : c.toNat.isValidChar := c.valid
  simp only [plainChar, Bool.and_eq_true, decide_eq_true_eq] at h
  by_cases h1 : c.toNat ≤ 0xFFFF
  · have h0 : c = '\x00' := by
      apply Classical.byContradiction
      intro h0; exact h ⟨h0, h1⟩
    subst h0
    have : (utf16Units '\x00').flatMap (le 2) = leBytes 2 (0 : UInt16).toNat := by decide
    rw [this]
    have h0 : decodeUnit 0 = none := by simp [decodeUnit]
    simp only [unitP, mapOpt, leU16_append, h0]
  · have e1 : (UInt16.ofNat (0xD800 + (c.toNat - 0x10000) / 0x400)).toNat =
        0xD800 + ((c.toNat - 0x10000) >>> 10) := by
      rw [Nat.shiftRight_eq_div_pow]; simp only [UInt16.toNat_ofNat']; omega
    have : (utf16Units c).flatMap (le 2) =
        leBytes 2 (UInt16.ofNat (0xD800 + (c.toNat - 0x10000) / 0x400)).toNat ++
          le 2 (0xDC00 + ((c.toNat - 0x10000) &&& 0x3FF)) := by
      rw [e1]; simp [utf16Units, h1, le_eq]
    rw [this, List.append_assoc]
    exact unitP_surrogate _ (by omega) (by omega) _

theorem length_units (c : Char) : 0 < ((utf16Units c).flatMap (le 2)).length := by
  simp only [utf16Units]
  split <;> simp

theorem units_many (s : Str) (h : plain s) (r : List UInt8) (hr : unitP r = .error .error) :
    many0 unitP (utf16le s ++ r) = .ok (s, r) := by
  induction s with
  | nil => simpa [utf16le] using many0_stop hr
  | cons c s ih =>
    rw [utf16le_cons, List.append_assoc]
    have hl := length_units c
    refine many0_cons (unitP_plain c (h c (by simp)) _) ?_ (ih (fun x hx => h x (by simp [hx])))
    simp only [List.length_append]; omega

theorem unitP_nil : unitP [] = .error .error := rfl

theorem unicode_decode (cfg : Cfg) (s : Str) :
    (Wire.deserialize cfg : Parser UnicodeString) (utf16le s) =
      .ok (⟨s.takeWhile plainChar⟩, utf16le (s.dropWhile plainChar)) := by
  show pmap (many0 unitP) UnicodeString.mk _ = _
  apply pmap_ok
  have hs : utf16le s = utf16le (s.takeWhile plainChar) ++ utf16le (s.dropWhile plainChar) := by
    rw [← utf16le_append, List.takeWhile_append_dropWhile]
  rw [hs]
  apply units_many
  · intro c hc
    exact List.all_eq_true.mp (List.all_takeWhile (l := s) (p := plainChar)) c hc
  · cases hd : s.dropWhile plainChar with
    | nil => exact unitP_nil
    | cons c t =>
      rw [utf16le_cons]
      apply unitP_notPlain
      have := List.head?_dropWhile_not plainChar s
      rw [hd] at this
      simpa using this

theorem takeWhile_plain {s : Str} (h : plain s) : s.takeWhile plainChar = s ∧ s.dropWhile plainChar = [] := by
  constructor
  · induction s with
    | nil => rfl
    | cons c s ih => simp [h c (by simp), ih (fun x hx => h x (by simp [hx]))]
  · induction s with
    | nil => rfl
    | cons c s ih => simp [h c (by simp), ih (fun x hx => h x (by simp [hx]))]

theorem plain_of_takeWhile {s : Str} (h : s.takeWhile plainChar = s) : plain s := by
  intro c hc
  rw [← h] at hc
  exact List.all_eq_true.mp (List.all_takeWhile (l := s) (p := plainChar)) c hc

theorem unicode_decode_plain (cfg : Cfg) (s : Str) (h : plain s) :
    (Wire.deserialize cfg : Parser UnicodeString) (utf16le s) = .ok (⟨s⟩, []) := by
  rw [unicode_decode, (takeWhile_plain h).1, (takeWhile_plain h).2]; rfl

/-- `unitP` on arbitrary input. -/
theorem unitP_cases (i : List UInt8) :
    (unitP i = .error .error) ∨
      ∃ c r, unitP i = .ok (c, r) ∧ plainChar c = true ∧ i = (utf16Units c).flatMap (le 2) ++ r := by
  simp only [unitP, mapOpt, leU16_eq]
  by_cases hi : i.length < 2
  · left; simp [hi]
  · simp only [hi, if_false]
    cases hd : decodeUnit (UInt16.ofNat (leVal (i.take 2))) with
    | none => left; rfl
    | some c =>
      right
      obtain ⟨hp, hc⟩ := decodeUnit_some hd
      refine ⟨c, i.drop 2, rfl, hp, ?_⟩
      have hl : (i.take 2).length = 2 := by simp only [List.length_take]; omega
      have hlt := leVal_lt (i.take 2)
      rw [hl] at hlt
      have e : (UInt16.ofNat (leVal (i.take 2))).toNat = leVal (i.take 2) := by
        simp only [UInt16.toNat_ofNat']; omega
      have e2 : (utf16Units c).flatMap (le 2) = i.take 2 := by
        have hb := leBytes_leVal (i.take 2)
        rw [hl] at hb
        simp only [plainChar, Bool.and_eq_true, decide_eq_true_eq] at hp
        simp only [utf16Units, hp.2, if_true, List.flatMap_cons, List.flatMap_nil, List.append_nil, le_eq]
        rw [hc, e, hb]
      rw [e2, List.take_append_drop]

theorem units_total (i : List UInt8) :
    ∃ s r, many0 unitP i = .ok (s, r) ∧ plain s ∧ i = utf16le s ++ r ∧ unitP r = .error .error := by
  generalize hn : i.length = n
  induction n using Nat.strongRecOn generalizing i with
  | _ n ih =>
    rcases unitP_cases i with h | ⟨c, r, h, hp, hi⟩
    · exact ⟨[], i, many0_stop h, by simp [plain], by simp [utf16le], h⟩
    · have hl := length_units c
      have hlen : r.length < i.length := by rw [hi]; simp only [List.length_append]; omega
      obtain ⟨s, r', h1, h2, h3, h4⟩ := ih r.length (by omega) r rfl
      refine ⟨c :: s, r', many0_cons h hlen h1, ?_, ?_, h4⟩
      · intro x hx
        rcases List.mem_cons.mp hx with rfl | hx
        · exact hp
        · exact h2 x hx
      · rw [utf16le_cons, List.append_assoc, ← h3, ← hi]

theorem unicode_total (cfg : Cfg) (i : List UInt8) :
    ∃ s r, (Wire.deserialize cfg : Parser UnicodeString) i = .ok (⟨s⟩, r) ∧ plain s ∧
      i = utf16le s ++ r ∧ unitP r = .error .error := by
  obtain ⟨s, r, h, hrest⟩ := units_total i
  exact ⟨s, r, pmap_ok h, hrest⟩

/-! ### OEM -/

theorem fromUtf8_utf8 (s : Str) : fromUtf8 (utf8 s) = some s := by
  have h := List.utf8Decode?_utf8Encode (l := s)
  have e : ByteArray.mk (utf8 s).toArray = s.utf8Encode := by
    apply ByteArray.ext
    rw [List.utf8Encode, List.data_toByteArray]
    rfl
  rw [fromUtf8, e, h]
  simp

theorem utf8_fromUtf8 {b : List UInt8} {s : Str} (h : fromUtf8 b = some s) : utf8 s = b := by
  simp only [fromUtf8, Option.map_eq_some_iff] at h
  obtain ⟨a, ha, rfl⟩ := h
  have hs : (ByteArray.mk b.toArray).utf8Decode?.isSome := by rw [ha]; rfl
  have h2 := ByteArray.utf8Encode_get_utf8Decode? (h := hs)
  simp only [ha, Option.get_some] at h2
  have h3 := congrArg ByteArray.data h2
  rw [List.utf8Encode, List.data_toByteArray] at h3
  have h4 := congrArg Array.toList h3
  simpa [utf8] using h4

theorem oem_decode (cfg : Cfg) (s : Str) :
    (Wire.deserialize cfg : Parser OEMString) (utf8Bytes s) = .ok (⟨s⟩, []) := by
  simp [Wire.deserialize, pmap, mapOpt, rest, utf8Bytes_eq, fromUtf8_utf8]

end Ntlm
