import Verif.Spec.Bytes
import Verif.Lemmas.Frame
import Verif.Lemmas.DecodeChal
import Verif.Lemmas.Units
/-
  C09, C10: the two text encodings.
-/
namespace Ntlm

open Spec

namespace Props

/-- C09: a UTF-16 text field is written as UTF-16LE, and what is read back is the longest prefix without NUL and
    supplementary-plane characters. -/
theorem C09_longest_plain_prefix (cfg : Cfg) (s : Str) :
    Wire.serialize cfg (⟨s⟩ : UnicodeString) = .ok (utf16le s) ∧
      ∃ kept lost, s = kept ++ lost ∧ plain kept ∧ (∀ c t, lost = c :: t → c = '\x00' ∨ 0xFFFF < c.toNat) ∧
        (Wire.deserialize cfg : Parser UnicodeString) (utf16le s) = .ok (⟨kept⟩, utf16le lost) := by
  refine ⟨serialize_of_enc (enc_unicode cfg ⟨s⟩), s.takeWhile plainChar, s.dropWhile plainChar,
    List.takeWhile_append_dropWhile.symm, ?_, ?_, unicode_decode cfg s⟩
  · intro c hc
    exact List.all_eq_true.mp (List.all_takeWhile (l := s) (p := plainChar)) c hc
  · intro c t hc
    have h : plainChar c = false := by
      have h1 := List.head?_dropWhile_not plainChar s
      rw [hc] at h1
      simpa using h1
    by_cases h0 : c = '\x00'
    · exact Or.inl h0
    · right
      by_cases h1 : c.toNat ≤ 0xFFFF
      · simp [plainChar, h0, h1] at h
      · omega

/-- With U+1F600 in the middle only the part before it survives. -/
example (cfg : Cfg) : (Wire.deserialize cfg : Parser UnicodeString) (utf16le ['a', '😀', 'b']) =
    .ok (⟨['a']⟩, [0x3d, 0xd8, 0x00, 0xde, 0x62, 0x00]) := rfl

/-- C09: hence text survives exactly when it contains neither. -/
theorem C09_roundtrip_iff (cfg : Cfg) (s : Str) (b : List UInt8)
    (henc : Wire.serialize cfg (⟨s⟩ : UnicodeString) = .ok b) :
    (Wire.deserialize cfg : Parser UnicodeString) b = .ok (⟨s⟩, []) ↔ ∀ c ∈ s, c ≠ '\x00' ∧ c.toNat ≤ 0xFFFF := by
  rw [serialize_of_enc (enc_unicode cfg ⟨s⟩)] at henc
  simp only [Except.ok.injEq] at henc
  subst henc
  have key : plain s ↔ ∀ c ∈ s, c ≠ '\x00' ∧ c.toNat ≤ 0xFFFF := by simp [plain, plainChar]
  rw [← key]
  constructor
  · intro h
    simp only [unicode_decode, Except.ok.injEq, Prod.mk.injEq, UnicodeString.mk.injEq] at h
    exact plain_of_takeWhile h.1
  · exact unicode_decode_plain cfg s

/-- The text "é€" survives, "a😀" and "a\x00" do not. -/
example (cfg : Cfg) : (Wire.deserialize cfg : Parser UnicodeString) (utf16le ['é', '€']) = .ok (⟨['é', '€']⟩, []) :=
  (C09_roundtrip_iff cfg _ _ (C09_longest_plain_prefix cfg _).1).mpr (by simp)
example (cfg : Cfg) : (Wire.deserialize cfg : Parser UnicodeString) (utf16le ['a', '😀']) ≠ .ok (⟨['a', '😀']⟩, []) := fun h =>
  absurd ((C09_roundtrip_iff cfg _ _ (C09_longest_plain_prefix cfg _).1).mp h '😀' (by simp)).2 (by decide)
example (cfg : Cfg) : (Wire.deserialize cfg : Parser UnicodeString) (utf16le ['a', '\x00']) ≠ .ok (⟨['a', '\x00']⟩, []) := fun h =>
  absurd ((C09_roundtrip_iff cfg _ _ (C09_longest_plain_prefix cfg _).1).mp h '\x00' (by simp)).1 (by decide)

/-- C09: decoding any byte string succeeds and yields plain text; the bytes consumed are the UTF-16LE of that text, and
    reading stopped at the end, at a lone last byte, at a NUL unit or at a surrogate unit. -/
theorem C09_total (cfg : Cfg) (i : List UInt8) :
    ∃ s r, (Wire.deserialize cfg : Parser UnicodeString) i = .ok (⟨s⟩, r) ∧ plain s ∧ i = utf16le s ++ r ∧
      (r.length < 2 ∨ u16At r 0 = 0 ∨ (0xD800 ≤ u16At r 0 ∧ u16At r 0 ≤ 0xDFFF)) := by
  obtain ⟨s, r, h1, h2, h3, h4⟩ := unicode_total cfg i
  exact ⟨s, r, h1, h2, h3, (unitP_error_iff r).mp h4⟩

/-- A lone surrogate and a lone last byte stop the reading. -/
example (cfg : Cfg) : (Wire.deserialize cfg : Parser UnicodeString) [0x61, 0, 0x3d, 0xd8] = .ok (⟨['a']⟩, [0x3d, 0xd8]) := rfl
example (cfg : Cfg) : (Wire.deserialize cfg : Parser UnicodeString) [0x61, 0, 0x62] = .ok (⟨['a']⟩, [0x62]) := rfl

/-- C10: an OEM text field is written as UTF-8 and read back unchanged. -/
theorem C10_roundtrip (cfg : Cfg) (s : Str) :
    Wire.serialize cfg (⟨s⟩ : OEMString) = .ok (utf8Bytes s) ∧
      (Wire.deserialize cfg : Parser OEMString) (utf8Bytes s) = .ok (⟨s⟩, []) :=
  ⟨serialize_of_enc (enc_oem cfg ⟨s⟩), oem_decode cfg s⟩

example (cfg : Cfg) : (Wire.deserialize cfg : Parser OEMString) [0x5a, 0x6f, 0xc3, 0xab] = .ok (⟨"Zoë".toList⟩, []) :=
  (C10_roundtrip cfg "Zoë".toList).2

/-- C10: decoding accepts exactly the UTF-8 encodings, consumes everything, and otherwise reports an error. -/
theorem C10_accepts_iff (cfg : Cfg) (b : List UInt8) :
    (∀ s r, (Wire.deserialize cfg : Parser OEMString) b = .ok (⟨s⟩, r) ↔ b = utf8Bytes s ∧ r = []) ∧
      ((∀ s, b ≠ utf8Bytes s) → (Wire.deserialize cfg : Parser OEMString) b = .error .error) := by
  have unf : (Wire.deserialize cfg : Parser OEMString) b = pmap (mapOpt rest fromUtf8) OEMString.mk b := rfl
  constructor
  · intro s r
    constructor
    · intro h
      rw [unf] at h
      cases hf : fromUtf8 b with
      | none => simp [pmap, mapOpt, rest, hf] at h
      | some t =>
        simp only [pmap, mapOpt, rest, hf, Except.ok.injEq, Prod.mk.injEq, OEMString.mk.injEq] at h
        obtain ⟨rfl, rfl⟩ := h
        exact ⟨by rw [utf8Bytes_eq, utf8_fromUtf8 hf], rfl⟩
    · rintro ⟨rfl, rfl⟩
      exact oem_decode cfg s
  · intro h
    rw [unf]
    cases hf : fromUtf8 b with
    | none => simp [pmap, mapOpt, rest, hf]
    | some t => exact absurd (by rw [utf8Bytes_eq, utf8_fromUtf8 hf]) (h t)

/-- An overlong encoding of '/' is not the encoding of any text, so it is refused. -/
example (cfg : Cfg) : (Wire.deserialize cfg : Parser OEMString) [0xc0, 0xaf] = .error .error := by
  have h : fromUtf8 [0xc0, 0xaf] = none := by decide
  simp [Wire.deserialize, pmap, mapOpt, rest, h]

end Props

end Ntlm
