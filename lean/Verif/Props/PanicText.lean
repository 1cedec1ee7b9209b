import Verif.Model.PanicText
import Verif.Spec.PanicText
import Verif.Props.History
/-
  C88: what the messages of panics give away.
-/
namespace Ntlm

open Spec Client

/-! ### Helper lemmas -/

theorem floorText_all (s : Str) (n : Nat) (h : strLen s ≤ n) : floorText s n = s := by
  induction s generalizing n with
  | nil => rfl
  | cons c s ih =>
    rw [strLen_cons] at h
    rw [floorText, if_pos (by omega), ih _ (by omega)]

theorem floorText_cut (a : Str) (ch : Char) (b : Str) (n : Nat) (h : strLen a ≤ n) (h2 : n < strLen a + ch.utf8Size) :
    floorText (a ++ ch :: b) n = a := by
  induction a generalizing n with
  | nil =>
    rw [strLen_nil] at h2
    rw [List.nil_append, floorText, if_neg (by omega)]
  | cons c a ih =>
    rw [strLen_cons] at h h2
    rw [List.cons_append, floorText, if_pos (by omega), ih _ (by omega) (by omega)]

theorem floorText_split (s : Str) (n : Nat) (h : n < strLen s) :
    ∃ ch b, s = floorText s n ++ ch :: b ∧ strLen (floorText s n) ≤ n ∧ n < strLen (floorText s n) + ch.utf8Size := by
  induction s generalizing n with
  | nil => rw [strLen_nil] at h; omega
  | cons c s ih =>
    rw [strLen_cons] at h
    by_cases hc : c.utf8Size ≤ n
    · obtain ⟨ch, b, h1, h2, h3⟩ := ih (n - c.utf8Size) (by omega)
      rw [floorText, if_pos hc]
      refine ⟨ch, b, by rw [List.cons_append, ← h1], ?_, ?_⟩ <;> rw [strLen_cons] <;> omega
    · rw [floorText, if_neg hc]
      exact ⟨c, s, rfl, by rw [strLen_nil]; omega, by rw [strLen_nil]; omega⟩

theorem cuts_iff (s : Str) (n : Nat) (a : Str) (ch : Char) :
    cuts s n a ch ↔ ∃ b, s = a ++ ch :: b ∧ strLen a < n ∧ n < strLen a + ch.utf8Size := by
  simp only [cuts, strLen_utf8Bytes]
  have : strLen (a ++ [ch]) = strLen a + ch.utf8Size := by
    rw [strLen_append, strLen_cons, strLen_nil]; omega
  rw [this]
  constructor
  · rintro ⟨⟨b, h⟩, h2, h3⟩; exact ⟨b, h, h2, h3⟩
  · rintro ⟨b, h, h2, h3⟩; exact ⟨⟨b, h⟩, h2, h3⟩

/-- Why a text cannot be split at a byte. -/
theorem splitAtByte_none_iff (s : Str) (n : Nat) :
    splitAtByte s n = none ↔ strLen s < n ∨ ∃ a ch, cuts s n a ch := by
  rw [splitAtByte_none]
  constructor
  · intro h
    by_cases hl : strLen s < n
    · exact .inl hl
    · by_cases he : strLen s = n
      · exact absurd ⟨s, [], by simp, he⟩ h
      · obtain ⟨ch, b, h1, h2, h3⟩ := floorText_split s n (by omega)
        refine .inr ⟨floorText s n, ch, (cuts_iff _ _ _ _).mpr ⟨b, h1, ?_, h3⟩⟩
        by_cases he : strLen (floorText s n) = n
        · exact absurd ⟨_, _, h1, he⟩ h
        · omega
  · rintro (hl | ⟨a, ch, hc⟩) ⟨x, y, h1, h2⟩
    · rw [h1, strLen_append] at hl; omega
    · obtain ⟨b, h3, h4, h5⟩ := (cuts_iff _ _ _ _).mp hc
      have := floorText_cut a ch b n (by omega) h5
      rw [← h3, h1] at this
      cases y with
      | nil =>
        rw [h3] at h1
        have h6 := congrArg strLen h1
        rw [strLen_append, strLen_append, strLen_cons, strLen_nil] at h6
        omega
      | cons z y =>
        rw [floorText_cut x z y n (by omega) (by have := Char.utf8Size_pos z; omega)] at this
        rw [this] at h2
        omega

theorem glue {x1 x2 x3 x4 x5 x6 x7 : Str} (h : x6 = x5 ++ ['`']) (h' : x7 = ['`']) (d c i j s r : Str) :
    x1 ++ d ++ x2 ++ c ++ x3 ++ i ++ x4 ++ j ++ x5 ++ ('`' :: s ++ '`' :: r) =
      x1 ++ d ++ x2 ++ c ++ x3 ++ i ++ x4 ++ j ++ x6 ++ s ++ x7 ++ r := by
  simp only [h, h', List.append_assoc, List.cons_append, List.nil_append]

theorem glue2 {x1 x2 x3 : Str} (n m : Str) (h : x3 = x2 ++ m) : x1 ++ n ++ x2 ++ m = x1 ++ n ++ x3 := by
  simp only [h, List.append_assoc]

theorem sliceFail_cut (f : Fmt) (s : Str) (n : Nat) (a : Str) (ch : Char) (h : cuts s n a ch) :
    sliceFail f s n = notBoundary n (debugChar f ch) (utf8Bytes a).length (utf8Bytes (a ++ [ch])).length (floorText s 256) ++
      (if strLen (floorText s 256) < strLen s then "[...]".toList else []) := by
  obtain ⟨b, h1, h2, h3⟩ := (cuts_iff _ _ _ _).mp h
  have hl : ¬ strLen s < n := by rw [h1, strLen_append, strLen_cons]; omega
  have hf : floorText s n = a := by rw [h1]; exact floorText_cut a ch b n (by omega) h3
  have hd : s.drop a.length = ch :: b := by rw [h1, List.drop_left]
  have hz : (utf8Bytes (a ++ [ch])).length = strLen a + ch.utf8Size := by
    rw [strLen_utf8Bytes, strLen_append, strLen_cons, strLen_nil]; omega
  rw [hz, strLen_utf8Bytes]
  unfold sliceFail
  simp only [if_neg hl, hf, hd]
  exact glue (by decide +kernel) (by decide +kernel) _ _ _ _ _ _

theorem glue3 {x a b c : Str} (h : c = a ++ b) : x ++ a ++ b = x ++ c := by
  rw [h, List.append_assoc]

theorem shown_short (s : Str) (h : strLen s ≤ 256) :
    floorText s 256 = s ∧ (if strLen (floorText s 256) < strLen s then "[...]".toList else []) = ([] : Str) := by
  rw [floorText_all s 256 h]
  exact ⟨rfl, if_neg (by omega)⟩

theorem ofLm_eq (f : Fmt) (cm : CaseMap) (pw p : Str) (h : lmText cm pw p) :
    PanicText.ofLm f cm pw = PanicText.ofPrepared f p := by
  rcases h with ⟨h, rfl⟩ | ⟨hd, tl, h1, h2, rfl⟩
  · rw [strLen_utf8Bytes] at h
    simp only [PanicText.ofLm, if_pos h, strLen_utf8Bytes]
  · rw [strLen_utf8Bytes] at h2
    have hl : ¬ strLen pw < 14 := by rw [h1, strLen_append]; omega
    simp only [PanicText.ofLm, if_neg hl, (splitAtByte_iff pw 14 hd tl).mpr ⟨h1, h2⟩]

/-- Either there is a text to be split for LM hashing, or byte 14 is inside a character. -/
theorem lmText_or (cm : CaseMap) (pw : Str) : (∃ p, lmText cm pw p) ∨ ∃ a ch, cuts pw 14 a ch := by
  by_cases h : strLen pw < 14
  · exact .inl ⟨_, .inl ⟨by rw [strLen_utf8Bytes]; exact h, rfl⟩⟩
  · cases e : splitAtByte pw 14 with
    | some ab =>
      obtain ⟨h1, h2⟩ := (splitAtByte_iff pw 14 ab.1 ab.2).mp e
      exact .inl ⟨_, .inr ⟨ab.1, ab.2, h1, by rw [strLen_utf8Bytes]; exact h2, rfl⟩⟩
    | none =>
      rcases (splitAtByte_none_iff pw 14).mp e with h' | h'
      · exact absurd h' h
      · exact .inr h'

theorem ofLm_cut (f : Fmt) (cm : CaseMap) (pw a : Str) (ch : Char) (h : cuts pw 14 a ch) :
    PanicText.ofLm f cm pw = some (sliceFail f pw 14) := by
  obtain ⟨b, h1, h2, h3⟩ := (cuts_iff _ _ _ _).mp h
  have hl : ¬ strLen pw < 14 := by rw [h1, strLen_append, strLen_cons]; omega
  simp only [PanicText.ofLm, if_neg hl, (splitAtByte_none_iff pw 14).mpr (.inr ⟨a, ch, h⟩)]

theorem ofPrepared_cut (f : Fmt) (p a : Str) (ch : Char) (h : cuts p 7 a ch) :
    PanicText.ofPrepared f p = some (sliceFail f p 7) := by
  simp only [PanicText.ofPrepared, (splitAtByte_none_iff p 7).mpr (.inr ⟨a, ch, h⟩)]

theorem ofKey_none (k : List UInt8) : PanicText.ofKey k = none ↔ k.length = 7 := by
  simp only [PanicText.ofKey]; split <;> simp_all

/-- There is a message exactly if the LM hash cannot be computed. -/
theorem ofLm_none (f : Fmt) (cm : CaseMap) (P : Prims) (pw : Str) :
    PanicText.ofLm f cm pw = none ↔ ∃ r, lmowfv1 P cm pw = .ok r := by
  have hp : ∀ p, preparePassword cm pw = .ok p → (PanicText.ofPrepared f p = none ↔ ∃ r, lmowfv1 P cm pw = .ok r) := by
    intro p hp
    simp only [PanicText.ofPrepared, lmowfv1, hp]
    cases e : splitAtByte p 7 with
    | none => simp
    | some ab =>
      obtain ⟨a, b⟩ := ab
      simp only []
      have h7 : strLen a = 7 := ((splitAtByte_iff p 7 a b).mp e).2
      rw [(ofKey_none (utf8 a)).mpr h7]
      obtain ⟨c1, h1, _⟩ := des7Encrypt_ok P (utf8 a) h7 lmMagic
      simp only [h1, ofKey_none]
      constructor
      · intro hb
        obtain ⟨c2, h2, _⟩ := des7Encrypt_ok P (utf8 b) hb lmMagic
        rw [h2]
        exact ⟨_, rfl⟩
      · rintro ⟨r, hr⟩
        by_cases hb : (utf8 b).length = 7
        · exact hb
        · exfalso
          simp [des7Encrypt, des56To64, hb] at hr
  by_cases h : strLen pw < 14
  · have := hp (cm.upper pw ++ List.replicate (14 - strLen (cm.upper pw)) '\x00') (by simp only [preparePassword, if_pos h])
    rw [← this]
    simp only [PanicText.ofLm, if_pos h]
  · cases e : splitAtByte pw 14 with
    | none => simp [PanicText.ofLm, lmowfv1, preparePassword, if_neg h, e]
    | some ab =>
      have := hp (cm.upper ab.1) (by simp only [preparePassword, if_neg h, e])
      rw [← this]
      simp only [PanicText.ofLm, if_neg h, e]

theorem ofWorkstation_none (cm : CaseMap) (env : HostEnv) :
    PanicText.ofWorkstation env = none ↔ ∃ w, getWorkstationName cm env = .ok w := by
  simp only [PanicText.ofWorkstation, getWorkstationName]
  cases env.computerName with
  | some n => simp
  | none =>
    cases env.hostnameFile with
    | none => simp
    | some s =>
      simp only []
      cases firstLine s with
      | none => simp
      | some l => simp only []; cases splitOnce '.' l <;> simp

theorem ofWorkstation_some (env : HostEnv) (t : Str) (h : PanicText.ofWorkstation env = some t) : t = noHostName := by
  simp only [PanicText.ofWorkstation] at h
  cases e : env.computerName with
  | some n => simp [e] at h
  | none =>
    cases e2 : env.hostnameFile with
    | none => simp [e, e2] at h
    | some s =>
      simp only [e, e2] at h
      cases e3 : firstLine s with
      | none => simp only [e3, Option.some.injEq] at h; exact h.symm
      | some l => simp [e3] at h

namespace Props

/-! ### C88 -/

/-- C88: a message is printed exactly if no client is created. -/
theorem C88_printed_iff (P : Prims) (cm : CaseMap) (f : Fmt) (l : Login) :
    (∃ t, PanicText.ofNew f cm l.env l.password = some t) ↔ ¬ ∃ c, created P cm l c := by
  have h : PanicText.ofNew f cm l.env l.password = none ↔ ∃ c, created P cm l c := by
    simp only [PanicText.ofNew]
    constructor
    · intro h
      cases e : PanicText.ofLm f cm l.password with
      | some t => simp [e] at h
      | none =>
        obtain ⟨r, hr⟩ := (ofLm_none f cm P l.password).mp e
        simp only [e] at h
        obtain ⟨w, hw⟩ := (ofWorkstation_none cm l.env).mp h
        exact ⟨_, (created_iff P cm l _).mpr ⟨r, w, hr, hw, rfl⟩⟩
    · rintro ⟨c, hc⟩
      obtain ⟨lm, w, h1, h2, _⟩ := (created_iff P cm l c).mp hc
      rw [(ofLm_none f cm P l.password).mpr ⟨lm, h1⟩]
      exact (ofWorkstation_none cm l.env).mpr ⟨w, h2⟩
  rw [← h]
  cases PanicText.ofNew f cm l.env l.password <;> simp

/-- Nothing is printed for one login, something for another. -/
example (P : Prims) (cm : CaseMap) (f : Fmt) :
    PanicText.ofNew f cm exLogin.env exLogin.password = none ∧
    ∃ t, PanicText.ofNew f cm exLogin.env "correct horseé".toList = some t := by
  obtain ⟨c, hc⟩ := exLogin_created P cm
  refine ⟨?_, _, rfl⟩
  cases e : PanicText.ofNew f cm exLogin.env exLogin.password with
  | none => rfl
  | some t => exact absurd ⟨c, hc⟩ ((C88_printed_iff P cm f exLogin).mp ⟨t, e⟩)

/-- C88: if byte 14 of the password is inside a character, creating a client prints the password on standard error: all of it
    up to 256 bytes. -/
theorem C88_password (cm : CaseMap) (f : Fmt) (env : HostEnv) (pw before : Str) (ch : Char) (h : cuts pw 14 before ch)
    (hl : (utf8Bytes pw).length ≤ 256) :
    PanicText.ofNew f cm env pw = some (notBoundary 14 (debugChar f ch) (utf8Bytes before).length
      (utf8Bytes (before ++ [ch])).length pw) := by
  rw [strLen_utf8Bytes] at hl
  obtain ⟨h1, h2⟩ := shown_short pw hl
  rw [PanicText.ofNew, ofLm_cut f cm pw before ch h]
  simp only [sliceFail_cut f pw 14 before ch h, h2]
  rw [h1, List.append_nil]

/-- The whole message for a password of fourteen characters. -/
example (cm : CaseMap) (env : HostEnv) : PanicText.ofNew ⟨false, fun _ => true⟩ cm env "correct horseé".toList =
    some "byte index 14 is not a char boundary; it is inside 'é' (bytes 13..15) of `correct horseé`".toList := by
  rw [C88_password cm _ env _ "correct horse".toList 'é' ⟨⟨[], by decide +kernel⟩, by decide +kernel, by decide +kernel⟩ (by decide +kernel)]
  decide +kernel

/-- C88: of a longer one, the beginning up to byte 256, but for a character cut there. -/
theorem C88_long (cm : CaseMap) (f : Fmt) (env : HostEnv) (pw before : Str) (ch : Char) (h : cuts pw 14 before ch)
    (hl : 256 < (utf8Bytes pw).length) :
    ∃ shown rest, pw = shown ++ rest ∧ 253 ≤ (utf8Bytes shown).length ∧ (utf8Bytes shown).length ≤ 256 ∧
      PanicText.ofNew f cm env pw = some (notBoundary 14 (debugChar f ch) (utf8Bytes before).length
        (utf8Bytes (before ++ [ch])).length shown ++ "[...]".toList) := by
  rw [strLen_utf8Bytes] at hl
  obtain ⟨c, b, h1, h2, h3⟩ := floorText_split pw 256 hl
  have hc := Char.utf8Size_le_four c
  have hp := Char.utf8Size_pos c
  refine ⟨floorText pw 256, c :: b, h1, by rw [strLen_utf8Bytes]; omega, by rw [strLen_utf8Bytes]; omega, ?_⟩
  rw [PanicText.ofNew, ofLm_cut f cm pw before ch h]
  simp only [sliceFail_cut f pw 14 before ch h, if_pos (show strLen (floorText pw 256) < strLen pw by omega)]

/-- A password of 301 bytes. -/
example : cuts ("correct horseé".toList ++ List.replicate 286 'x') 14 "correct horse".toList 'é' ∧
    256 < (utf8Bytes ("correct horseé".toList ++ List.replicate 286 'x')).length :=
  ⟨⟨⟨List.replicate 286 'x', by decide +kernel⟩, by decide +kernel, by decide +kernel⟩, by decide +kernel⟩

/-- C88: if byte 7 of the text split for LM hashing is inside a character, that text is printed: the password, or its first 14
    bytes, in upper case. -/
theorem C88_upper_case (cm : CaseMap) (f : Fmt) (env : HostEnv) (pw p before : Str) (ch : Char) (hp : lmText cm pw p)
    (h : cuts p 7 before ch) (hl : (utf8Bytes p).length ≤ 256) :
    PanicText.ofNew f cm env pw = some (notBoundary 7 (debugChar f ch) (utf8Bytes before).length
      (utf8Bytes (before ++ [ch])).length p) := by
  rw [strLen_utf8Bytes] at hl
  obtain ⟨h1, h2⟩ := shown_short p hl
  rw [PanicText.ofNew, ofLm_eq f cm pw p hp, ofPrepared_cut f p before ch h]
  simp only [sliceFail_cut f p 7 before ch h, h2]
  rw [h1, List.append_nil]

/-- A short password with a character outside ASCII across byte 7, if the upper case of é is É. -/
example (cm : CaseMap) (f : Fmt) (env : HostEnv) (h : cm.up 'é' = ['É']) : ∃ x, PanicText.ofNew f cm env "secretéx".toList =
    some (x ++ "SECRETÉX\x00\x00\x00\x00\x00`".toList) := by
  have e : cm.upper "secretéx".toList = "SECRETÉX".toList := by
    show cm.up 's' ++ (cm.up 'e' ++ (cm.up 'c' ++ (cm.up 'r' ++ (cm.up 'e' ++ (cm.up 't' ++ (cm.up 'é' ++ (cm.up 'x' ++ []))))))) = _
    rw [h, cm.ascii 's' (by decide), cm.ascii 'e' (by decide), cm.ascii 'c' (by decide), cm.ascii 'r' (by decide),
      cm.ascii 't' (by decide), cm.ascii 'x' (by decide)]
    decide +kernel
  have hp : lmText cm "secretéx".toList ("SECRETÉX".toList ++ List.replicate 5 '\x00') := by
    refine .inl ⟨by decide +kernel, ?_⟩
    rw [e]
    decide +kernel
  rw [C88_upper_case cm f env _ _ "SECRET".toList 'É' hp ⟨⟨'X' :: List.replicate 5 '\x00', by decide +kernel⟩, by decide +kernel,
    by decide +kernel⟩ (by decide +kernel)]
  unfold notBoundary
  exact ⟨_, congrArg some (glue3 (by decide +kernel))⟩

/-- C88, the part that holds: if that text can be split at byte 7, the message printed, if any, tells of the password at most
    how many bytes too much or too few its second half has.  (Missing: the passwords of `C88_password`, `C88_long` and
    `C88_upper_case`, and texts of less than seven bytes.) -/
theorem C88_counts_partial (cm : CaseMap) (f : Fmt) (env : HostEnv) (pw a b t : Str) (hp : lmText cm pw (a ++ b))
    (ha : (utf8Bytes a).length = 7) (h : PanicText.ofNew f cm env pw = some t) :
    ((utf8Bytes b).length ≠ 7 ∧ t = wrongCount (utf8Bytes b).length) ∨ ((utf8Bytes b).length = 7 ∧ t = noHostName) := by
  rw [strLen_utf8Bytes] at *
  rw [PanicText.ofNew, ofLm_eq f cm pw _ hp, PanicText.ofPrepared, (splitAtByte_iff (a ++ b) 7 a b).mpr ⟨rfl, ha⟩] at h
  simp only [(ofKey_none (utf8 a)).mpr ha] at h
  by_cases hb : strLen b = 7
  · rw [(ofKey_none (utf8 b)).mpr hb] at h
    exact .inr ⟨hb, ofWorkstation_some env t h⟩
  · have hk : PanicText.ofKey (utf8 b) = some (assertEqText (strLen b) 7) := by
      simp only [PanicText.ofKey, if_neg (show ¬ (utf8 b).length = 7 from hb), strLen]
    rw [hk] at h
    simp only [Option.some.injEq] at h
    refine .inl ⟨hb, ?_⟩
    rw [← h]
    exact glue2 _ _ (by decide +kernel)

/-- Fourteen bytes that become fifteen in upper case, if the upper case of ŉ is ʼN. -/
example (cm : CaseMap) (f : Fmt) (env : HostEnv) (h : cm.up 'ŉ' = ['ʼ', 'N']) (t : Str)
    (ht : PanicText.ofNew f cm env (List.replicate 12 'a' ++ ['ŉ']) = some t) : t = wrongCount 8 := by
  have e : cm.upper (List.replicate 12 'a' ++ ['ŉ']) = List.replicate 7 'A' ++ (List.replicate 5 'A' ++ ['ʼ', 'N']) := by
    simp only [CaseMap.upper, List.flatMap_append, List.replicate, List.flatMap_cons, List.flatMap_nil, h, cm.ascii 'a' (by decide)]
    decide +kernel
  have hp : lmText cm (List.replicate 12 'a' ++ ['ŉ']) (List.replicate 7 'A' ++ (List.replicate 5 'A' ++ ['ʼ', 'N'])) :=
    .inr ⟨_, [], (List.append_nil _).symm, by decide +kernel, e.symm⟩
  rcases C88_counts_partial cm f env _ _ _ t hp (by decide +kernel) ht with h | h
  · rw [h.2]; rfl
  · exact absurd h.1 (by decide +kernel)

/-- C88: these are all the passwords there are, if upper-casing does not leave less than seven of fourteen bytes. -/
theorem C88_cases (cm : CaseMap) (pw : Str) :
    (∃ before ch, cuts pw 14 before ch) ∨
    ∃ p, lmText cm pw p ∧ ((∃ before ch, cuts p 7 before ch) ∨ (∃ a b, p = a ++ b ∧ (utf8Bytes a).length = 7) ∨
      (utf8Bytes p).length < 7) := by
  rcases lmText_or cm pw with ⟨p, hp⟩ | h
  · refine .inr ⟨p, hp, ?_⟩
    cases e : splitAtByte p 7 with
    | some ab =>
      obtain ⟨h1, h2⟩ := (splitAtByte_iff p 7 ab.1 ab.2).mp e
      exact .inr (.inl ⟨ab.1, ab.2, h1, by rw [strLen_utf8Bytes]; exact h2⟩)
    | none =>
      rcases (splitAtByte_none_iff p 7).mp e with h | h
      · exact .inr (.inr (by rw [strLen_utf8Bytes]; exact h))
      · exact .inl h
  · exact .inl h

/-- C88: with a password in ASCII the only message is the one about the host name. -/
theorem C88_ascii (cm : CaseMap) (f : Fmt) (env : HostEnv) (pw t : Str) (hp : ascii pw)
    (h : PanicText.ofNew f cm env pw = some t) : t = noHostName := by
  obtain ⟨r, hr, _⟩ := C24_ascii_partial toyPrims cm pw hp
  rw [PanicText.ofNew, (ofLm_none f cm toyPrims pw).mpr ⟨r, hr⟩] at h
  exact ofWorkstation_some env t h

/-- An empty host name file. -/
example (cm : CaseMap) (f : Fmt) : PanicText.ofNew f cm ⟨none, some []⟩ "secret".toList = some noHostName := by
  obtain ⟨r, hr, _⟩ := C24_ascii_partial toyPrims cm "secret".toList (by simp [ascii])
  rw [PanicText.ofNew, (ofLm_none f cm toyPrims _).mpr ⟨r, hr⟩]
  rfl

/-- C88: the calls of a client, after any calls, panic with one of five fixed messages, or with the clock's error. -/
theorem C88_calls (P : Prims) (cm : CaseMap) (cfg : Cfg) (ver : UInt32) (l : Login) (c : Client) (hc : created P cm l c)
    (h : List Op) (op : Op) (e : Panic) (he : resultOf P cfg ver c h op = .error e) (d : Str) :
    ∃ t, PanicText.ofCall d e = some t ∧ (t ∈ callMessages ∨ t = "now should be after UNIX_EPOCH: ".toList ++ d) := by
  have key : e = .unsupportedVersion ∨ e = .invalidVersion ∨ e = .invalidState ∨ e = .fieldLen ∨ e = .stringTooLong ∨ e = .clock := by
    obtain ⟨hs, hv0, _, _⟩ := created_state hc
    obtain ⟨s, b, hr⟩ := run_reset P cfg ver c h
    simp only [resultOf, hr] at he
    cases op with
    | recvChallenge ch => simp [step] at he
    | sendNegociate junk =>
      simp only [step, sendNegociate_eq] at he
      by_cases hv : ver.toNat ≤ 5
      · cases hm : negotiateMessage ver (reset c s b) with
        | error e' =>
          obtain ⟨n, hn, _⟩ := negotiateMessage_ok hv (reset c s b) hv0
          rw [hn] at hm; cases hm
        | ok n =>
          rw [hm] at he
          simp only at he
          cases hw : Wire.serialize cfg n with
          | ok x => rw [hw] at he; cases he
          | error e' =>
            rw [hw] at he
            simp only [Except.error.injEq] at he
            subst he
            exact .inr (.inr (.inr (.inl ((C06_negotiate_fails_iff cfg n _).mp hw).1)))
      · rw [negotiateMessage_err hv] at he
        cases he
        exact .inl rfl
    | sendAuthenticate rnd junk =>
      simp only [step, sendAuthenticate_eq] at he
      by_cases hv : ver.toNat ≤ 5
      · cases hm : authenticateMessage P cfg ver rnd (reset c s b) with
        | error e' =>
          rw [hm] at he
          simp only [Except.error.injEq] at he
          subst he
          by_cases hs : sessionOf s = none
          · rw [invalid_message P cfg hv rnd _ (show sessionOf (reset c s b).state = none from hs)] at hm
            cases hm
            exact .inr (.inr (.inl rfl))
          · obtain ⟨n, ch, hs'⟩ : ∃ n ch, sessionOf s = some (n, ch) := by
              cases s <;> simp_all [sessionOf]
            rw [authenticateMessage_session P cfg ver rnd c s (.challengeReceived n ch) b b hs'] at hm
            rcases message_error P cfg hv rnd c hv0 n ch b _ hm with h | h | h <;> simp [h]
        | ok m =>
          rw [hm] at he
          simp only at he
          by_cases hf : authenticateFits m
          · rw [serialize_of_enc (enc_authenticate cfg m hf)] at he; cases he
          · obtain ⟨p, hp, hk⟩ := authenticate_err cfg m hf []
            rw [serialize_of_error hp] at he
            cases he
            rcases hk with h | h <;> simp [h]
      · rw [outdated_message P cfg hv] at he
        cases he
        exact .inr (.inl rfl)
  rcases key with rfl | rfl | rfl | rfl | rfl | rfl <;>
    exact ⟨_, rfl, by first | exact .inr rfl | exact .inl (by simp [callMessages])⟩

/-- Answering before there is a challenge. -/
example (P : Prims) (cm : CaseMap) (cfg : Cfg) (c : Client) (hc : created P cm exLogin c) (d : Str) :
    ∃ e, resultOf P cfg 3 c [.sendNegociate []] (.sendAuthenticate exRand []) = .error e ∧
      PanicText.ofCall d e = some "internal error: entered unreachable code: Invalid client state".toList := by
  refine ⟨_, (C33_state_check P cm cfg 3 exLogin c hc (exLogin_negotiable 3 (by decide)) _ _ _).mpr ?_, rfl⟩
  rintro ⟨ch, ha⟩
  exact (phases _).1 ch ha ⟨[], [], [], rfl, by simp⟩

/-- C88 is false: there is a password for which creating a client prints it. -/
theorem C88_refuted : ∃ pw : Str, ∀ (cm : CaseMap) (f : Fmt) (env : HostEnv),
    ∃ a b, PanicText.ofNew f cm env pw = some (a ++ pw ++ b) := by
  refine ⟨"correct horseé".toList, fun cm f env => ?_⟩
  rw [C88_password cm f env _ "correct horse".toList 'é' ⟨⟨[], by decide⟩, by decide +kernel, by decide +kernel⟩ (by decide +kernel)]
  exact ⟨_, "`".toList, rfl⟩

end Props
end Ntlm
