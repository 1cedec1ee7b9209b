import Verif.Spec.Crypto
import Verif.Model.Client
import Verif.Lemmas.Encode
/-
  Lemmas about DES keys, LM passwords and the responses.
-/
namespace Ntlm

open Spec

/-! ### DES keys -/

theorem u8_all {p : UInt8 → Prop} (h : ∀ n, n < 256 → p (UInt8.ofNat n)) (v : UInt8) : p v := by
  have := h v.toNat (UInt8.toNat_lt v)
  rwa [UInt8.ofNat_toNat] at this

theorem testBit_shl (a : UInt8) (s i : Nat) (hs : s < 8) (hi : i < 8) :
    (a <<< UInt8.ofNat s).toNat.testBit i = (decide (s ≤ i) && a.toNat.testBit (i - s)) := by
  have e : (UInt8.ofNat s).toNat % 8 = s := by simp only [UInt8.toNat_ofNat']; omega
  rw [UInt8.toNat_shiftLeft, e, Nat.testBit_mod_two_pow, Nat.testBit_shiftLeft]
  simp [hi]

theorem testBit_shr (a : UInt8) (s i : Nat) (hs : s < 8) :
    (a >>> UInt8.ofNat s).toNat.testBit i = a.toNat.testBit (s + i) := by
  have e : (UInt8.ofNat s).toNat % 8 = s := by simp only [UInt8.toNat_ofNat']; omega
  rw [UInt8.toNat_shiftRight, e, Nat.testBit_shiftRight]

theorem testBit_u8_ge (a : UInt8) (i : Nat) (h : 8 ≤ i) : a.toNat.testBit i = false :=
  Nat.testBit_lt_two_pow (Nat.lt_of_lt_of_le (UInt8.toNat_lt a) (Nat.pow_le_pow_right (by omega) h))

theorem desRaw_bits (k : Nat → UInt8) (j t : Nat) (hj : j < 8) (ht : t < 7) :
    (desRaw k j).toNat.testBit (7 - t) = (k ((7 * j + t) / 8)).toNat.testBit (7 - (7 * j + t) % 8) := by
  simp only [desRaw]
  split
  · subst j
    rw [show (7 * 0 + t) / 8 = 0 by omega, show (7 * 0 + t) % 8 = t by omega]
  · split
    · subst j
      rw [show (1 : UInt8) = UInt8.ofNat 1 from rfl, testBit_shl _ _ _ (by omega) (by omega),
        show (7 * 7 + t) / 8 = 6 by omega, show 7 - (7 * 7 + t) % 8 = 7 - t - 1 by omega]
      have : 1 ≤ 7 - t := by omega
      simp [this]
    · rw [UInt8.toNat_or, Nat.testBit_or, testBit_shl _ _ _ (by omega) (by omega), testBit_shr _ _ _ (by omega)]
      by_cases h : t < j
      · rw [show (7 * j + t) / 8 = j - 1 by omega, show 7 - (7 * j + t) % 8 = 7 - t - (8 - j) by omega,
          testBit_u8_ge (k j) _ (by omega)]
        have : 8 - j ≤ 7 - t := by omega
        simp [this]
      · rw [show (7 * j + t) / 8 = j by omega, show 7 - (7 * j + t) % 8 = j + (7 - t) by omega]
        have : ¬ 8 - j ≤ 7 - t := by omega
        simp [this]

theorem desParity_spec (v : UInt8) :
    ones (desParity v) % 2 = 1 ∧ ∀ i, i < 8 → 0 < i → (desParity v).toNat.testBit i = v.toNat.testBit i := by
  revert v
  apply u8_all
  decide +kernel

theorem desParity_odd (v : UInt8) : ones v % 2 = 1 → desParity v = v := by
  revert v
  apply u8_all
  decide +kernel

theorem desParity_upper (v : UInt8) : desParity v = desParity (UInt8.ofNat (v.toNat / 2 * 2)) := by
  revert v
  apply u8_all
  decide +kernel

/-- A byte with odd parity is determined by its upper seven bits. -/
theorem odd_ext {x y : UInt8} (hx : ones x % 2 = 1) (hy : ones y % 2 = 1)
    (h : ∀ t, t < 7 → x.toNat.testBit (7 - t) = y.toNat.testBit (7 - t)) : x = y := by
  have e : x.toNat / 2 = y.toNat / 2 := by
    apply Nat.eq_of_testBit_eq
    intro i
    rw [show x.toNat / 2 = x.toNat >>> 1 from rfl, show y.toNat / 2 = y.toNat >>> 1 from rfl, Nat.testBit_shiftRight,
      Nat.testBit_shiftRight]
    by_cases hi : i < 7
    · have := h (6 - i) (by omega)
      rwa [show 7 - (6 - i) = 1 + i by omega] at this
    · rw [testBit_u8_ge _ _ (by omega), testBit_u8_ge _ _ (by omega)]
  rw [← desParity_odd x hx, ← desParity_odd y hy, desParity_upper x, desParity_upper y, e]

theorem des56To64_ok (k : List UInt8) (h : k.length = 7) : ∃ e, des56To64 k = .ok e ∧ isDesKey k e.val := by
  simp only [des56To64, h, if_true]
  refine ⟨_, rfl, by simp, ?_⟩
  intro j hj
  have e : ((List.range 8).map fun b => desParity (desRaw (fun i => k.getD i 0) b)).getD j 0 =
      desParity (desRaw (fun i => k.getD i 0) j) := by
    rw [List.getD_eq_getElem?_getD, List.getElem?_map, List.getElem?_range hj]
    rfl
  rw [e]
  refine ⟨fun t ht => ?_, (desParity_spec _).1⟩
  rw [(desParity_spec _).2 _ (by omega) (by omega), desRaw_bits _ _ _ hj ht, keyBit]

theorem isDesKey_unique {k e e' : List UInt8} (h : isDesKey k e) (h' : isDesKey k e') : e = e' := by
  apply List.ext_getElem (by rw [h.1, h'.1])
  intro j h1 h2
  have hj : j < 8 := by rw [← h.1]; exact h1
  obtain ⟨b, p⟩ := h.2 j hj
  obtain ⟨b', p'⟩ := h'.2 j hj
  have e1 : e.getD j 0 = e[j] := by simp [List.getD_eq_getElem?_getD, h1]
  have e2 : e'.getD j 0 = e'[j] := by simp [List.getD_eq_getElem?_getD, h2]
  rw [← e1, ← e2]
  exact odd_ext p p' fun t ht => (b t ht).trans (b' t ht).symm

theorem u8_ext {x y : UInt8} (h : ∀ i, i < 8 → x.toNat.testBit i = y.toNat.testBit i) : x = y := by
  apply UInt8.toNat_inj.mp
  apply Nat.eq_of_testBit_eq
  intro i
  by_cases hi : i < 8
  · exact h i hi
  · rw [testBit_u8_ge _ _ (by omega), testBit_u8_ge _ _ (by omega)]

theorem isDesKey_inj {k k' e : List UInt8} (hk : k.length = 7) (hk' : k'.length = 7) (h : isDesKey k e)
    (h' : isDesKey k' e) : k = k' := by
  have hb : ∀ i, i < 56 → keyBit k i = keyBit k' i := by
    intro i hi
    have h1 := (h.2 (i / 7) (by omega)).1 (i % 7) (by omega)
    have h2 := (h'.2 (i / 7) (by omega)).1 (i % 7) (by omega)
    rw [show 7 * (i / 7) + i % 7 = i by omega] at h1 h2
    rw [← h1, ← h2]
  apply List.ext_getElem (by rw [hk, hk'])
  intro j h1 h2
  apply u8_ext
  intro b hbb
  have := hb (8 * j + (7 - b)) (by omega)
  simp only [keyBit, show (8 * j + (7 - b)) / 8 = j by omega, show 7 - (8 * j + (7 - b)) % 8 = b by omega] at this
  have e1 : k.getD j 0 = k[j] := by simp [List.getD_eq_getElem?_getD, h1]
  have e2 : k'.getD j 0 = k'[j] := by simp [List.getD_eq_getElem?_getD, h2]
  rwa [e1, e2] at this

/-- `des7` computes DES with a 7-byte key. -/
theorem des7_isDes (P : Prims) (k : Bytes 7) (d : Bytes 8) : isDes P k.val d (des7 P k d).val := by
  obtain ⟨e, h1, h2⟩ := des56To64_ok k.val k.property
  exact ⟨e, h2, by simp only [des7, des7Encrypt, h1]⟩

theorem des7Encrypt_ok (P : Prims) (k : List UInt8) (h : k.length = 7) (d : Bytes 8) :
    ∃ c, des7Encrypt P k d = .ok c ∧ isDes P k d c.val := by
  obtain ⟨e, h1, h2⟩ := des56To64_ok k h
  exact ⟨P.desBlock e d, by simp only [des7Encrypt, h1], e, h2, rfl⟩

theorem des7Encrypt_err (P : Prims) (k : List UInt8) (h : k.length ≠ 7) (d : Bytes 8) :
    des7Encrypt P k d = .error .desKeyLen := by simp only [des7Encrypt, des56To64, h, if_false]

theorem isDes_unique {P : Prims} {k : List UInt8} {d : Bytes 8} {c c' : List UInt8} (h : isDes P k d c)
    (h' : isDes P k d c') : c = c' := by
  obtain ⟨e, h1, rfl⟩ := h
  obtain ⟨e', h1', rfl⟩ := h'
  rw [Subtype.ext (isDesKey_unique h1 h1')]

theorem des7_isDes' (P : Prims) (k : Bytes 7) (d : Bytes 8) {l : List UInt8} (h : k.val = l) :
    isDes P l d (des7 P k d).val := h ▸ des7_isDes P k d

theorem desl_isDesl (P : Prims) (key : Bytes 16) (d : Bytes 8) : isDesl P key.val d (desl P key d).val := by
  have hk := key.property
  refine ⟨_, _, _, des7_isDes' P _ d ?_, des7_isDes' P _ d ?_, des7_isDes' P _ d ?_, rfl⟩
  · show ((key.val ++ List.replicate 5 0).drop 0).take 7 = _
    rw [List.drop_zero, List.take_append_of_le_length (by omega)]
  · show ((key.val ++ List.replicate 5 0).drop 7).take 7 = _
    rw [List.drop_append_of_le_length (by omega), List.take_append_of_le_length (by simp; omega)]
  · show ((key.val ++ List.replicate 5 0).drop 14).take 7 = _
    rw [List.drop_append_of_le_length (by omega), List.take_of_length_le (by simp; omega)]
    rfl

/-! ### Text sizes -/

theorem strLen_nil : strLen [] = 0 := rfl

theorem strLen_cons (c : Char) (s : Str) : strLen (c :: s) = c.utf8Size + strLen s := by
  simp [strLen, utf8, String.length_utf8EncodeChar]

theorem strLen_append (a b : Str) : strLen (a ++ b) = strLen a + strLen b := by
  simp [strLen, utf8]

theorem strLen_utf8Bytes (s : Str) : (utf8Bytes s).length = strLen s := by rw [utf8Bytes_eq]; rfl

theorem strLen_nul (n : Nat) : strLen (List.replicate n '\x00') = n := by
  induction n with
  | zero => rfl
  | succ n ih => rw [List.replicate_succ, strLen_cons, ih, show ('\x00' : Char).utf8Size = 1 from rfl]; omega

/-- `split_at` succeeds exactly at character boundaries. -/
theorem splitAtByte_iff (s : Str) (n : Nat) (a b : Str) :
    splitAtByte s n = some (a, b) ↔ s = a ++ b ∧ strLen a = n := by
  induction s generalizing n a with
  | nil =>
    cases n with
    | zero => simp [splitAtByte, strLen, utf8]; grind
    | succ n =>
      simp only [splitAtByte, false_iff, reduceCtorEq]
      rintro ⟨h, h2⟩
      have : a = [] := by simp at h; exact h.1
      subst this
      simp [strLen_nil] at h2
  | cons c s ih =>
    have hc := Char.utf8Size_pos c
    cases n with
    | zero =>
      simp only [splitAtByte, Option.some.injEq, Prod.mk.injEq]
      constructor
      · rintro ⟨rfl, rfl⟩; exact ⟨rfl, rfl⟩
      · rintro ⟨h1, h2⟩
        cases a with
        | nil => exact ⟨rfl, h1⟩
        | cons x a => rw [strLen_cons] at h2; have := Char.utf8Size_pos x; omega
    | succ n =>
      simp only [splitAtByte]
      split
      · next hle =>
        constructor
        · intro h
          cases e : splitAtByte s (n + 1 - c.utf8Size) with
          | none => rw [e] at h; cases h
          | some ab =>
            obtain ⟨a', b'⟩ := ab
            rw [e] at h
            simp only [Option.some.injEq, Prod.mk.injEq] at h
            obtain ⟨rfl, rfl⟩ := h
            obtain ⟨h1, h2⟩ := (ih _ _).mp e
            exact ⟨by rw [h1]; rfl, by rw [strLen_cons]; omega⟩
        · rintro ⟨h1, h2⟩
          cases a with
          | nil => simp [strLen_nil] at h2
          | cons x a =>
            simp only [List.cons_append, List.cons.injEq] at h1
            obtain ⟨rfl, h1⟩ := h1
            rw [strLen_cons] at h2
            rw [(ih _ _).mpr ⟨h1, by omega⟩]
      · next hle =>
        simp only [false_iff, reduceCtorEq]
        rintro ⟨h1, h2⟩
        cases a with
        | nil => simp [strLen_nil] at h2
        | cons x a =>
          simp only [List.cons_append, List.cons.injEq] at h1
          obtain ⟨rfl, h1⟩ := h1
          rw [strLen_cons] at h2
          omega

theorem splitAtByte_none (s : Str) (n : Nat) : splitAtByte s n = none ↔ ¬ ∃ a b, s = a ++ b ∧ strLen a = n := by
  constructor
  · rintro h ⟨a, b, h1, h2⟩
    rw [(splitAtByte_iff s n a b).mpr ⟨h1, h2⟩] at h
    cases h
  · intro h
    cases e : splitAtByte s n with
    | none => rfl
    | some ab => exact absurd ⟨ab.1, ab.2, (splitAtByte_iff s n ab.1 ab.2).mp e⟩ h

/-! ### LM hash -/

theorem lmowfv1_of_prepared (P : Prims) (cm : CaseMap) (pw p a b : Str) (h : preparePassword cm pw = .ok p)
    (hp : p = a ++ b) (ha : strLen a = 7) (hb : strLen b = 7) :
    ∃ h c1 c2, lmowfv1 P cm pw = .ok h ∧ isDes P (utf8 a) lmMagic c1 ∧ isDes P (utf8 b) lmMagic c2 ∧ h.val = c1 ++ c2 := by
  obtain ⟨c1, h1, h1'⟩ := des7Encrypt_ok P (utf8 a) ha lmMagic
  obtain ⟨c2, h2, h2'⟩ := des7Encrypt_ok P (utf8 b) hb lmMagic
  refine ⟨c1.append c2, c1.val, c2.val, ?_, h1', h2', rfl⟩
  simp only [lmowfv1, h, (splitAtByte_iff p 7 a b).mpr ⟨hp, ha⟩, h1, h2]

theorem lmowfv1_prepared_ok (P : Prims) (cm : CaseMap) (pw : Str) (h : Bytes 16) (hok : lmowfv1 P cm pw = .ok h) :
    ∃ p a b, preparePassword cm pw = .ok p ∧ p = a ++ b ∧ strLen a = 7 ∧ strLen b = 7 := by
  simp only [lmowfv1] at hok
  cases e : preparePassword cm pw with
  | error x => rw [e] at hok; cases hok
  | ok p =>
    rw [e] at hok
    simp only at hok
    cases e2 : splitAtByte p 7 with
    | none => rw [e2] at hok; cases hok
    | some ab =>
      obtain ⟨a, b⟩ := ab
      rw [e2] at hok
      simp only at hok
      obtain ⟨h1, h2⟩ := (splitAtByte_iff p 7 a b).mp e2
      by_cases hb : strLen b = 7
      · exact ⟨p, a, b, rfl, h1, h2, hb⟩
      · rw [des7Encrypt_err P (utf8 b) hb] at hok
        obtain ⟨c1, h1, _⟩ := des7Encrypt_ok P (utf8 a) h2 lmMagic
        rw [h1] at hok
        cases hok

theorem preparePassword_ok (cm : CaseMap) (pw p : Str) :
    preparePassword cm pw = .ok p ↔
      (strLen pw < 14 ∧ p = cm.upper pw ++ List.replicate (14 - strLen (cm.upper pw)) '\x00') ∨
      (¬ strLen pw < 14 ∧ ∃ head tail, pw = head ++ tail ∧ strLen head = 14 ∧ p = cm.upper head) := by
  simp only [preparePassword]
  split
  · next h => simp [h]; exact eq_comm
  · next h =>
    simp only [h, false_and, not_false_eq_true, true_and, false_or]
    cases e : splitAtByte pw 14 with
    | none =>
      simp only [reduceCtorEq, false_iff]
      rintro ⟨hd, tl, h1, h2, _⟩
      exact (splitAtByte_none pw 14).mp e ⟨hd, tl, h1, h2⟩
    | some ab =>
      obtain ⟨hd, tl⟩ := ab
      obtain ⟨h1, h2⟩ := (splitAtByte_iff pw 14 hd tl).mp e
      simp only [Except.ok.injEq]
      constructor
      · rintro rfl; exact ⟨hd, tl, h1, h2, rfl⟩
      · rintro ⟨hd', tl', h1', h2', rfl⟩
        have := (splitAtByte_iff pw 14 hd' tl').mpr ⟨h1', h2'⟩
        rw [e] at this
        simp only [Option.some.injEq, Prod.mk.injEq] at this
        rw [this.1]

theorem lmHalves_iff (cm : CaseMap) (pw a b : Str) :
    lmHalves cm pw a b ↔ preparePassword cm pw = .ok (a ++ b) ∧ strLen a = 7 ∧ strLen b = 7 := by
  simp only [preparePassword_ok, lmHalves, strLen_utf8Bytes]
  constructor
  · rintro ⟨hd, tl, pad, e1, hcase, e2, ha, hb⟩
    refine ⟨?_, ha, hb⟩
    rcases hcase with ⟨hlt, rfl, rfl⟩ | ⟨hlen, rfl⟩
    · simp only [List.append_nil] at e1
      subst e1
      exact .inl ⟨hlt, e2.symm⟩
    · have hge : ¬ strLen pw < 14 := by rw [e1, strLen_append]; omega
      simp only [List.append_nil] at e2
      exact .inr ⟨hge, hd, tl, e1, hlen, e2.symm⟩
  · rintro ⟨⟨hlt, e⟩ | ⟨hlt, hd, tl, e1, e2, e3⟩, ha, hb⟩
    · exact ⟨pw, [], _, by simp, .inl ⟨hlt, rfl, rfl⟩, e.symm, ha, hb⟩
    · exact ⟨hd, tl, [], e1, .inr ⟨e2, rfl⟩, by simpa using e3.symm, ha, hb⟩

theorem lmHalves_unique {cm : CaseMap} {pw a b a' b' : Str} (h : lmHalves cm pw a b) (h' : lmHalves cm pw a' b') :
    a = a' ∧ b = b' := by
  obtain ⟨h1, h2, _⟩ := (lmHalves_iff cm pw a b).mp h
  obtain ⟨h1', h2', _⟩ := (lmHalves_iff cm pw a' b').mp h'
  rw [h1] at h1'
  have e := Except.ok.inj h1'
  have s1 := (splitAtByte_iff (a ++ b) 7 a b).mpr ⟨rfl, h2⟩
  have s2 := (splitAtByte_iff (a ++ b) 7 a' b').mpr ⟨e, h2'⟩
  rw [s1] at s2
  simpa using s2

/-- The LM hash of any password. -/
theorem lm_value (P : Prims) (cm : CaseMap) (pw : Str) (h : Bytes 16) :
    lmowfv1 P cm pw = .ok h ↔ ∃ a b, lmHalves cm pw a b ∧ isLmHash P (utf8Bytes a ++ utf8Bytes b) h.val := by
  have val : ∀ a b, lmHalves cm pw a b → ∃ r : Bytes 16, lmowfv1 P cm pw = .ok r ∧ isLmHash P (utf8Bytes a ++ utf8Bytes b) r.val := by
    intro a b hab
    obtain ⟨hp, ha, hb⟩ := (lmHalves_iff cm pw a b).mp hab
    obtain ⟨r, c1, c2, h1, h2, h3, h4⟩ := lmowfv1_of_prepared P cm pw _ a b hp rfl ha hb
    rw [← strLen_utf8Bytes] at ha
    refine ⟨r, h1, lmMagic, c1, c2, by decide, ?_, ?_, h4⟩
    · rwa [List.take_left' ha, utf8Bytes_eq]
    · rwa [List.drop_left' ha, utf8Bytes_eq]
  constructor
  · intro hok
    obtain ⟨p, a, b, hp, rfl, h2, h3⟩ := lmowfv1_prepared_ok P cm pw h hok
    have hab := (lmHalves_iff cm pw a b).mpr ⟨hp, h2, h3⟩
    obtain ⟨r, hr, hl⟩ := val a b hab
    rw [hok] at hr
    cases hr
    exact ⟨a, b, hab, hl⟩
  · rintro ⟨a, b, hab, magic, c1, c2, hm, h1, h2, h3⟩
    obtain ⟨r, hr, magic', c1', c2', hm', h1', h2', h3'⟩ := val a b hab
    have e : magic = magic' := Subtype.ext (hm.trans hm'.symm)
    subst e
    rw [isDes_unique h1 h1', isDes_unique h2 h2', ← h3'] at h3
    rw [hr, Subtype.ext h3]

theorem lm_iff (P : Prims) (cm : CaseMap) (pw : Str) : (∃ h, lmowfv1 P cm pw = .ok h) ↔ lmComputable cm pw := by
  constructor
  · rintro ⟨h, hok⟩
    obtain ⟨a, b, hab, _⟩ := (lm_value P cm pw h).mp hok
    exact ⟨a, b, hab⟩
  · rintro ⟨a, b, hab⟩
    obtain ⟨hp, ha, hb⟩ := (lmHalves_iff cm pw a b).mp hab
    obtain ⟨h, _, _, hok, _⟩ := lmowfv1_of_prepared P cm pw _ a b hp rfl ha hb
    exact ⟨h, hok⟩

theorem utf8_ascii {s : Str} (h : ascii s) : utf8 s = s.map fun c => UInt8.ofNat c.toNat := by
  induction s with
  | nil => rfl
  | cons c s ih =>
    have hc := h c (by simp)
    have e : utf8 (c :: s) = String.utf8EncodeChar c ++ utf8 s := by simp [utf8]
    have e2 : String.utf8EncodeChar c = [UInt8.ofNat c.toNat] := by
      have : c.val.toNat ≤ 0x7f := by
        have : c.toNat = c.val.toNat := rfl
        omega
      simp only [String.utf8EncodeChar, this, if_true]
      rfl
    rw [e, e2, ih (fun c hc => h c (by simp [hc]))]
    rfl

theorem strLen_ascii {s : Str} (h : ascii s) : strLen s = s.length := by
  rw [strLen, utf8_ascii h, List.length_map]

theorem toUpper_ascii {c : Char} (h : c.toNat < 128) : c.toUpper.toNat < 128 := by
  have key : ∀ n, n < 128 → (Char.ofNat n).toUpper.toNat < 128 := by decide +kernel
  have := key c.toNat h
  rwa [Char.ofNat_toNat] at this

theorem upper_ascii (cm : CaseMap) {s : Str} (h : ascii s) : cm.upper s = s.map Char.toUpper := by
  induction s with
  | nil => rfl
  | cons c s ih =>
    have e : cm.upper (c :: s) = cm.up c ++ cm.upper s := by simp [CaseMap.upper]
    rw [e, cm.ascii c (h c (by simp)), ih (fun c hc => h c (by simp [hc]))]
    rfl

theorem ascii_upper {s : Str} (h : ascii s) : ascii (s.map Char.toUpper) := by
  intro c hc
  obtain ⟨d, hd, rfl⟩ := List.mem_map.mp hc
  exact toUpper_ascii (h d hd)

theorem ascii_take {s : Str} (h : ascii s) (n : Nat) : ascii (s.take n) := fun c hc => h c (List.mem_of_mem_take hc)
theorem ascii_drop {s : Str} (h : ascii s) (n : Nat) : ascii (s.drop n) := fun c hc => h c (List.mem_of_mem_drop hc)

/-- The prepared password of an ASCII password. -/
theorem preparePassword_ascii (cm : CaseMap) {pw : Str} (h : ascii pw) :
    preparePassword cm pw = .ok ((pw.take 14).map Char.toUpper ++ List.replicate (14 - pw.length) '\x00') := by
  rw [preparePassword_ok, strLen_ascii h, upper_ascii cm h, strLen_ascii (ascii_upper h), List.length_map]
  by_cases hl : pw.length < 14
  · refine .inl ⟨hl, ?_⟩
    rw [List.take_of_length_le (by omega)]
  · refine .inr ⟨hl, pw.take 14, pw.drop 14, by simp, ?_, ?_⟩
    · rw [strLen_ascii (ascii_take h 14)]; simp; omega
    · rw [upper_ascii cm (ascii_take h 14), show 14 - pw.length = 0 by omega]; simp

theorem lm_ascii (P : Prims) (cm : CaseMap) {pw : Str} (h : ascii pw) :
    ∃ r, lmowfv1 P cm pw = .ok r ∧ isLmHash P (lmPassword pw) r.val := by
  let p := (pw.take 14).map Char.toUpper ++ List.replicate (14 - pw.length) '\x00'
  have hp : ascii p := by
    intro c hc
    rcases List.mem_append.mp hc with hc | hc
    · exact ascii_upper (ascii_take h 14) c hc
    · rw [List.eq_of_mem_replicate hc]; decide
  have hlen : p.length = 14 := by simp [p]; omega
  have hb : utf8 p = lmPassword pw := by
    rw [utf8_ascii hp]
    simp only [p, lmPassword, asciiUpperBytes, List.map_append, List.map_map, List.map_replicate]
    rfl
  obtain ⟨r, c1, c2, h1, h2, h3, h4⟩ := lmowfv1_of_prepared P cm pw p (p.take 7) (p.drop 7)
    (preparePassword_ascii cm h) (by simp) (by rw [strLen_ascii (ascii_take hp 7)]; simp [hlen])
    (by rw [strLen_ascii (ascii_drop hp 7)]; simp [hlen])
  refine ⟨r, h1, lmMagic, c1, c2, by decide, ?_, ?_, h4⟩
  · rwa [utf8_ascii (ascii_take hp 7), List.map_take, ← utf8_ascii hp, hb] at h2
  · rwa [utf8_ascii (ascii_drop hp 7), List.map_drop, ← utf8_ascii hp, hb] at h3

end Ntlm
