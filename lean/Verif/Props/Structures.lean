import Verif.Spec.Structures
import Verif.Lemmas.Frame
import Verif.Lemmas.DecodeChal
import Verif.Lemmas.Panic
import Verif.Lemmas.Canon
import Verif.Props.Encoding
/-
  C11, C12, C18, C19, C20, C21: AV pairs and the other structures.
-/
namespace Ntlm

open Spec

theorem fixedSize_of {α : Type} [Wire α] {n : Nat} {ok : Cfg → α → Prop} (enc : α → List UInt8)
    (he : ∀ cfg x, Enc cfg x (enc x)) (hl : ∀ x, (enc x).length = n)
    (hd : ∀ cfg x r, ok cfg x → Wire.deserialize cfg (enc x ++ r) = .ok (x, r))
    (hn : ∀ cfg x r, ¬ ok cfg x → (Wire.deserialize cfg : Parser α) (enc x ++ r) = .error .error)
    (hc : ∀ cfg, Canon cfg enc) (hs : ∀ cfg, Short (Wire.deserialize cfg : Parser α) n) : FixedSize α n ok where
  roundtrip cfg x := ⟨enc x, serialize_of_enc (he cfg x), hl x, fun h r => hd cfg x r h, fun h r => hn cfg x r h⟩
  canonical cfg i x r h := ⟨enc x, serialize_of_enc (he cfg x), hc cfg i x r h⟩
  short cfg i h := hs cfg i h

theorem fixedSize_always {α : Type} [Wire α] {n : Nat} (enc : α → List UInt8)
    (he : ∀ cfg x, Enc cfg x (enc x)) (hl : ∀ x, (enc x).length = n)
    (hd : ∀ cfg x, Dec cfg (enc x) x)
    (hc : ∀ cfg, Canon cfg enc) (hs : ∀ cfg, Short (Wire.deserialize cfg : Parser α) n) : FixedSize α n always :=
  fixedSize_of enc he hl (fun cfg x r _ => hd cfg x r) (fun _ _ _ h => absurd trivial h) hc hs

theorem enc_avId (cfg : Cfg) (x : AvId) : Enc cfg x (le 2 x.toU16.toNat) := by
  intro w
  show writeU16 x.toU16 w = _
  simp [writeU16, le_eq]

theorem pmap_alt_left {cfg : Cfg} {i r : List UInt8} {c : Ntv2Challenge}
    (h : (Wire.deserialize cfg : Parser Ntv2Challenge) i = .ok (c, r)) :
    Wire.deserialize cfg i = .ok (NtChallenge.v2 c, r) := by
  show alt _ _ i = _
  have : pmap (Wire.deserialize cfg : Parser Ntv2Challenge) NtChallenge.v2 i = .ok (.v2 c, r) := pmap_ok h
  simp only [alt, this]

theorem enc_lmv1 (cfg : Cfg) (c : Lmv1Challenge) : Enc cfg c c.response.val := enc_bytes cfg c.response
theorem enc_ntv1 (cfg : Cfg) (c : Ntv1Challenge) : Enc cfg c c.response.val := enc_bytes cfg c.response
theorem enc_lmv2 (cfg : Cfg) (c : Lmv2Challenge) : Enc cfg c (c.response.val ++ c.challengeFromClient.val) :=
  enc_lm cfg (.v2 c)

theorem many0_walk (cfg : Cfg) (i : List UInt8) (l : List AvPair) (r : List UInt8) :
    many0 (Wire.deserialize cfg : Parser AvPair) i = .ok (l, r) ↔ AvWalk cfg i l r := by
  constructor
  · induction l generalizing i with
    | nil =>
      intro h
      rw [many0_eq] at h
      split at h
      · simp only [Except.ok.injEq, Prod.mk.injEq, true_and] at h
        subst h
        rename_i heq
        exact .stop ((avPair_error_iff cfg _).mp heq)
      · simp at h
      · split at h
        · split at h <;> simp at h
        · simp at h
    | cons p l ih =>
      intro h
      rw [many0_eq] at h
      split at h
      · simp at h
      · simp at h
      · rename_i a r' heq
        split at h
        · split at h
          · rename_i as r'' heq2
            simp only [Except.ok.injEq, Prod.mk.injEq, List.cons.injEq] at h
            obtain ⟨⟨rfl, rfl⟩, rfl⟩ := h
            obtain ⟨k1, k2, rfl⟩ := (avPair_ok_iff cfg _ _ _).mp heq
            exact .step k1 k2 (ih _ heq2)
          · simp at h
        · simp at h
  · intro h
    induction h with
    | stop h => exact many0_stop ((avPair_error_iff cfg _).mpr h)
    | step h hd _ ih =>
      refine many0_cons ((avPair_ok_iff cfg _ _ _).mpr ⟨h, hd, rfl⟩) ?_ ih
      have := h.1
      rw [List.length_drop]
      omega

theorem many0_avError (cfg : Cfg) (n : Nat) (i : List UInt8) (hn : i.length ≤ n) (e : PErr)
    (h : many0 (Wire.deserialize cfg : Parser AvPair) i = .error e) :
    e = .incomplete ∨ (e = .panic .debugAssert ∧ cfg.debug = true) := by
  induction n generalizing i with
  | zero =>
    have : i = [] := List.length_eq_zero_iff.mp (by omega)
    subst this
    rw [many0_stop (avPair_nil cfg)] at h
    simp at h
  | succ n ih =>
    rw [many0_eq] at h
    rcases avPair_cases cfg i with h1 | ⟨h1, _⟩ | ⟨h1, hd⟩ | ⟨q, h1, _, h2⟩
    · simp [h1] at h
    · simp only [h1, Except.error.injEq] at h
      exact .inl h.symm
    · simp only [h1, Except.error.injEq] at h
      exact .inr ⟨h.symm, hd⟩
    · simp only [h1, List.length_drop] at h
      rw [if_pos (by omega)] at h
      split at h
      · simp at h
      · rename_i e' heq
        simp only [Except.error.injEq] at h
        subst h
        exact ih _ (by simp only [List.length_drop]; omega) heq

/-- Decoding continues behind encodable pairs. -/
theorem many0_prefix (cfg : Cfg) (l : List AvPair) (h : ∀ p ∈ l, avPairFits p) (hk : ∀ p ∈ l, pairOk cfg p)
    (r : List UInt8) :
    many0 (Wire.deserialize cfg : Parser AvPair) (avListBytes l ++ r) =
      match many0 (Wire.deserialize cfg : Parser AvPair) r with
      | .ok (l', r') => .ok (l ++ l', r')
      | .error e => .error e := by
  induction l with
  | nil =>
    simp only [avListBytes, List.flatMap_nil, List.nil_append]
    generalize many0 (Wire.deserialize cfg : Parser AvPair) r = x
    rcases x with _ | ⟨_, _⟩ <;> rfl
  | cons p l ih =>
    rw [avListBytes_cons, List.append_assoc, many0_eq, avPair_decode cfg p (h p (by simp)) (hk p (by simp))]
    have hlen : (avListBytes l ++ r).length < (avPairBytes p ++ (avListBytes l ++ r)).length := by
      have := length_avPairBytes p
      simp only [List.length_append]; omega
    simp only [hlen, if_true]
    rw [ih (fun q hq => h q (by simp [hq])) (fun q hq => hk q (by simp [hq]))]
    generalize many0 (Wire.deserialize cfg : Parser AvPair) r = x
    rcases x with _ | ⟨_, _⟩ <;> rfl

theorem serialize_avList (cfg : Cfg) (l : List AvPair) (b : List UInt8) :
    Wire.serialize cfg l = .ok b ↔ (∀ p ∈ l, avPairFits p) ∧ b = avListBytes l := by
  refine serialize_iff (enc_avList cfg l) (fun h => ?_) b
  exact ⟨_, avList_err cfg l h []⟩

namespace Props

/-! ### C11 -/

/-- C11: for every list of AV pairs that can be encoded, decoding the bytes gives back the list and uses all of them,
    exactly when every pair's value survives (text without NUL and supplementary characters, a time the platform can
    represent, zero Z4). -/
theorem C11_avpairs_roundtrip (cfg : Cfg) (l : List AvPair) (b : List UInt8) (henc : Wire.serialize cfg l = .ok b) :
    Wire.deserialize cfg b = .ok (l, []) ↔ ∀ p ∈ l, pairOk cfg p := by
  obtain ⟨hf, rfl⟩ := (serialize_avList cfg l b).mp henc
  show many0 (Wire.deserialize cfg : Parser AvPair) (avListBytes l) = _ ↔ _
  constructor
  · intro h
    apply Classical.byContradiction
    intro hk
    apply avList_decode_ne cfg l hf hk [] []
    simpa using h
  · intro hk
    have := avList_decode cfg l hf hk [] (avPair_nil cfg)
    rwa [List.append_nil] at this

/-- C11: a list can be encoded exactly when each value fits its 16-bit length. -/
theorem C11_avpairs_encodable (cfg : Cfg) (l : List AvPair) :
    (∃ b, Wire.serialize cfg l = .ok b) ↔ ∀ p ∈ l, (avValueBytes p).length ≤ 65535 := by
  constructor
  · rintro ⟨b, h⟩
    exact ((serialize_avList cfg l b).mp h).1
  · intro h
    exact ⟨_, (serialize_avList cfg l _).mpr ⟨h, rfl⟩⟩

example (cfg : Cfg) : ∃ b, Wire.serialize cfg [AvPair.nbDomainName "D".toList, .eol] = .ok b :=
  (C11_avpairs_encodable cfg _).mpr (by intro p hp; simp at hp; rcases hp with rfl | rfl <;> decide)
example (cfg : Cfg) : ¬ ∃ b, Wire.serialize cfg [AvPair.nbDomainName (List.replicate 32768 'a')] = .ok b := fun h => by
  have := (C11_avpairs_encodable cfg _).mp h _ List.mem_cons_self
  simp only [avValueBytes] at this
  rw [utf16le_replicate] at this
  omega

/-- A list with a terminator in the middle and all kinds of values. -/
def exPairs : List AvPair :=
  [.nbDomainName ['D', 'É'], .eol, .flags ⟨true, false, true⟩, .timestamp ⟨7, 1⟩, .singleHost ⟨48, 0, Bytes.zero 8, Bytes.zero 32⟩,
    .channelBindings (Bytes.zero 16), .targetName [], .eol]

example (cfg : Cfg) : ∃ b, Wire.serialize cfg exPairs = .ok b ∧ Wire.deserialize cfg b = .ok (exPairs, []) := by
  obtain ⟨b, hb⟩ := (C11_avpairs_encodable cfg exPairs).mpr (by decide)
  refine ⟨b, hb, (C11_avpairs_roundtrip cfg exPairs b hb).mpr ?_⟩
  obtain ⟨_, _, pl⟩ := cfg
  cases pl <;> simp [exPairs, pairOk, plain, plainChar, timeOk, fileTimeValue, Platform.maxSecs]

/-! ### C12 -/

/-- C12: a pair that is decoded has the identifier found in the first two bytes, and 4 bytes plus the length found in
    the next two have been used. -/
theorem C12_pair_framing (cfg : Cfg) (i : List UInt8) (p : AvPair) (r : List UInt8)
    (h : Wire.deserialize cfg i = .ok (p, r)) :
    avIdValue p = u16At i 0 ∧ 4 + u16At i 2 ≤ i.length ∧ r = i.drop (4 + u16At i 2) := by
  rcases avPair_cases cfg i with h1 | ⟨h1, _⟩ | ⟨h1, _⟩ | ⟨q, h1, h2, h3⟩
  · simp [h] at h1
  · simp [h] at h1
  · simp [h] at h1
  · rw [h] at h1
    simp only [Except.ok.injEq, Prod.mk.injEq] at h1
    rw [h1.1]
    exact ⟨h2, h3, h1.2⟩

/-- A flags pair with four more bytes behind it. -/
example (cfg : Cfg) : ∃ p, (Wire.deserialize cfg : Parser AvPair) [6, 0, 4, 0, 2, 0, 0, 0, 1, 0, 0, 0] = .ok (p, [1, 0, 0, 0]) ∧ avIdValue p = 6 :=
  have h : (Wire.deserialize cfg : Parser AvPair) [6, 0, 4, 0, 2, 0, 0, 0, 1, 0, 0, 0] = .ok (.flags ⟨false, true, false⟩, [1, 0, 0, 0]) :=
    by obtain ⟨d, _, _⟩ := cfg; cases d <;> rfl
  ⟨_, h, (C12_pair_framing cfg _ _ _ h).1⟩

/-- C12: exactly what is decoded as which pair: the identifier, the length and the value found at their positions; in a debug build
    the value may hold nothing but the content. -/
theorem C12_pair_iff (cfg : Cfg) (i : List UInt8) (p : AvPair) (r : List UInt8) :
    (Wire.deserialize cfg : Parser AvPair) i = .ok (p, r) ↔
      pairAt cfg i p ∧ (cfg.debug = true → bytesAt i 4 (u16At i 2) = avValueBytes p) ∧ r = i.drop (4 + u16At i 2) :=
  avPair_ok_iff cfg i r p

/-- The byte left over in the value is dropped in a release build. -/
example : (Wire.deserialize ⟨false, false, .unix⟩ : Parser AvPair) [1, 0, 5, 0, 65, 0, 0, 0, 66, 99] = .ok (.nbComputerName ['A'], [99]) := by
  rfl

/-- C12: exactly what is refused with the ordinary error, which ends a list. -/
theorem C12_pair_error_iff (cfg : Cfg) (i : List UInt8) :
    (Wire.deserialize cfg : Parser AvPair) i = .error .error ↔ noPair cfg i := avPair_error_iff cfg i

/-- A pair with bytes left over, a time that cannot be represented on Windows, and what they mean. -/
example : pairAt ⟨false, false, .unix⟩ [1, 0, 5, 0, 65, 0, 0, 0, 66, 99] (.nbComputerName ['A']) :=
  ⟨by decide, by decide, by decide, [0, 0, 66], by decide, by unfold pairOk plain; decide, .inr (.inl (by decide))⟩
example : noPair ⟨false, false, .windows⟩ [7, 0, 8, 0, 255, 255, 255, 255, 255, 255, 255, 255] :=
  .inr (.inr ⟨by decide, .inr (.inr (.inl ⟨by decide, .inr (by decide)⟩))⟩)

/-- C12: how a pair is refused: too short for identifier and length, or an unknown identifier: a parse error; a
    length that runs past the data: the hard error. -/
theorem C12_pair_refused (cfg : Cfg) (i : List UInt8) :
    (i.length < 4 ∨ 10 < u16At i 0 → (Wire.deserialize cfg : Parser AvPair) i = .error .error) ∧
    (4 ≤ i.length → u16At i 0 ≤ 10 → i.length < 4 + u16At i 2 →
      (Wire.deserialize cfg : Parser AvPair) i = .error .incomplete) := by
  constructor
  · rintro (h | h)
    · exact avPair_short cfg i h
    · exact avPair_unknown cfg i h
  · intro h1 h2 h3
    obtain ⟨id, _, h4⟩ := avPair_known cfg i h1 h2
    rw [h4, if_pos h3]

example (cfg : Cfg) : (Wire.deserialize cfg : Parser AvPair) [11, 0, 0, 0] = .error .error :=
  (C12_pair_refused cfg _).1 (.inr (by decide))
example (cfg : Cfg) : (Wire.deserialize cfg : Parser AvPair) [1, 0, 0] = .error .error := (C12_pair_refused cfg _).1 (.inl (by decide))
example (cfg : Cfg) : (Wire.deserialize cfg : Parser AvPair) [1, 0, 2, 0, 65] = .error .incomplete :=
  (C12_pair_refused cfg _).2 (by decide) (by decide) (by decide)

/-- C12: list decoding succeeds exactly when reading pair after pair ends at a place where no pair can be read, with
    exactly those pairs and that rest. -/
theorem C12_list_walk (cfg : Cfg) (i : List UInt8) (l : List AvPair) (r : List UInt8) :
    Wire.deserialize cfg i = .ok (l, r) ↔ AvWalk cfg i l r := many0_walk cfg i l r

/-- Two pairs, then two bytes that are no pair. -/
example : AvWalk ⟨false, false, .unix⟩ [2, 0, 2, 0, 65, 0, 0, 0, 0, 0, 9, 9] [.nbDomainName ['A'], .eol] [9, 9] :=
  (C12_list_walk _ _ _ _).mp rfl

/-- C12: list decoding never gets stuck: the ordinary error (which the combinator reports when its element
    parser makes no progress) does not occur; the only failures are a length past the data and, in debug builds, the
    assertion on trailing value bytes. -/
theorem C12_list_progress (cfg : Cfg) (i : List UInt8) (e : PErr)
    (h : (Wire.deserialize cfg : Parser (List AvPair)) i = .error e) :
    e = .incomplete ∨ (e = .panic .debugAssert ∧ cfg.debug = true) :=
  many0_avError cfg i.length i (Nat.le_refl _) e h

/-- Both failures occur: a length past the data, and (debug builds) a byte left over in a value. -/
example : (Wire.deserialize ⟨false, false, .unix⟩ : Parser (List AvPair)) [2, 0, 9, 0, 65, 0] = .error .incomplete := rfl
example : (Wire.deserialize ⟨true, false, .unix⟩ : Parser (List AvPair)) [6, 0, 5, 0, 2, 0, 0, 0, 0] = .error (.panic .debugAssert) := rfl

/-- C12: behind any encodable pairs, an unknown identifier ends the list without an error, and a length past the data
    fails the whole list. -/
theorem C12_list_tail (cfg : Cfg) (l : List AvPair) (b tail : List UInt8) (henc : Wire.serialize cfg l = .ok b)
    (hok : ∀ p ∈ l, pairOk cfg p) :
    (10 < u16At tail 0 → Wire.deserialize cfg (b ++ tail) = .ok (l, tail)) ∧
    (4 ≤ tail.length → u16At tail 0 ≤ 10 → tail.length < 4 + u16At tail 2 →
      (Wire.deserialize cfg : Parser (List AvPair)) (b ++ tail) = .error .incomplete) := by
  obtain ⟨hf, rfl⟩ := (serialize_avList cfg l b).mp henc
  show (_ → many0 (Wire.deserialize cfg : Parser AvPair) (avListBytes l ++ tail) = _) ∧
    (_ → _ → _ → many0 (Wire.deserialize cfg : Parser AvPair) (avListBytes l ++ tail) = _)
  rw [many0_prefix cfg l hf hok]
  constructor
  · intro h
    rw [many0_stop (avPair_unknown cfg tail h)]
    simp
  · intro h1 h2 h3
    rw [many0_eq, (C12_pair_refused cfg tail).2 h1 h2 h3]

/-- Unknown identifier 11 after a flags pair; a domain pair announcing 9 bytes with 2 present. -/
example (cfg : Cfg) : Wire.deserialize cfg ([6, 0, 4, 0, 2, 0, 0, 0] ++ [11, 0, 0, 0]) =
    .ok ([AvPair.flags ⟨false, true, false⟩], [11, 0, 0, 0]) :=
  (C12_list_tail cfg [.flags ⟨false, true, false⟩] _ [11, 0, 0, 0]
    ((serialize_avList cfg _ _).mpr ⟨by simp [avPairFits, avValueBytes, length_le], rfl⟩) (by simp [pairOk])).1 (by decide)
example (cfg : Cfg) : (Wire.deserialize cfg : Parser (List AvPair)) ([6, 0, 4, 0, 2, 0, 0, 0] ++ [2, 0, 9, 0, 65, 0]) =
    .error .incomplete :=
  (C12_list_tail cfg [.flags ⟨false, true, false⟩] _ [2, 0, 9, 0, 65, 0]
    ((serialize_avList cfg _ _).mpr ⟨by simp [avPairFits, avValueBytes, length_le], rfl⟩) (by simp [pairOk])).2 (by decide) (by decide) (by decide)

/-! ### C18 -/

/-- C18: converting a system time to a file time succeeds exactly for times from 1970 on whose microsecond count fits 64
    bits; the two failures are told apart. -/
theorem C18_tryFrom (t : SystemTime) :
    (t.secs < 0 → FileTime.tryFrom t = .error (some ())) ∧
    (0 ≤ t.secs → 2 ^ 64 ≤ t.secs * 1000000 → FileTime.tryFrom t = .error none) ∧
    (0 ≤ t.secs → t.secs * 1000000 < 2 ^ 64 →
      ∃ f, FileTime.tryFrom t = .ok f ∧ (fileTimeValue f : Int) = t.secs * 1000000) := by
  refine ⟨fun h => by simp [FileTime.tryFrom, h], fun h1 h2 => ?_, fun h1 h2 => ?_⟩
  · have h1' : ¬ t.secs < 0 := by omega
    have h3 : ¬ t.secs.toNat * NANO_TO_MILLI < 2 ^ 64 := by simp only [NANO_TO_MILLI]; omega
    simp only [FileTime.tryFrom, h1', if_false, h3]
  · have h1' : ¬ t.secs < 0 := by omega
    have h3 : t.secs.toNat * NANO_TO_MILLI < 2 ^ 64 := by simp only [NANO_TO_MILLI]; omega
    simp only [FileTime.tryFrom, h1', if_false, h3, if_true]
    refine ⟨_, rfl, ?_⟩
    simp only [fileTimeValue, UInt64.toNat_toUInt32, UInt64.toNat_shiftRight, UInt64.toNat_and, UInt64.toNat_ofNat']
    rw [Nat.mod_eq_of_lt h3]
    have e1 : UInt64.toNat 32 % 64 = 32 := rfl
    have e2 : UInt64.toNat 0xffffffff = 2 ^ 32 - 1 := rfl
    rw [e1, e2, Nat.and_two_pow_sub_one_eq_mod, Nat.shiftRight_eq_div_pow]
    simp only [NANO_TO_MILLI] at h3 ⊢
    have e3 : t.secs = (t.secs.toNat : Int) := by omega
    generalize t.secs.toNat = n at *
    rw [e3]
    have h4 : n * 1000000 / 2 ^ 32 < 2 ^ 32 := by omega
    rw [Nat.mod_eq_of_lt h4, Nat.mod_mod, Nat.div_add_mod]
    omega

/-- One second before 1970; the year 600000; November 2023. -/
example : FileTime.tryFrom ⟨-1, 0⟩ = .error (some ()) := (C18_tryFrom _).1 (by decide)
example : FileTime.tryFrom ⟨18934156800000, 0⟩ = .error none := (C18_tryFrom _).2.1 (by decide) (by decide)
example : ∃ f, FileTime.tryFrom ⟨1700000000, 123⟩ = .ok f ∧ (fileTimeValue f : Int) = 1700000000000000 :=
  (C18_tryFrom ⟨1700000000, 123⟩).2.2 (by decide) (by decide)

/-- C18: back again, the time is truncated to whole seconds (if the platform can represent it, as it can any time it
    produced). -/
theorem C18_truncates (cfg : Cfg) (t : SystemTime) (f : FileTime) (h : FileTime.tryFrom t = .ok f)
    (hp : t.secs ≤ cfg.platform.maxSecs) : f.toSystemTime cfg = some ⟨t.secs, 0⟩ := by
  have h0 : 0 ≤ t.secs := by
    apply Classical.byContradiction
    intro hc
    rw [(C18_tryFrom t).1 (by omega)] at h
    simp at h
  have h1 : t.secs * 1000000 < 2 ^ 64 := by
    apply Classical.byContradiction
    intro hc
    rw [(C18_tryFrom t).2.1 h0 (by omega)] at h
    simp at h
  obtain ⟨f', h2, h3⟩ := (C18_tryFrom t).2.2 h0 h1
  rw [h] at h2
  simp only [Except.ok.injEq] at h2
  subst h2
  simp only [FileTime.toSystemTime, fileTime_asU64, NANO_TO_MILLI]
  have e : fileTimeValue f / 1000000 = t.secs.toNat := by omega
  rw [e, if_pos (by omega)]
  simp only [Option.some.injEq, SystemTime.mk.injEq, and_true]
  omega

example (cfg : Cfg) : FileTime.toSystemTime cfg ⟨404635648, 395812⟩ = some ⟨1700000000, 0⟩ :=
  C18_truncates cfg ⟨1700000000, 123⟩ _ rfl (by cases h : cfg.platform <;> decide)

/-- C18: the 64-bit value is the two halves put together, and no two file times share it. -/
theorem C18_value (f g : FileTime) :
    f.asU64.toNat = 2 ^ 32 * f.high.toNat + f.low.toNat ∧ (f.asU64 = g.asU64 → f = g) := by
  refine ⟨fileTime_asU64 f, fun h => ?_⟩
  have h1 := congrArg UInt64.toNat h
  rw [fileTime_asU64, fileTime_asU64] at h1
  have := f.low.toNat_lt
  have := g.low.toNat_lt
  simp only [fileTimeValue] at h1
  have e1 : f.high = g.high := UInt32.toNat_inj.mp (by omega)
  have e2 : f.low = g.low := UInt32.toNat_inj.mp (by omega)
  obtain ⟨_, _⟩ := f
  obtain ⟨_, _⟩ := g
  simp only at e1 e2
  rw [e1, e2]

example : (FileTime.asU64 ⟨5, 7⟩).toNat = 7 * 2 ^ 32 + 5 := rfl

/-- C18: the 8-byte encoding round-trips for the times the platform represents; other blocks are refused. -/
theorem C18_encoding : FixedSize FileTime 8 timeOk :=
  fixedSize_of fileTimeBytes enc_fileTime (fun t => by simp [fileTimeBytes, length_le])
    (fun cfg x r h => by rw [fileTime_decode, if_pos h]) (fun cfg x r h => by rw [fileTime_decode, if_neg h])
    canon_fileTime (fun cfg => (fixed_fileTime cfg).short)

/-- The largest 64-bit time is a time on Unix, but not on Windows. -/
example : timeOk ⟨false, false, .unix⟩ ⟨0xffffffff, 0xffffffff⟩ ∧ ¬ timeOk ⟨false, false, .windows⟩ ⟨0xffffffff, 0xffffffff⟩ := by
  constructor <;> simp [timeOk, fileTimeValue, Platform.maxSecs]

/-- C18: on Unix every 8 bytes are accepted; the two words are read in little-endian order, low word first. -/
theorem C18_unix_accepts (cfg : Cfg) (hu : cfg.platform = .unix) (i : List UInt8) (h : 8 ≤ i.length) :
    ∃ f : FileTime, Wire.deserialize cfg i = .ok (f, i.drop 8) ∧ f.low.toNat = u32At i 0 ∧ f.high.toNat = u32At i 4 := by
  have hlo : (UInt32.ofNat (u32At i 0)).toNat = u32At i 0 := by
    have := u32At_lt i 0; simp only [UInt32.toNat_ofNat']; omega
  have hhi : (UInt32.ofNat (u32At i 4)).toNat = u32At i 4 := by
    have := u32At_lt i 4; simp only [UInt32.toNat_ofNat']; omega
  refine ⟨⟨UInt32.ofNat (u32At i 0), UInt32.ofNat (u32At i 4)⟩, ?_, hlo, hhi⟩
  have := fileTime_decode cfg ⟨UInt32.ofNat (u32At i 0), UInt32.ofNat (u32At i 4)⟩ (i.drop 8)
  rw [if_pos (timeOk_unix cfg hu _)] at this
  rw [← this]
  congr 1
  have e : ∀ j : List UInt8, 4 ≤ j.length → le 4 (u32At j 0) = j.take 4 := by
    intro j hj
    have := leBytes_leVal (j.take 4)
    rw [show (j.take 4).length = 4 by simp only [List.length_take]; omega, leVal_take4] at this
    rw [le_eq, this]
  simp only [fileTimeBytes, hlo, hhi]
  have e1 := e i (by omega)
  have e2 := e (i.drop 4) (by simp only [List.length_drop]; omega)
  rw [u32At_drop] at e2
  rw [e1, e2, List.append_assoc]
  conv => lhs; rw [← List.take_append_drop 4 i, ← List.take_append_drop 4 (i.drop 4), List.drop_drop]

/-- The largest value there is, followed by another byte. -/
example : ∃ f : FileTime, Wire.deserialize ⟨false, false, .unix⟩ [255, 255, 255, 255, 255, 255, 255, 255, 1] = .ok (f, [1]) ∧
    f.low.toNat = 4294967295 ∧ f.high.toNat = 4294967295 :=
  C18_unix_accepts ⟨false, false, .unix⟩ rfl _ (by decide)

/-- C18: on Windows exactly the times up to the second 910692730085 are accepted. -/
theorem C18_windows_accepts (cfg : Cfg) (hw : cfg.platform = .windows) (i : List UInt8) (h : 8 ≤ i.length) :
    (∃ f : FileTime, Wire.deserialize cfg i = .ok (f, i.drop 8)) ↔ 2 ^ 32 * u32At i 4 + u32At i 0 < 910692730086 * 1000000 := by
  have := fileTime_at cfg i 0 (by omega)
  rw [List.drop_zero] at this
  rw [this, hw]
  simp only [Platform.maxSecs, Nat.zero_add]
  by_cases hc : 2 ^ 32 * u32At i 4 + u32At i 0 < 910692730086 * 1000000
  · rw [if_pos (by omega)]
    exact ⟨fun _ => hc, fun _ => ⟨_, rfl⟩⟩
  · rw [if_neg (by omega)]
    exact ⟨fun ⟨_, h⟩ => (nomatch h), fun h => absurd h hc⟩

/-- The last microsecond Windows accepts, and the next. -/
example : (∃ f : FileTime, Wire.deserialize ⟨false, false, .windows⟩ (fileTimeBytes ⟨0x844e857f, 0x0ca36e36⟩) = .ok (f, [])) ∧
    ¬ (∃ f : FileTime, Wire.deserialize ⟨false, false, .windows⟩ (fileTimeBytes ⟨0x844e8580, 0x0ca36e36⟩) = .ok (f, [])) :=
  ⟨(C18_windows_accepts ⟨false, false, .windows⟩ rfl (fileTimeBytes _) (by decide)).mpr (by decide),
   fun h => absurd ((C18_windows_accepts ⟨false, false, .windows⟩ rfl (fileTimeBytes _) (by decide)).mp h) (by decide)⟩

example : FileTime.tryFrom ⟨1700000000, 123⟩ = .ok ⟨404635648, 395812⟩ := rfl
example : FileTime.toSystemTime ⟨false, false, .unix⟩ ⟨404635648, 395812⟩ = some ⟨1700000000, 0⟩ :=
  C18_truncates ⟨false, false, .unix⟩ ⟨1700000000, 123⟩ _ rfl (by decide)

/-! ### C19 -/

/-- C19: a version round-trips exactly when its revision is 15, and is refused otherwise. -/
theorem C19_roundtrip : FixedSize Version 8 (fun _ v => v.revisionCount = 15) :=
  fixedSize_of versionBytes enc_version (fun t => by simp [versionBytes, length_le])
    (fun cfg x r h => by rw [version_decode, if_pos h]) (fun cfg x r h => by rw [version_decode, if_neg h])
    canon_version (fun cfg => (fixed_version cfg).short)

example (cfg : Cfg) : Wire.serialize cfg (Version.mk 6 1 7601 15) = .ok [6, 1, 0xb1, 0x1d, 0, 0, 0, 15] ∧
    Wire.deserialize cfg ([6, 1, 0xb1, 0x1d, 0, 0, 0, 15] ++ [3]) = .ok (Version.mk 6 1 7601 15, [3]) :=
  ⟨by obtain ⟨d, _, _⟩ := cfg; cases d <;> rfl, rfl⟩
example (cfg : Cfg) : (Wire.deserialize cfg : Parser Version) [6, 1, 0xb1, 0x1d, 0, 0, 0, 14] = .error .error := rfl

/-- C19: versions built from a triple have that revision, and the given numbers. -/
theorem C19_ofTriple (major minor : UInt8) (build : UInt16) :
    Version.ofTriple major minor build = ⟨major, minor, build, 15⟩ := rfl

example : (Version.ofTriple 10 0 19041).build = 19041 := rfl

/-- C19: an 8-byte block is accepted exactly when bytes 4 to 6 are zero and byte 7 is 15; the other bytes are major,
    minor and little-endian build. -/
theorem C19_accepts (cfg : Cfg) (i : List UInt8) (v : Version) (r : List UInt8) :
    Wire.deserialize cfg i = .ok (v, r) ↔
      8 ≤ i.length ∧ byteAt i 4 = 0 ∧ byteAt i 5 = 0 ∧ byteAt i 6 = 0 ∧ byteAt i 7 = 15 ∧ r = i.drop 8 ∧
        v.major.toNat = byteAt i 0 ∧ v.minor.toNat = byteAt i 1 ∧ v.build.toNat = u16At i 2 ∧
        v.revisionCount.toNat = 15 :=
  version_accepts cfg i v r

example (cfg : Cfg) (v : Version) (r : List UInt8) : Wire.deserialize cfg [10, 0, 0x61, 0x4a, 0, 0, 1, 15] ≠ .ok (v, r) := fun h =>
  absurd ((C19_accepts cfg _ v r).mp h).2.2.2.1 (by decide)

/-- C19: the conversion from an 8-byte array is the decoder. -/
theorem C19_tryFrom (cfg : Cfg) (b : Bytes 8) (v : Version) :
    Version.tryFrom cfg b = .ok v ↔ Wire.deserialize cfg b.val = .ok (v, []) := by
  have hl : b.val.drop 8 = [] := by simp [b.property]
  simp only [Version.tryFrom]
  constructor
  · intro h
    split at h
    · rename_i v' r heq
      simp only [Except.ok.injEq] at h
      have := ((fixed_version cfg).rest heq).1
      rw [heq, h, this, hl]
    · simp at h
  · intro h
    rw [h]

example (cfg : Cfg) : Wire.deserialize cfg [10, 0, 0x61, 0x4a, 0, 0, 0, 15, 99] = .ok (Version.ofTriple 10 0 19041, [99]) := by
  rfl

/-! ### C20 -/

/-- C20: a 24-byte NT response decodes as NTLMv1, whatever its bytes. -/
theorem C20_ntv1_never_v2 (cfg : Cfg) (b : Bytes 24) :
    Wire.deserialize cfg b.val = .ok (NtChallenge.v1 ⟨b⟩, []) := by
  show alt _ _ b.val = _
  have h2 : pmap (Wire.deserialize cfg : Parser Ntv2Challenge) NtChallenge.v2 b.val = .error .error := by
    simp only [pmap, short_ntv2 cfg b.val (by rw [b.property]; omega)]
  have h1 : pmap (Wire.deserialize cfg : Parser Ntv1Challenge) NtChallenge.v1 b.val = .ok (.v1 ⟨b⟩, []) := by
    have := dec_ntv1 cfg ⟨b⟩ []
    rw [List.append_nil] at this
    exact pmap_ok this
  simp only [alt, h2, h1]

/-- C20: an encoded NT response of either variant decodes to itself exactly when (for NTLMv2) its time and its AV pairs
    survive. -/
theorem C20_nt_roundtrip (cfg : Cfg) (c : NtChallenge) (b : List UInt8) (henc : Wire.serialize cfg c = .ok b) :
    Wire.deserialize cfg b = .ok (c, []) ↔
      ∀ c', c = .v2 c' → timeOk cfg c'.timestamp ∧ ∀ p ∈ c'.targetInfos, pairOk cfg p := by
  cases c with
  | v1 c =>
    have hb : b = c.response.val := by
      have := serialize_of_enc (enc_bytes cfg c.response)
      have h2 : Wire.serialize cfg (NtChallenge.v1 c) = Wire.serialize cfg c.response := rfl
      rw [h2, this] at henc
      simpa using henc.symm
    subst hb
    simp only [reduceCtorEq, false_implies, implies_true, iff_true]
    exact C20_ntv1_never_v2 cfg c.response
  | v2 c =>
    have hs : (∀ p ∈ c.targetInfos, avPairFits p) ∧ b = ntv2Bytes c := by
      have h2 : Wire.serialize cfg (NtChallenge.v2 c) = Wire.serialize cfg c := rfl
      rw [h2] at henc
      exact (serialize_iff (enc_ntv2 cfg c) (fun h => ⟨_, ntv2_err cfg c h []⟩) b).mp henc
    obtain ⟨hf, rfl⟩ := hs
    have hi := nt_iff cfg (.v2 c) (by intro c' h; cases h; exact hf)
    constructor
    · intro h c' hc
      cases hc
      exact hi.mp ⟨_, h⟩
    · intro h
      obtain ⟨ht, hp⟩ := h c rfl
      exact (pmap_alt_left (ntv2_decode cfg c ht hf hp))

/-- An NTLMv2 response with three AV pairs. -/
example (cfg : Cfg) : ∃ b, Wire.serialize cfg (NtChallenge.v2 ⟨⟨5, 7⟩, Bytes.zero 8, exChallenge.targetInfos⟩) = .ok b ∧
    Wire.deserialize cfg b = .ok (NtChallenge.v2 ⟨⟨5, 7⟩, Bytes.zero 8, exChallenge.targetInfos⟩, []) := by
  have h := serialize_of_enc (enc_ntv2 cfg ⟨⟨5, 7⟩, Bytes.zero 8, exChallenge.targetInfos⟩ exChallenge_fits.2.1)
  refine ⟨_, h, (C20_nt_roundtrip cfg (.v2 _) _ h).mpr fun c' hc => ?_⟩
  cases hc
  exact ⟨by cases hp : cfg.platform <;> simp [timeOk, fileTimeValue, Platform.maxSecs, hp], (exChallenge_ok cfg).2.2.2⟩

/-- C20: 24 bytes of LM response decode without loss as whichever variant the caller asks for, and the self-detecting
    decoder always answers v2. -/
theorem C20_lm (cfg : Cfg) (b : Bytes 24) :
    Wire.deserialize cfg b.val = .ok ((⟨b⟩ : Lmv1Challenge), []) ∧
    (∃ c : Lmv2Challenge, Wire.deserialize cfg b.val = .ok (c, []) ∧
      c.response.val = b.val.take 16 ∧ c.challengeFromClient.val = b.val.drop 16 ∧
      Wire.deserialize cfg b.val = .ok (LmChallenge.v2 c, []) ∧ Wire.serialize cfg (LmChallenge.v2 c) = .ok b.val) := by
  have h1 := dec_lmv1 cfg ⟨b⟩ []
  rw [List.append_nil] at h1
  refine ⟨h1, ?_⟩
  let c : Lmv2Challenge := ⟨⟨b.val.take 16, by simp [b.property]⟩, ⟨b.val.drop 16, by simp [b.property]⟩⟩
  have hb : c.response.val ++ c.challengeFromClient.val = b.val := List.take_append_drop 16 b.val
  have h2 := dec_lmv2 cfg c []
  rw [List.append_nil, hb] at h2
  refine ⟨c, h2, rfl, rfl, ?_, ?_⟩
  · show alt _ _ b.val = _
    have : pmap (Wire.deserialize cfg : Parser Lmv2Challenge) LmChallenge.v2 b.val = .ok (.v2 c, []) := pmap_ok h2
    simp only [alt, this]
  · have := serialize_of_enc (enc_lm cfg (.v2 c))
    rw [this]
    exact congrArg _ hb

/-- 24 bytes that look like the start of an NTLMv2 response. -/
def exMimic : Bytes 24 := ⟨[1, 1, 0, 0, 0, 0, 0, 0, 1, 2, 3, 4, 5, 6, 7, 8, 9, 9, 9, 9, 9, 9, 9, 9], rfl⟩
example (cfg : Cfg) : Wire.deserialize cfg exMimic.val = .ok (NtChallenge.v1 ⟨exMimic⟩, []) :=
  C20_ntv1_never_v2 cfg exMimic

/-! ### C21 -/

/-- C21: challenges, keys, MIC, proof strings, responses, pads: byte arrays of any size. -/
theorem C21_buffers (n : Nat) : FixedSize (Bytes n) n always :=
  fixedSize_always (fun b => b.val) (fun cfg => enc_bytes cfg) (fun b => b.property) (fun cfg => dec_bytes cfg)
    (fun cfg => canon_bytes cfg n) (fun cfg => (fixed_bytes cfg n).short)

example (cfg : Cfg) (rest : List UInt8) : Wire.deserialize cfg ([1, 2, 3, 4, 5, 6, 7, 8] ++ rest) =
    .ok ((⟨[1, 2, 3, 4, 5, 6, 7, 8], rfl⟩ : Bytes 8), rest) := by
  obtain ⟨b, h1, _, h2, _⟩ := (C21_buffers 8).roundtrip cfg ⟨[1, 2, 3, 4, 5, 6, 7, 8], rfl⟩
  rw [serialize_of_enc (enc_bytes cfg _)] at h1
  cases h1
  exact h2 trivial rest

/-- C21: flag words. -/
theorem C21_flags : FixedSize Flags 4 always :=
  fixedSize_always (fun f => le 4 f.bits.toNat) enc_flags (fun _ => length_le _ _) dec_flags canon_flags
    (fun cfg => (fixed_flags cfg).short)

example (cfg : Cfg) (rest : List UInt8) : Wire.deserialize cfg ([1, 2, 0, 0x80] ++ rest) =
    .ok ((⟨0x80000201⟩ : Flags), rest) := by
  obtain ⟨b, h1, _, h2, _⟩ := C21_flags.roundtrip cfg ⟨0x80000201⟩
  rw [serialize_of_enc (enc_flags cfg _)] at h1
  cases h1
  exact h2 trivial rest

/-- C21: field descriptors. -/
theorem C21_field : FixedSize Field 8 always :=
  fixedSize_always (fun f => le 2 f.len.toNat ++ le 2 f.maxLen.toNat ++ le 4 f.offset.toNat) enc_field
    (fun _ => by simp [length_le]) dec_field canon_field (fun cfg => (fixed_field cfg).short)

example (cfg : Cfg) (rest : List UInt8) : Wire.deserialize cfg ([6, 0, 8, 0, 0x40, 0, 0, 0] ++ rest) =
    .ok ((⟨6, 8, 64⟩ : Field), rest) := by
  obtain ⟨b, h1, _, h2, _⟩ := C21_field.roundtrip cfg ⟨6, 8, 64⟩
  rw [serialize_of_enc (enc_field cfg _)] at h1
  cases h1
  exact h2 trivial rest

/-- C21: single-host data, exactly with Z4 zero. -/
theorem C21_singleHost : FixedSize SingleHostData 48 (fun _ d => d.z4 = 0) :=
  fixedSize_of singleHostBytes enc_singleHost length_singleHostBytes
    (fun cfg x r h => by rw [singleHost_decode, if_pos h]) (fun cfg x r h => by rw [singleHost_decode, if_neg h])
    canon_singleHost (fun cfg => (fixed_singleHost cfg).short)

/-- C21: message signatures. -/
theorem C21_signature : FixedSize MessageSignature 16 always :=
  fixedSize_always signatureBytes enc_signature (fun x => by simp [signatureBytes, length_le, x.randomPad.property])
    dec_signature canon_signature (fun cfg => (fixed_signature cfg).short)

example (cfg : Cfg) (rest : List UInt8) :
    Wire.deserialize cfg ([1, 0, 0, 0, 0, 0, 0, 0, 5, 0, 0, 0, 9, 0, 0, 0] ++ rest) =
      .ok ((⟨Bytes.zero 4, 5, 9⟩ : MessageSignature), rest) := by
  obtain ⟨b, h1, _, h2, _⟩ := C21_signature.roundtrip cfg ⟨Bytes.zero 4, 5, 9⟩
  rw [serialize_of_enc (enc_signature cfg _)] at h1
  cases h1
  exact h2 trivial rest

/-- C21: AV flags. -/
theorem C21_avFlags : FixedSize MsvAvFlags 4 always :=
  fixedSize_always (fun f => le 4 (avFlagsValue f)) enc_avFlags (fun _ => length_le _ _) dec_avFlags canon_avFlags
    (fun cfg => (fixed_avFlags cfg).short)

example (cfg : Cfg) (rest : List UInt8) : Wire.deserialize cfg ([2, 0, 0, 0] ++ rest) =
    .ok ((⟨false, true, false⟩ : MsvAvFlags), rest) := by
  obtain ⟨b, h1, _, h2, _⟩ := C21_avFlags.roundtrip cfg ⟨false, true, false⟩
  rw [serialize_of_enc (enc_avFlags cfg _)] at h1
  cases h1
  exact h2 trivial rest

/-- C21: AV identifiers. -/
theorem C21_avId : FixedSize AvId 2 always :=
  fixedSize_always (fun x => le 2 x.toU16.toNat) enc_avId (fun _ => length_le _ _) dec_avId canon_avId
    (fun cfg => (fixed_avId cfg).short)

example (cfg : Cfg) (rest : List UInt8) : Wire.deserialize cfg ([7, 0] ++ rest) = .ok (AvId.timestamp, rest) := by
  obtain ⟨b, h1, _, h2, _⟩ := C21_avId.roundtrip cfg .timestamp
  rw [serialize_of_enc (enc_avId cfg _)] at h1
  cases h1
  exact h2 trivial rest

/-- C21: LM and NT responses of fixed size. -/
theorem C21_responses : FixedSize Lmv1Challenge 24 always ∧ FixedSize Ntv1Challenge 24 always ∧
    FixedSize Lmv2Challenge 24 always :=
  ⟨fixedSize_always _ enc_lmv1 (fun c => c.response.property) dec_lmv1 canon_lmv1 (fun cfg => (fixed_lmv1 cfg).short),
   fixedSize_always _ enc_ntv1 (fun c => c.response.property) dec_ntv1 canon_ntv1 (fun cfg => (fixed_ntv1 cfg).short),
   fixedSize_always _ enc_lmv2 (fun c => by simp [c.response.property, c.challengeFromClient.property]) dec_lmv2
     canon_lmv2 (fun cfg => (fixed_lmv2 cfg).short)⟩

/-- The condition on single-host data is met by ordinary values and failed by others. -/
example (cfg : Cfg) : ∃ b, Wire.serialize cfg (⟨48, 0, Bytes.zero 8, Bytes.zero 32⟩ : SingleHostData) = .ok b ∧
    Wire.deserialize cfg (b ++ [1]) = .ok ((⟨48, 0, Bytes.zero 8, Bytes.zero 32⟩ : SingleHostData), [1]) := by
  obtain ⟨b, h1, _, h2, _⟩ := C21_singleHost.roundtrip cfg ⟨48, 0, Bytes.zero 8, Bytes.zero 32⟩
  exact ⟨b, h1, h2 rfl [1]⟩

end Props

end Ntlm
