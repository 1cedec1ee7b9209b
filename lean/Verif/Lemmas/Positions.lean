import Verif.Spec.Decode
import Verif.Lemmas.AvFrame
import Verif.Lemmas.Canon
import Verif.Lemmas.DecodeMsg
import Verif.Lemmas.EncodeMsg
/-
  Message decoders in terms of byte positions.
-/
namespace Ntlm

open Spec

variable {α : Type}

/-- The descriptor at a position. -/
def fieldAt (i : List UInt8) (p : Nat) : Field :=
  ⟨UInt16.ofNat (u16At i p), UInt16.ofNat (u16At i (p + 2)), UInt32.ofNat (u32At i (p + 4))⟩

/-- The flag word at a position. -/
def flagsAt (i : List UInt8) (p : Nat) : Flags := ⟨UInt32.ofNat (u32At i p)⟩

theorem leU8_at (i : List UInt8) (k : Nat) (h : k + 1 ≤ i.length) :
    leU8 (i.drop k) = .ok (UInt8.ofNat (byteAt i k), i.drop (k + 1)) := by
  rw [leU8_eq, if_neg (by simp only [List.length_drop]; omega), leVal_take1, byteAt_drop, List.drop_drop]
  rfl

theorem leU16_at (i : List UInt8) (k : Nat) (h : k + 2 ≤ i.length) :
    leU16 (i.drop k) = .ok (UInt16.ofNat (u16At i k), i.drop (k + 2)) := by
  rw [leU16_eq, if_neg (by simp only [List.length_drop]; omega), leVal_take2, u16At_drop, List.drop_drop]
  rfl

theorem leU32_at (i : List UInt8) (k : Nat) (h : k + 4 ≤ i.length) :
    leU32 (i.drop k) = .ok (UInt32.ofNat (u32At i k), i.drop (k + 4)) := by
  rw [leU32_eq, if_neg (by simp only [List.length_drop]; omega), leVal_take4, u32At_drop, List.drop_drop]
  rfl

theorem field_at (cfg : Cfg) (i : List UInt8) (k : Nat) (h : k + 8 ≤ i.length) :
    (Wire.deserialize cfg : Parser Field) (i.drop k) = .ok (fieldAt i k, i.drop (k + 8)) := by
  show (leU16 >>= _) _ = _
  rw [Parser.bind_ok (leU16_at i k (by omega)), Parser.bind_ok (leU16_at i (k + 2) (by omega)),
    Parser.bind_ok (leU32_at i (k + 2 + 2) (by omega))]
  rfl

theorem flags_at (cfg : Cfg) (i : List UInt8) (k : Nat) (h : k + 4 ≤ i.length) :
    (Wire.deserialize cfg : Parser Flags) (i.drop k) = .ok (flagsAt i k, i.drop (k + 4)) :=
  pmap_ok (verify_ok (leU32_at i k h) (validate_true cfg _))

theorem takeBytes_at {n : Nat} (i : List UInt8) (k : Nat) (h : k + n ≤ i.length) :
    takeBytes n (i.drop k) = .ok (⟨bytesAt i k n, by simp only [bytesAt, List.length_take, List.length_drop]; omega⟩,
      i.drop (k + n)) := by
  have hl : ¬ (i.drop k).length < n := by simp only [List.length_drop]; omega
  simp only [takeBytes, hl, dite_false, List.drop_drop, bytesAt]

theorem ofNat_u32At_beq (i : List UInt8) (k : Nat) (n : UInt32) :
    (UInt32.ofNat (u32At i k) == n) = decide (u32At i k = n.toNat) := by
  have e : (UInt32.ofNat (u32At i k)).toNat = u32At i k := by
    have := u32At_lt i k; simp only [UInt32.toNat_ofNat']; omega
  by_cases h : u32At i k = n.toNat
  · simp [h]
  · have : ¬ UInt32.ofNat (u32At i k) = n := by
      intro hc
      apply h
      rw [← hc, e]
    simp [h, this]

theorem flagsAt_bits (i : List UInt8) (p : Nat) : (flagsAt i p).bits.toNat = u32At i p := by
  have := u32At_lt i p; simp only [flagsAt, UInt32.toNat_ofNat']; omega

theorem fieldAt_len (i : List UInt8) (p : Nat) : (fieldAt i p).len.toNat = u16At i p := by
  have := u16At_lt i p; simp only [fieldAt, UInt16.toNat_ofNat']; omega

theorem fieldAt_offset (i : List UInt8) (p : Nat) : (fieldAt i p).offset.toNat = u32At i (p + 4) := by
  have := u32At_lt i (p + 4); simp only [fieldAt, UInt32.toNat_ofNat']; omega

theorem fieldAt_len_zero (i : List UInt8) (p : Nat) : (fieldAt i p).len = 0 ↔ u16At i p = 0 := by
  rw [← fieldAt_len, ← UInt16.toNat_inj]; rfl

theorem slice_at (i : List UInt8) (p : Nat) (h : u16At i p ≠ 0) :
    (outOfRange i p → (fieldAt i p).slice i = .error (.panic .sliceIndex)) ∧
    (¬ outOfRange i p → (fieldAt i p).slice i = .ok (fieldBytes i p)) := by
  simp only [Field.slice, fieldAt_len, fieldAt_offset, outOfRange, fieldBytes, bytesAt]
  constructor
  · intro ho; rw [if_neg (by omega)]
  · intro ho; rw [if_pos (by omega)]

/-- `get_data_if` by position. -/
theorem getDataIf_empty {α : Type} [Wire α] (cfg : Cfg) (i : List UInt8) (p : Nat) (c : Bool) (h : c = false ∨ u16At i p = 0) :
    (fieldAt i p).getDataIf cfg i c = .ok (none : Option α) := by
  simp only [Field.getDataIf, fieldAt_len_zero]
  rcases h with h | h
  · simp [h]
  · simp [h]

theorem getDataIf_out {α : Type} [Wire α] (cfg : Cfg) (i : List UInt8) (p : Nat) (h : outOfRange i p) :
    ((fieldAt i p).getDataIf cfg i true : Except PErr (Option α)) = .error (.panic .sliceIndex) := by
  simp only [Field.getDataIf, fieldAt_len_zero, h.1, if_true, if_false, (slice_at i p h.1).1 h]

theorem getDataIf_in {α : Type} [Wire α] (cfg : Cfg) (i : List UInt8) (p : Nat) (h : u16At i p ≠ 0) (ho : ¬ outOfRange i p) :
    ((fieldAt i p).getDataIf cfg i true : Except PErr (Option α)) =
      match (Wire.deserialize cfg : Parser α) (fieldBytes i p) with
      | .ok (v, _) => .ok (some v)
      | .error e => .error e := by
  simp only [Field.getDataIf, fieldAt_len_zero, h, if_true, if_false, (slice_at i p h).2 ho]
  generalize (Wire.deserialize cfg : Parser α) (fieldBytes i p) = x
  rcases x with _ | ⟨_, _⟩ <;> rfl

theorem getManyIf_empty {α : Type} [Wire α] (cfg : Cfg) (i : List UInt8) (p : Nat) (h : u16At i p = 0) :
    (fieldAt i p).getManyIf cfg i true = .ok ([] : List α) := by
  simp [Field.getManyIf, fieldAt_len_zero, h]

theorem getManyIf_out {α : Type} [Wire α] (cfg : Cfg) (i : List UInt8) (p : Nat) (h : outOfRange i p) :
    ((fieldAt i p).getManyIf cfg i true : Except PErr (List α)) = .error (.panic .sliceIndex) := by
  simp only [Field.getManyIf, fieldAt_len_zero, h.1, if_true, if_false, (slice_at i p h.1).1 h]

theorem getManyIf_in {α : Type} [Wire α] (cfg : Cfg) (i : List UInt8) (p : Nat) (h : u16At i p ≠ 0) (ho : ¬ outOfRange i p) :
    ((fieldAt i p).getManyIf cfg i true : Except PErr (List α)) =
      match many0 (Wire.deserialize cfg : Parser α) (fieldBytes i p) with
      | .ok (v, _) => .ok v
      | .error e => .error e := by
  simp only [Field.getManyIf, fieldAt_len_zero, h, if_true, if_false, (slice_at i p h).2 ho]
  generalize many0 (Wire.deserialize cfg : Parser α) (fieldBytes i p) = x
  rcases x with _ | ⟨_, _⟩ <;> rfl

/-! ### Headers -/

theorem tag_at (i : List UInt8) (h : i.take 8 = ntlmssp) : tag signature i = .ok ((), i.drop 8) := by
  rw [← signature_eq] at h
  exact if_pos h

theorem tag_no (i : List UInt8) (h : i.take 8 ≠ ntlmssp) : tag signature i = .error .error := by
  rw [← signature_eq] at h
  exact if_neg h

theorem type_at (i : List UInt8) (n : UInt32) (h : 12 ≤ i.length) (ht : u32At i 8 = n.toNat) :
    verify leU32 (fun mt => mt == n) (i.drop 8) = .ok (n, i.drop 12) := by
  have hb := ofNat_u32At_beq i 8 n
  rw [ht] at hb
  have e : UInt32.ofNat (u32At i 8) = n := by rw [ht]; simp
  simp only [verify, leU32_at i 8 (by omega), e, beq_self_eq_true, if_true]

theorem type_no (i : List UInt8) (n : UInt32) (ht : u32At i 8 ≠ n.toNat) :
    verify leU32 (fun mt => mt == n) (i.drop 8) = .error .error := by
  simp only [verify]
  by_cases h : 12 ≤ i.length
  · rw [leU32_at i 8 (by omega)]
    simp only [ofNat_u32At_beq, ht, decide_false]
    rfl
  · rw [leU32_eq, if_pos (by simp only [List.length_drop]; omega)]

theorem negotiate_header_at (cfg : Cfg) (i : List UInt8) (h : hasHeader i 1 32) :
    Negotiate.header cfg i = .ok ((flagsAt i 12, fieldAt i 16, fieldAt i 24), i.drop 32) := by
  obtain ⟨h1, h2, h3⟩ := h
  show (tag signature >>= _) i = _
  rw [Parser.bind_ok (tag_at i h2), Parser.bind_ok (type_at i 1 (by omega) h3), Parser.bind_ok (flags_at cfg i 12 (by omega)),
    Parser.bind_ok (field_at cfg i 16 (by omega)), Parser.bind_ok (field_at cfg i 24 (by omega))]
  rfl

theorem header_no_sig {α : Type} (f : Unit → Parser α) (i : List UInt8) (h : i.take 8 ≠ ntlmssp) :
    (tag signature >>= f) i = .error .error := Parser.bind_err (tag_no i h)

theorem header_no_type {α : Type} (f : UInt32 → Parser α) (n : UInt32) (i : List UInt8) (h : u32At i 8 ≠ n.toNat) :
    (tag signature >>= fun _ => verify leU32 (fun mt => mt == n) >>= f) i = .error .error := by
  by_cases hs : i.take 8 = ntlmssp
  · rw [Parser.bind_ok (tag_at i hs), Parser.bind_err (type_no i n h)]
  · exact Parser.bind_err (tag_no i hs)

theorem negotiate_header_no (cfg : Cfg) (i : List UInt8) (h : ¬ hasHeader i 1 32) :
    Negotiate.header cfg i = .error .error := by
  by_cases h1 : i.length < 32
  · exact (fixed_negotiateHeader cfg).short i h1
  by_cases h2 : i.take 8 = ntlmssp
  · have h3 : u32At i 8 ≠ (1 : UInt32).toNat := fun h3 => h ⟨by omega, h2, h3⟩
    exact header_no_type _ 1 i h3
  · exact header_no_sig _ i h2

theorem reserved_at (cfg : Cfg) (i : List UInt8) (h : 40 ≤ i.length)
    (hr : cfg.strict = true → u32At i 32 = 0 ∧ u32At i 36 = 0) :
    ∃ v, Challenge.parseReserved cfg (i.drop 32) = .ok (v, i.drop 40) := by
  have h64 : leU64 (i.drop 32) = .ok (UInt64.ofNat (leVal ((i.drop 32).take 8)), i.drop 40) := by
    rw [leU64_eq, if_neg (by simp only [List.length_drop]; omega), List.drop_drop]
  have hv : leVal ((i.drop 32).take 8) = u32At i 32 + 2 ^ 32 * u32At i 36 := by
    have e : (i.drop 32).take 8 = (i.drop 32).take 4 ++ (i.drop 36).take 4 := by
      rw [show i.drop 36 = (i.drop 32).drop 4 by rw [List.drop_drop]]
      rw [← List.take_append_drop 4 ((i.drop 32).take 8), List.take_take, List.drop_take]
      rfl
    rw [e, leVal_append, leVal_take4, leVal_take4, u32At_drop, u32At_drop]
    have : ((i.drop 32).take 4).length = 4 := by simp only [List.length_take, List.length_drop]; omega
    rw [this]
  unfold Challenge.parseReserved
  by_cases hs : cfg.strict = true
  · obtain ⟨ha, hb⟩ := hr hs
    rw [hv, ha, hb] at h64
    simp only [hs, if_true]
    exact ⟨_, verify_ok h64 rfl⟩
  · simp only [hs]
    exact ⟨_, h64⟩

theorem reserved_no (cfg : Cfg) (i : List UInt8) (hs : cfg.strict = true) (hr : ¬ (u32At i 32 = 0 ∧ u32At i 36 = 0)) :
    Challenge.parseReserved cfg (i.drop 32) = .error .error := by
  by_cases h : i.length < 40
  · exact (fixed_reserved cfg).short _ (by simp only [List.length_drop]; omega)
  have h64 : leU64 (i.drop 32) = .ok (UInt64.ofNat (leVal ((i.drop 32).take 8)), i.drop 40) := by
    rw [leU64_eq, if_neg (by simp only [List.length_drop]; omega), List.drop_drop]
  have hv : leVal ((i.drop 32).take 8) = u32At i 32 + 2 ^ 32 * u32At i 36 := by
    have e : (i.drop 32).take 8 = (i.drop 32).take 4 ++ (i.drop 36).take 4 := by
      rw [show i.drop 36 = (i.drop 32).drop 4 by rw [List.drop_drop]]
      rw [← List.take_append_drop 4 ((i.drop 32).take 8), List.take_take, List.drop_take]
      rfl
    rw [e, leVal_append, leVal_take4, leVal_take4, u32At_drop, u32At_drop]
    have : ((i.drop 32).take 4).length = 4 := by simp only [List.length_take, List.length_drop]; omega
    rw [this]
  have hne : ¬ UInt64.ofNat (leVal ((i.drop 32).take 8)) = 0 := by
    intro hc
    have := congrArg UInt64.toNat hc
    have hl := leVal_lt ((i.drop 32).take 8)
    have := u32At_lt i 32
    have := u32At_lt i 36
    simp only [hv] at this hc
    have hc' := congrArg UInt64.toNat hc
    simp only [UInt64.toNat_ofNat'] at hc'
    have hz : UInt64.toNat 0 = 0 := rfl
    omega
  unfold Challenge.parseReserved
  simp only [hs, if_true, verify, h64]
  rw [if_neg (by simpa using hne)]

theorem challenge_header_at (cfg : Cfg) (i : List UInt8) (h : challengeHeader cfg i) (h24 : 24 + 8 ≤ i.length) :
    Challenge.header cfg i = .ok ((fieldAt i 12, flagsAt i 20,
      ⟨bytesAt i 24 8, by simp only [bytesAt, List.length_take, List.length_drop]; omega⟩, fieldAt i 40), i.drop 48) := by
  obtain ⟨⟨h1, h2, h3⟩, h4⟩ := h
  obtain ⟨v, h5⟩ := reserved_at cfg i (by omega) h4
  show (tag signature >>= _) i = _
  rw [Parser.bind_ok (tag_at i h2), Parser.bind_ok (type_at i 2 (by omega) h3), Parser.bind_ok (field_at cfg i 12 (by omega)),
    Parser.bind_ok (flags_at cfg i 20 (by omega)),
    Parser.bind_ok (show (Wire.deserialize cfg : Parser (Bytes 8)) (i.drop 24) = _ from takeBytes_at i 24 (by omega)),
    Parser.bind_ok h5, Parser.bind_ok (field_at cfg i 40 (by omega))]
  rfl

theorem challenge_header_no (cfg : Cfg) (i : List UInt8) (h : ¬ challengeHeader cfg i) :
    Challenge.header cfg i = .error .error := by
  by_cases h1 : i.length < 48
  · exact (fixed_challengeHeader cfg).short i h1
  by_cases h2 : i.take 8 = ntlmssp
  · by_cases h3 : u32At i 8 = 2
    · have h4 : ¬ (cfg.strict = true → u32At i 32 = 0 ∧ u32At i 36 = 0) := fun h4 => h ⟨⟨by omega, h2, h3⟩, h4⟩
      have hs : cfg.strict = true := by
        apply Classical.byContradiction
        intro hs
        exact h4 (fun hc => absurd hc hs)
      have hr := reserved_no cfg i hs (fun hr => h4 (fun _ => hr))
      show (tag signature >>= _) i = _
      rw [Parser.bind_ok (tag_at i h2), Parser.bind_ok (type_at i 2 (by omega) h3), Parser.bind_ok (field_at cfg i 12 (by omega)),
        Parser.bind_ok (flags_at cfg i 20 (by omega)),
        Parser.bind_ok (show (Wire.deserialize cfg : Parser (Bytes 8)) (i.drop 24) = _ from takeBytes_at i 24 (by omega)),
        Parser.bind_err hr]
    · exact header_no_type _ 2 i h3
  · exact header_no_sig _ i h2

theorem authenticate_header_at (cfg : Cfg) (i : List UInt8) (h : hasHeader i 3 64) :
    Authenticate.header cfg i = .ok (⟨fieldAt i 12, fieldAt i 20, fieldAt i 28, fieldAt i 36, fieldAt i 44, fieldAt i 52,
      flagsAt i 60⟩, i.drop 64) := by
  obtain ⟨h1, h2, h3⟩ := h
  show (tag signature >>= _) i = _
  rw [Parser.bind_ok (tag_at i h2), Parser.bind_ok (type_at i 3 (by omega) h3), Parser.bind_ok (field_at cfg i 12 (by omega)),
    Parser.bind_ok (field_at cfg i 20 (by omega)), Parser.bind_ok (field_at cfg i 28 (by omega)),
    Parser.bind_ok (field_at cfg i 36 (by omega)), Parser.bind_ok (field_at cfg i 44 (by omega)),
    Parser.bind_ok (field_at cfg i 52 (by omega)), Parser.bind_ok (flags_at cfg i 60 (by omega))]
  rfl

theorem authenticate_header_no (cfg : Cfg) (i : List UInt8) (h : ¬ hasHeader i 3 64) :
    Authenticate.header cfg i = .error .error := by
  by_cases h1 : i.length < 64
  · exact (fixed_authenticateHeader cfg).short i h1
  by_cases h2 : i.take 8 = ntlmssp
  · have h3 : u32At i 8 ≠ (3 : UInt32).toNat := fun h3 => h ⟨by omega, h2, h3⟩
    exact header_no_type _ 3 i h3
  · exact header_no_sig _ i h2

/-! ### The version block -/

theorem version_error (cfg : Cfg) (i : List UInt8) (h : ∀ v r, (Wire.deserialize cfg : Parser Version) i ≠ .ok (v, r)) :
    (Wire.deserialize cfg : Parser Version) i = .error .error := by
  rcases (fixed_version cfg).cases i with h1 | ⟨v, h1, _⟩
  · exact h1
  · exact absurd h1 (h v _)

theorem hasFlag_version (i : List UInt8) (p : Nat) :
    (flagsAt i p).hasFlag Flags.NTLMSSP_NEGOTIATE_VERSION = (u32At i p).testBit 25 := by
  rw [hasFlag_testBit _ _ (by decide), flagsAt_bits]; rfl

/-- The version the header announces. -/
def versionAt (i : List UInt8) (fp size : Nat) : Option Version :=
  if (u32At i fp).testBit 25 then
    some ⟨UInt8.ofNat (byteAt i size), UInt8.ofNat (byteAt i (size + 1)), UInt16.ofNat (u16At i (size + 2)), 15⟩
  else none

theorem version_at (cfg : Cfg) (i : List UInt8) (fp size : Nat) (h : versionBlockOk i fp size) :
    cond ((flagsAt i fp).hasFlag Flags.NTLMSSP_NEGOTIATE_VERSION) (Wire.deserialize cfg : Parser Version) (i.drop size) =
      .ok (versionAt i fp size, i.drop (size + versionSize i fp)) := by
  rw [hasFlag_version]
  by_cases hb : (u32At i fp).testBit 25 = true
  · obtain ⟨h1, h2, h3, h4, h5⟩ := h hb
    simp only [hb, versionAt, versionSize, if_true, cond]
    apply pmap_ok
    rw [version_accepts]
    simp only [byteAt_drop, u16At_drop, List.length_drop, List.drop_drop, Nat.add_zero]
    refine ⟨by omega, h2, h3, h4, h5, trivial, ?_, ?_, ?_, rfl⟩
    · have := byteAt_lt i size; simp only [UInt8.toNat_ofNat']; omega
    · have := byteAt_lt i (size + 1); simp only [UInt8.toNat_ofNat']; omega
    · have := u16At_lt i (size + 2); simp only [UInt16.toNat_ofNat']; omega
  · simp [hb, versionAt, versionSize, cond]

theorem version_no (cfg : Cfg) (i : List UInt8) (fp size : Nat) (hs : size ≤ i.length) (h : ¬ versionBlockOk i fp size) :
    cond ((flagsAt i fp).hasFlag Flags.NTLMSSP_NEGOTIATE_VERSION) (Wire.deserialize cfg : Parser Version) (i.drop size) =
      .error .error := by
  rw [hasFlag_version]
  have hb : (u32At i fp).testBit 25 = true := by
    apply Classical.byContradiction
    intro hb
    exact h (fun hc => absurd hc hb)
  simp only [hb, if_true, cond, pmap]
  rw [version_error cfg (i.drop size)]
  intro v r hv
  rw [version_accepts] at hv
  simp only [byteAt_drop, u16At_drop, List.length_drop] at hv
  exact h (fun _ => ⟨by omega, hv.2.1, hv.2.2.1, hv.2.2.2.1, hv.2.2.2.2.1⟩)

/-! ### Panics -/

theorem panics_error : ¬ panics (.error .error : Except PErr α) := by
  rintro ⟨p, h⟩; simp at h
theorem panics_incomplete : ¬ panics (.error .incomplete : Except PErr α) := by
  rintro ⟨p, h⟩; simp at h
theorem panics_ok (a : α) : ¬ panics (.ok a : Except PErr α) := by
  rintro ⟨p, h⟩; simp at h
theorem panics_panic (p : Panic) : panics (.error (.panic p) : Except PErr α) := ⟨p, rfl⟩

theorem panics_bind {α β : Type} (x : Except PErr α) (f : α → Except PErr β) :
    panics (x >>= f) ↔ panics x ∨ ∃ a, x = .ok a ∧ panics (f a) := by
  rcases x with e | a
  · constructor
    · rintro ⟨p, h⟩
      exact .inl ⟨p, by simpa [bind, Except.bind] using h⟩
    · rintro (⟨p, h⟩ | ⟨a, h, _⟩)
      · exact ⟨p, by simpa [bind, Except.bind] using h⟩
      · simp at h
  · constructor
    · intro h
      exact .inr ⟨a, rfl, h⟩
    · rintro (⟨p, h⟩ | ⟨b, h, hp⟩)
      · simp at h
      · simp only [Except.ok.injEq] at h
        subst h
        exact hp

/-- A field of a type whose decoder never aborts. -/
theorem getDataIf_panics {α : Type} [Wire α] (cfg : Cfg) (i : List UInt8) (p : Nat) (c : Bool)
    (hα : ¬ panics ((Wire.deserialize cfg : Parser α) (fieldBytes i p))) :
    panics ((fieldAt i p).getDataIf cfg i c : Except PErr (Option α)) ↔ c = true ∧ outOfRange i p := by
  cases c with
  | false => simp [getDataIf_empty, panics_ok]
  | true =>
    by_cases h0 : u16At i p = 0
    · rw [getDataIf_empty cfg i p true (.inr h0)]
      simp [panics_ok, outOfRange, h0]
    · by_cases ho : outOfRange i p
      · simp [getDataIf_out cfg i p ho, ho, panics_panic]
      · rw [getDataIf_in cfg i p h0 ho]
        simp only [ho, and_false, iff_false]
        rcases hx : (Wire.deserialize cfg : Parser α) (fieldBytes i p) with e | ⟨v, r⟩
        · rintro ⟨q, hq⟩
          simp only [Except.error.injEq] at hq
          exact hα ⟨q, by rw [hx, hq]⟩
        · simp [panics_ok]

theorem getDataIf_ok {α : Type} [Wire α] (cfg : Cfg) (i : List UInt8) (p : Nat) :
    (∃ x, ((fieldAt i p).getDataIf cfg i true : Except PErr (Option α)) = .ok x) ↔
      emptyField i p ∨ (¬ outOfRange i p ∧ ∃ v r, (Wire.deserialize cfg : Parser α) (fieldBytes i p) = .ok (v, r)) := by
  by_cases h0 : u16At i p = 0
  · rw [getDataIf_empty cfg i p true (.inr h0)]
    simp [emptyField, h0]
  · by_cases ho : outOfRange i p
    · simp [getDataIf_out cfg i p ho, emptyField, h0, ho]
    · rw [getDataIf_in cfg i p h0 ho]
      rcases hx : (Wire.deserialize cfg : Parser α) (fieldBytes i p) with e | ⟨v, r⟩ <;> simp [emptyField, h0, ho]

theorem oem_noPanic (cfg : Cfg) (b : List UInt8) : ¬ panics ((Wire.deserialize cfg : Parser OEMString) b) := by
  have unf : (Wire.deserialize cfg : Parser OEMString) b = pmap (mapOpt rest fromUtf8) OEMString.mk b := rfl
  rw [unf]
  rintro ⟨p, h⟩
  cases hf : fromUtf8 b with
  | none => simp [pmap, mapOpt, rest, hf] at h
  | some t => simp [pmap, mapOpt, rest, hf] at h

theorem unicode_noPanic (cfg : Cfg) (b : List UInt8) : ¬ panics ((Wire.deserialize cfg : Parser UnicodeString) b) := by
  obtain ⟨s, r, h, _⟩ := unicode_total cfg b
  rw [h]
  exact panics_ok _

theorem Fixed.noPanic {α : Type} {p : Parser α} {n : Nat} (h : Fixed p n) (b : List UInt8) : ¬ panics (p b) := by
  rcases h.cases b with h | ⟨a, h, _⟩
  · rw [h]; exact panics_error
  · rw [h]; exact panics_ok _

end Ntlm
