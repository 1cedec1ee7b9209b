import Verif.Lemmas.MsgAt
import Verif.Props.Text
/-
  What an accepted message contains, by byte position.
-/
namespace Ntlm

open Spec

theorem bind_eq_ok {α β : Type} (x : Except PErr α) (f : α → Except PErr β) (y : β) :
    (x >>= f) = .ok y ↔ ∃ a, x = .ok a ∧ f a = .ok y := by
  rcases x with e | a
  · simp [bind, Except.bind]
  · simp [bind, Except.bind]

theorem getDataIf_eq_ok {α : Type} [Wire α] (cfg : Cfg) (i : List UInt8) (p : Nat) (x : Option α) :
    (fieldAt i p).getDataIf cfg i true = .ok x ↔
      fieldIs i p (fun b v => ∃ r, (Wire.deserialize cfg : Parser α) b = .ok (v, r)) x := by
  by_cases h0 : u16At i p = 0
  · rw [getDataIf_empty cfg i p true (.inr h0)]
    simp only [fieldIs, emptyField, h0, true_and, not_true, false_and, or_false, Except.ok.injEq]
    exact eq_comm
  · by_cases ho : outOfRange i p
    · simp [getDataIf_out cfg i p ho, fieldIs, emptyField, h0, ho]
    · rw [getDataIf_in cfg i p h0 ho]
      simp only [fieldIs, emptyField, h0, ho, not_false_eq_true, true_and, false_and, false_or]
      rcases hx : (Wire.deserialize cfg : Parser α) (fieldBytes i p) with e | ⟨v, r⟩
      · simp
      · simp only [Except.ok.injEq, Prod.mk.injEq]
        constructor
        · rintro rfl; exact ⟨v, rfl, r, rfl, rfl⟩
        · rintro ⟨w, rfl, _, rfl, _⟩; rfl

theorem fieldIs_congr {α : Type} {i : List UInt8} {p : Nat} {P Q : List UInt8 → α → Prop} (h : ∀ b v, P b v ↔ Q b v)
    (x : Option α) : fieldIs i p P x ↔ fieldIs i p Q x := by
  simp only [fieldIs, h]

theorem oemIs_iff (cfg : Cfg) (b : List UInt8) (v : OEMString) :
    (∃ r, (Wire.deserialize cfg : Parser OEMString) b = .ok (v, r)) ↔ oemIs b v := by
  constructor
  · rintro ⟨r, h⟩
    obtain ⟨a, h1, rfl⟩ := pmap_inv h
    obtain ⟨c, h2, h3⟩ := mapOpt_inv h1
    simp only [rest, Except.ok.injEq, Prod.mk.injEq] at h2
    rw [← h2.1] at h3
    show b = utf8Bytes a
    rw [utf8Bytes_eq, utf8_fromUtf8 h3]
  · intro h
    rw [h]
    exact ⟨_, oem_decode cfg v.s⟩

theorem textIs_iff (cfg : Cfg) (b : List UInt8) (v : UnicodeString) :
    (∃ r, (Wire.deserialize cfg : Parser UnicodeString) b = .ok (v, r)) ↔ textIs b v := by
  constructor
  · rintro ⟨r, h⟩
    obtain ⟨s, t, h1, h2, h3, h4⟩ := unicode_total cfg b
    rw [h] at h1
    simp only [Except.ok.injEq, Prod.mk.injEq] at h1
    rw [h1.1]
    exact ⟨h2, t, h3, (unitP_error_iff t).mp h4⟩
  · rintro ⟨h1, r, rfl, h2⟩
    refine ⟨r, ?_⟩
    show pmap (many0 unitP) UnicodeString.mk _ = _
    exact pmap_ok (units_many v.s h1 r ((unitP_error_iff r).mpr h2))

theorem infosAre_iff (cfg : Cfg) (i : List UInt8) (p : Nat) (l : List AvPair) :
    (fieldAt i p).getManyIf cfg i true = .ok l ↔ infosAre cfg i p l := by
  by_cases h0 : u16At i p = 0
  · rw [getManyIf_empty cfg i p h0]
    simp only [infosAre, emptyField, h0, true_and, not_true, false_and, or_false, Except.ok.injEq]
    exact eq_comm
  · by_cases ho : outOfRange i p
    · simp [getManyIf_out cfg i p ho, infosAre, emptyField, h0, ho]
    · rw [getManyIf_in cfg i p h0 ho]
      simp only [infosAre, emptyField, h0, ho, not_false_eq_true, true_and, false_and, false_or, ← many0_walk]
      rcases hx : many0 (Wire.deserialize cfg : Parser AvPair) (fieldBytes i p) with e | ⟨v, r⟩
      · simp
      · simp

theorem byteAt_ofNat (i : List UInt8) (k : Nat) : (UInt8.ofNat (byteAt i k)).toNat = byteAt i k := by
  simp only [UInt8.toNat_ofNat']
  have := (i.getD k 0).toNat_lt
  simp only [byteAt]
  omega

theorem le1_eq (n : Nat) (h : n < 256) : le 1 n = [UInt8.ofNat n] := by
  simp [le, Nat.mod_eq_of_lt h]

/-- The version of an accepted message. -/
theorem versionIs_iff (i : List UInt8) (fp size : Nat) (v : Option Version) :
    versionIs i fp size v ↔ versionBlockOk i fp size ∧ v = versionAt i fp size := by
  unfold versionIs versionBlockOk versionAt
  by_cases hf : flagAt i fp 25
  · have hf' : (u32At i fp).testBit 25 = true := hf
    simp only [hf, hf', true_and, not_true, false_and, or_false, if_true, forall_const]
    constructor
    · rintro ⟨x, rfl, hr, hb⟩
      have hl : size + 8 ≤ i.length := by
        have := congrArg List.length hb
        simp [bytesAt, versionBytes, length_le] at this
        omega
      have he : ∀ k, k < 8 → byteAt i (size + k) = byteAt (versionBytes x) k := by
        intro k hk
        rw [← hb]
        simp [byteAt, bytesAt, List.getD_eq_getElem?_getD, hk]
      have h16 : u16At i (size + 2) = x.build.toNat := by
        have e2 := he 2 (by omega)
        have e3 := he 3 (by omega)
        have := x.build.toNat_lt
        simp only [u16At, e2, show size + 2 + 1 = size + 3 from rfl, e3]
        simp [byteAt, versionBytes, le, List.range_succ]
        omega
      have e0 := he 0 (by omega)
      have e1 := he 1 (by omega)
      have e4 := he 4 (by omega)
      have e5 := he 5 (by omega)
      have e6 := he 6 (by omega)
      have e7 := he 7 (by omega)
      simp [byteAt, versionBytes, le, List.range_succ] at e0 e1 e4 e5 e6 e7
      have m1 := x.major.toNat_lt
      have m2 := x.minor.toNat_lt
      refine ⟨⟨hl, ?_, ?_, ?_, ?_⟩, ?_⟩
      · simpa [byteAt] using e4
      · simpa [byteAt] using e5
      · simpa [byteAt] using e6
      · rw [hr] at e7; simpa [byteAt] using e7
      · rw [h16]
        obtain ⟨a, b, c, d⟩ := x
        simp only [Option.some.injEq, Version.mk.injEq]
        simp only at e0 e1 hr
        refine ⟨?_, ?_, by simp, hr⟩
        · apply UInt8.toNat_inj.mp
          rw [byteAt_ofNat]
          simp only [byteAt, List.getD_eq_getElem?_getD, e0]
        · apply UInt8.toNat_inj.mp
          rw [byteAt_ofNat]
          simp only [byteAt, List.getD_eq_getElem?_getD, e1]
    · rintro ⟨⟨hl, h4, h5, h6, h7⟩, rfl⟩
      refine ⟨_, rfl, rfl, ?_⟩
      have hb : ∀ k, k < 256 → ∀ j, byteAt i j = k → i.getD j 0 = UInt8.ofNat k := by
        intro k hk j hj
        apply UInt8.toNat_inj.mp
        simp only [UInt8.toNat_ofNat']
        simp only [byteAt] at hj
        omega
      have hs : bytesAt i size 8 = [i.getD size 0, i.getD (size + 1) 0, i.getD (size + 2) 0, i.getD (size + 3) 0,
          i.getD (size + 4) 0, i.getD (size + 5) 0, i.getD (size + 6) 0, i.getD (size + 7) 0] := by
        apply List.ext_getElem?
        intro n
        simp only [bytesAt, List.getElem?_take, List.getElem?_drop]
        by_cases hn : n < 8
        · have : size + n < i.length := by omega
          simp only [hn, if_true, List.getElem?_eq_getElem this]
          match n, hn with
          | 0, _ => simp [List.getD_eq_getElem?_getD, List.getElem?_eq_getElem (show size < i.length by omega)]
          | 1, _ => simp [List.getD_eq_getElem?_getD, List.getElem?_eq_getElem this]
          | 2, _ => simp [List.getD_eq_getElem?_getD, List.getElem?_eq_getElem this]
          | 3, _ => simp [List.getD_eq_getElem?_getD, List.getElem?_eq_getElem this]
          | 4, _ => simp [List.getD_eq_getElem?_getD, List.getElem?_eq_getElem this]
          | 5, _ => simp [List.getD_eq_getElem?_getD, List.getElem?_eq_getElem this]
          | 6, _ => simp [List.getD_eq_getElem?_getD, List.getElem?_eq_getElem this]
          | 7, _ => simp [List.getD_eq_getElem?_getD, List.getElem?_eq_getElem this]
        · simp only [hn, if_false]
          rw [List.getElem?_eq_none (by simp; omega)]
      have h16 : u16At i (size + 2) = (i.getD (size + 2) 0).toNat + 256 * (i.getD (size + 3) 0).toNat := rfl
      have l2 := (i.getD (size + 2) 0).toNat_lt
      have l3 := (i.getD (size + 3) 0).toNat_lt
      rw [hs, hb 0 (by omega) _ h4, hb 0 (by omega) _ h5, hb 0 (by omega) _ h6, hb 15 (by omega) _ h7]
      simp only [versionBytes, byteAt_ofNat, h16]
      rw [le1_eq (byteAt i size) (i.getD size 0).toNat_lt, le1_eq (byteAt i (size + 1)) (i.getD (size + 1) 0).toNat_lt]
      have e16 : (UInt16.ofNat ((i.getD (size + 2) 0).toNat + 256 * (i.getD (size + 3) 0).toNat)).toNat =
          (i.getD (size + 2) 0).toNat + 256 * (i.getD (size + 3) 0).toNat := by
        simp only [UInt16.toNat_ofNat']; omega
      rw [e16]
      have e2 : le 2 ((i.getD (size + 2) 0).toNat + 256 * (i.getD (size + 3) 0).toNat) =
          [i.getD (size + 2) 0, i.getD (size + 3) 0] := by
        have a1 : ((i.getD (size + 2) 0).toNat + 256 * (i.getD (size + 3) 0).toNat) % 256 = (i.getD (size + 2) 0).toNat := by omega
        have a2 : ((i.getD (size + 2) 0).toNat + 256 * (i.getD (size + 3) 0).toNat) / 256 % 256 = (i.getD (size + 3) 0).toNat := by omega
        have : le 2 ((i.getD (size + 2) 0).toNat + 256 * (i.getD (size + 3) 0).toNat) =
          [UInt8.ofNat (((i.getD (size + 2) 0).toNat + 256 * (i.getD (size + 3) 0).toNat) / 1 % 256),
           UInt8.ofNat (((i.getD (size + 2) 0).toNat + 256 * (i.getD (size + 3) 0).toNat) / 256 % 256)] := rfl
        rw [this, Nat.div_one, a1, a2]
        simp
      rw [e2]
      simp [byteAt]
      rfl
  · have hf' : (u32At i fp).testBit 25 = false := by simpa [flagAt] using hf
    simp [hf, hf']

/-! ### Whole messages -/

theorem flagsAt_iff (f : Flags) (i : List UInt8) (p : Nat) : f.bits.toNat = u32At i p ↔ f = flagsAt i p := by
  rw [← flagsAt_bits i p]
  constructor
  · intro h
    exact congrArg Flags.mk (UInt32.toNat_inj.mp h)
  · rintro rfl; rfl

theorem le4_inj {a b : UInt32} (h : le 4 a.toNat = le 4 b.toNat) : a = b := by
  have := congrArg leVal h
  rw [leVal_le_lt a.toNat_lt, leVal_le_lt b.toNat_lt] at this
  exact UInt32.toNat_inj.mp this

theorem negotiate_contents (cfg : Cfg) (i : List UInt8) (m : Negotiate) (r : List UInt8) :
    (Wire.deserialize cfg : Parser Negotiate) i = .ok (m, r) ↔
      r = [] ∧ hasHeader i 1 32 ∧ m.negotiateFlags.bits.toNat = u32At i 12 ∧ versionIs i 12 32 m.version ∧
        fieldIs i 16 oemIs m.domainName ∧ fieldIs i 24 oemIs m.workstation := by
  simp only [versionIs_iff]
  by_cases h : hasHeader i 1 32 ∧ versionBlockOk i 12 32
  · obtain ⟨hh, hv⟩ := h
    rw [negotiate_at cfg i hh hv]
    simp only [bind_eq_ok, getDataIf_eq_ok, fieldIs_congr (oemIs_iff cfg)]
    obtain ⟨f, d, w, v⟩ := m
    simp only [hh, hv, true_and, flagsAt_iff]
    constructor
    · rintro ⟨d', hd, w', hw, he⟩
      simp only [pure, Except.pure, Except.ok.injEq, Prod.mk.injEq, Negotiate.mk.injEq] at he
      obtain ⟨⟨rfl, rfl, rfl, rfl⟩, rfl⟩ := he
      exact ⟨rfl, rfl, rfl, hd, hw⟩
    · rintro ⟨rfl, rfl, rfl, hd, hw⟩
      exact ⟨d, hd, w, hw, rfl⟩
  · rw [negotiate_no cfg i h]
    simp only [reduceCtorEq, false_iff]
    rintro ⟨_, h1, _, ⟨h2, _⟩, _⟩
    exact h ⟨h1, h2⟩

theorem challenge_contents (cfg : Cfg) (i : List UInt8) (m : Challenge) (r : List UInt8) :
    (Wire.deserialize cfg : Parser Challenge) i = .ok (m, r) ↔
      r = [] ∧ challengeHeader cfg i ∧ m.negotiateFlags.bits.toNat = u32At i 20 ∧
        m.serverChallenge.val = bytesAt i 24 8 ∧ versionIs i 20 48 m.version ∧
        fieldIs i 12 textIs m.targetName ∧ infosAre cfg i 40 m.targetInfos ∧
        (m.targetInfos = [] ∨ m.targetInfos.getLast? = some .eol) := by
  simp only [versionIs_iff, ← lastIsEol_iff]
  by_cases h : challengeHeader cfg i ∧ versionBlockOk i 20 48
  · obtain ⟨hh, hv⟩ := h
    have h24 : 24 + 8 ≤ i.length := by have := hh.1.1; omega
    rw [challenge_at cfg i hh h24 hv]
    simp only [bind_eq_ok, getDataIf_eq_ok, fieldIs_congr (textIs_iff cfg), infosAre_iff]
    obtain ⟨t, f, c, l, v⟩ := m
    simp only [hh, hv, true_and, flagsAt_iff]
    constructor
    · rintro ⟨t', ht, l', hl, he⟩
      split at he
      · rename_i hlast
        simp only [pure, Except.pure, Except.ok.injEq, Prod.mk.injEq, Challenge.mk.injEq] at he
        obtain ⟨⟨rfl, rfl, rfl, rfl, rfl⟩, rfl⟩ := he
        exact ⟨rfl, rfl, rfl, rfl, ht, hl, hlast⟩
      · simp at he
    · rintro ⟨rfl, rfl, hc, rfl, ht, hl, hlast⟩
      refine ⟨t, ht, l, hl, ?_⟩
      simp only [hlast, if_true, pure, Except.pure, Except.ok.injEq, Prod.mk.injEq, Challenge.mk.injEq, true_and, and_true]
      exact Subtype.ext hc.symm
  · rw [challenge_no cfg i h]
    simp only [reduceCtorEq, false_iff]
    rintro ⟨_, h1, _, _, ⟨h2, _⟩, _⟩
    exact h ⟨h1, h2⟩

theorem ntIs_iff (cfg : Cfg) (b : List UInt8) (x : NtChallenge) :
    (∃ r, (Wire.deserialize cfg : Parser NtChallenge) b = .ok (x, r)) ↔ ntIs cfg b x := by
  show (∃ r, alt _ _ b = .ok (x, r)) ↔ _
  simp only [ntIs, ← many0_walk]
  by_cases h : ntv2Fixed cfg b
  · simp only [h, true_and, not_true, false_and, or_false, alt, pmap]
    have hl := h.1
    rw [ntv2_at cfg b h (by omega)]
    have ht : ∀ t : FileTime, fileTimeBytes t = bytesAt b 8 8 ↔ t = fileTimeAt b 8 := by
      intro t
      have h8 : fileTimeBytes (fileTimeAt b 8) = bytesAt b 8 8 := by
        have := fileTime_at cfg b 8 (by omega)
        rw [if_pos h.2.2.2.2.2.1] at this
        have hc := canon_fileTime cfg _ _ _ this
        rw [bytesAt, hc, List.take_append_of_le_length (by simp [fileTimeBytes, length_le]), List.take_of_length_le (by simp [fileTimeBytes, length_le])]
      constructor
      · intro h1
        rw [← h8] at h1
        have e1 := congrArg (List.take 4) h1
        have e2 := congrArg (List.drop 4) h1
        simp only [fileTimeBytes, List.take_left' (length_le 4 _), List.drop_left' (length_le 4 _)] at e1 e2
        cases t
        cases hx : fileTimeAt b 8
        rw [hx] at e1 e2
        simp only [FileTime.mk.injEq]
        exact ⟨le4_inj e1, le4_inj e2⟩
      · rintro rfl; exact h8
    rcases hx : many0 (Wire.deserialize cfg : Parser AvPair) (b.drop 28) with e | ⟨l, r⟩
    · rcases many0_avError cfg _ _ (Nat.le_refl _) e hx with rfl | ⟨rfl, _⟩ <;> simp
    · simp only [Except.ok.injEq, Prod.mk.injEq]
      constructor
      · rintro ⟨_, rfl, rfl⟩
        exact ⟨_, r, rfl, (ht _).mpr rfl, rfl, rfl, rfl⟩
      · rintro ⟨c, r', rfl, h1, h2, rfl, rfl⟩
        refine ⟨r, ?_, rfl⟩
        obtain ⟨t, cc, l⟩ := c
        simp only at h1 h2
        simp only [NtChallenge.v2.injEq, Ntv2Challenge.mk.injEq, and_true]
        exact ⟨((ht _).mp h1).symm, Subtype.ext h2.symm⟩
  · simp only [h, not_false_eq_true, true_and, false_and, false_or, alt, pmap]
    rw [ntv2_no cfg b h]
    simp only []
    constructor
    · rintro ⟨r, hr⟩
      rcases hx : (Wire.deserialize cfg : Parser Ntv1Challenge) b with e | ⟨c, r'⟩
      · simp [hx] at hr
      · simp only [hx, Except.ok.injEq, Prod.mk.injEq] at hr
        have := canon_ntv1 cfg _ _ _ hx
        refine ⟨c, hr.1.symm, ?_⟩
        rw [this]
        exact (List.take_left' c.response.property).symm
    · rintro ⟨c, rfl, hc⟩
      refine ⟨b.drop 24, ?_⟩
      have e1 : b = c.response.val ++ b.drop 24 := by rw [hc, List.take_append_drop]
      have hd := dec_ntv1 cfg c (b.drop 24)
      rw [← e1] at hd
      simp only [hd]

theorem bytes_field (cfg : Cfg) (n : Nat) (b : List UInt8) (k : Bytes n) :
    (∃ r, (Wire.deserialize cfg : Parser (Bytes n)) b = .ok (k, r)) ↔ k.val = b.take n := by
  constructor
  · rintro ⟨r, h⟩
    rw [takeBytes_canon h]
    exact (List.take_left' k.property).symm
  · intro h
    refine ⟨b.drop n, ?_⟩
    have hd := dec_bytes cfg k (b.drop n)
    rw [show k.val ++ b.drop n = b by rw [h, List.take_append_drop]] at hd
    exact hd

theorem keyIs_iff (cfg : Cfg) (i : List UInt8) (x : Option (Bytes 16)) :
    (fieldAt i 52).getDataIf cfg i ((flagsAt i 60).hasFlag Flags.NTLMSSP_NEGOTIATE_KEY_EXCH) = .ok x ↔ keyIs i x := by
  have e : (flagsAt i 60).hasFlag Flags.NTLMSSP_NEGOTIATE_KEY_EXCH = (u32At i 60).testBit 30 := by
    rw [hasFlag_testBit _ _ (by decide), flagsAt_bits]; rfl
  rw [e]
  unfold keyIs flagAt
  cases hb : (u32At i 60).testBit 30 with
  | false =>
    rw [getDataIf_empty cfg i 52 false (.inl rfl)]
    simp only [Except.ok.injEq, Bool.false_eq_true, not_false_eq_true, true_and, false_and, or_false]
    exact eq_comm
  | true =>
    simp only [getDataIf_eq_ok, fieldIs_congr (bytes_field cfg 16), not_true, true_and, false_and, false_or]

theorem lmIs_iff (cfg : Cfg) (i : List UInt8) (x : Option LmChallenge) :
    Authenticate.lmResponse cfg (authHeaderAt i) i = .ok x ↔ lmIs i x := by
  have e : (authHeaderAt i).flags.hasFlag Flags.NTLMSSP_NEGOTIATE_NTLM = (u32At i 60).testBit 9 := by
    show (flagsAt i 60).hasFlag _ = _
    rw [hasFlag_testBit _ _ (by decide), flagsAt_bits]; rfl
  unfold Authenticate.lmResponse lmIs flagAt
  rw [e]
  have he : (authHeaderAt i).lm = fieldAt i 12 := rfl
  rw [he]
  by_cases h0 : u16At i 12 = 0
  · simp only [getDataIf_empty cfg i 12 true (.inr h0), Authenticate.okFlatten, Option.map_none, ite_self, Except.ok.injEq,
      emptyField, h0, true_and, not_true, false_and, or_false]
    exact eq_comm
  by_cases ho : outOfRange i 12
  · simp [getDataIf_out cfg i 12 ho, emptyField, h0, ho, Authenticate.okFlatten]
  simp only [getDataIf_in cfg i 12 h0 ho, emptyField, h0, ho, not_false_eq_true, true_and, false_and, false_or]
  generalize fieldBytes i 12 = b
  by_cases hl : b.length < 24
  · have s1 := (fixed_lmv1 cfg).short b hl
    have s2 := (fixed_lmv2 cfg).short b hl
    simp only [s1, s2, Authenticate.okFlatten, Option.map_none, ite_self, Except.ok.injEq, hl, true_and]
    constructor
    · intro h; exact .inl h.symm
    · rintro (h | ⟨c, _, h2, _⟩)
      · exact h.symm
      · have := congrArg List.length h2
        have hc : (lmBytes c).length = 24 := by
          cases c with
          | v1 c => exact c.response.property
          | v2 c => simp only [lmBytes, List.length_append, c.response.property, c.challengeFromClient.property]
        rw [hc, List.length_take] at this
        omega
  · cases hb : (u32At i 60).testBit 9 with
    | true =>
      let c : Lmv1Challenge := ⟨⟨b.take 24, by simp only [List.length_take]; omega⟩⟩
      have hd := dec_lmv1 cfg c (b.drop 24)
      rw [show c.response.val ++ b.drop 24 = b from List.take_append_drop 24 b] at hd
      simp only [hd, Authenticate.okFlatten, Option.map_some, if_true, Except.ok.injEq, hl, false_and, false_or, iff_true]
      constructor
      · rintro rfl; exact ⟨_, rfl, rfl, _, rfl⟩
      · rintro ⟨c', rfl, h2, d, rfl⟩
        simp only [Option.some.injEq, LmChallenge.v1.injEq]
        obtain ⟨d⟩ := d
        simp only [c, Lmv1Challenge.mk.injEq]
        exact Subtype.ext h2.symm
    | false =>
      let c : Lmv2Challenge := ⟨⟨b.take 16, by simp only [List.length_take]; omega⟩,
        ⟨(b.drop 16).take 8, by simp only [List.length_take, List.length_drop]; omega⟩⟩
      have hs : c.response.val ++ c.challengeFromClient.val = b.take 24 := by
        show b.take 16 ++ (b.drop 16).take 8 = b.take 24
        rw [show 24 = 16 + 8 from rfl, List.take_add]
      have hd := dec_lmv2 cfg c (b.drop 24)
      rw [hs, List.take_append_drop 24 b] at hd
      simp only [hd, Authenticate.okFlatten, Option.map_some, Except.ok.injEq, hl, false_and, false_or,
        Bool.false_eq_true, if_false, iff_false]
      constructor
      · rintro rfl; exact ⟨_, rfl, hs, by simp⟩
      · rintro ⟨c', rfl, h2, hn⟩
        cases c' with
        | v1 d => exact absurd ⟨d, rfl⟩ hn
        | v2 d =>
          simp only [Option.some.injEq, LmChallenge.v2.injEq]
          have e1 := congrArg (List.take 16) (h2.trans hs.symm)
          have e2 := congrArg (List.drop 16) (h2.trans hs.symm)
          simp only [lmBytes, List.take_left' d.response.property, List.take_left' c.response.property,
            List.drop_left' d.response.property, List.drop_left' c.response.property] at e1 e2
          show c = d
          have x1 : c.response = d.response := Subtype.ext e1.symm
          have x2 : c.challengeFromClient = d.challengeFromClient := Subtype.ext e2.symm
          obtain ⟨d1, d2⟩ := d
          simp only at x1 x2
          rw [← x1, ← x2]

theorem authenticate_contents (cfg : Cfg) (i : List UInt8) (m : Authenticate) (r : List UInt8) :
    (Wire.deserialize cfg : Parser Authenticate) i = .ok (m, r) ↔
      r = [] ∧ hasHeader i 3 64 ∧ m.negotiateFlags.bits.toNat = u32At i 60 ∧ versionIs i 60 64 m.version ∧
        m.mic.val = bytesAt i (64 + versionSize i 60) 16 ∧ lmIs i m.lmChallengeResponse ∧
        fieldIs i 20 (ntIs cfg) m.ntChallengeResponse ∧ fieldIs i 28 textIs m.domain ∧ fieldIs i 36 textIs m.user ∧
        fieldIs i 44 textIs m.workstation ∧ keyIs i m.encryptedRandomSessionKey ∧ m.exportedSessionKey = none := by
  simp only [versionIs_iff]
  by_cases h : hasHeader i 3 64 ∧ versionBlockOk i 60 64 ∧ 64 + versionSize i 60 + 16 ≤ i.length
  · obtain ⟨hh, hv, hm⟩ := h
    rw [authenticate_at cfg i hh hv hm]
    obtain ⟨lm, nt, d, u, w, k, f, v, mic, ek⟩ := m
    simp only [Authenticate.body, bind_eq_ok, lmIs_iff]
    have hnt : ∀ x, (authHeaderAt i).nt.getDataIf cfg i true = .ok x ↔ fieldIs i 20 (ntIs cfg) x := fun x =>
      (getDataIf_eq_ok cfg i 20 x).trans (fieldIs_congr (ntIs_iff cfg) x)
    have hdm : ∀ x, (authHeaderAt i).domain.getDataIf cfg i true = .ok x ↔ fieldIs i 28 textIs x := fun x =>
      (getDataIf_eq_ok cfg i 28 x).trans (fieldIs_congr (textIs_iff cfg) x)
    have hu : ∀ x, (authHeaderAt i).user.getDataIf cfg i true = .ok x ↔ fieldIs i 36 textIs x := fun x =>
      (getDataIf_eq_ok cfg i 36 x).trans (fieldIs_congr (textIs_iff cfg) x)
    have hw : ∀ x, (authHeaderAt i).workstation.getDataIf cfg i true = .ok x ↔ fieldIs i 44 textIs x := fun x =>
      (getDataIf_eq_ok cfg i 44 x).trans (fieldIs_congr (textIs_iff cfg) x)
    have hk : ∀ x, (authHeaderAt i).ersk.getDataIf cfg i
        ((authHeaderAt i).flags.hasFlag Flags.NTLMSSP_NEGOTIATE_KEY_EXCH) = .ok x ↔ keyIs i x := keyIs_iff cfg i
    simp only [hnt, hdm, hu, hw, hk, hh, hv, true_and, flagsAt_iff]
    constructor
    · rintro ⟨m', ⟨lm', h1, nt', h2, d', h3, u', h4, w', h5, k', h6, he⟩, he'⟩
      simp only [pure, Except.pure, Except.ok.injEq] at he
      subst he
      simp only [pure, Except.pure, Except.ok.injEq, Prod.mk.injEq, Authenticate.mk.injEq] at he'
      obtain ⟨⟨rfl, rfl, rfl, rfl, rfl, rfl, rfl, rfl, rfl, rfl⟩, rfl⟩ := he'
      exact ⟨rfl, rfl, rfl, rfl, h1, h2, h3, h4, h5, h6, rfl⟩
    · rintro ⟨rfl, rfl, rfl, hc, h1, h2, h3, h4, h5, h6, rfl⟩
      refine ⟨_, ⟨lm, h1, nt, h2, d, h3, u, h4, w, h5, k, h6, rfl⟩, ?_⟩
      simp only [pure, Except.pure, Except.ok.injEq, Prod.mk.injEq, Authenticate.mk.injEq, true_and, and_true]
      exact ⟨rfl, Subtype.ext hc.symm⟩
  · rw [authenticate_no cfg i h]
    simp only [reduceCtorEq, false_iff]
    rintro ⟨_, h1, _, ⟨h2, _⟩, h3, _⟩
    refine h ⟨h1, h2, ?_⟩
    have := congrArg List.length h3
    simp only [m.mic.property, bytesAt, List.length_take, List.length_drop] at this
    omega

end Ntlm
