import Verif.Lemmas.Decoded
import Verif.Props.Structures
/-
  The three message decoders as functions of byte positions.
-/
namespace Ntlm

open Spec

theorem negotiate_no (cfg : Cfg) (i : List UInt8) (h : ¬ (hasHeader i 1 32 ∧ versionBlockOk i 12 32)) :
    (Wire.deserialize cfg : Parser Negotiate) i = .error .error := by
  show Negotiate.deserialize cfg i = _
  unfold Negotiate.deserialize
  by_cases hh : hasHeader i 1 32
  · rw [negotiate_header_at cfg i hh]
    simp only []
    rw [version_no cfg i 12 32 hh.1 (fun hv => h ⟨hh, hv⟩)]
  · rw [negotiate_header_no cfg i hh]

theorem negotiate_at (cfg : Cfg) (i : List UInt8) (hh : hasHeader i 1 32) (hv : versionBlockOk i 12 32) :
    (Wire.deserialize cfg : Parser Negotiate) i = (do
      let d ← ((fieldAt i 16).getDataIf cfg i true : Except PErr (Option OEMString))
      let w ← ((fieldAt i 24).getDataIf cfg i true : Except PErr (Option OEMString))
      pure (⟨flagsAt i 12, d, w, versionAt i 12 32⟩, [])) := by
  show Negotiate.deserialize cfg i = _
  unfold Negotiate.deserialize
  rw [negotiate_header_at cfg i hh]
  simp only [version_at cfg i 12 32 hv, Bool.or_true]
  generalize ((fieldAt i 16).getDataIf cfg i true : Except PErr (Option OEMString)) = x
  generalize ((fieldAt i 24).getDataIf cfg i true : Except PErr (Option OEMString)) = y
  rcases x with _ | _
  · rfl
  · rcases y with _ | _ <;> rfl

theorem challenge_no (cfg : Cfg) (i : List UInt8) (h : ¬ (challengeHeader cfg i ∧ versionBlockOk i 20 48)) :
    (Wire.deserialize cfg : Parser Challenge) i = .error .error := by
  show Challenge.deserialize cfg i = _
  unfold Challenge.deserialize
  by_cases hh : challengeHeader cfg i
  · rw [challenge_header_at cfg i hh (by have := hh.1.1; omega)]
    simp only []
    rw [version_no cfg i 20 48 hh.1.1 (fun hv => h ⟨hh, hv⟩)]
  · rw [challenge_header_no cfg i hh]

theorem challenge_at (cfg : Cfg) (i : List UInt8) (hh : challengeHeader cfg i) (h24 : 24 + 8 ≤ i.length)
    (hv : versionBlockOk i 20 48) :
    (Wire.deserialize cfg : Parser Challenge) i = (do
      let t ← ((fieldAt i 12).getDataIf cfg i true : Except PErr (Option UnicodeString))
      let l ← ((fieldAt i 40).getManyIf cfg i true : Except PErr (List AvPair))
      if Challenge.lastIsEol l then
        pure (⟨t, flagsAt i 20, ⟨bytesAt i 24 8, by simp only [bytesAt, List.length_take, List.length_drop]; omega⟩, l,
          versionAt i 20 48⟩, [])
      else .error .error) := by
  show Challenge.deserialize cfg i = _
  unfold Challenge.deserialize
  rw [challenge_header_at cfg i hh h24]
  simp only [version_at cfg i 20 48 hv, Bool.or_true]
  generalize ((fieldAt i 12).getDataIf cfg i true : Except PErr (Option UnicodeString)) = x
  generalize ((fieldAt i 40).getManyIf cfg i true : Except PErr (List AvPair)) = y
  rcases x with _ | _
  · rfl
  · rcases y with _ | _ <;> rfl

/-- What authenticate reads after the MIC. -/
def authHeaderAt (i : List UInt8) : Authenticate.Header :=
  ⟨fieldAt i 12, fieldAt i 20, fieldAt i 28, fieldAt i 36, fieldAt i 44, fieldAt i 52, flagsAt i 60⟩

theorem authenticate_no (cfg : Cfg) (i : List UInt8)
    (h : ¬ (hasHeader i 3 64 ∧ versionBlockOk i 60 64 ∧ 64 + versionSize i 60 + 16 ≤ i.length)) :
    (Wire.deserialize cfg : Parser Authenticate) i = .error .error := by
  show Authenticate.deserialize cfg i = _
  unfold Authenticate.deserialize
  by_cases hh : hasHeader i 3 64
  · rw [authenticate_header_at cfg i hh]
    simp only []
    by_cases hv : versionBlockOk i 60 64
    · rw [version_at cfg i 60 64 hv]
      simp only []
      rw [(fixed_bytes cfg 16).short _ (by
        have : ¬ 64 + versionSize i 60 + 16 ≤ i.length := fun hc => h ⟨hh, hv, hc⟩
        simp only [List.length_drop]; omega)]
    · rw [version_no cfg i 60 64 hh.1 hv]
  · rw [authenticate_header_no cfg i hh]

theorem authenticate_at (cfg : Cfg) (i : List UInt8) (hh : hasHeader i 3 64) (hv : versionBlockOk i 60 64)
    (hm : 64 + versionSize i 60 + 16 ≤ i.length) :
    (Wire.deserialize cfg : Parser Authenticate) i = (do
      let m ← Authenticate.body cfg (authHeaderAt i) (versionAt i 60 64)
        ⟨bytesAt i (64 + versionSize i 60) 16, by simp only [bytesAt, List.length_take, List.length_drop]; omega⟩ i
      pure (m, [])) := by
  show Authenticate.deserialize cfg i = _
  unfold Authenticate.deserialize
  rw [authenticate_header_at cfg i hh]
  simp only [version_at cfg i 60 64 hv]
  have : (Wire.deserialize cfg : Parser (Bytes 16)) (i.drop (64 + versionSize i 60)) = _ := takeBytes_at (n := 16) i _ hm
  simp only [this]
  show (match Authenticate.body cfg (authHeaderAt i) _ _ i with | .error e => _ | .ok m => _) = _
  generalize Authenticate.body cfg (authHeaderAt i) _ _ i = x
  rcases x with _ | _ <;> rfl

/-! ### Aborts -/

theorem panics_map {α β : Type} (x : Except PErr α) (f : α → β) : panics (x >>= fun a => pure (f a)) ↔ panics x := by
  rw [panics_bind]
  simp [panics_ok, pure, Except.pure]

theorem oem_ok (cfg : Cfg) (b : List UInt8) :
    (∃ v r, (Wire.deserialize cfg : Parser OEMString) b = .ok (v, r)) ↔ ∃ s, b = utf8Bytes s := by
  constructor
  · rintro ⟨v, r, h⟩
    obtain ⟨a, h1, rfl⟩ := pmap_inv h
    obtain ⟨c, h2, h3⟩ := mapOpt_inv h1
    simp only [rest, Except.ok.injEq, Prod.mk.injEq] at h2
    rw [← h2.1] at h3
    exact ⟨a, by rw [utf8Bytes_eq, utf8_fromUtf8 h3]⟩
  · rintro ⟨s, rfl⟩
    exact ⟨_, _, oem_decode cfg s⟩

theorem negotiate_panics (cfg : Cfg) (i : List UInt8) :
    panics ((Wire.deserialize cfg : Parser Negotiate) i) ↔ negotiateAborts i := by
  by_cases h : hasHeader i 1 32 ∧ versionBlockOk i 12 32
  · obtain ⟨hh, hv⟩ := h
    rw [negotiate_at cfg i hh hv, panics_bind, getDataIf_panics cfg i 16 true (oem_noPanic cfg _)]
    simp only [true_and, negotiateAborts, hh, hv]
    have hin : ∀ d : Option OEMString,
        panics (((fieldAt i 24).getDataIf cfg i true : Except PErr (Option OEMString)) >>= fun w =>
          pure ((⟨flagsAt i 12, d, w, versionAt i 12 32⟩ : Negotiate), ([] : List UInt8))) ↔ outOfRange i 24 := by
      intro d
      rw [panics_map, getDataIf_panics cfg i 24 true (oem_noPanic cfg _)]
      simp
    simp only [hin]
    have hok := getDataIf_ok (α := OEMString) cfg i 16
    rw [oem_ok] at hok
    by_cases ho : outOfRange i 16
    · simp [ho]
    · simp only [ho, false_or]
      constructor
      · rintro ⟨a, ha, hb⟩
        refine ⟨?_, hb⟩
        rcases hok.mp ⟨a, ha⟩ with h | ⟨_, h⟩
        · exact .inl h
        · exact .inr h
      · rintro ⟨ha, hb⟩
        obtain ⟨x, hx⟩ := hok.mpr (by
          rcases ha with ha | ha
          · exact .inl ha
          · exact .inr ⟨ho, ha⟩)
        exact ⟨x, hx, hb⟩
  · rw [negotiate_no cfg i h]
    simp only [panics_error, false_iff, negotiateAborts]
    rintro ⟨h1, h2, _⟩
    exact h ⟨h1, h2⟩

theorem getManyIf_panics (cfg : Cfg) (i : List UInt8) (p : Nat) :
    panics ((fieldAt i p).getManyIf cfg i true : Except PErr (List AvPair)) ↔
      outOfRange i p ∨ (cfg.debug = true ∧ ¬ emptyField i p ∧ ¬ outOfRange i p ∧ AvResidue cfg (fieldBytes i p)) := by
  by_cases h0 : u16At i p = 0
  · rw [getManyIf_empty cfg i p h0]
    simp [panics_ok, outOfRange, emptyField, h0]
  · by_cases ho : outOfRange i p
    · simp [getManyIf_out cfg i p ho, ho, panics_panic]
    · rw [getManyIf_in cfg i p h0 ho]
      have := avList_panics cfg (fieldBytes i p)
      simp only [ho, false_or, emptyField, h0, not_false_eq_true, true_and]
      rw [← this]
      generalize many0 (Wire.deserialize cfg : Parser AvPair) (fieldBytes i p) = x
      rcases x with e | ⟨_, _⟩
      · exact ⟨fun ⟨q, h⟩ => ⟨q, by simpa using h⟩, fun ⟨q, h⟩ => ⟨q, by simpa using h⟩⟩
      · simp [panics_ok]

/-- A text field in range is always readable. -/
theorem unicode_field (cfg : Cfg) (i : List UInt8) (p : Nat) (ho : ¬ outOfRange i p) :
    ∃ x, ((fieldAt i p).getDataIf cfg i true : Except PErr (Option UnicodeString)) = .ok x := by
  rw [getDataIf_ok]
  by_cases h0 : emptyField i p
  · exact .inl h0
  · obtain ⟨s, r, h, _⟩ := unicode_total cfg (fieldBytes i p)
    exact .inr ⟨ho, _, _, h⟩

theorem challenge_panics (cfg : Cfg) (i : List UInt8) :
    panics ((Wire.deserialize cfg : Parser Challenge) i) ↔ challengeAborts cfg i := by
  by_cases h : challengeHeader cfg i ∧ versionBlockOk i 20 48
  · obtain ⟨hh, hv⟩ := h
    have h24 : 24 + 8 ≤ i.length := by have := hh.1.1; omega
    rw [challenge_at cfg i hh h24 hv, panics_bind, getDataIf_panics cfg i 12 true (unicode_noPanic cfg _)]
    simp only [true_and, challengeAborts, hh, hv]
    by_cases ho : outOfRange i 12
    · simp [ho]
    · simp only [ho, false_or]
      have hin : ∀ t : Option UnicodeString,
          panics (((fieldAt i 40).getManyIf cfg i true : Except PErr (List AvPair)) >>= fun l =>
            if Challenge.lastIsEol l then
              pure ((⟨t, flagsAt i 20, ⟨bytesAt i 24 8, by simp only [bytesAt, List.length_take, List.length_drop]; omega⟩, l,
                versionAt i 20 48⟩ : Challenge), ([] : List UInt8))
            else .error .error) ↔
          outOfRange i 40 ∨ (cfg.debug = true ∧ ¬ emptyField i 40 ∧ ¬ outOfRange i 40 ∧ AvResidue cfg (fieldBytes i 40)) := by
        intro t
        rw [panics_bind, getManyIf_panics]
        constructor
        · rintro (h | ⟨a, _, h⟩)
          · exact h
          · split at h
            · exact absurd h (panics_ok _)
            · exact absurd h panics_error
        · exact .inl
      simp only [hin]
      constructor
      · rintro ⟨_, _, h | ⟨h1, h2, _, h3⟩⟩
        · exact .inl h
        · exact .inr ⟨h1, h2, h3⟩
      · intro h
        obtain ⟨x, hx⟩ := unicode_field cfg i 12 ho
        refine ⟨x, hx, ?_⟩
        by_cases ho4 : outOfRange i 40
        · exact .inl ho4
        · rcases h with h | ⟨h1, h2, h3⟩
          · exact .inl h
          · exact .inr ⟨h1, h2, ho4, h3⟩
  · rw [challenge_no cfg i h]
    simp only [panics_error, false_iff, challengeAborts]
    rintro ⟨h1, h2, _⟩
    exact h ⟨h1, h2⟩

theorem okFlatten_panics {α : Type} (x : Except PErr (Option α)) : panics (Authenticate.okFlatten x) ↔ panics x := by
  rcases x with (_ | _ | p) | _
  · exact ⟨fun h => absurd h (panics_ok _), fun h => absurd h panics_error⟩
  · exact ⟨fun h => absurd h (panics_ok _), fun h => absurd h panics_incomplete⟩
  · exact ⟨fun _ => panics_panic _, fun _ => panics_panic _⟩
  · exact ⟨fun h => absurd h (panics_ok _), fun h => absurd h (panics_ok _)⟩

theorem okFlatten_ok {α : Type} (x : Except PErr (Option α)) (h : ¬ panics x) : ∃ y, Authenticate.okFlatten x = .ok y := by
  rcases x with (_ | _ | p) | _
  · exact ⟨_, rfl⟩
  · exact ⟨_, rfl⟩
  · exact absurd (panics_panic _) h
  · exact ⟨_, rfl⟩

theorem lmResponse_panics (cfg : Cfg) (i : List UInt8) :
    panics (Authenticate.lmResponse cfg (authHeaderAt i) i) ↔ outOfRange i 12 := by
  unfold Authenticate.lmResponse
  split
  · refine Iff.trans ?_ ((okFlatten_panics _).trans
      ((getDataIf_panics cfg i 12 true ((fixed_lmv1 cfg).noPanic _)).trans (by simp)))
    show panics (match Authenticate.okFlatten (Field.getDataIf (α := Lmv1Challenge) cfg (fieldAt i 12) i true) with
      | .ok c => Except.ok (Option.map LmChallenge.v1 c) | .error e => Except.error e) ↔ _
    generalize Authenticate.okFlatten (Field.getDataIf (α := Lmv1Challenge) cfg (fieldAt i 12) i true) = x
    rcases x with e | c
    · exact ⟨fun ⟨q, h⟩ => ⟨q, by simpa using h⟩, fun ⟨q, h⟩ => ⟨q, by simpa using h⟩⟩
    · exact ⟨fun h => absurd h (panics_ok _), fun h => absurd h (panics_ok _)⟩
  · refine Iff.trans ?_ ((okFlatten_panics _).trans
      ((getDataIf_panics cfg i 12 true ((fixed_lmv2 cfg).noPanic _)).trans (by simp)))
    show panics (match Authenticate.okFlatten (Field.getDataIf (α := Lmv2Challenge) cfg (fieldAt i 12) i true) with
      | .ok c => Except.ok (Option.map LmChallenge.v2 c) | .error e => Except.error e) ↔ _
    generalize Authenticate.okFlatten (Field.getDataIf (α := Lmv2Challenge) cfg (fieldAt i 12) i true) = x
    rcases x with e | c
    · exact ⟨fun ⟨q, h⟩ => ⟨q, by simpa using h⟩, fun ⟨q, h⟩ => ⟨q, by simpa using h⟩⟩
    · exact ⟨fun h => absurd h (panics_ok _), fun h => absurd h (panics_ok _)⟩

theorem lmResponse_ok (cfg : Cfg) (i : List UInt8) (h : ¬ outOfRange i 12) :
    ∃ x, Authenticate.lmResponse cfg (authHeaderAt i) i = .ok x := by
  unfold Authenticate.lmResponse
  split
  · obtain ⟨y, hy⟩ := okFlatten_ok ((authHeaderAt i).lm.getDataIf cfg i true : Except PErr (Option Lmv1Challenge)) (by
      intro hc
      exact h ((getDataIf_panics cfg i 12 true ((fixed_lmv1 cfg).noPanic _)).mp hc).2)
    rw [hy]; exact ⟨_, rfl⟩
  · obtain ⟨y, hy⟩ := okFlatten_ok ((authHeaderAt i).lm.getDataIf cfg i true : Except PErr (Option Lmv2Challenge)) (by
      intro hc
      exact h ((getDataIf_panics cfg i 12 true ((fixed_lmv2 cfg).noPanic _)).mp hc).2)
    rw [hy]; exact ⟨_, rfl⟩

theorem nt_ok (cfg : Cfg) (b : List UInt8) :
    (∃ v r, (Wire.deserialize cfg : Parser NtChallenge) b = .ok (v, r)) ↔ ntDecodes cfg b := by
  show (∃ v r, alt _ _ b = .ok (v, r)) ↔ _
  simp only [ntDecodes, ← many0_walk]
  by_cases h : ntv2Fixed cfg b
  · simp only [h, true_and, not_true, false_and, or_false, alt, pmap]
    rw [ntv2_at cfg b h (by have := h.1; omega)]
    rcases hx : many0 (Wire.deserialize cfg : Parser AvPair) (b.drop 28) with e | ⟨l, r⟩
    · rcases many0_avError cfg _ _ (Nat.le_refl _) e hx with rfl | ⟨rfl, _⟩ <;> simp
    · simp
  · simp only [h, not_false_eq_true, true_and, false_and, false_or, alt, pmap]
    rw [ntv2_no cfg b h]
    simp only []
    rcases hx : (Wire.deserialize cfg : Parser Ntv1Challenge) b with e | ⟨l, r⟩
    · simp only [reduceCtorEq, exists_false, false_iff]
      intro hc
      have e1 : b = (⟨⟨b.take 24, by simp only [List.length_take]; omega⟩⟩ : Ntv1Challenge).response.val ++ b.drop 24 :=
        (List.take_append_drop 24 b).symm
      have := dec_ntv1 cfg ⟨⟨b.take 24, by simp only [List.length_take]; omega⟩⟩ (b.drop 24)
      rw [← e1, hx] at this
      simp at this
    · simp only [Except.ok.injEq, Prod.mk.injEq]
      have := canon_ntv1 cfg _ _ _ hx
      refine ⟨fun _ => ?_, fun _ => ⟨_, _, rfl, rfl⟩⟩
      rw [this]
      have := l.response.property
      simp only [List.length_append]
      omega

theorem nt_field_panics (cfg : Cfg) (i : List UInt8) :
    panics ((fieldAt i 20).getDataIf cfg i true : Except PErr (Option NtChallenge)) ↔
      outOfRange i 20 ∨ (cfg.debug = true ∧ ¬ emptyField i 20 ∧ ¬ outOfRange i 20 ∧ ntv2Fixed cfg (fieldBytes i 20) ∧
        AvResidue cfg ((fieldBytes i 20).drop 28)) := by
  by_cases h0 : u16At i 20 = 0
  · rw [getDataIf_empty cfg i 20 true (.inr h0)]
    simp [panics_ok, outOfRange, emptyField, h0]
  · by_cases ho : outOfRange i 20
    · simp [getDataIf_out cfg i 20 ho, ho, panics_panic]
    · rw [getDataIf_in cfg i 20 h0 ho]
      have := nt_panics cfg (fieldBytes i 20)
      simp only [ho, false_or, emptyField, h0, not_false_eq_true, true_and]
      rw [← this]
      generalize (Wire.deserialize cfg : Parser NtChallenge) (fieldBytes i 20) = x
      rcases x with e | ⟨_, _⟩
      · exact ⟨fun ⟨q, h⟩ => ⟨q, by simpa using h⟩, fun ⟨q, h⟩ => ⟨q, by simpa using h⟩⟩
      · simp [panics_ok]

/-- A step of `Authenticate.body` with a text field. -/
theorem panics_text_step {β : Type} (cfg : Cfg) (i : List UInt8) (p : Nat) (f : Option UnicodeString → Except PErr β)
    (Q : Prop) (hf : ∀ a, panics (f a) ↔ Q) :
    panics (((fieldAt i p).getDataIf cfg i true : Except PErr (Option UnicodeString)) >>= f) ↔ outOfRange i p ∨ Q := by
  rw [panics_bind, getDataIf_panics cfg i p true (unicode_noPanic cfg _)]
  by_cases ho : outOfRange i p
  · simp [ho]
  · obtain ⟨x, hx⟩ := unicode_field cfg i p ho
    simp only [ho, and_false, false_or, hf]
    constructor
    · rintro ⟨_, _, h⟩; exact h
    · intro h; exact ⟨x, hx, h⟩

theorem body_panics (cfg : Cfg) (i : List UInt8) (v : Option Version) (mic : Bytes 16) :
    panics (Authenticate.body cfg (authHeaderAt i) v mic i) ↔
      (outOfRange i 12 ∨ outOfRange i 20 ∨
      (cfg.debug = true ∧ ¬ emptyField i 20 ∧ ntv2Fixed cfg (fieldBytes i 20) ∧
        AvResidue cfg ((fieldBytes i 20).drop 28)) ∨
      ((emptyField i 20 ∨ ntDecodes cfg (fieldBytes i 20)) ∧
        (outOfRange i 28 ∨ outOfRange i 36 ∨ outOfRange i 44 ∨ (flagAt i 60 30 ∧ outOfRange i 52)))) := by
  unfold Authenticate.body
  rw [panics_bind, lmResponse_panics]
  by_cases ho : outOfRange i 12
  · simp [ho]
  simp only [ho, false_or]
  have hin : ∀ lm, panics (do
      let nt ← ((authHeaderAt i).nt.getDataIf cfg i true : Except PErr (Option NtChallenge))
      let domain ← ((authHeaderAt i).domain.getDataIf cfg i true : Except PErr (Option UnicodeString))
      let user ← ((authHeaderAt i).user.getDataIf cfg i true : Except PErr (Option UnicodeString))
      let workstation ← ((authHeaderAt i).workstation.getDataIf cfg i true : Except PErr (Option UnicodeString))
      let k ← ((authHeaderAt i).ersk.getDataIf cfg i ((authHeaderAt i).flags.hasFlag Flags.NTLMSSP_NEGOTIATE_KEY_EXCH)
        : Except PErr (Option (Bytes 16)))
      return (⟨lm, nt, domain, user, workstation, k, (authHeaderAt i).flags, v, mic, none⟩ : Authenticate)) ↔
      (panics ((fieldAt i 20).getDataIf cfg i true : Except PErr (Option NtChallenge)) ∨
        (∃ a, ((fieldAt i 20).getDataIf cfg i true : Except PErr (Option NtChallenge)) = .ok a) ∧
        (outOfRange i 28 ∨ outOfRange i 36 ∨ outOfRange i 44 ∨ (flagAt i 60 30 ∧ outOfRange i 52))) := by
    intro lm
    rw [panics_bind]
    have hk : ∀ nt domain user workstation, panics (do
        let k ← ((authHeaderAt i).ersk.getDataIf cfg i ((authHeaderAt i).flags.hasFlag Flags.NTLMSSP_NEGOTIATE_KEY_EXCH)
          : Except PErr (Option (Bytes 16)))
        return (⟨lm, nt, domain, user, workstation, k, (authHeaderAt i).flags, v, mic, none⟩ : Authenticate)) ↔
        flagAt i 60 30 ∧ outOfRange i 52 := by
      intro nt domain user workstation
      rw [panics_map]
      refine (getDataIf_panics cfg i 52 _ ((fixed_bytes cfg 16).noPanic _)).trans ?_
      have e : (authHeaderAt i).flags.hasFlag Flags.NTLMSSP_NEGOTIATE_KEY_EXCH = (u32At i 60).testBit 30 := by
        show (flagsAt i 60).hasFlag _ = _
        rw [hasFlag_testBit _ _ (by decide), flagsAt_bits]; rfl
      rw [e, flagAt]
    have hrest : ∀ nt, panics (do
      let domain ← ((authHeaderAt i).domain.getDataIf cfg i true : Except PErr (Option UnicodeString))
      let user ← ((authHeaderAt i).user.getDataIf cfg i true : Except PErr (Option UnicodeString))
      let workstation ← ((authHeaderAt i).workstation.getDataIf cfg i true : Except PErr (Option UnicodeString))
      let k ← ((authHeaderAt i).ersk.getDataIf cfg i ((authHeaderAt i).flags.hasFlag Flags.NTLMSSP_NEGOTIATE_KEY_EXCH)
        : Except PErr (Option (Bytes 16)))
      return (⟨lm, nt, domain, user, workstation, k, (authHeaderAt i).flags, v, mic, none⟩ : Authenticate)) ↔
        (outOfRange i 28 ∨ outOfRange i 36 ∨ outOfRange i 44 ∨ (flagAt i 60 30 ∧ outOfRange i 52)) := by
      intro nt
      refine panics_text_step cfg i 28 _ _ fun d => ?_
      refine panics_text_step cfg i 36 _ _ fun u => ?_
      exact panics_text_step cfg i 44 _ _ fun w => hk nt d u w
    simp only [hrest]
    constructor
    · rintro (h | ⟨a, h1, h2⟩)
      · exact .inl h
      · exact .inr ⟨⟨a, h1⟩, h2⟩
    · rintro (h | ⟨⟨a, h1⟩, h2⟩)
      · exact .inl h
      · exact .inr ⟨a, h1, h2⟩
  have hin' : (∃ a, Authenticate.lmResponse cfg (authHeaderAt i) i = .ok a ∧
      (panics ((fieldAt i 20).getDataIf cfg i true : Except PErr (Option NtChallenge)) ∨
        (∃ a, ((fieldAt i 20).getDataIf cfg i true : Except PErr (Option NtChallenge)) = .ok a) ∧
        (outOfRange i 28 ∨ outOfRange i 36 ∨ outOfRange i 44 ∨ (flagAt i 60 30 ∧ outOfRange i 52)))) ↔
      (panics ((fieldAt i 20).getDataIf cfg i true : Except PErr (Option NtChallenge)) ∨
        (∃ a, ((fieldAt i 20).getDataIf cfg i true : Except PErr (Option NtChallenge)) = .ok a) ∧
        (outOfRange i 28 ∨ outOfRange i 36 ∨ outOfRange i 44 ∨ (flagAt i 60 30 ∧ outOfRange i 52))) := by
    obtain ⟨x, hx⟩ := lmResponse_ok cfg i ho
    exact ⟨fun ⟨_, _, h⟩ => h, fun h => ⟨x, hx, h⟩⟩
  simp only [hin]
  rw [hin', nt_field_panics, getDataIf_ok, nt_ok]
  by_cases hn : outOfRange i 20
  · simp [hn]
  · simp only [hn, false_or, not_false_eq_true, true_and]

theorem authenticate_panics (cfg : Cfg) (i : List UInt8) :
    panics ((Wire.deserialize cfg : Parser Authenticate) i) ↔ authenticateAborts cfg i := by
  by_cases h : hasHeader i 3 64 ∧ versionBlockOk i 60 64 ∧ 64 + versionSize i 60 + 16 ≤ i.length
  · obtain ⟨hh, hv, hm⟩ := h
    rw [authenticate_at cfg i hh hv hm, panics_map, body_panics]
    simp only [authenticateAborts, hh, hv, hm, true_and]
  · rw [authenticate_no cfg i h]
    simp only [panics_error, false_iff, authenticateAborts]
    rintro ⟨h1, h2, h3, _⟩
    exact h ⟨h1, h2, h3⟩

end Ntlm
