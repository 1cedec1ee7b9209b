import Verif.Lemmas.Bytes
import Verif.Lemmas.DecodeStruct
/-
  The AV pair decoder on every input.
-/
namespace Ntlm

open Spec

/-- The identifier for a number. -/
theorem avId_ofNat (n : Nat) (h : n < 65536) :
    (10 < n ∧ AvId.ofU16 (UInt16.ofNat n) = none) ∨
      (n ≤ 10 ∧ ∃ id, AvId.ofU16 (UInt16.ofNat n) = some id ∧ id.toU16.toNat = n) := by
  have e : (UInt16.ofNat n).toNat = n := by simp only [UInt16.toNat_ofNat']; omega
  by_cases hn : n ≤ 10
  · right
    refine ⟨hn, ?_⟩
    have : n = 0 ∨ n = 1 ∨ n = 2 ∨ n = 3 ∨ n = 4 ∨ n = 5 ∨ n = 6 ∨ n = 7 ∨ n = 8 ∨ n = 9 ∨ n = 10 := by omega
    rcases this with rfl | rfl | rfl | rfl | rfl | rfl | rfl | rfl | rfl | rfl | rfl <;> exact ⟨_, rfl, rfl⟩
  · left
    refine ⟨by omega, ?_⟩
    have ne : ∀ k : UInt16, k.toNat ≤ 10 → UInt16.ofNat n ≠ k := by
      intro k hk hc
      have := congrArg UInt16.toNat hc
      rw [e] at this
      omega
    simp only [AvId.ofU16]
    rw [if_neg (ne _ (by decide)), if_neg (ne _ (by decide)), if_neg (ne _ (by decide)), if_neg (ne _ (by decide)),
      if_neg (ne _ (by decide)), if_neg (ne _ (by decide)), if_neg (ne _ (by decide)), if_neg (ne _ (by decide)),
      if_neg (ne _ (by decide)), if_neg (ne _ (by decide)), if_neg (ne _ (by decide))]

theorem avPair_short (cfg : Cfg) (i : List UInt8) (h : i.length < 4) :
    (Wire.deserialize cfg : Parser AvPair) i = .error .error := by
  show ((Wire.deserialize cfg : Parser AvId) >>= _) i = _
  rcases (fixed_avId cfg).cases i with h1 | ⟨id, h1, h2⟩
  · exact Parser.bind_err h1
  · rw [Parser.bind_ok h1]
    have : lengthData leU16 (i.drop 2) = .error .error := by
      simp only [lengthData, leU16_eq]
      rw [if_pos (by simp only [List.length_drop]; omega)]
    exact Parser.bind_err this

theorem avPair_unknown (cfg : Cfg) (i : List UInt8) (h : 10 < u16At i 0) :
    (Wire.deserialize cfg : Parser AvPair) i = .error .error := by
  show ((Wire.deserialize cfg : Parser AvId) >>= _) i = _
  have : (Wire.deserialize cfg : Parser AvId) i = .error .error := by
    simp only [Wire.deserialize, mapOpt, leU16_eq, leVal_take2]
    split
    · rename_i a r heq
      split at heq
      · simp at heq
      · simp only [Except.ok.injEq, Prod.mk.injEq] at heq
        rcases avId_ofNat (u16At i 0) (u16At_lt i 0) with ⟨_, h2⟩ | ⟨h1, _⟩
        · rw [← heq.1, h2]
        · omega
    · rename_i e heq
      split at heq
      · simpa using heq.symm
      · simp at heq
  exact Parser.bind_err this

/-- The pair decoder once at least four bytes and a known identifier are there. -/
theorem avPair_known (cfg : Cfg) (i : List UInt8) (h4 : 4 ≤ i.length) (hid : u16At i 0 ≤ 10) :
    ∃ id : AvId, id.toU16.toNat = u16At i 0 ∧
      (Wire.deserialize cfg : Parser AvPair) i =
        if i.length < 4 + u16At i 2 then .error .incomplete
        else AvPair.deserializeValue cfg id (bytesAt i 4 (u16At i 2)) (i.drop (4 + u16At i 2)) := by
  rcases avId_ofNat (u16At i 0) (u16At_lt i 0) with ⟨h1, _⟩ | ⟨_, id, h2, h3⟩
  · omega
  refine ⟨id, h3, ?_⟩
  have hi : (Wire.deserialize cfg : Parser AvId) i = .ok (id, i.drop 2) := by
    simp only [Wire.deserialize, mapOpt, leU16_eq, leVal_take2]
    rw [if_neg (by omega)]
    simp only [h2]
  show ((Wire.deserialize cfg : Parser AvId) >>= _) i = _
  rw [Parser.bind_ok hi]
  have hl : lengthData leU16 (i.drop 2) =
      if i.length < 4 + u16At i 2 then .error .incomplete
      else .ok (bytesAt i 4 (u16At i 2), i.drop (4 + u16At i 2)) := by
    have e : (UInt16.ofNat (u16At i 2)).toNat = u16At i 2 := by
      have := u16At_lt i 2
      simp only [UInt16.toNat_ofNat']; omega
    simp only [lengthData, leU16_eq, leVal_take2, u16At_drop]
    rw [if_neg (by simp only [List.length_drop]; omega)]
    simp only [Nat.add_zero, e, List.length_drop, List.drop_drop, bytesAt]
    have hd : 2 + (2 + u16At i 2) = 4 + u16At i 2 := by omega
    by_cases hlt : i.length < 4 + u16At i 2
    · rw [if_pos hlt, if_pos (by omega)]
    · rw [if_neg hlt, if_neg (by omega)]
  by_cases hlt : i.length < 4 + u16At i 2
  · rw [if_pos hlt] at hl ⊢
    exact Parser.bind_err (f := fun data after => AvPair.deserializeValue cfg id data after) hl
  · rw [if_neg hlt] at hl ⊢
    exact Parser.bind_ok (f := fun data after => AvPair.deserializeValue cfg id data after) hl

/-- What a value decoder can do: give a pair with the wanted identifier, a plain error, or a failed debug assertion. -/
def ValueRes (cfg : Cfg) (id : AvId) (after : List UInt8) (x : Except PErr (AvPair × List UInt8)) : Prop :=
  (∃ p, x = .ok (p, after) ∧ p.getId = id) ∨ x = .error .error ∨
    (x = .error (.panic .debugAssert) ∧ cfg.debug = true)

theorem avValue_res {α : Type} (cfg : Cfg) (p : Parser α) (mk : α → AvPair) (id : AvId) (data after : List UInt8)
    (hmk : ∀ a, (mk a).getId = id) (hp : ∀ e, p data = .error e → e = .error) :
    ValueRes cfg id after (avValue cfg p mk data after) := by
  simp only [avValue]
  cases h : p data with
  | error e => rw [hp e h]; exact .inr (.inl rfl)
  | ok v =>
    obtain ⟨a, r⟩ := v
    simp only []
    split
    · rename_i hc
      simp only [Bool.and_eq_true] at hc
      exact .inr (.inr ⟨rfl, hc.1⟩)
    · exact .inl ⟨_, rfl, hmk a⟩

theorem unicode_noErr (cfg : Cfg) (data : List UInt8) (e : PErr)
    (h : (Wire.deserialize cfg : Parser UnicodeString) data = .error e) : e = .error := by
  obtain ⟨s, r, h1, _⟩ := unicode_total cfg data
  rw [h1] at h
  simp at h

theorem deserializeValue_res (cfg : Cfg) (id : AvId) (data after : List UInt8) :
    ValueRes cfg id after (AvPair.deserializeValue cfg id data after) := by
  cases id with
  | eol =>
    simp only [AvPair.deserializeValue]
    split
    · exact .inr (.inl rfl)
    · exact .inl ⟨_, rfl, rfl⟩
  | nbComputerName => exact avValue_res _ _ _ _ _ _ (fun _ => rfl) (unicode_noErr cfg data)
  | nbDomainName => exact avValue_res _ _ _ _ _ _ (fun _ => rfl) (unicode_noErr cfg data)
  | dnsComputerName => exact avValue_res _ _ _ _ _ _ (fun _ => rfl) (unicode_noErr cfg data)
  | dnsDomainName => exact avValue_res _ _ _ _ _ _ (fun _ => rfl) (unicode_noErr cfg data)
  | dnsTreeName => exact avValue_res _ _ _ _ _ _ (fun _ => rfl) (unicode_noErr cfg data)
  | targetName => exact avValue_res _ _ _ _ _ _ (fun _ => rfl) (unicode_noErr cfg data)
  | flags => exact avValue_res _ _ _ _ _ _ (fun _ => rfl) (fun _ h => (fixed_avFlags cfg).error h)
  | timestamp => exact avValue_res _ _ _ _ _ _ (fun _ => rfl) (fun _ h => (fixed_fileTime cfg).error h)
  | singleHost => exact avValue_res _ _ _ _ _ _ (fun _ => rfl) (fun _ h => (fixed_singleHost cfg).error h)
  | channelBindings => exact avValue_res _ _ _ _ _ _ (fun _ => rfl) (fun _ h => (fixed_takeBytes 16).error h)

/-- All outcomes of the pair decoder. -/
theorem avPair_cases (cfg : Cfg) (i : List UInt8) :
    ((Wire.deserialize cfg : Parser AvPair) i = .error .error) ∨
    ((Wire.deserialize cfg : Parser AvPair) i = .error .incomplete ∧ i.length < 4 + u16At i 2) ∨
    ((Wire.deserialize cfg : Parser AvPair) i = .error (.panic .debugAssert) ∧ cfg.debug = true) ∨
    (∃ p, (Wire.deserialize cfg : Parser AvPair) i = .ok (p, i.drop (4 + u16At i 2)) ∧ avIdValue p = u16At i 0 ∧
      4 + u16At i 2 ≤ i.length) := by
  by_cases h4 : i.length < 4
  · exact .inl (avPair_short cfg i h4)
  by_cases hid : u16At i 0 ≤ 10
  · obtain ⟨id, h1, h2⟩ := avPair_known cfg i (by omega) hid
    rw [h2]
    split
    · exact .inr (.inl ⟨rfl, by assumption⟩)
    · rcases deserializeValue_res cfg id (bytesAt i 4 (u16At i 2)) (i.drop (4 + u16At i 2)) with
        ⟨p, h3, h5⟩ | h3 | ⟨h3, h5⟩
      · exact .inr (.inr (.inr ⟨p, h3, by rw [← avId_toU16, h5, h1], by omega⟩))
      · exact .inl h3
      · exact .inr (.inr (.inl ⟨h3, h5⟩))
  · exact .inl (avPair_unknown cfg i (by omega))

end Ntlm
