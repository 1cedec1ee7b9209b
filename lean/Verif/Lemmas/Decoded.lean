import Verif.Lemmas.Panic
/-
  Facts about whatever a decoder returns.
-/
namespace Ntlm

open Spec

theorem avValue_inv {α : Type} {cfg : Cfg} {p : Parser α} {mk : α → AvPair} {data after r : List UInt8} {x : AvPair}
    (h : avValue cfg p mk data after = .ok (x, r)) : ∃ a s, p data = .ok (a, s) ∧ x = mk a ∧ r = after := by
  simp only [avValue] at h
  rcases hp : p data with e | ⟨a, s⟩
  · simp [hp] at h
  · simp only [hp] at h
    split at h
    · simp at h
    · simp only [Except.ok.injEq, Prod.mk.injEq] at h
      exact ⟨a, s, rfl, h.1.symm, h.2.symm⟩

/-- A decoded value survives re-encoding and is not longer than what it was decoded from. -/
theorem value_decoded (cfg : Cfg) (id : AvId) (data after r : List UInt8) (p : AvPair)
    (h : AvPair.deserializeValue cfg id data after = .ok (p, r)) :
    pairOk cfg p ∧ (avValueBytes p).length ≤ data.length := by
  have text : ∀ mk : UnicodeString → AvPair, avValue cfg (Wire.deserialize cfg : Parser UnicodeString) mk data after = .ok (p, r) →
      ∃ s, plain s ∧ p = mk ⟨s⟩ ∧ (utf16le s).length ≤ data.length := by
    intro mk h
    obtain ⟨a, t, h1, h2, _⟩ := avValue_inv h
    obtain ⟨s, r', h3, h4, h5, _⟩ := unicode_total cfg data
    rw [h3] at h1
    simp only [Except.ok.injEq, Prod.mk.injEq] at h1
    refine ⟨s, h4, by rw [h2, ← h1.1], ?_⟩
    rw [h5, List.length_append]; omega
  cases id with
  | eol =>
    simp only [AvPair.deserializeValue] at h
    split at h
    · simp at h
    · simp only [Except.ok.injEq, Prod.mk.injEq] at h
      rw [← h.1]
      exact ⟨trivial, by simp [avValueBytes]⟩
  | nbComputerName => obtain ⟨s, h1, rfl, h3⟩ := text _ h; exact ⟨h1, h3⟩
  | nbDomainName => obtain ⟨s, h1, rfl, h3⟩ := text _ h; exact ⟨h1, h3⟩
  | dnsComputerName => obtain ⟨s, h1, rfl, h3⟩ := text _ h; exact ⟨h1, h3⟩
  | dnsDomainName => obtain ⟨s, h1, rfl, h3⟩ := text _ h; exact ⟨h1, h3⟩
  | dnsTreeName => obtain ⟨s, h1, rfl, h3⟩ := text _ h; exact ⟨h1, h3⟩
  | targetName => obtain ⟨s, h1, rfl, h3⟩ := text _ h; exact ⟨h1, h3⟩
  | flags =>
    obtain ⟨a, t, h1, rfl, _⟩ := avValue_inv h
    refine ⟨trivial, ?_⟩
    have := canon_avFlags cfg _ _ _ h1
    rw [this]
    simp [avValueBytes, length_le]
  | timestamp =>
    obtain ⟨a, t, h1, rfl, _⟩ := avValue_inv h
    have hc := canon_fileTime cfg _ _ _ h1
    rw [hc, fileTime_decode] at h1
    refine ⟨?_, by rw [hc]; simp [avValueBytes]⟩
    by_cases ht : timeOk cfg a
    · exact ht
    · simp [ht] at h1
  | singleHost =>
    obtain ⟨a, t, h1, rfl, _⟩ := avValue_inv h
    have hc := canon_singleHost cfg _ _ _ h1
    rw [hc, singleHost_decode] at h1
    refine ⟨?_, by rw [hc]; simp [avValueBytes]⟩
    by_cases ht : a.z4 = 0
    · exact ht
    · simp [ht] at h1
  | channelBindings =>
    obtain ⟨a, t, h1, rfl, _⟩ := avValue_inv h
    have hc := takeBytes_canon h1
    exact ⟨trivial, by rw [hc]; simp [avValueBytes]⟩

theorem pair_decoded (cfg : Cfg) (i r : List UInt8) (p : AvPair)
    (h : (Wire.deserialize cfg : Parser AvPair) i = .ok (p, r)) :
    pairOk cfg p ∧ avPairFits p ∧ (avPairBytes p).length + r.length ≤ i.length := by
  by_cases h4 : i.length < 4
  · rw [avPair_short cfg i h4] at h; simp at h
  by_cases hid : u16At i 0 ≤ 10
  · obtain ⟨id, h1, h2⟩ := avPair_known cfg i (by omega) hid
    rw [h2] at h
    split at h
    · simp at h
    · rename_i hlt
      obtain ⟨h3, h5⟩ := value_decoded cfg _ _ _ _ _ h
      have hr : r = i.drop (4 + u16At i 2) := by
        rcases deserializeValue_res cfg id (bytesAt i 4 (u16At i 2)) (i.drop (4 + u16At i 2)) with
          ⟨q, h6, _⟩ | h6 | ⟨h6, _⟩
        · rw [h] at h6
          simp only [Except.ok.injEq, Prod.mk.injEq] at h6
          exact h6.2
        · rw [h] at h6; simp at h6
        · rw [h] at h6; simp at h6
      have := u16At_lt i 2
      have hl : (bytesAt i 4 (u16At i 2)).length ≤ u16At i 2 := by simp only [bytesAt, List.length_take]; omega
      refine ⟨h3, ?_, ?_⟩
      · simp only [avPairFits]; omega
      · rw [hr, length_avPairBytes, List.length_drop]; omega
  · rw [avPair_unknown cfg i (by omega)] at h; simp at h

theorem walk_decoded {cfg : Cfg} {i r : List UInt8} {l : List AvPair} (h : AvWalk cfg i l r) :
    (∀ p ∈ l, pairOk cfg p ∧ avPairFits p) ∧ (avListBytes l).length + r.length ≤ i.length := by
  induction h with
  | stop h => simp [avListBytes]
  | step h hd _ ih =>
    obtain ⟨h1, h2, h3⟩ := pair_decoded cfg _ _ _ ((avPair_ok_iff cfg _ _ _).mpr ⟨h, hd, rfl⟩)
    refine ⟨?_, ?_⟩
    · intro q hq
      rcases List.mem_cons.mp hq with rfl | hq
      · exact ⟨h1, h2⟩
      · exact ih.1 q hq
    · rw [avListBytes_cons, List.length_append]
      have := ih.2
      omega

end Ntlm
