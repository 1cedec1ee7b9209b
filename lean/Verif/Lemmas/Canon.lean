import Verif.Lemmas.Bytes
import Verif.Lemmas.DecodeStruct
/-
  Decoders of the fixed-size structures accept only what the encoders write.
-/
namespace Ntlm

open Spec

theorem Parser.bind_inv {α β : Type} {p : Parser α} {f : α → Parser β} {i r : List UInt8} {b : β}
    (h : (p >>= f) i = .ok (b, r)) : ∃ a i', p i = .ok (a, i') ∧ f a i' = .ok (b, r) := by
  rw [Parser.bind_apply] at h
  cases hp : p i with
  | error e => simp [hp] at h
  | ok v => exact ⟨v.1, v.2, rfl, by simpa [hp] using h⟩

theorem Parser.pure_inv {α : Type} {a b : α} {i r : List UInt8} (h : (pure a : Parser α) i = .ok (b, r)) :
    a = b ∧ i = r := by
  simpa using h

theorem verify_inv {α : Type} {p : Parser α} {ok : α → Bool} {i r : List UInt8} {a : α}
    (h : verify p ok i = .ok (a, r)) : p i = .ok (a, r) ∧ ok a = true := by
  rw [verify_eq] at h
  cases hp : p i with
  | error e => simp [hp] at h
  | ok v =>
    obtain ⟨b, r'⟩ := v
    simp only [hp] at h
    split at h
    · simp only [Except.ok.injEq, Prod.mk.injEq] at h
      obtain ⟨rfl, rfl⟩ := h
      exact ⟨rfl, by assumption⟩
    · simp at h

theorem pmap_inv {α β : Type} {p : Parser α} {f : α → β} {i r : List UInt8} {b : β}
    (h : pmap p f i = .ok (b, r)) : ∃ a, p i = .ok (a, r) ∧ f a = b := by
  simp only [pmap] at h
  cases hp : p i with
  | error e => simp [hp] at h
  | ok v =>
    obtain ⟨a, r'⟩ := v
    simp only [hp, Except.ok.injEq, Prod.mk.injEq] at h
    exact ⟨a, by simp [h.2], h.1⟩

theorem mapOpt_inv {α β : Type} {p : Parser α} {f : α → Option β} {i r : List UInt8} {b : β}
    (h : mapOpt p f i = .ok (b, r)) : ∃ a, p i = .ok (a, r) ∧ f a = some b := by
  simp only [mapOpt] at h
  cases hp : p i with
  | error e => simp [hp] at h
  | ok v =>
    obtain ⟨a, r'⟩ := v
    simp only [hp] at h
    cases hf : f a with
    | none => simp [hf] at h
    | some b' =>
      simp only [hf, Except.ok.injEq, Prod.mk.injEq] at h
      exact ⟨a, by simp [h.2], by simp [hf, h.1]⟩

theorem leNat_canon {k : Nat} {i r : List UInt8} {n : Nat} (h : leNat k i = .ok (n, r)) :
    i = le k n ++ r ∧ n < 256 ^ k := by
  rw [leNat_eq] at h
  split at h
  · simp at h
  · rename_i hl
    simp only [Except.ok.injEq, Prod.mk.injEq] at h
    obtain ⟨rfl, rfl⟩ := h
    have hk : (i.take k).length = k := by simp only [List.length_take]; omega
    have e := leBytes_leVal (i.take k)
    rw [hk] at e
    rw [le_eq, e, List.take_append_drop]
    have := leVal_lt (i.take k)
    rw [hk] at this
    exact ⟨rfl, this⟩

theorem leU8_canon {i r : List UInt8} {n : UInt8} (h : leU8 i = .ok (n, r)) : i = le 1 n.toNat ++ r := by
  obtain ⟨a, i', h1, h2⟩ := Parser.bind_inv h
  obtain ⟨rfl, rfl⟩ := Parser.pure_inv h2
  obtain ⟨h3, h4⟩ := leNat_canon h1
  rw [h3, UInt8.toNat_ofNat', Nat.mod_eq_of_lt (by omega)]

theorem leU16_canon {i r : List UInt8} {n : UInt16} (h : leU16 i = .ok (n, r)) : i = le 2 n.toNat ++ r := by
  obtain ⟨a, i', h1, h2⟩ := Parser.bind_inv h
  obtain ⟨rfl, rfl⟩ := Parser.pure_inv h2
  obtain ⟨h3, h4⟩ := leNat_canon h1
  rw [h3, UInt16.toNat_ofNat', Nat.mod_eq_of_lt (by omega)]

theorem leU24_canon {i r : List UInt8} {n : UInt32} (h : leU24 i = .ok (n, r)) : i = le 3 n.toNat ++ r := by
  obtain ⟨a, i', h1, h2⟩ := Parser.bind_inv h
  obtain ⟨rfl, rfl⟩ := Parser.pure_inv h2
  obtain ⟨h3, h4⟩ := leNat_canon h1
  rw [h3, UInt32.toNat_ofNat', Nat.mod_eq_of_lt (by omega)]

theorem leU32_canon {i r : List UInt8} {n : UInt32} (h : leU32 i = .ok (n, r)) : i = le 4 n.toNat ++ r := by
  obtain ⟨a, i', h1, h2⟩ := Parser.bind_inv h
  obtain ⟨rfl, rfl⟩ := Parser.pure_inv h2
  obtain ⟨h3, h4⟩ := leNat_canon h1
  rw [h3, UInt32.toNat_ofNat', Nat.mod_eq_of_lt (by omega)]

theorem leU64_canon {i r : List UInt8} {n : UInt64} (h : leU64 i = .ok (n, r)) : i = le 8 n.toNat ++ r := by
  obtain ⟨a, i', h1, h2⟩ := Parser.bind_inv h
  obtain ⟨rfl, rfl⟩ := Parser.pure_inv h2
  obtain ⟨h3, h4⟩ := leNat_canon h1
  rw [h3, UInt64.toNat_ofNat', Nat.mod_eq_of_lt (by omega)]

theorem takeBytes_canon {n : Nat} {i r : List UInt8} {b : Bytes n} (h : takeBytes n i = .ok (b, r)) : i = b.val ++ r := by
  simp only [takeBytes] at h
  split at h
  · simp at h
  · simp only [Except.ok.injEq, Prod.mk.injEq] at h
    obtain ⟨rfl, rfl⟩ := h
    simp

theorem tag_canon {t i r : List UInt8} {u : Unit} (h : tag t i = .ok (u, r)) : i = t ++ r := by
  simp only [tag] at h
  split at h
  · rename_i ht
    simp only [Except.ok.injEq, Prod.mk.injEq] at h
    rw [← h.2]
    conv => lhs; rw [← List.take_append_drop t.length i, ht]
  · simp at h

/-- `Wire.deserialize` accepts only `enc x ++ r`, giving `(x, r)`. -/
def Canon {α : Type} [Wire α] (cfg : Cfg) (enc : α → List UInt8) : Prop :=
  ∀ i x r, Wire.deserialize cfg i = .ok (x, r) → i = enc x ++ r

theorem canon_bytes (cfg : Cfg) (n : Nat) : Canon cfg (fun b : Bytes n => b.val) := fun _ _ _ h => takeBytes_canon h

theorem canon_flags (cfg : Cfg) : Canon cfg (fun f : Flags => le 4 f.bits.toNat) := by
  intro i x r h
  obtain ⟨a, h1, rfl⟩ := pmap_inv h
  exact leU32_canon (verify_inv h1).1

theorem canon_field (cfg : Cfg) :
    Canon cfg (fun f : Field => le 2 f.len.toNat ++ le 2 f.maxLen.toNat ++ le 4 f.offset.toNat) := by
  intro i x r h
  obtain ⟨a, i1, h1, h⟩ := Parser.bind_inv h
  obtain ⟨b, i2, h2, h⟩ := Parser.bind_inv h
  obtain ⟨c, i3, h3, h⟩ := Parser.bind_inv h
  obtain ⟨rfl, rfl⟩ := Parser.pure_inv h
  rw [leU16_canon h1, leU16_canon h2, leU32_canon h3]
  simp only [List.append_assoc]

theorem canon_version (cfg : Cfg) : Canon cfg versionBytes := by
  intro i x r h
  obtain ⟨a, i1, h1, h⟩ := Parser.bind_inv h
  obtain ⟨b, i2, h2, h⟩ := Parser.bind_inv h
  obtain ⟨c, i3, h3, h⟩ := Parser.bind_inv h
  obtain ⟨d, i4, h4, h⟩ := Parser.bind_inv h
  obtain ⟨e, i5, h5, h⟩ := Parser.bind_inv h
  obtain ⟨rfl, rfl⟩ := Parser.pure_inv h
  have hd : d = 0 := by simpa using (verify_inv h4).2
  rw [leU8_canon h1, leU8_canon h2, leU16_canon h3, leU24_canon (verify_inv h4).1, leU8_canon (verify_inv h5).1, hd]
  simp only [versionBytes, List.append_assoc]
  rfl

theorem canon_fileTime (cfg : Cfg) : Canon cfg fileTimeBytes := by
  intro i x r h
  have h' : (do let low ← leU32; let high ← leU32; return ({ low, high } : FileTime) : Parser FileTime) i = .ok (x, r) := by
    simp only [Wire.deserialize] at h
    split at h
    · rename_i me r' heq
      split at h
      · simp at h
      · rw [heq, h]
    · simp at h
  obtain ⟨a, i1, h1, h⟩ := Parser.bind_inv h'
  obtain ⟨b, i2, h2, h⟩ := Parser.bind_inv h
  obtain ⟨rfl, rfl⟩ := Parser.pure_inv h
  rw [leU32_canon h1, leU32_canon h2]
  simp only [fileTimeBytes, List.append_assoc]

theorem canon_singleHost (cfg : Cfg) : Canon cfg singleHostBytes := by
  intro i x r h
  obtain ⟨a, i1, h1, h⟩ := Parser.bind_inv h
  obtain ⟨b, i2, h2, h⟩ := Parser.bind_inv h
  obtain ⟨c, i3, h3, h⟩ := Parser.bind_inv h
  obtain ⟨d, i4, h4, h⟩ := Parser.bind_inv h
  obtain ⟨rfl, rfl⟩ := Parser.pure_inv h
  rw [leU32_canon h1, leU32_canon (verify_inv h2).1, takeBytes_canon h3, takeBytes_canon h4]
  simp only [singleHostBytes, List.append_assoc]

theorem canon_signature (cfg : Cfg) : Canon cfg signatureBytes := by
  intro i x r h
  obtain ⟨a, i1, h1, h⟩ := Parser.bind_inv h
  obtain ⟨b, i2, h2, h⟩ := Parser.bind_inv h
  obtain ⟨c, i3, h3, h⟩ := Parser.bind_inv h
  obtain ⟨d, i4, h4, h⟩ := Parser.bind_inv h
  obtain ⟨rfl, rfl⟩ := Parser.pure_inv h
  have hd : a = 1 := by simpa using (verify_inv h1).2
  rw [leU32_canon (verify_inv h1).1, takeBytes_canon h2, leU32_canon h3, leU32_canon h4, hd]
  simp only [signatureBytes, List.append_assoc]
  rfl

/-- A word with no bit outside the low three is below 8. -/
theorem avFlags_word {n : UInt32} (h : n &&& ~~~(0x7 : UInt32) = 0) : n.toNat < 8 := by
  have h1 := congrArg UInt32.toNat h
  rw [UInt32.toNat_and] at h1
  have h2 : (~~~(0x7 : UInt32)).toNat = 2 ^ 32 - 8 := by decide
  rw [h2] at h1
  have hb := n.toNat_lt
  apply Classical.byContradiction
  intro hc
  -- some bit from 3 to 31 is set
  have h3 : n.toNat >>> 3 ≠ 0 := by rw [Nat.shiftRight_eq_div_pow]; omega
  obtain ⟨j, hj⟩ := Nat.exists_testBit_of_ne_zero h3
  rw [Nat.testBit_shiftRight] at hj
  have hj32 : 3 + j < 32 := by
    apply Classical.byContradiction
    intro hge
    rw [Nat.testBit_lt_two_pow (Nat.lt_of_lt_of_le hb (Nat.pow_le_pow_right (by omega) (by omega)))] at hj
    simp at hj
  have h4 : ((2 ^ 32 - 8 : Nat)).testBit (3 + j) = true := by
    have : (2 ^ 32 - 8 : Nat) = 2 ^ 32 - (7 + 1) := by rfl
    rw [this, Nat.testBit_two_pow_sub_succ (by omega)]
    have h7 : (7 : Nat).testBit (3 + j) = false := Nat.testBit_lt_two_pow (by
      calc (7 : Nat) < 2 ^ 3 := by omega
        _ ≤ 2 ^ (3 + j) := Nat.pow_le_pow_right (by omega) (by omega))
    simp [h7, hj32]
  have := congrArg (fun m => Nat.testBit m (3 + j)) h1
  simp only [Nat.testBit_and, hj, h4] at this
  simp at this

theorem canon_avFlags (cfg : Cfg) : Canon cfg (fun f : MsvAvFlags => le 4 (avFlagsValue f)) := by
  intro i x r h
  obtain ⟨n, i1, h1, h⟩ := Parser.bind_inv h
  obtain ⟨rfl, rfl⟩ := Parser.pure_inv h
  obtain ⟨h2, h3⟩ := verify_inv h1
  rw [leU32_canon h2]
  have hlt : n.toNat < 8 := avFlags_word (by simpa using h3)
  congr 2
  have hn : n = UInt32.ofNat n.toNat := by simp
  generalize n.toNat = m at *
  subst hn
  have : m = 0 ∨ m = 1 ∨ m = 2 ∨ m = 3 ∨ m = 4 ∨ m = 5 ∨ m = 6 ∨ m = 7 := by omega
  rcases this with rfl | rfl | rfl | rfl | rfl | rfl | rfl | rfl <;> rfl

theorem canon_avId (cfg : Cfg) : Canon cfg (fun x : AvId => le 2 x.toU16.toNat) := by
  intro i x r h
  obtain ⟨n, h1, h2⟩ := mapOpt_inv h
  have : x.toU16 = n := by
    simp only [AvId.ofU16] at h2
    repeat' split at h2
    all_goals first
      | (simp only [Option.some.injEq] at h2; subst h2; subst_vars; rfl)
      | simp at h2
  show i = le 2 x.toU16.toNat ++ r
  rw [this]
  exact leU16_canon h1

theorem canon_lmv1 (cfg : Cfg) : Canon cfg (fun c : Lmv1Challenge => c.response.val) := by
  intro i x r h
  obtain ⟨a, i1, h1, h⟩ := Parser.bind_inv h
  obtain ⟨rfl, rfl⟩ := Parser.pure_inv h
  exact takeBytes_canon h1

theorem canon_ntv1 (cfg : Cfg) : Canon cfg (fun c : Ntv1Challenge => c.response.val) := by
  intro i x r h
  obtain ⟨a, i1, h1, h⟩ := Parser.bind_inv h
  obtain ⟨rfl, rfl⟩ := Parser.pure_inv h
  exact takeBytes_canon h1

theorem canon_lmv2 (cfg : Cfg) : Canon cfg (fun c : Lmv2Challenge => c.response.val ++ c.challengeFromClient.val) := by
  intro i x r h
  obtain ⟨a, i1, h1, h⟩ := Parser.bind_inv h
  obtain ⟨b, i2, h2, h⟩ := Parser.bind_inv h
  obtain ⟨rfl, rfl⟩ := Parser.pure_inv h
  rw [takeBytes_canon h1, takeBytes_canon h2]
  simp only [List.append_assoc]

/-- An 8-byte block is accepted exactly when bytes 4 to 6 are zero and byte 7 is 15; the other bytes are major,
    minor and little-endian build. -/
theorem version_accepts (cfg : Cfg) (i : List UInt8) (v : Version) (r : List UInt8) :
    Wire.deserialize cfg i = .ok (v, r) ↔
      8 ≤ i.length ∧ byteAt i 4 = 0 ∧ byteAt i 5 = 0 ∧ byteAt i 6 = 0 ∧ byteAt i 7 = 15 ∧ r = i.drop 8 ∧
        v.major.toNat = byteAt i 0 ∧ v.minor.toNat = byteAt i 1 ∧ v.build.toNat = u16At i 2 ∧
        v.revisionCount.toNat = 15 := by
  constructor
  · intro h
    have hi := canon_version cfg i v r h
    have hrev : v.revisionCount = 15 := by
      rw [hi, version_decode] at h
      split at h
      · assumption
      · simp at h
    have hb := v.build.toNat_lt
    have h0 := v.major.toNat_lt
    have h1 := v.minor.toNat_lt
    have hx : i = UInt8.ofNat v.major.toNat :: UInt8.ofNat v.minor.toNat :: UInt8.ofNat (v.build.toNat % 256) ::
        UInt8.ofNat (v.build.toNat / 256 % 256) :: 0 :: 0 :: 0 :: 15 :: r := by
      rw [hi]
      simp only [versionBytes, le_eq, leBytes, hrev]
      rw [Nat.mod_eq_of_lt h0, Nat.mod_eq_of_lt h1]
      rfl
    rw [hx]
    refine ⟨by simp, rfl, rfl, rfl, rfl, rfl, ?_, ?_, ?_, by rw [hrev]; rfl⟩
    · simp [byteAt]
    · simp [byteAt]
    · simp only [u16At, byteAt, List.getD_cons_succ, List.getD_cons_zero, UInt8.toNat_ofNat']
      omega
  · rintro ⟨hl, h4, h5, h6, h7, rfl, hmaj, hmin, hb, hr⟩
    have hr' : v.revisionCount = 15 := UInt8.toNat_inj.mp hr
    have key := version_decode cfg v (i.drop 8)
    rw [if_pos hr'] at key
    rw [← key]
    congr 1
    match i, hl with
    | a0 :: a1 :: a2 :: a3 :: a4 :: a5 :: a6 :: a7 :: t, _ =>
      simp only [byteAt, u16At, List.getD_cons_succ, List.getD_cons_zero, Nat.reduceAdd] at *
      have z4 : a4 = 0 := UInt8.toNat_inj.mp (by simpa using h4)
      have z5 : a5 = 0 := UInt8.toNat_inj.mp (by simpa using h5)
      have z6 : a6 = 0 := UInt8.toNat_inj.mp (by simpa using h6)
      have z7 : a7 = 15 := UInt8.toNat_inj.mp (by simpa using h7)
      subst z4 z5 z6 z7
      have l2 := a2.toNat_lt
      have l0 := a0.toNat_lt
      have l1 := a1.toNat_lt
      have l3 := a3.toNat_lt
      simp only [versionBytes, le_eq, leBytes, hr', hmaj, hmin, hb]
      have q1 : (a2.toNat + 256 * a3.toNat) % 256 = a2.toNat := by omega
      have q2 : (a2.toNat + 256 * a3.toNat) / 256 % 256 = a3.toNat := by omega
      rw [Nat.mod_eq_of_lt l0, Nat.mod_eq_of_lt l1, q1, q2]
      simp

end Ntlm
