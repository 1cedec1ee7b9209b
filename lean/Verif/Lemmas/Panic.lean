import Verif.Lemmas.Positions
import Verif.Lemmas.Units
/-
  When the AV pair and NTLMv2 response decoders abort.
-/
namespace Ntlm

open Spec

theorem take4_eq (i : List UInt8) (h : 4 ≤ i.length) : i.take 4 = le 4 (u32At i 0) := by
  have hl : (i.take 4).length = 4 := by simp only [List.length_take]; omega
  have := leBytes_leVal (i.take 4)
  rw [hl, leVal_take4] at this
  rw [le_eq, this]

theorem bytesAt4_eq (i : List UInt8) (k : Nat) (h : k + 4 ≤ i.length) : (i.drop k).take 4 = le 4 (u32At i k) := by
  have := take4_eq (i.drop k) (by simp only [List.length_drop]; omega)
  rwa [u32At_drop] at this

/-- The file time at a position. -/
def fileTimeAt (i : List UInt8) (k : Nat) : FileTime := ⟨UInt32.ofNat (u32At i k), UInt32.ofNat (u32At i (k + 4))⟩

theorem ofNat_u32At (i : List UInt8) (k : Nat) : (UInt32.ofNat (u32At i k)).toNat = u32At i k := by
  have := u32At_lt i k; simp only [UInt32.toNat_ofNat']; omega

theorem fileTime_at (cfg : Cfg) (i : List UInt8) (k : Nat) (h : k + 8 ≤ i.length) :
    (Wire.deserialize cfg : Parser FileTime) (i.drop k) =
      if (2 ^ 32 * u32At i (k + 4) + u32At i k) / 1000000 ≤ cfg.platform.maxSecs then
        .ok (fileTimeAt i k, i.drop (k + 8)) else .error .error := by
  have e : i.drop k = fileTimeBytes (fileTimeAt i k) ++ i.drop (k + 8) := by
    simp only [fileTimeBytes, fileTimeAt, ofNat_u32At]
    rw [← bytesAt4_eq i k (by omega), ← bytesAt4_eq i (k + 4) (by omega), List.append_assoc,
      show i.drop (k + 8) = (i.drop (k + 4)).drop 4 by rw [List.drop_drop], List.take_append_drop,
      show i.drop (k + 4) = (i.drop k).drop 4 by rw [List.drop_drop], List.take_append_drop]
  rw [e, fileTime_decode]
  simp only [timeOk, fileTimeValue, fileTimeAt, ofNat_u32At]

/-! ### Values -/

theorem panics_avValue {α : Type} (cfg : Cfg) (p : Parser α) (mk : α → AvPair) (data after : List UInt8)
    (hp : ¬ panics (p data)) :
    panics (avValue cfg p mk data after) ↔ cfg.debug = true ∧ ∃ a r, p data = .ok (a, r) ∧ r ≠ [] := by
  simp only [avValue]
  rcases h : p data with e | ⟨a, r⟩
  · simp only [reduceCtorEq, false_and, exists_false, and_false, iff_false]
    rintro ⟨q, hq⟩
    simp only [Except.error.injEq] at hq
    exact hp ⟨q, by rw [h, hq]⟩
  · simp only [Except.ok.injEq, Prod.mk.injEq]
    by_cases hd : cfg.debug = true
    · cases r with
      | nil => simp [hd, panics_ok]
      | cons b t =>
        simp only [hd, Bool.true_and, List.length_cons, true_and]
        exact ⟨fun _ => ⟨a, b :: t, ⟨rfl, rfl⟩, by simp⟩, fun _ => panics_panic _⟩
    · simp [hd, panics_ok]

theorem text_rest (cfg : Cfg) (data : List UInt8) :
    (∃ a r, (Wire.deserialize cfg : Parser UnicodeString) data = .ok (a, r) ∧ r ≠ []) ↔
      ¬ ∃ s, plain s ∧ data = utf16le s := by
  constructor
  · rintro ⟨a, r, h1, h2⟩ ⟨s, h3, rfl⟩
    rw [unicode_decode_plain cfg s h3] at h1
    simp only [Except.ok.injEq, Prod.mk.injEq] at h1
    exact h2 h1.2.symm
  · intro h
    obtain ⟨s, r, h1, h2, h3, _⟩ := unicode_total cfg data
    refine ⟨_, _, h1, ?_⟩
    rintro rfl
    exact h ⟨s, h2, by rw [h3, List.append_nil]⟩

theorem Fixed.rest_ne {α : Type} {p : Parser α} {n : Nat} (h : Fixed p n) (data : List UInt8) :
    (∃ a r, p data = .ok (a, r) ∧ r ≠ []) ↔ n < data.length ∧ ∃ a r, p data = .ok (a, r) := by
  rcases h.cases data with h1 | ⟨a, h1, h2⟩
  · simp [h1]
  · simp only [h1, Except.ok.injEq, Prod.mk.injEq]
    constructor
    · rintro ⟨_, r, ⟨_, rfl⟩, h3⟩
      refine ⟨?_, _, _, rfl, rfl⟩
      simp only [ne_eq, List.drop_eq_nil_iff] at h3
      omega
    · rintro ⟨h3, _⟩
      refine ⟨_, _, ⟨rfl, rfl⟩, ?_⟩
      simp only [ne_eq, List.drop_eq_nil_iff]
      omega

/-- Which 4-byte words are AV flags. -/
theorem avFlags_accepts (cfg : Cfg) (v : List UInt8) :
    (∃ a r, (Wire.deserialize cfg : Parser MsvAvFlags) v = .ok (a, r)) ↔ 4 ≤ v.length ∧ u32At v 0 < 8 := by
  constructor
  · rintro ⟨f, r, h⟩
    have h1 := canon_avFlags cfg v f r h
    simp only [] at h1
    rw [h1]
    refine ⟨by simp [length_le], ?_⟩
    have e : u32At (le 4 (avFlagsValue f) ++ r) 0 = avFlagsValue f := by
      rw [← leVal_take4]
      have : (le 4 (avFlagsValue f) ++ r).take 4 = le 4 (avFlagsValue f) := by
        rw [List.take_left' (by simp [length_le])]
      rw [this, leVal_le_lt]
      obtain ⟨a, b, c⟩ := f
      cases a <;> cases b <;> cases c <;> decide
    rw [e]
    obtain ⟨a, b, c⟩ := f
    cases a <;> cases b <;> cases c <;> decide
  · rintro ⟨h1, h2⟩
    have : ∃ f, avFlagsValue f = u32At v 0 := by
      have : u32At v 0 = 0 ∨ u32At v 0 = 1 ∨ u32At v 0 = 2 ∨ u32At v 0 = 3 ∨ u32At v 0 = 4 ∨ u32At v 0 = 5 ∨
        u32At v 0 = 6 ∨ u32At v 0 = 7 := by omega
      rcases this with h | h | h | h | h | h | h | h
      · exact ⟨⟨false, false, false⟩, by rw [h]; rfl⟩
      · exact ⟨⟨true, false, false⟩, by rw [h]; rfl⟩
      · exact ⟨⟨false, true, false⟩, by rw [h]; rfl⟩
      · exact ⟨⟨true, true, false⟩, by rw [h]; rfl⟩
      · exact ⟨⟨false, false, true⟩, by rw [h]; rfl⟩
      · exact ⟨⟨true, false, true⟩, by rw [h]; rfl⟩
      · exact ⟨⟨false, true, true⟩, by rw [h]; rfl⟩
      · exact ⟨⟨true, true, true⟩, by rw [h]; rfl⟩
    obtain ⟨f, hf⟩ := this
    refine ⟨f, v.drop 4, ?_⟩
    have := dec_avFlags cfg f (v.drop 4)
    rwa [hf, ← take4_eq v h1, List.take_append_drop] at this

theorem fileTime_accepts (cfg : Cfg) (v : List UInt8) :
    (∃ a r, (Wire.deserialize cfg : Parser FileTime) v = .ok (a, r)) ↔
      8 ≤ v.length ∧ (2 ^ 32 * u32At v 4 + u32At v 0) / 1000000 ≤ cfg.platform.maxSecs := by
  by_cases h : 8 ≤ v.length
  · have := fileTime_at cfg v 0 (by omega)
    simp only [List.drop_zero, Nat.zero_add] at this
    rw [this]
    split
    · rename_i hc
      exact ⟨fun _ => ⟨h, hc⟩, fun _ => ⟨_, _, rfl⟩⟩
    · rename_i hc
      simp [hc]
  · rw [(fixed_fileTime cfg).short v (by omega)]
    simp [h]

theorem singleHost_accepts (cfg : Cfg) (v : List UInt8) :
    (∃ a r, (Wire.deserialize cfg : Parser SingleHostData) v = .ok (a, r)) ↔ 48 ≤ v.length ∧ u32At v 4 = 0 := by
  by_cases h : 48 ≤ v.length
  · let d : SingleHostData := ⟨UInt32.ofNat (u32At v 0), UInt32.ofNat (u32At v 4),
      ⟨(v.drop 8).take 8, by simp only [List.length_take, List.length_drop]; omega⟩,
      ⟨(v.drop 16).take 32, by simp only [List.length_take, List.length_drop]; omega⟩⟩
    have e : v = singleHostBytes d ++ v.drop 48 := by
      simp only [d, singleHostBytes, ofNat_u32At]
      rw [← take4_eq v (by omega), ← bytesAt4_eq v 4 (by omega)]
      simp only [List.append_assoc]
      rw [show v.drop 48 = (v.drop 16).drop 32 by rw [List.drop_drop], List.take_append_drop,
        show v.drop 16 = (v.drop 8).drop 8 by rw [List.drop_drop], List.take_append_drop,
        show v.drop 8 = (v.drop 4).drop 4 by rw [List.drop_drop], List.take_append_drop, List.take_append_drop]
    have hz : d.z4 = 0 ↔ u32At v 4 = 0 := by
      rw [← UInt32.toNat_inj]
      simp only [d, ofNat_u32At]
      rfl
    have hs := singleHost_decode cfg d (v.drop 48)
    rw [← e] at hs
    rw [hs]
    split
    · rename_i hc
      exact ⟨fun _ => ⟨h, hz.mp hc⟩, fun _ => ⟨_, _, rfl⟩⟩
    · rename_i hc
      have : ¬ u32At v 4 = 0 := fun h => hc (hz.mpr h)
      simp [this]
  · rw [(fixed_singleHost cfg).short v (by omega)]
    simp [h]

theorem takeBytes_accepts (n : Nat) (v : List UInt8) :
    (∃ a r, takeBytes n v = .ok (a, r)) ↔ n ≤ v.length := by
  by_cases h : n ≤ v.length
  · have := takeBytes_at (n := n) v 0 (by omega)
    simp only [List.drop_zero] at this
    rw [this]
    exact ⟨fun _ => h, fun _ => ⟨_, _, rfl⟩⟩
  · rw [(fixed_takeBytes n).short v (by omega)]
    simp [h]

theorem panics_value (cfg : Cfg) (id : AvId) (data after : List UInt8) :
    panics (AvPair.deserializeValue cfg id data after) ↔ cfg.debug = true ∧ residue cfg id.toU16.toNat data := by
  have text : ∀ mk, panics (avValue cfg (Wire.deserialize cfg : Parser UnicodeString) mk data after) ↔
      cfg.debug = true ∧ ¬ ∃ s, plain s ∧ data = utf16le s := by
    intro mk
    rw [panics_avValue _ _ _ _ _ (unicode_noPanic cfg data), text_rest]
  cases id with
  | eol =>
    simp only [AvPair.deserializeValue, residue]
    split
    · simp [panics_error, AvId.toU16]
    · simp [panics_ok, AvId.toU16]
  | nbComputerName => simp only [AvPair.deserializeValue, text]; simp [residue, AvId.toU16]
  | nbDomainName => simp only [AvPair.deserializeValue, text]; simp [residue, AvId.toU16]
  | dnsComputerName => simp only [AvPair.deserializeValue, text]; simp [residue, AvId.toU16]
  | dnsDomainName => simp only [AvPair.deserializeValue, text]; simp [residue, AvId.toU16]
  | dnsTreeName => simp only [AvPair.deserializeValue, text]; simp [residue, AvId.toU16]
  | targetName => simp only [AvPair.deserializeValue, text]; simp [residue, AvId.toU16]
  | flags =>
    simp only [AvPair.deserializeValue]
    rw [panics_avValue _ _ _ _ _ ((fixed_avFlags cfg).noPanic data), (fixed_avFlags cfg).rest_ne, avFlags_accepts]
    simp [residue, AvId.toU16]
    omega
  | timestamp =>
    simp only [AvPair.deserializeValue]
    rw [panics_avValue _ _ _ _ _ ((fixed_fileTime cfg).noPanic data), (fixed_fileTime cfg).rest_ne, fileTime_accepts]
    simp [residue, AvId.toU16]
    omega
  | singleHost =>
    simp only [AvPair.deserializeValue]
    rw [panics_avValue _ _ _ _ _ ((fixed_singleHost cfg).noPanic data), (fixed_singleHost cfg).rest_ne, singleHost_accepts]
    simp [residue, AvId.toU16]
    omega
  | channelBindings =>
    simp only [AvPair.deserializeValue]
    rw [panics_avValue _ _ _ _ _ ((fixed_takeBytes 16).noPanic data), (fixed_takeBytes 16).rest_ne, takeBytes_accepts]
    simp [residue, AvId.toU16]
    omega

/-! ### What the pair decoder returns, in terms of byte positions -/

/-- What one value decoder does to a value. -/
structure Reads {α : Type} (p : Parser α) (cfg : Cfg) (id : AvId) (mk : α → AvPair) : Prop where
  getId : ∀ a, (mk a).getId = id
  inj : ∀ a b, mk a = mk b → a = b
  onto : ∀ q, q.getId = id → ∃ a, q = mk a
  ok : ∀ v a r, p v = .ok (a, r) ↔ v = avValueBytes (mk a) ++ r ∧ pairOk cfg (mk a) ∧ leftover (mk a) r
  noPanic : ∀ v e, p v = .error e → e = .error

theorem reads_text (cfg : Cfg) (id : AvId) (mk : Str → AvPair) (h1 : ∀ s, (mk s).getId = id)
    (h2 : ∀ s t, mk s = mk t → s = t) (h3 : ∀ q, q.getId = id → ∃ s, q = mk s)
    (h4 : ∀ s, avValueBytes (mk s) = utf16le s) (h5 : ∀ s, pairOk cfg (mk s) ↔ plain s)
    (h6 : ∀ s r, leftover (mk s) r ↔ textEnds r) :
    Reads (Wire.deserialize cfg : Parser UnicodeString) cfg id (fun u => mk u.s) where
  getId a := h1 a.s
  inj a b h := by
    have := h2 _ _ h
    cases a; cases b; simp only at this; rw [this]
  onto q h := by
    obtain ⟨s, rfl⟩ := h3 q h
    exact ⟨⟨s⟩, rfl⟩
  ok v a r := by
    simp only [h4, h5, h6]
    constructor
    · intro h
      obtain ⟨s, t, k1, k2, k3, k4⟩ := unicode_total cfg v
      rw [h] at k1
      simp only [Except.ok.injEq, Prod.mk.injEq] at k1
      rw [k1.1, k1.2]
      exact ⟨k3, k2, (unitP_error_iff t).mp k4⟩
    · rintro ⟨rfl, k2, k3⟩
      show pmap (many0 unitP) UnicodeString.mk _ = _
      exact pmap_ok (units_many a.s k2 r ((unitP_error_iff r).mpr k3))
  noPanic v e h := unicode_noErr cfg v e h

theorem avValue_reads {α : Type} {cfg : Cfg} {p : Parser α} {id : AvId} {mk : α → AvPair} (hr : Reads p cfg id mk)
    (v after : List UInt8) :
    (∀ q r, avValue cfg p mk v after = .ok (q, r) ↔
      q.getId = id ∧ valueIs cfg v q ∧ (cfg.debug = true → v = avValueBytes q) ∧ r = after) ∧
    (avValue cfg p mk v after = .error .error ↔ ∀ q, q.getId = id → ¬ valueIs cfg v q) := by
  rcases hp : p v with e | ⟨a, t⟩
  · have he := hr.noPanic v e hp
    subst he
    have hno : ∀ q, q.getId = id → ¬ valueIs cfg v q := by
      rintro q hq ⟨r, h1, h2, h3⟩
      obtain ⟨b, rfl⟩ := hr.onto q hq
      rw [(hr.ok v b r).mpr ⟨h1, h2, h3⟩] at hp
      simp at hp
    simp only [avValue, hp, reduceCtorEq, false_iff, true_iff]
    exact ⟨fun q r h => hno q h.1 h.2.1, hno⟩
  · have hv := (hr.ok v a t).mp hp
    have huniq : ∀ q, q.getId = id → valueIs cfg v q → q = mk a := by
      rintro q hq ⟨r, h1, h2, h3⟩
      obtain ⟨b, rfl⟩ := hr.onto q hq
      rw [(hr.ok v b r).mpr ⟨h1, h2, h3⟩] at hp
      simp only [Except.ok.injEq, Prod.mk.injEq] at hp
      rw [hp.1]
    have hex : (v = avValueBytes (mk a)) ↔ t = [] := by
      constructor
      · intro h
        have := hv.1
        rw [← h] at this
        simpa using this.symm
      · rintro rfl
        simpa using hv.1
    have hne : avValue cfg p mk v after ≠ .error .error := by
      simp only [avValue, hp]
      split <;> simp
    refine ⟨fun q r => ?_, fun h => absurd h hne, fun h => absurd ⟨t, hv⟩ (h _ (hr.getId a))⟩
    simp only [avValue, hp]
    constructor
    · intro h
      split at h
      · simp at h
      · rename_i hc
        simp only [Except.ok.injEq, Prod.mk.injEq] at h
        obtain ⟨rfl, rfl⟩ := h
        refine ⟨hr.getId a, ⟨t, hv⟩, fun hd => ?_, rfl⟩
        rw [hex]
        cases t with
        | nil => rfl
        | cons x y => simp [hd] at hc
    · rintro ⟨h1, h2, h3, rfl⟩
      have := huniq q h1 h2
      subst this
      rw [if_neg]
      simp only [Bool.and_eq_true, not_and]
      intro hd
      have := hex.mp (h3 hd)
      simp [this]

theorem readsAv_flags (cfg : Cfg) : Reads (Wire.deserialize cfg : Parser MsvAvFlags) cfg .flags .flags := by
  refine ⟨fun _ => rfl, fun _ _ h => by simpa using h,
    fun q h => by cases q <;> simp_all [AvPair.getId], fun w a r => ?_, fun _ _ h => (fixed_avFlags cfg).error h⟩
  simp only [avValueBytes, pairOk, leftover, and_true]
  exact ⟨fun h => canon_avFlags cfg _ _ _ h, fun h => by rw [h]; exact dec_avFlags cfg a r⟩

theorem readsAv_timestamp (cfg : Cfg) : Reads (Wire.deserialize cfg : Parser FileTime) cfg .timestamp .timestamp := by
  refine ⟨fun _ => rfl, fun _ _ h => by simpa using h,
    fun q h => by cases q <;> simp_all [AvPair.getId], fun w a r => ?_, fun _ _ h => (fixed_fileTime cfg).error h⟩
  simp only [avValueBytes, pairOk, leftover, and_true]
  constructor
  · intro h
    have hc := canon_fileTime cfg _ _ _ h
    rw [hc, fileTime_decode] at h
    refine ⟨hc, ?_⟩
    by_cases ht : timeOk cfg a
    · exact ht
    · simp [ht] at h
  · rintro ⟨rfl, h⟩
    rw [fileTime_decode, if_pos h]

theorem readsAv_singleHost (cfg : Cfg) :
    Reads (Wire.deserialize cfg : Parser SingleHostData) cfg .singleHost .singleHost := by
  refine ⟨fun _ => rfl, fun _ _ h => by simpa using h,
    fun q h => by cases q <;> simp_all [AvPair.getId], fun w a r => ?_, fun _ _ h => (fixed_singleHost cfg).error h⟩
  simp only [avValueBytes, pairOk, leftover, and_true]
  constructor
  · intro h
    have hc := canon_singleHost cfg _ _ _ h
    rw [hc, singleHost_decode] at h
    refine ⟨hc, ?_⟩
    by_cases ht : a.z4 = 0
    · exact ht
    · simp [ht] at h
  · rintro ⟨rfl, h⟩
    rw [singleHost_decode, if_pos h]

theorem readsAv_channelBindings (cfg : Cfg) : Reads (takeBytes 16) cfg .channelBindings .channelBindings := by
  refine ⟨fun _ => rfl, fun _ _ h => by simpa using h,
    fun q h => by cases q <;> simp_all [AvPair.getId], fun w a r => ?_, fun _ _ h => (fixed_takeBytes 16).error h⟩
  simp only [avValueBytes, pairOk, leftover, and_true]
  exact ⟨fun h => takeBytes_canon h, fun h => by rw [h]; exact takeBytes_append a r⟩

theorem readsAv_nbComputerName (cfg : Cfg) :
    Reads (Wire.deserialize cfg : Parser UnicodeString) cfg .nbComputerName (fun u => .nbComputerName u.s) :=
  reads_text cfg .nbComputerName .nbComputerName (fun _ => rfl) (fun _ _ h => by simpa using h)
    (fun q h => by cases q <;> simp_all [AvPair.getId]) (fun _ => rfl) (fun _ => Iff.rfl) (fun _ _ => Iff.rfl)

theorem readsAv_nbDomainName (cfg : Cfg) :
    Reads (Wire.deserialize cfg : Parser UnicodeString) cfg .nbDomainName (fun u => .nbDomainName u.s) :=
  reads_text cfg .nbDomainName .nbDomainName (fun _ => rfl) (fun _ _ h => by simpa using h)
    (fun q h => by cases q <;> simp_all [AvPair.getId]) (fun _ => rfl) (fun _ => Iff.rfl) (fun _ _ => Iff.rfl)

theorem readsAv_dnsComputerName (cfg : Cfg) :
    Reads (Wire.deserialize cfg : Parser UnicodeString) cfg .dnsComputerName (fun u => .dnsComputerName u.s) :=
  reads_text cfg .dnsComputerName .dnsComputerName (fun _ => rfl) (fun _ _ h => by simpa using h)
    (fun q h => by cases q <;> simp_all [AvPair.getId]) (fun _ => rfl) (fun _ => Iff.rfl) (fun _ _ => Iff.rfl)

theorem readsAv_dnsDomainName (cfg : Cfg) :
    Reads (Wire.deserialize cfg : Parser UnicodeString) cfg .dnsDomainName (fun u => .dnsDomainName u.s) :=
  reads_text cfg .dnsDomainName .dnsDomainName (fun _ => rfl) (fun _ _ h => by simpa using h)
    (fun q h => by cases q <;> simp_all [AvPair.getId]) (fun _ => rfl) (fun _ => Iff.rfl) (fun _ _ => Iff.rfl)

theorem readsAv_dnsTreeName (cfg : Cfg) :
    Reads (Wire.deserialize cfg : Parser UnicodeString) cfg .dnsTreeName (fun u => .dnsTreeName u.s) :=
  reads_text cfg .dnsTreeName .dnsTreeName (fun _ => rfl) (fun _ _ h => by simpa using h)
    (fun q h => by cases q <;> simp_all [AvPair.getId]) (fun _ => rfl) (fun _ => Iff.rfl) (fun _ _ => Iff.rfl)

theorem readsAv_targetName (cfg : Cfg) :
    Reads (Wire.deserialize cfg : Parser UnicodeString) cfg .targetName (fun u => .targetName u.s) :=
  reads_text cfg .targetName .targetName (fun _ => rfl) (fun _ _ h => by simpa using h)
    (fun q h => by cases q <;> simp_all [AvPair.getId]) (fun _ => rfl) (fun _ => Iff.rfl) (fun _ _ => Iff.rfl)

theorem value_reads (cfg : Cfg) (id : AvId) (v after : List UInt8) :
    (∀ q r, AvPair.deserializeValue cfg id v after = .ok (q, r) ↔
      q.getId = id ∧ valueIs cfg v q ∧ (cfg.debug = true → v = avValueBytes q) ∧ r = after) ∧
    (AvPair.deserializeValue cfg id v after = .error .error ↔ ∀ q, q.getId = id → ¬ valueIs cfg v q) := by
  cases id with
  | eol =>
    have hq : ∀ q : AvPair, q.getId = .eol → q = .eol := by intro q h; cases q <;> simp_all [AvPair.getId]
    have hv : valueIs cfg v .eol ↔ v = [] := by
      simp only [valueIs, avValueBytes, pairOk, leftover, List.nil_append, true_and]
      exact ⟨fun ⟨r, h1, h2⟩ => by rw [h1, h2], fun h => ⟨[], h, rfl⟩⟩
    simp only [AvPair.deserializeValue]
    cases v with
    | nil =>
      simp only [List.isEmpty_nil, Bool.not_true, Bool.false_eq_true, if_false, Except.ok.injEq, Prod.mk.injEq,
        reduceCtorEq, false_iff]
      refine ⟨fun q r => ?_, fun h => h .eol rfl (hv.mpr rfl)⟩
      constructor
      · rintro ⟨rfl, rfl⟩
        exact ⟨rfl, hv.mpr rfl, fun _ => rfl, rfl⟩
      · rintro ⟨h1, _, _, rfl⟩
        exact ⟨(hq q h1).symm, rfl⟩
    | cons x y =>
      simp only [List.isEmpty_cons, Bool.not_false, if_true, reduceCtorEq, false_iff, true_iff]
      refine ⟨fun q r h => ?_, fun q h h' => ?_⟩
      · have := hq q h.1
        subst this
        have := hv.mp h.2.1
        simp at this
      · have := hq q h
        subst this
        have := hv.mp h'
        simp at this
  | nbComputerName => exact avValue_reads (readsAv_nbComputerName cfg) v after
  | nbDomainName => exact avValue_reads (readsAv_nbDomainName cfg) v after
  | dnsComputerName => exact avValue_reads (readsAv_dnsComputerName cfg) v after
  | dnsDomainName => exact avValue_reads (readsAv_dnsDomainName cfg) v after
  | dnsTreeName => exact avValue_reads (readsAv_dnsTreeName cfg) v after
  | targetName => exact avValue_reads (readsAv_targetName cfg) v after
  | flags => exact avValue_reads (readsAv_flags cfg) v after
  | timestamp => exact avValue_reads (readsAv_timestamp cfg) v after
  | singleHost => exact avValue_reads (readsAv_singleHost cfg) v after
  | channelBindings => exact avValue_reads (readsAv_channelBindings cfg) v after

theorem avId_inj (p : AvPair) (id : AvId) (h : id.toU16.toNat = avIdValue p) : p.getId = id := by
  rw [← avId_toU16] at h
  revert h
  cases p <;> cases id <;> simp [AvPair.getId, AvId.toU16]

/-- What the pair decoder returns. -/
theorem avPair_ok_iff (cfg : Cfg) (i r : List UInt8) (p : AvPair) :
    (Wire.deserialize cfg : Parser AvPair) i = .ok (p, r) ↔
      pairAt cfg i p ∧ (cfg.debug = true → bytesAt i 4 (u16At i 2) = avValueBytes p) ∧ r = i.drop (4 + u16At i 2) := by
  have hle : avIdValue p ≤ 10 := by cases p <;> simp [avIdValue]
  by_cases h4 : i.length < 4
  · rw [avPair_short cfg i h4]
    simp only [reduceCtorEq, false_iff, pairAt]
    omega
  by_cases hid : u16At i 0 ≤ 10
  · obtain ⟨id, h1, h2⟩ := avPair_known cfg i (by omega) hid
    rw [h2]
    split
    · simp only [reduceCtorEq, false_iff, pairAt]
      omega
    · rw [(value_reads cfg id _ _).1]
      constructor
      · rintro ⟨k1, k2, k3, k4⟩
        refine ⟨⟨by omega, ?_, by omega, k2⟩, k3, k4⟩
        rw [← h1, ← avId_toU16, k1]
      · rintro ⟨⟨_, k1, _, k2⟩, k3, k4⟩
        exact ⟨avId_inj p id (by omega), k2, k3, k4⟩
  · rw [avPair_unknown cfg i (by omega)]
    simp only [reduceCtorEq, false_iff, pairAt]
    omega

theorem avValue_error_iff {α : Type} (cfg : Cfg) (p : Parser α) (mk : α → AvPair) (v after : List UInt8)
    (hp : ∀ e, p v = .error e → e = .error) :
    avValue cfg p mk v after = .error .error ↔ ¬ ∃ a r, p v = .ok (a, r) := by
  simp only [avValue]
  rcases h : p v with e | ⟨a, r⟩
  · simp [hp e h]
  · simp only [Except.ok.injEq, Prod.mk.injEq]
    constructor
    · intro h
      split at h <;> simp at h
    · intro h
      exact absurd ⟨a, r, rfl, rfl⟩ h

theorem value_error_iff (cfg : Cfg) (id : AvId) (v after : List UInt8) :
    AvPair.deserializeValue cfg id v after = .error .error ↔ badValue cfg id.toU16.toNat v := by
  have text : ∀ mk, ¬ avValue cfg (Wire.deserialize cfg : Parser UnicodeString) mk v after = .error .error := by
    intro mk h
    rw [avValue_error_iff _ _ _ _ _ (unicode_noErr cfg v)] at h
    obtain ⟨s, r, h1, _⟩ := unicode_total cfg v
    exact h ⟨_, _, h1⟩
  cases id with
  | eol =>
    simp only [AvPair.deserializeValue]
    cases v <;> simp [badValue, AvId.toU16]
  | nbComputerName => simp only [AvPair.deserializeValue, text]; simp [badValue, AvId.toU16]
  | nbDomainName => simp only [AvPair.deserializeValue, text]; simp [badValue, AvId.toU16]
  | dnsComputerName => simp only [AvPair.deserializeValue, text]; simp [badValue, AvId.toU16]
  | dnsDomainName => simp only [AvPair.deserializeValue, text]; simp [badValue, AvId.toU16]
  | dnsTreeName => simp only [AvPair.deserializeValue, text]; simp [badValue, AvId.toU16]
  | targetName => simp only [AvPair.deserializeValue, text]; simp [badValue, AvId.toU16]
  | flags =>
    simp only [AvPair.deserializeValue]
    rw [avValue_error_iff _ _ _ _ _ (fun _ h => (fixed_avFlags cfg).error h), avFlags_accepts]
    simp [badValue, AvId.toU16]
    omega
  | timestamp =>
    simp only [AvPair.deserializeValue]
    rw [avValue_error_iff _ _ _ _ _ (fun _ h => (fixed_fileTime cfg).error h), fileTime_accepts]
    simp [badValue, AvId.toU16]
    omega
  | singleHost =>
    simp only [AvPair.deserializeValue]
    rw [avValue_error_iff _ _ _ _ _ (fun _ h => (fixed_singleHost cfg).error h), singleHost_accepts]
    simp [badValue, AvId.toU16]
    omega
  | channelBindings =>
    simp only [AvPair.deserializeValue]
    rw [avValue_error_iff _ _ _ _ _ (fun _ h => (fixed_takeBytes 16).error h), takeBytes_accepts]
    simp [badValue, AvId.toU16]

/-- When the pair decoder reports the ordinary error. -/
theorem avPair_error_iff (cfg : Cfg) (i : List UInt8) :
    (Wire.deserialize cfg : Parser AvPair) i = .error .error ↔ noPair cfg i := by
  by_cases h4 : i.length < 4
  · simp [avPair_short cfg i h4, noPair, h4]
  by_cases hid : u16At i 0 ≤ 10
  · obtain ⟨id, h1, h2⟩ := avPair_known cfg i (by omega) hid
    rw [h2]
    split
    · simp only [Except.error.injEq, reduceCtorEq, false_iff, noPair]
      omega
    · rw [value_error_iff, h1]
      constructor
      · intro h
        exact .inr (.inr ⟨by omega, h⟩)
      · rintro (h | h | ⟨_, h⟩)
        · omega
        · omega
        · exact h
  · simp only [avPair_unknown cfg i (by omega), noPair, true_iff]
    omega

theorem pairAt_not_noPair {cfg : Cfg} {i : List UInt8} {p : AvPair} (h : pairAt cfg i p) : ¬ noPair cfg i := by
  intro hn
  have h1 := (avPair_error_iff cfg i).mpr hn
  have h2 : (Wire.deserialize { cfg with debug := false } : Parser AvPair) i = .ok (p, i.drop (4 + u16At i 2)) :=
    (avPair_ok_iff { cfg with debug := false } i _ p).mpr ⟨h, by simp, rfl⟩
  have h3 : noPair { cfg with debug := false } i := hn
  rw [(avPair_error_iff _ i).mpr h3] at h2
  simp at h2

/-- When one AV pair aborts. -/
theorem avPair_panics (cfg : Cfg) (i : List UInt8) :
    panics ((Wire.deserialize cfg : Parser AvPair) i) ↔
      cfg.debug = true ∧ 4 ≤ i.length ∧ 4 + u16At i 2 ≤ i.length ∧ residue cfg (u16At i 0) (bytesAt i 4 (u16At i 2)) := by
  by_cases h4 : i.length < 4
  · rw [avPair_short cfg i h4]
    simp only [panics_error, false_iff]
    omega
  by_cases hid : u16At i 0 ≤ 10
  · obtain ⟨id, h1, h2⟩ := avPair_known cfg i (by omega) hid
    rw [h2]
    split
    · simp only [panics_incomplete, false_iff]
      omega
    · rw [panics_value, h1]
      constructor
      · rintro ⟨a, b⟩
        exact ⟨a, by omega, by omega, b⟩
      · rintro ⟨a, _, _, b⟩
        exact ⟨a, b⟩
  · rw [avPair_unknown cfg i (by omega)]
    simp only [panics_error, false_iff, residue]
    rintro ⟨_, _, _, h⟩
    rcases h with ⟨h, _⟩ | h | h | h | h
    · simp only [List.mem_cons, List.not_mem_nil, or_false] at h
      omega
    all_goals omega

theorem many0_panics (cfg : Cfg) (n : Nat) (i : List UInt8) (hn : i.length ≤ n) :
    panics (many0 (Wire.deserialize cfg : Parser AvPair) i) ↔ cfg.debug = true ∧ AvResidue cfg i := by
  induction n generalizing i with
  | zero =>
    have : i = [] := List.length_eq_zero_iff.mp (by omega)
    subst this
    rw [many0_stop (avPair_nil cfg)]
    simp only [panics_ok, false_iff]
    rintro ⟨_, h⟩
    cases h with
    | here h _ _ => simp at h
    | later h _ => simp [pairAt] at h
  | succ n ih =>
    have hhere := avPair_panics cfg i
    rw [many0_eq]
    rcases avPair_cases cfg i with h1 | ⟨h1, hlt⟩ | ⟨h1, hd⟩ | ⟨q, h1, _, h2⟩
    · simp only [h1, panics_ok, false_iff]
      rintro ⟨hd, h⟩
      cases h with
      | here a b c =>
        rw [h1] at hhere
        exact panics_error (hhere.mpr ⟨hd, a, b, c⟩)
      | later h _ => exact pairAt_not_noPair h ((avPair_error_iff cfg i).mp h1)
    · simp only [h1, panics_incomplete, false_iff]
      rintro ⟨hd, h⟩
      cases h with
      | here a b c =>
        rw [h1] at hhere
        exact panics_incomplete (hhere.mpr ⟨hd, a, b, c⟩)
      | later h _ => have := h.2.2.1; omega
    · simp only [h1]
      rw [h1] at hhere
      obtain ⟨_, a, b, c⟩ := hhere.mp (panics_panic _)
      exact ⟨fun _ => ⟨hd, .here a b c⟩, fun _ => panics_panic _⟩
    · have hl : (i.drop (4 + u16At i 2)).length < i.length := by simp only [List.length_drop]; omega
      have ih' := ih (i.drop (4 + u16At i 2)) (by omega)
      simp only [h1, hl, if_true]
      have e : (cfg.debug = true ∧ AvResidue cfg i) ↔ (cfg.debug = true ∧ AvResidue cfg (i.drop (4 + u16At i 2))) := by
        constructor
        · rintro ⟨hd, h⟩
          refine ⟨hd, ?_⟩
          cases h with
          | here a b c =>
            rw [h1] at hhere
            exact absurd (hhere.mpr ⟨hd, a, b, c⟩) (panics_ok _)
          | later h h' => exact h'
        · rintro ⟨hd, h⟩
          exact ⟨hd, .later ((avPair_ok_iff cfg i _ q).mp h1).1 h⟩
      rw [e, ← ih']
      generalize many0 (Wire.deserialize cfg : Parser AvPair) (i.drop (4 + u16At i 2)) = x
      rcases x with e | ⟨_, _⟩
      · exact ⟨fun ⟨q, h⟩ => ⟨q, by simpa using h⟩, fun ⟨q, h⟩ => ⟨q, by simpa using h⟩⟩
      · simp [panics_ok]

theorem avList_panics (cfg : Cfg) (i : List UInt8) :
    panics (many0 (Wire.deserialize cfg : Parser AvPair) i) ↔ cfg.debug = true ∧ AvResidue cfg i :=
  many0_panics cfg i.length i (Nat.le_refl _)

/-! ### NTLMv2 responses -/

theorem verify8_at (i : List UInt8) (k : Nat) (n : UInt8) :
    verify leU8 (fun b => b == n) (i.drop k) =
      if k + 1 ≤ i.length ∧ byteAt i k = n.toNat then .ok (n, i.drop (k + 1)) else .error .error := by
  by_cases h : k + 1 ≤ i.length
  · simp only [verify, leU8_at i k h]
    have e : (UInt8.ofNat (byteAt i k)).toNat = byteAt i k := by
      have := byteAt_lt i k; simp only [UInt8.toNat_ofNat']; omega
    by_cases hn : byteAt i k = n.toNat
    · have : UInt8.ofNat (byteAt i k) = n := UInt8.toNat_inj.mp (by rw [e, hn])
      simp [h, hn]
    · have : ¬ UInt8.ofNat (byteAt i k) = n := fun hc => hn (by rw [← hc, e])
      simp [hn, this]
  · rw [if_neg (by omega)]
    simp only [verify]
    rw [fixed_leU8.short _ (by simp only [List.length_drop]; omega)]

theorem verify16_at (i : List UInt8) (k : Nat) (n : UInt16) :
    verify leU16 (fun b => b == n) (i.drop k) =
      if k + 2 ≤ i.length ∧ u16At i k = n.toNat then .ok (n, i.drop (k + 2)) else .error .error := by
  by_cases h : k + 2 ≤ i.length
  · simp only [verify, leU16_at i k h]
    have e : (UInt16.ofNat (u16At i k)).toNat = u16At i k := by
      have := u16At_lt i k; simp only [UInt16.toNat_ofNat']; omega
    by_cases hn : u16At i k = n.toNat
    · have : UInt16.ofNat (u16At i k) = n := UInt16.toNat_inj.mp (by rw [e, hn])
      simp [h, hn]
    · have : ¬ UInt16.ofNat (u16At i k) = n := fun hc => hn (by rw [← hc, e])
      simp [hn, this]
  · rw [if_neg (by omega)]
    simp only [verify]
    rw [fixed_leU16.short _ (by simp only [List.length_drop]; omega)]

theorem verify32_at (i : List UInt8) (k : Nat) (n : UInt32) :
    verify leU32 (fun b => b == n) (i.drop k) =
      if k + 4 ≤ i.length ∧ u32At i k = n.toNat then .ok (n, i.drop (k + 4)) else .error .error := by
  by_cases h : k + 4 ≤ i.length
  · simp only [verify, leU32_at i k h, ofNat_u32At_beq]
    by_cases hn : u32At i k = n.toNat
    · simp [h, hn]
    · simp [hn]
  · rw [if_neg (by omega)]
    simp only [verify]
    rw [fixed_leU32.short _ (by simp only [List.length_drop]; omega)]

theorem ntv2_no (cfg : Cfg) (b : List UInt8) (h : ¬ ntv2Fixed cfg b) :
    (Wire.deserialize cfg : Parser Ntv2Challenge) b = .error .error := by
  by_cases hl : b.length < 28
  · exact short_ntv2 cfg b hl
  show (verify leU8 _ >>= _) b = _
  have h0 := verify8_at b 0 1
  have h1 := verify8_at b 1 1
  have h2 := verify16_at b 2 0
  have h4 := verify32_at b 4 0
  have h8 := fileTime_at cfg b 8 (by omega)
  have h16 : (Wire.deserialize cfg : Parser (Bytes 8)) (b.drop 16) = _ := takeBytes_at (n := 8) b 16 (by omega)
  have h24 := verify32_at b 24 0
  simp only [List.drop_zero] at h0
  by_cases c0 : byteAt b 0 = 1
  · rw [if_pos ⟨by omega, c0⟩] at h0
    rw [Parser.bind_ok h0]
    by_cases c1 : byteAt b 1 = 1
    · rw [if_pos ⟨by omega, c1⟩] at h1
      rw [Parser.bind_ok h1]
      by_cases c2 : u16At b 2 = 0
      · rw [if_pos ⟨by omega, c2⟩] at h2
        rw [Parser.bind_ok h2]
        by_cases c4 : u32At b 4 = 0
        · rw [if_pos ⟨by omega, c4⟩] at h4
          rw [Parser.bind_ok h4]
          by_cases c8 : (2 ^ 32 * u32At b (8 + 4) + u32At b 8) / 1000000 ≤ cfg.platform.maxSecs
          · rw [if_pos c8] at h8
            rw [Parser.bind_ok h8, Parser.bind_ok h16]
            rw [if_neg (fun hc => h ⟨by omega, c0, c1, c2, c4, c8, hc.2⟩)] at h24
            exact Parser.bind_err h24
          · rw [if_neg c8] at h8
            exact Parser.bind_err h8
        · rw [if_neg (fun hc => c4 hc.2)] at h4
          exact Parser.bind_err h4
      · rw [if_neg (fun hc => c2 hc.2)] at h2
        exact Parser.bind_err h2
    · rw [if_neg (fun hc => c1 hc.2)] at h1
      exact Parser.bind_err h1
  · rw [if_neg (fun hc => c0 hc.2)] at h0
    exact Parser.bind_err h0

theorem ntv2_at (cfg : Cfg) (b : List UInt8) (h : ntv2Fixed cfg b) (hl : 16 + 8 ≤ b.length) :
    (Wire.deserialize cfg : Parser Ntv2Challenge) b =
      match many0 (Wire.deserialize cfg : Parser AvPair) (b.drop 28) with
      | .ok (l, r) => .ok (⟨fileTimeAt b 8,
          ⟨bytesAt b 16 8, by simp only [bytesAt, List.length_take, List.length_drop]; omega⟩, l⟩, r)
      | .error e => .error e := by
  obtain ⟨hl', c0, c1, c2, c4, c8, c24⟩ := h
  show (verify leU8 _ >>= _) b = _
  have h0 := verify8_at b 0 1
  have h1 := verify8_at b 1 1
  have h2 := verify16_at b 2 0
  have h4 := verify32_at b 4 0
  have h8 := fileTime_at cfg b 8 (by omega)
  have h16 : (Wire.deserialize cfg : Parser (Bytes 8)) (b.drop 16) = _ := takeBytes_at (n := 8) b 16 (by omega)
  have h24 := verify32_at b 24 0
  simp only [List.drop_zero] at h0
  rw [if_pos ⟨by omega, c0⟩] at h0
  rw [if_pos ⟨by omega, c1⟩] at h1
  rw [if_pos ⟨by omega, c2⟩] at h2
  rw [if_pos ⟨by omega, c4⟩] at h4
  rw [if_pos c8] at h8
  rw [if_pos ⟨by omega, c24⟩] at h24
  rw [Parser.bind_ok h0, Parser.bind_ok h1, Parser.bind_ok h2, Parser.bind_ok h4, Parser.bind_ok h8, Parser.bind_ok h16,
    Parser.bind_ok h24]
  have hdef : (Wire.deserialize cfg : Parser (List AvPair)) (b.drop 28) =
      many0 (Wire.deserialize cfg : Parser AvPair) (b.drop 28) := rfl
  rw [Parser.bind_apply, hdef]
  generalize many0 (Wire.deserialize cfg : Parser AvPair) (b.drop 28) = x
  rcases x with _ | ⟨_, _⟩ <;> rfl

theorem ntv2_panics (cfg : Cfg) (b : List UInt8) :
    panics ((Wire.deserialize cfg : Parser Ntv2Challenge) b) ↔
      cfg.debug = true ∧ ntv2Fixed cfg b ∧ AvResidue cfg (b.drop 28) := by
  by_cases h : ntv2Fixed cfg b
  · rw [ntv2_at cfg b h (by have := h.1; omega)]
    have := avList_panics cfg (b.drop 28)
    simp only [h, true_and]
    rw [← this]
    generalize many0 (Wire.deserialize cfg : Parser AvPair) (b.drop 28) = x
    rcases x with e | ⟨_, _⟩
    · exact ⟨fun ⟨q, h⟩ => ⟨q, by simpa using h⟩, fun ⟨q, h⟩ => ⟨q, by simpa using h⟩⟩
    · simp [panics_ok]
  · rw [ntv2_no cfg b h]
    simp [panics_error, h]

theorem nt_panics (cfg : Cfg) (b : List UInt8) :
    panics ((Wire.deserialize cfg : Parser NtChallenge) b) ↔
      cfg.debug = true ∧ ntv2Fixed cfg b ∧ AvResidue cfg (b.drop 28) := by
  rw [← ntv2_panics]
  show panics (alt _ _ b) ↔ _
  simp only [alt, pmap]
  rcases h : (Wire.deserialize cfg : Parser Ntv2Challenge) b with e | ⟨v, r⟩
  · cases e with
    | error =>
      simp only [panics_error, iff_false]
      rcases (fixed_ntv1 cfg).cases b with h1 | ⟨a, h1, _⟩
      · rw [h1]; exact panics_error
      · rw [h1]; exact panics_ok _
    | incomplete => simp [panics_incomplete]
    | panic p => simp [panics_panic]
  · simp [panics_ok]

end Ntlm
