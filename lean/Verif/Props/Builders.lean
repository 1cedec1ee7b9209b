import Verif.Spec.Builders
import Verif.Lemmas.DecodeMsg
/-
  C14, C15, C16, C17: flag words, setters and the challenge builder.
-/
namespace Ntlm

open Spec

theorem shift_toNat (b : UInt32) : ((1 : UInt32) <<< b).toNat = 2 ^ (b.toNat % 32) := by
  rw [UInt32.toNat_shiftLeft, show (1 : UInt32).toNat = 1 from rfl, Nat.one_shiftLeft]
  exact Nat.mod_eq_of_lt (Nat.pow_lt_pow_right (by omega) (by omega))

theorem flags_lt (f : Flags) {k : Nat} (h : bit f k) : k < 32 := by
  apply Classical.byContradiction
  intro hk
  have : f.bits.toNat.testBit k = false := Nat.testBit_lt_two_pow
    (Nat.lt_of_lt_of_le f.bits.toNat_lt (Nat.pow_le_pow_right (by omega) (by omega)))
  simp [bit, this] at h

theorem hasFlag_bit (f : Flags) (b : UInt32) : f.hasFlag b = true ↔ bit f (b.toNat % 32) := by
  have h2 := and_two_pow_eq f.bits.toNat (b.toNat % 32)
  have hz : (f.bits &&& 1 <<< b).toNat = (f.bits.toNat &&& 2 ^ (b.toNat % 32)) := by
    rw [UInt32.toNat_and, shift_toNat]
  simp only [Flags.hasFlag, bne_iff_ne, ne_eq, bit]
  rw [show (f.bits &&& 1 <<< b = 0) ↔ (f.bits &&& 1 <<< b).toNat = 0 from
    ⟨fun h => by rw [h]; rfl, fun h => UInt32.toNat_inj.mp (by simpa using h)⟩, hz, h2]
  cases f.bits.toNat.testBit (b.toNat % 32) with
  | false => simp
  | true => simp [Nat.pow_eq_zero]

theorem setFlag_bit (f : Flags) (b : UInt32) (k : Nat) : bit (f.setFlag b) k ↔ bit f k ∨ k = b.toNat % 32 := by
  simp only [bit, Flags.setFlag, UInt32.toNat_or, shift_toNat, Nat.testBit_or, Nat.testBit_two_pow, Bool.or_eq_true,
    decide_eq_true_eq]
  constructor
  · rintro (h | h)
    · exact .inl h
    · exact .inr h.symm
  · rintro (h | h)
    · exact .inl h
    · exact .inr h.symm

theorem clearFlag_bit (f : Flags) (b : UInt32) (k : Nat) : bit (f.clearFlag b) k ↔ bit f k ∧ k ≠ b.toNat % 32 := by
  have hmask : ((0xffffffff : UInt32) &&& ~~~((1 : UInt32) <<< b)).toNat = 2 ^ 32 - (2 ^ (b.toNat % 32) + 1) := by
    rw [UInt32.toNat_and, UInt32.toNat_not, shift_toNat]
    have hlt : 2 ^ (b.toNat % 32) < 2 ^ 32 := Nat.pow_lt_pow_right (by omega) (by omega)
    rw [show (0xffffffff : UInt32).toNat = 2 ^ 32 - 1 from rfl, Nat.and_comm, Nat.and_two_pow_sub_one_eq_mod]
    rw [show UInt32.size = 2 ^ 32 from rfl]
    generalize 2 ^ (b.toNat % 32) = x at hlt
    omega
  simp only [bit, Flags.clearFlag, UInt32.toNat_and]
  rw [← UInt32.toNat_and, hmask, Nat.testBit_and,
    Nat.testBit_two_pow_sub_succ (Nat.pow_lt_pow_right (by omega) (by omega))]
  by_cases hb : f.bits.toNat.testBit k = true
  · have hk := flags_lt f hb
    simp only [hb, hk, decide_true, Bool.true_and, Bool.not_eq_true', Nat.testBit_two_pow, decide_eq_false_iff_not,
      true_and]
    exact ⟨fun h e => h e.symm, fun h e => h e.symm⟩
  · simp [hb]

theorem flags_ext {f g : Flags} (h : ∀ k, bit f k ↔ bit g k) : f = g := by
  have : f.bits.toNat = g.bits.toNat := by
    apply Nat.eq_of_testBit_eq
    intro k
    have := h k
    simp only [bit] at this
    cases hf : f.bits.toNat.testBit k <;> cases hg : g.bits.toNat.testBit k <;> simp [hf, hg] at this ⊢
  exact congrArg Flags.mk (UInt32.toNat_inj.mp this)

theorem ite_false_iff (c : Prop) [Decidable c] (x : Bool) : ((if c then false else x) = false) ↔ c ∨ x = false := by
  by_cases h : c <;> simp [h]

namespace Props

/-! ### C15: flag words -/

/-- C15: in a release build or for an index up to 31, setting adds exactly that flag, clearing removes exactly that flag, and
    the test reads exactly that flag (the index counts modulo 32). -/
theorem C15_operations (cfg : Cfg) (f : Flags) (b : UInt32) (h : b.toNat ≤ 31 ∨ cfg.debug = false) :
    (∃ r, f.hasFlagApi cfg b = .ok r ∧ (r = true ↔ bit f (b.toNat % 32))) ∧
    (∃ g, f.setFlagApi cfg b = .ok g ∧ ∀ k, bit g k ↔ bit f k ∨ k = b.toNat % 32) ∧
    (∃ g, f.clearFlagApi cfg b = .ok g ∧ ∀ k, bit g k ↔ bit f k ∧ k ≠ b.toNat % 32) := by
  have hc : (cfg.debug && !decide (b ≤ 31)) = false := by
    rcases h with h | h
    · have : b ≤ 31 := UInt32.le_iff_toNat_le.mpr h
      simp [this]
    · simp [h]
  refine ⟨⟨_, ?_, hasFlag_bit f b⟩, ⟨_, ?_, setFlag_bit f b⟩, ⟨_, ?_, clearFlag_bit f b⟩⟩
  · simp only [Flags.hasFlagApi, hc, Bool.false_eq_true, if_false]
  · simp only [Flags.setFlagApi, hc, Bool.false_eq_true, if_false]
  · simp only [Flags.clearFlagApi, hc, Bool.false_eq_true, if_false]

/-- C15: a debug build refuses larger indices. -/
theorem C15_debug_bound (cfg : Cfg) (f : Flags) (b : UInt32) (hd : cfg.debug = true) (h : 31 < b.toNat) :
    f.hasFlagApi cfg b = .error .debugAssert ∧ f.setFlagApi cfg b = .error .debugAssert ∧
      f.clearFlagApi cfg b = .error .debugAssert := by
  have hc : (cfg.debug && !decide (b ≤ 31)) = true := by
    have : ¬ b ≤ 31 := by
      rw [UInt32.le_iff_toNat_le]
      have : (31 : UInt32).toNat = 31 := rfl
      omega
    simp [this, hd]
  simp only [Flags.hasFlagApi, Flags.setFlagApi, Flags.clearFlagApi, hc, if_true, and_self]

example (f : Flags) : f.setFlagApi ⟨true, false, .unix⟩ 32 = .error .debugAssert :=
  (C15_debug_bound ⟨true, false, .unix⟩ f 32 rfl (by decide)).2.1

/-- C15: a flag word is determined by its flags. -/
theorem C15_extensional (f g : Flags) : f = g ↔ ∀ k, k < 32 → (bit f k ↔ bit g k) := by
  constructor
  · rintro rfl k _; exact Iff.rfl
  · intro h
    apply flags_ext
    intro k
    by_cases hk : k < 32
    · exact h k hk
    · exact ⟨fun hb => absurd (flags_lt f hb) hk, fun hb => absurd (flags_lt g hb) hk⟩

/-- Two words that differ in flag 31 only. -/
example : (⟨0x80000001⟩ : Flags) ≠ ⟨1⟩ := fun h => absurd (((C15_extensional _ _).mp h 31 (by decide)).mp (by simp only [bit]; decide))
  (by simp only [bit]; decide)

/-- C15: idempotence, and commutation of operations on different flags. -/
theorem C15_algebra (f : Flags) (a b : UInt32) :
    (f.setFlag a).setFlag a = f.setFlag a ∧ (f.clearFlag a).clearFlag a = f.clearFlag a ∧
    (f.setFlag a).clearFlag a = f.clearFlag a ∧ (f.clearFlag a).setFlag a = f.setFlag a ∧
    (f.setFlag a).setFlag b = (f.setFlag b).setFlag a ∧ (f.clearFlag a).clearFlag b = (f.clearFlag b).clearFlag a ∧
    (a.toNat % 32 ≠ b.toNat % 32 → (f.setFlag a).clearFlag b = (f.clearFlag b).setFlag a) := by
  refine ⟨flags_ext ?_, flags_ext ?_, flags_ext ?_, flags_ext ?_, flags_ext ?_, flags_ext ?_, fun h => flags_ext ?_⟩ <;>
    intro k <;> simp only [setFlag_bit, clearFlag_bit]
  all_goals grind

/-- Setting NTLMSSP_NEGOTIATE_128 on the default word. -/
example (cfg : Cfg) : ∃ g, Flags.default.setFlagApi cfg 29 = .ok g ∧ bit g 29 ∧ bit g 0 ∧ ¬ bit g 1 := by
  obtain ⟨_, ⟨g, h1, h2⟩, _⟩ := C15_operations cfg Flags.default 29 (.inl (by decide))
  refine ⟨g, h1, (h2 29).mpr (.inr rfl), (h2 0).mpr (.inl rfl), fun h => ?_⟩
  rcases (h2 1).mp h with h | h
  · exact absurd (show Nat.testBit 1 1 = true from h) (by decide)
  · simp at h

/-! ### C16: strict mode -/

/-- C16, what holds: every flag word is accepted unchanged, without the strict feature (and with it, see
    `C16_strict_refuted`). -/
theorem C16_accepts_all_partial (cfg : Cfg) (n : UInt32) (rest : List UInt8) :
    (Wire.deserialize cfg : Parser Flags) (le 4 n.toNat ++ rest) = .ok (⟨n⟩, rest) := dec_flags cfg ⟨n⟩ rest

example : (Wire.deserialize ⟨true, true, .unix⟩ : Parser Flags) [0xff, 0xff, 0xff, 0xff, 7] = .ok (⟨0xffffffff⟩, [7]) :=
  C16_accepts_all_partial _ 0xffffffff [7]

/-- C16: the checks, had they been compiled in (`cfg(features = ..)` never holds; Cargo sets `feature`), would
    refuse exactly the intended words. -/
theorem C16_checks_if_compiled (n : UInt32) :
    (Flags.validateWith true n = false ↔ strictBad n.toNat) ∧ Flags.validateWith false n = true := by
  constructor
  · have e : ∀ b : UInt32, b.toNat < 32 → (Flags.mk n).hasFlag b = n.toNat.testBit b.toNat :=
      fun b h => hasFlag_testBit ⟨n⟩ b h
    simp only [Flags.validateWith, Bool.and_true, Flags.R1, Flags.R2, Flags.R3, Flags.R4, Flags.R5, Flags.R6, Flags.R7,
      Flags.R8, Flags.R9, Flags.R10, Flags.NTLMSSP_TARGET_TYPE_DOMAIN, Flags.NTLMSSP_TARGET_TYPE_SERVER,
      Flags.NTLMSSP_NEGOTIATE_UNICODE, Flags.NTLM_NEGOTIATE_OEM, Flags.NTLMSSP_NEGOTIATE_EXTENDED_SESSIONSECURITY,
      Flags.NTLMSSP_NEGOTIATE_LM_KEY]
    rw [e 28 (by decide), e 27 (by decide), e 26 (by decide), e 24 (by decide), e 21 (by decide), e 18 (by decide),
      e 14 (by decide), e 10 (by decide), e 8 (by decide), e 3 (by decide), e 16 (by decide), e 17 (by decide),
      e 0 (by decide), e 1 (by decide), e 19 (by decide), e 7 (by decide)]
    simp only [strictBad, List.mem_cons, List.not_mem_nil, or_false, exists_eq_or_imp, exists_eq_left,
      show (28 : UInt32).toNat = 28 from rfl, show (27 : UInt32).toNat = 27 from rfl, show (26 : UInt32).toNat = 26 from rfl,
      show (24 : UInt32).toNat = 24 from rfl, show (21 : UInt32).toNat = 21 from rfl, show (18 : UInt32).toNat = 18 from rfl,
      show (14 : UInt32).toNat = 14 from rfl, show (10 : UInt32).toNat = 10 from rfl, show (8 : UInt32).toNat = 8 from rfl,
      show (3 : UInt32).toNat = 3 from rfl, show (16 : UInt32).toNat = 16 from rfl, show (17 : UInt32).toNat = 17 from rfl,
      show (0 : UInt32).toNat = 0 from rfl, show (1 : UInt32).toNat = 1 from rfl, show (19 : UInt32).toNat = 19 from rfl,
      show (7 : UInt32).toNat = 7 from rfl, ite_false_iff, Bool.true_eq_false]
    generalize n.toNat.testBit 28 = b28, n.toNat.testBit 27 = b27, n.toNat.testBit 26 = b26, n.toNat.testBit 24 = b24,
      n.toNat.testBit 21 = b21, n.toNat.testBit 18 = b18, n.toNat.testBit 14 = b14, n.toNat.testBit 10 = b10,
      n.toNat.testBit 8 = b8, n.toNat.testBit 3 = b3, n.toNat.testBit 16 = b16, n.toNat.testBit 17 = b17,
      n.toNat.testBit 0 = b0, n.toNat.testBit 1 = b1, n.toNat.testBit 19 = b19, n.toNat.testBit 7 = b7
    clear e
    grind
  · simp [Flags.validateWith]

/-- A reserved bit; both target types. -/
example : strictBad 0x00000009 ∧ strictBad 0x00030001 ∧ ¬ strictBad 0x00000001 := by
  have h := fun n => (C16_checks_if_compiled n).1
  exact ⟨(h 0x9).mp (by decide), (h 0x30001).mp (by decide), fun x => absurd ((h 1).mpr x) (by decide)⟩

/-- The strict half of C16 is false: with the strict feature on, a word with a reserved bit, both target types, no character set
    and contradictory session security is accepted. -/
theorem C16_strict_refuted : ∃ (cfg : Cfg) (n : UInt32), cfg.strict = true ∧ strictBad n.toNat ∧
    (Wire.deserialize cfg : Parser Flags) (le 4 n.toNat) = .ok (⟨n⟩, []) := by
  refine ⟨⟨false, true, .unix⟩, 0x100B0088, rfl, .inl ⟨3, by simp, by decide⟩, ?_⟩
  have := C16_accepts_all_partial ⟨false, true, .unix⟩ 0x100B0088 []
  rwa [List.append_nil] at this

example : Flags.validateWith true 0x00000001 = true ∧ Flags.validateWith true 0x00000009 = false := by decide

/-! ### C17: setters -/

theorem latest_cons {α : Type} (x : α) (l : List α) (a : α) : latest (x :: l) a = latest l x := by
  cases l with
  | nil => rfl
  | cons y l => simp [latest, List.getLast?_cons]

/-- C17: after any sequence of setter calls on any NEGOTIATE message, each getter returns the last value given (or what
    was there before), the OEM_DOMAIN_SUPPLIED and OEM_WORKSTATION_SUPPLIED flags (12 and 13) are set exactly
    when the last value given is present, and nothing else has changed. -/
theorem C17_negotiate (m : Negotiate) (calls : List NegotiateCall) :
    let r := calls.foldl NegotiateCall.apply m
    r.getDomainName = latest (domainsGiven calls) m.getDomainName ∧
    r.getWorkstation = latest (workstationsGiven calls) m.getWorkstation ∧
    (bit r.negotiateFlags 12 ↔ if domainsGiven calls = [] then bit m.negotiateFlags 12 else r.getDomainName.isSome = true) ∧
    (bit r.negotiateFlags 13 ↔
      if workstationsGiven calls = [] then bit m.negotiateFlags 13 else r.getWorkstation.isSome = true) ∧
    (∀ k, k ≠ 12 → k ≠ 13 → (bit r.negotiateFlags k ↔ bit m.negotiateFlags k)) ∧
    r.version = m.version := by
  induction calls generalizing m with
  | nil => simp [domainsGiven, workstationsGiven, latest]
  | cons c calls ih =>
    cases c with
    | domain d =>
      have hb : ∀ k, bit (m.setDomainName d).negotiateFlags k ↔
          if k = 12 then d.isSome = true else bit m.negotiateFlags k := by
        intro k
        cases d with
        | none =>
          show bit (m.negotiateFlags.clearFlag _) k ↔ _
          rw [clearFlag_bit]
          by_cases hk : k = 12 <;> simp [hk, Flags.NTLMSSP_NEGOTIATE_OEM_DOMAIN_SUPPLIED]
        | some d =>
          show bit (m.negotiateFlags.setFlag _) k ↔ _
          rw [setFlag_bit]
          by_cases hk : k = 12 <;> simp [hk, Flags.NTLMSSP_NEGOTIATE_OEM_DOMAIN_SUPPLIED]
      have hd : (m.setDomainName d).getDomainName = d := by
        cases d <;> simp [Negotiate.setDomainName, Negotiate.getDomainName]
      have hw : (m.setDomainName d).getWorkstation = m.getWorkstation := by
        cases d <;> simp [Negotiate.setDomainName, Negotiate.getWorkstation]
      have hv : (m.setDomainName d).version = m.version := by cases d <;> simp [Negotiate.setDomainName]
      obtain ⟨h1, h2, h3, h4, h5, h6⟩ := ih (m.setDomainName d)
      have e1 : domainsGiven (.domain d :: calls) = d :: domainsGiven calls := rfl
      have e2 : workstationsGiven (.domain d :: calls) = workstationsGiven calls := rfl
      simp only [List.foldl_cons, e1, e2, latest_cons, NegotiateCall.apply]
      refine ⟨by rw [h1, hd], by rw [h2, hw], ?_, ?_, ?_, by rw [h6, hv]⟩
      · rw [h3]
        by_cases hl : domainsGiven calls = []
        · simp only [hl, if_true, List.cons_ne_nil, if_false]
          rw [hb 12, h1, hl, hd]
          simp [latest]
        · simp [hl]
      · rw [h4, hb 13]; simp
      · intro k k1 k2
        rw [h5 k k1 k2, hb k, if_neg k1]
    | workstation d =>
      have hb : ∀ k, bit (m.setWorkstation d).negotiateFlags k ↔
          if k = 13 then d.isSome = true else bit m.negotiateFlags k := by
        intro k
        cases d with
        | none =>
          show bit (m.negotiateFlags.clearFlag _) k ↔ _
          rw [clearFlag_bit]
          by_cases hk : k = 13 <;> simp [hk, Flags.NTLMSSP_NEGOTIATE_OEM_WORKSTATION_SUPPLIED]
        | some d =>
          show bit (m.negotiateFlags.setFlag _) k ↔ _
          rw [setFlag_bit]
          by_cases hk : k = 13 <;> simp [hk, Flags.NTLMSSP_NEGOTIATE_OEM_WORKSTATION_SUPPLIED]
      have hd : (m.setWorkstation d).getWorkstation = d := by
        cases d <;> simp [Negotiate.setWorkstation, Negotiate.getWorkstation]
      have hw : (m.setWorkstation d).getDomainName = m.getDomainName := by
        cases d <;> simp [Negotiate.setWorkstation, Negotiate.getDomainName]
      have hv : (m.setWorkstation d).version = m.version := by cases d <;> simp [Negotiate.setWorkstation]
      obtain ⟨h1, h2, h3, h4, h5, h6⟩ := ih (m.setWorkstation d)
      have e1 : domainsGiven (.workstation d :: calls) = domainsGiven calls := rfl
      have e2 : workstationsGiven (.workstation d :: calls) = d :: workstationsGiven calls := rfl
      simp only [List.foldl_cons, e1, e2, latest_cons, NegotiateCall.apply]
      refine ⟨by rw [h1, hw], by rw [h2, hd], ?_, ?_, ?_, by rw [h6, hv]⟩
      · rw [h3, hb 12]; simp
      · rw [h4]
        by_cases hl : workstationsGiven calls = []
        · simp only [hl, if_true, List.cons_ne_nil, if_false]
          rw [hb 13, h2, hl, hd]
          simp [latest]
        · simp [hl]
      · intro k k1 k2
        rw [h5 k k1 k2, hb k, if_neg k2]

theorem setTargetName_spec (m : Challenge) (t : Option Str) :
    (m.setTargetName t).getTargetName = t ∧
    (∀ k, bit (m.setTargetName t).negotiateFlags k ↔ if k = 2 then t.isSome = true else bit m.negotiateFlags k) ∧
    (m.setTargetName t).serverChallenge = m.serverChallenge ∧ (m.setTargetName t).targetInfos = m.targetInfos ∧
    (m.setTargetName t).version = m.version := by
  cases t with
  | none =>
    refine ⟨rfl, ?_, rfl, rfl, rfl⟩
    intro k
    show bit (m.negotiateFlags.clearFlag _) k ↔ _
    rw [clearFlag_bit]
    by_cases hk : k = 2 <;> simp [hk, Flags.NTLMSSP_REQUEST_TARGET]
  | some t =>
    refine ⟨rfl, ?_, rfl, rfl, rfl⟩
    intro k
    show bit (m.negotiateFlags.setFlag _) k ↔ _
    rw [setFlag_bit]
    by_cases hk : k = 2 <;> simp [hk, Flags.NTLMSSP_REQUEST_TARGET]

/-- C17: the same for `set_target_name` and REQUEST_TARGET (flag 2). -/
theorem C17_challenge (m : Challenge) (names : List (Option Str)) (last : Option Str) :
    let r := (names ++ [last]).foldl Challenge.setTargetName m
    r.getTargetName = last ∧ (bit r.negotiateFlags 2 ↔ last.isSome = true) ∧
    (∀ k, k ≠ 2 → (bit r.negotiateFlags k ↔ bit m.negotiateFlags k)) ∧
    r.serverChallenge = m.serverChallenge ∧ r.targetInfos = m.targetInfos ∧ r.version = m.version := by
  simp only [List.foldl_append, List.foldl_cons, List.foldl_nil]
  have inv : ∀ m : Challenge, let r := names.foldl Challenge.setTargetName m
      (∀ k, k ≠ 2 → (bit r.negotiateFlags k ↔ bit m.negotiateFlags k)) ∧
      r.serverChallenge = m.serverChallenge ∧ r.targetInfos = m.targetInfos ∧ r.version = m.version := by
    induction names with
    | nil => intro m; exact ⟨fun _ _ => Iff.rfl, rfl, rfl, rfl⟩
    | cons n names ih =>
      intro m
      obtain ⟨h1, h2, h3, h4⟩ := ih (m.setTargetName n)
      obtain ⟨_, s1, s2, s3, s4⟩ := setTargetName_spec m n
      refine ⟨fun k hk => ?_, h2.trans s2, h3.trans s3, h4.trans s4⟩
      exact (h1 k hk).trans ((s1 k).trans (by rw [if_neg hk]))
  obtain ⟨h1, h2, h3, h4⟩ := inv m
  obtain ⟨s0, s1, s2, s3, s4⟩ := setTargetName_spec (names.foldl Challenge.setTargetName m) last
  refine ⟨s0, (s1 2).trans (by simp), fun k hk => ?_, s2.trans h2, s3.trans h3, s4.trans h4⟩
  exact ((s1 k).trans (by rw [if_neg hk])).trans (h1 k hk)

example :
    let r := [some "A".toList, none, some "B".toList].foldl Challenge.setTargetName Challenge.default
    r.getTargetName = some "B".toList ∧ bit r.negotiateFlags 2 := by
  have h := C17_challenge Challenge.default [some "A".toList, none] (some "B".toList)
  exact ⟨h.1, h.2.1.mpr rfl⟩

/-- C17: the same for the encrypted session key and KEY_EXCH (flag 30). -/
theorem C17_authenticate (m : Authenticate) (keys : List (Option (Bytes 16))) (last : Option (Bytes 16)) :
    let r := (keys ++ [last]).foldl Authenticate.setEncryptedRandomSessionKey m
    r.getEncryptedRandomSessionKey = last ∧ (bit r.negotiateFlags 30 ↔ last.isSome = true) ∧
    (∀ k, k ≠ 30 → (bit r.negotiateFlags k ↔ bit m.negotiateFlags k)) ∧
    r = { m with encryptedRandomSessionKey := last, negotiateFlags := r.negotiateFlags } := by
  have spec : ∀ (m : Authenticate) (x : Option (Bytes 16)),
      (m.setEncryptedRandomSessionKey x).getEncryptedRandomSessionKey = x ∧
      (∀ k, bit (m.setEncryptedRandomSessionKey x).negotiateFlags k ↔
        if k = 30 then x.isSome = true else bit m.negotiateFlags k) ∧
      m.setEncryptedRandomSessionKey x =
        { m with encryptedRandomSessionKey := x, negotiateFlags := (m.setEncryptedRandomSessionKey x).negotiateFlags } := by
    intro m x
    cases x with
    | none =>
      refine ⟨rfl, fun k => ?_, rfl⟩
      show bit (m.negotiateFlags.clearFlag _) k ↔ _
      rw [clearFlag_bit]
      by_cases hk : k = 30 <;> simp [hk, Flags.NTLMSSP_NEGOTIATE_KEY_EXCH]
    | some x =>
      refine ⟨rfl, fun k => ?_, rfl⟩
      show bit (m.negotiateFlags.setFlag _) k ↔ _
      rw [setFlag_bit]
      by_cases hk : k = 30 <;> simp [hk, Flags.NTLMSSP_NEGOTIATE_KEY_EXCH]
  simp only [List.foldl_append, List.foldl_cons, List.foldl_nil]
  have inv : ∀ m : Authenticate, let r := keys.foldl Authenticate.setEncryptedRandomSessionKey m
      (∀ k, k ≠ 30 → (bit r.negotiateFlags k ↔ bit m.negotiateFlags k)) ∧
      ∃ x, r = { m with encryptedRandomSessionKey := x, negotiateFlags := r.negotiateFlags } := by
    induction keys with
    | nil => intro m; exact ⟨fun _ _ => Iff.rfl, m.encryptedRandomSessionKey, rfl⟩
    | cons n keys ih =>
      intro m
      obtain ⟨h1, x, h2⟩ := ih (m.setEncryptedRandomSessionKey n)
      obtain ⟨_, s1, s2⟩ := spec m n
      refine ⟨fun k hk => (h1 k hk).trans ((s1 k).trans (by rw [if_neg hk])), x, ?_⟩
      simp only [List.foldl_cons]
      rw [h2]
      rw [s2]
  obtain ⟨h1, x, h2⟩ := inv m
  obtain ⟨s0, s1, s2⟩ := spec (keys.foldl Authenticate.setEncryptedRandomSessionKey m) last
  refine ⟨s0, (s1 30).trans (by simp), fun k hk => ((s1 k).trans (by rw [if_neg hk])).trans (h1 k hk), ?_⟩
  rw [s2]
  generalize Authenticate.negotiateFlags (Authenticate.setEncryptedRandomSessionKey _ last) = f
  rw [h2]

example :
    let r := [some (Bytes.zero 16), none].foldl Authenticate.setEncryptedRandomSessionKey exAuthenticate
    r.getEncryptedRandomSessionKey = none ∧ ¬ bit r.negotiateFlags 30 := by
  have h := C17_authenticate exAuthenticate [some (Bytes.zero 16)] none
  exact ⟨h.1, fun x => absurd (h.2.1.mp x) (by decide)⟩

/-- A domain given twice, the second time absent. -/
example :
    let r := [NegotiateCall.domain (some "D".toList), .workstation (some "W".toList), .domain none].foldl NegotiateCall.apply
      Negotiate.default
    r.getDomainName = none ∧ r.getWorkstation = some "W".toList ∧ ¬ bit r.negotiateFlags 12 ∧ bit r.negotiateFlags 13 := by
  obtain ⟨h1, h2, h3, h4, _⟩ := C17_negotiate Negotiate.default
    [NegotiateCall.domain (some "D".toList), .workstation (some "W".toList), .domain none]
  refine ⟨h1, h2, ?_, ?_⟩
  · rw [h3, if_neg (by simp [domainsGiven]), h1]; simp [domainsGiven, latest]
  · rw [h4, if_neg (by simp [workstationsGiven]), h2]; simp [workstationsGiven, latest]

/-! ### C14: the challenge builder -/

/-- `m` carries exactly the pairs `l` in its target infos. -/
def Carries (m : Challenge) (l : List AvPair) : Prop := m.targetInfos = terminatedList l

theorem addTargetInfo_spec (m : Challenge) (l : List AvPair) (p : AvPair) (h : m.targetInfos = terminatedList l)
    (hf : bit m.negotiateFlags 23 ↔ l ≠ []) :
    (m.addTargetInfo p).targetInfos = terminatedList (l ++ [p]) ∧
    (∀ k, bit (m.addTargetInfo p).negotiateFlags k ↔ k = 23 ∨ bit m.negotiateFlags k) ∧
    (m.addTargetInfo p).targetName = m.targetName ∧ (m.addTargetInfo p).serverChallenge = m.serverChallenge ∧
    (m.addTargetInfo p).version = m.version := by
  by_cases hl : l = []
  · subst hl
    have he : m.targetInfos = [] := h
    simp only [Challenge.addTargetInfo, he, List.isEmpty_nil, if_true]
    refine ⟨rfl, fun k => ?_, trivial, trivial, trivial⟩
    rw [setFlag_bit]
    constructor
    · rintro (h | h)
      · exact .inr h
      · exact .inl h
    · rintro (h | h)
      · exact .inr h
      · exact .inl h
  · have he : m.targetInfos = l ++ [.eol] := by rw [h, terminatedList, if_neg hl]
    have hne : m.targetInfos.isEmpty = false := by rw [he]; simp
    simp only [Challenge.addTargetInfo, hne, Bool.false_eq_true, if_false]
    refine ⟨?_, fun k => ?_, trivial, trivial, trivial⟩
    · rw [he]
      simp [terminatedList, List.take_left', List.drop_left']
    · constructor
      · exact .inr
      · rintro (rfl | h)
        · exact hf.mpr hl
        · exact h

/-- C14: after any sequence of builder calls on a fresh challenge, the target infos are the added pairs in call order followed by
    one terminator, or empty if no pair was added; TARGET_INFO (flag 23) is set exactly in the first case;
    REQUEST_TARGET (flag 2) exactly if the last target name given is present; no other flag and nothing else
    changes. -/
theorem C14_builder (cm : CaseMap) (calls : List ChallengeCall) :
    let r := calls.foldl (ChallengeCall.apply cm) Challenge.default
    r.getTargetInfos = terminatedList (calls.flatMap (ChallengeCall.pairs cm)) ∧
    (bit r.negotiateFlags 23 ↔ calls.flatMap (ChallengeCall.pairs cm) ≠ []) ∧
    r.getTargetName = latest (targetNamesGiven calls) none ∧
    (bit r.negotiateFlags 2 ↔ (latest (targetNamesGiven calls) none).isSome = true) ∧
    (∀ k, k ≠ 2 → k ≠ 23 → (bit r.negotiateFlags k ↔ k = 0)) ∧
    r.serverChallenge = Bytes.zero 8 ∧ r.version = none := by
  -- the state reached, in general
  let Inv : Challenge → List AvPair → Option Str → Prop := fun m l t =>
    m.targetInfos = terminatedList l ∧ (∀ k, bit m.negotiateFlags k ↔ (k = 23 ∧ l ≠ []) ∨ (k = 2 ∧ t.isSome = true) ∨ k = 0) ∧
    m.getTargetName = t ∧ m.serverChallenge = Bytes.zero 8 ∧ m.version = none
  have add : ∀ m l t p, Inv m l t → Inv (m.addTargetInfo p) (l ++ [p]) t := by
    rintro m l t p ⟨h1, h2, h3, h4, h5⟩
    obtain ⟨s1, s2, s3, s4, s5⟩ := addTargetInfo_spec m l p h1 (by rw [h2]; simp)
    refine ⟨s1, fun k => ?_, ?_, s4.trans h4, s5.trans h5⟩
    · rw [s2, h2]
      have hne : l ++ [p] ≠ [] := by simp
      simp only [hne, not_false_eq_true, and_true, ne_eq]
      clear hne s1 h1
      grind
    · rw [← h3]; simp only [Challenge.getTargetName, s3]
  have addOpt : ∀ m l t (o : Option AvPair), Inv m l t →
      Inv (match o with | some p => m.addTargetInfo p | none => m) (l ++ o.toList) t := by
    intro m l t o h
    cases o with
    | none => simpa using h
    | some p => exact add m l t p h
  have step : ∀ m l t c, Inv m l t → Inv (ChallengeCall.apply cm m c) (l ++ c.pairs cm)
      (match c with | .targetName x => x | _ => t) := by
    intro m l t c h
    cases c with
    | targetName x =>
      obtain ⟨h1, h2, h3, h4, h5⟩ := h
      obtain ⟨s0, s1, s2, s3, s4⟩ := setTargetName_spec m x
      refine ⟨?_, fun k => ?_, s0, s2.trans h4, s4.trans h5⟩
      · simp only [ChallengeCall.apply, ChallengeCall.pairs, List.append_nil]
        rw [s3, h1]
      · simp only [ChallengeCall.apply, ChallengeCall.pairs, List.append_nil]
        rw [s1]
        by_cases hk : k = 2
        · simp [hk]
        · simp [hk, h2 k]
    | fillFromEnv env =>
      have a1 := addOpt m l t ((env "COMPUTERNAME").map fun s => AvPair.nbComputerName (cm.upper s)) h
      have a2 := addOpt _ _ t ((env "COMPUTERDNSNAME").map fun s => AvPair.dnsComputerName s) a1
      have a3 := addOpt _ _ t ((env "USERDOMAIN").map fun s => AvPair.nbDomainName (cm.upper s)) a2
      have a4 := addOpt _ _ t ((env "USERDNSDOMAIN").map fun s => AvPair.dnsDomainName s) a3
      simp only [List.append_assoc] at a4
      simp only [ChallengeCall.apply, ChallengeCall.pairs, List.append_assoc, Challenge.fillFromEnv]
      cases e1 : env "COMPUTERNAME" <;> cases e2 : env "COMPUTERDNSNAME" <;> cases e3 : env "USERDOMAIN" <;>
        cases e4 : env "USERDNSDOMAIN" <;> simp only [e1, e2, e3, e4, Option.map_none, Option.map_some] at a4 <;>
        exact a4
    | computername s => exact add m l t _ h
    | domainname s => exact add m l t _ h
    | dnscomputername s => exact add m l t _ h
    | dnsdomainname s => exact add m l t _ h
    | dnstreename s => exact add m l t _ h
    | flags s => exact add m l t _ h
    | timestamp s => exact add m l t _ h
    | singlehost s => exact add m l t _ h
    | targetname s => exact add m l t _ h
    | channelbindings s => exact add m l t _ h
  have run : ∀ calls m l t, Inv m l t →
      Inv (calls.foldl (ChallengeCall.apply cm) m) (l ++ calls.flatMap (ChallengeCall.pairs cm))
        (latest (targetNamesGiven calls) t) := by
    intro calls
    induction calls with
    | nil => intro m l t h; simpa [targetNamesGiven, latest] using h
    | cons c calls ih =>
      intro m l t h
      have e : latest (targetNamesGiven (c :: calls)) t =
          latest (targetNamesGiven calls) (match c with | .targetName x => x | _ => t) := by
        cases c <;> first | rfl | exact latest_cons _ _ _
      rw [e]
      have h1 := ih _ _ _ (step m l t c h)
      simp only [List.append_assoc] at h1
      simp only [List.foldl_cons, List.flatMap_cons]
      exact h1
  have h0 : Inv Challenge.default [] none := by
    refine ⟨rfl, fun k => ?_, rfl, rfl, rfl⟩
    have : Challenge.default.negotiateFlags.bits.toNat = 2 ^ 0 := rfl
    simp only [bit, this, Nat.testBit_two_pow]
    simp
    exact eq_comm
  obtain ⟨r1, r2, r3, r4, r5⟩ := run calls _ _ _ h0
  simp only [List.nil_append] at r1 r2
  refine ⟨r1, ?_, r3, ?_, fun k k1 k2 => ?_, r4, r5⟩
  · rw [r2]; simp
  · rw [r2]; simp
  · rw [r2]; simp [k1, k2]

/-- C14: hence what a builder produces, if its texts are plain and it fits, survives the wire unchanged as far as the target
    infos are concerned: they are terminated. -/
theorem C14_terminated (cm : CaseMap) (calls : List ChallengeCall) :
    let r := calls.foldl (ChallengeCall.apply cm) Challenge.default
    r.targetInfos = [] ∨ ∃ l, r.targetInfos = l ++ [.eol] ∧ AvPair.eol ∉ l := by
  have h := (C14_builder cm calls).1
  simp only [Challenge.getTargetInfos] at h
  simp only [h, terminatedList]
  split
  · exact .inl rfl
  · refine .inr ⟨_, rfl, ?_⟩
    intro hc
    obtain ⟨c, _, hc⟩ := List.mem_flatMap.mp hc
    cases c <;> simp [ChallengeCall.pairs] at hc

/-- Two pairs and a target name. -/
example (cm : CaseMap) :
    let r := [ChallengeCall.domainname "D".toList, .targetName (some "T".toList), .timestamp ⟨1, 2⟩].foldl
      (ChallengeCall.apply cm) Challenge.default
    r.getTargetInfos = [.nbDomainName "D".toList, .timestamp ⟨1, 2⟩, .eol] ∧ r.getTargetName = some "T".toList := by
  obtain ⟨h1, _, h2, _⟩ := C14_builder cm
    [ChallengeCall.domainname "D".toList, .targetName (some "T".toList), .timestamp ⟨1, 2⟩]
  exact ⟨h1, h2⟩

end Props
end Ntlm
