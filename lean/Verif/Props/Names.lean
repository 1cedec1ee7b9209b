import Verif.Lemmas.Names
import Verif.Props.History
/-
  C22, C23: user names and workstation names.
-/
namespace Ntlm.Props

open Spec Client

/-! ### C22 -/

/-- C22: every user name can be read in exactly one way. -/
theorem C22_unambiguous (given : Str) : ∃ domain user, splits given domain user ∧
    ∀ d u, splits given d u → d = domain ∧ u = user := by
  cases h : splitOnce '\\' given with
  | some p =>
    obtain ⟨d, u⟩ := p
    obtain ⟨e, hn⟩ := splitOnce_some.mp h
    refine ⟨d, u, .inl ⟨e, hn⟩, ?_⟩
    have hin : '\\' ∈ given := by rw [e]; simp
    rintro d' u' (⟨e', hn'⟩ | ⟨hx, _⟩ | ⟨hx, _⟩)
    · have := splitOnce_some.mpr ⟨e', hn'⟩
      rw [h] at this; simp only [Option.some.injEq, Prod.mk.injEq] at this
      exact ⟨this.1.symm, this.2.symm⟩
    · exact absurd hin hx
    · exact absurd hin hx
  | none =>
    have hb := splitOnce_none.mp h
    cases h2 : splitOnce '@' given with
    | some p =>
      obtain ⟨u, d⟩ := p
      obtain ⟨e, hn⟩ := splitOnce_some.mp h2
      refine ⟨d, u, .inr (.inl ⟨hb, e, hn⟩), ?_⟩
      have hin : '@' ∈ given := by rw [e]; simp
      rintro d' u' (⟨e', _⟩ | ⟨_, e', hn'⟩ | ⟨_, hx, _⟩)
      · rw [e'] at hb; simp at hb
      · have := splitOnce_some.mpr ⟨e', hn'⟩
        rw [h2] at this; simp only [Option.some.injEq, Prod.mk.injEq] at this
        exact ⟨this.2.symm, this.1.symm⟩
      · exact absurd hin hx
    | none =>
      have ha := splitOnce_none.mp h2
      refine ⟨[], given, .inr (.inr ⟨hb, ha, rfl, rfl⟩), ?_⟩
      rintro d' u' (⟨e', _⟩ | ⟨_, e', _⟩ | ⟨_, _, h1, h2⟩)
      · rw [e'] at hb; simp at hb
      · rw [e'] at ha; simp at ha
      · exact ⟨h2, h1⟩

/-- The first backslash decides, even if there is an `@`: `DOM\\u@x` is user `u@x` of `DOM`. -/
example : ∀ d u, splits "DOM\\u@x".toList d u → d = "DOM".toList ∧ u = "u@x".toList := by
  obtain ⟨d, u, h, hu⟩ := C22_unambiguous "DOM\\u@x".toList
  obtain ⟨rfl, rfl⟩ := hu "DOM".toList "u@x".toList (.inl ⟨rfl, by decide⟩)
  exact hu

/-- C22: `Client::new` is `Client::new_with_domain` on the two parts of the name. -/
theorem C22_split (P : Prims) (cm : CaseMap) (env : HostEnv) (given domain user pw target : Str)
    (h : splits given domain user) :
    Client.new P cm env given pw target = Client.newWithDomain P cm env user domain pw target := by
  rcases h with ⟨e, hn⟩ | ⟨hb, e, hn⟩ | ⟨hb, ha, rfl, rfl⟩
  · simp only [Client.new, splitOnce_some.mpr ⟨e, hn⟩]
  · simp only [Client.new, splitOnce_none.mpr hb, splitOnce_some.mpr ⟨e, hn⟩]
  · simp only [Client.new, splitOnce_none.mpr hb, splitOnce_none.mpr ha]

/-- The client made by `Client::new` has these as domain and user. -/
theorem C22_fields (P : Prims) (cm : CaseMap) (env : HostEnv) (given pw target : Str) (c : Client)
    (h : Client.new P cm env given pw target = .ok c) : splits given c.domain c.username := by
  obtain ⟨d, u, hs, _⟩ := C22_unambiguous given
  rw [C22_split P cm env given d u pw target hs] at h
  obtain ⟨_, _, hd, hu⟩ := created_state (P := P) (cm := cm) (l := ⟨u, d, pw, target, env⟩) h
  rw [hd, hu]
  exact hs

/-- All three forms, including one with both separators and one with several. -/
example : splits "DOM\\u@x".toList "DOM".toList "u@x".toList ∧ splits "u@a@b".toList "a@b".toList "u".toList ∧
    splits "u".toList [] "u".toList :=
  ⟨.inl ⟨rfl, by decide⟩, .inr (.inl ⟨by decide, rfl, by decide⟩), .inr (.inr ⟨by decide, by decide, rfl, rfl⟩)⟩
example : splits "a\\b\\c".toList "a".toList "b\\c".toList := .inl ⟨rfl, by decide⟩
example (P : Prims) (cm : CaseMap) : ∃ c, Client.new P cm exLogin.env "DOM\\user".toList exLogin.password exLogin.target = .ok c := by
  rw [C22_split P cm _ "DOM\\user".toList "DOM".toList "user".toList _ _ (.inl ⟨rfl, by decide⟩)]
  exact exLogin_created P cm

/-! ### C23 -/

/-- C23: the workstation name of every client that could be created. -/
theorem C23_workstation (P : Prims) (cm : CaseMap) (l : Login) (c : Client) (hc : created P cm l c) :
    workstationIs cm l.env c.workstation := by
  obtain ⟨lm, w, _, hw, rfl⟩ := (created_iff P cm l c).mp hc
  exact (workstation_iff.mp hw).1

example (P : Prims) (cm : CaseMap) : ∃ c, created P cm exLogin c ∧ workstationIs cm ⟨some "WS".toList, none⟩ c.workstation := by
  obtain ⟨c, hc⟩ := exLogin_created P cm
  exact ⟨c, hc, C23_workstation P cm exLogin c hc⟩

/-- C23: the description leaves no choice. -/
theorem C23_unambiguous (cm : CaseMap) (env : HostEnv) : ∃ w, workstationIs cm env w ∧ ∀ w', workstationIs cm env w' → w' = w := by
  by_cases hne : env.computerName = none ∧ env.hostnameFile = some []
  · refine ⟨some [], .inr (.inr ⟨hne.1, [], [], [], [], hne.2, .inl ⟨by simp, rfl⟩, ⟨by simp, .inl rfl⟩,
      trim_eq.mp rfl, rfl⟩), ?_⟩
    rintro w' (⟨n, h, _⟩ | ⟨_, h, _⟩ | ⟨_, file, line, label, name, h1, h2, h3, h4, rfl⟩)
    · rw [hne.1] at h; cases h
    · rw [hne.2] at h; cases h
    · rw [hne.2] at h1
      obtain rfl := Option.some.inj h1
      rcases h2 with ⟨_, rfl⟩ | ⟨rest, _, h | ⟨h, _⟩⟩
      · rcases h3 with ⟨_, rfl | ⟨rest, h⟩⟩
        · rw [← trim_eq.mpr h4]; rfl
        · simp at h
      · simp at h
      · simp at h
  · cases hg : getWorkstationName cm env with
    | error e =>
      exfalso
      obtain ⟨cn, hf⟩ := env
      cases cn with
      | some n => simp [getWorkstationName] at hg
      | none =>
        cases hf with
        | none => simp [getWorkstationName] at hg
        | some f =>
          simp only [getWorkstationName] at hg
          cases hl : firstLine f with
          | none => exact hne ⟨rfl, by rw [firstLine_none.mp hl]⟩
          | some line =>
            rw [hl] at hg
            simp only [] at hg
            split at hg <;> cases hg
    | ok w =>
      refine ⟨w, (workstation_iff.mp hg).1, fun w' h' => ?_⟩
      have := workstation_iff.mpr ⟨h', hne⟩
      rw [hg] at this
      exact (Except.ok.inj this).symm

/-- The environment variable wins over the file. -/
example (cm : CaseMap) (w : Option Str) (h : workstationIs cm ⟨some "WS".toList, some "other".toList⟩ w) : w = some "WS".toList := by
  obtain ⟨w', _, hu⟩ := C23_unambiguous cm ⟨some "WS".toList, some "other".toList⟩
  rw [hu w h, ← hu (some "WS".toList) (.inl ⟨_, rfl, rfl⟩)]

/-- C23: with a password whose LM hash can be computed, the lookup crashes exactly on an empty host name file.  The full
    property asks for no crash at all, which is false. -/
theorem C23_no_crash_partial (P : Prims) (cm : CaseMap) (l : Login) (hp : lmComputable cm l.password) :
    (∃ c, created P cm l c) ↔ ¬ (l.env.computerName = none ∧ l.env.hostnameFile = some []) := by
  have := C24_construct_iff P cm l.env l.user l.domain l.password l.target
  simp only [hp, true_and] at this
  exact this

/-- No crash where the file cannot be read, one where it is empty. -/
example (P : Prims) (cm : CaseMap) : (∃ c, created P cm { exLogin with env := ⟨none, none⟩ } c) ∧
    ¬ ∃ c, created P cm { exLogin with env := ⟨none, some []⟩ } c := by
  obtain ⟨c, hc⟩ := exLogin_created P cm
  have hp := ((C24_construct_iff P cm _ _ _ _ _).mp ⟨c, hc⟩).1
  exact ⟨(C23_no_crash_partial P cm { exLogin with env := ⟨none, none⟩ } hp).mpr (by simp),
    fun h => (C23_no_crash_partial P cm { exLogin with env := ⟨none, some []⟩ } hp).mp h ⟨rfl, rfl⟩⟩

/-- C23 is false in general: an empty `/etc/hostname` makes every construction panic. -/
theorem C23_refuted : ∃ env : HostEnv, env.computerName = none ∧ env.hostnameFile = some [] ∧
    ∀ (P : Prims) (cm : CaseMap) (user domain pw target : Str),
      ∃ e, Client.newWithDomain P cm env user domain pw target = .error e := by
  refine ⟨⟨none, some []⟩, rfl, rfl, fun P cm user domain pw target => ?_⟩
  simp only [Client.newWithDomain, Client.computeNtlmHashes, getWorkstationName, firstLine]
  cases lmowfv1 P cm pw with
  | error e => exact ⟨e, rfl⟩
  | ok lm => exact ⟨_, rfl⟩

/-! ### C59 -/

/-- C59: the LM hash a client holds is `LMOWFv1` of the two halves of its password. -/
theorem C59_lm_hash (P : Prims) (cm : CaseMap) (l : Login) (c : Client) (hc : created P cm l c) :
    ∃ a b, lmHalves cm l.password a b ∧ (∀ a' b', lmHalves cm l.password a' b' → a' = a ∧ b' = b) ∧
      isLmHash P (utf8Bytes a ++ utf8Bytes b) c.lmHash.val := by
  obtain ⟨lm, w, h, _, rfl⟩ := (created_iff P cm l c).mp hc
  obtain ⟨a, b, hab, hl⟩ := (lm_value P cm l.password lm).mp h
  exact ⟨a, b, hab, fun a' b' h' => lmHalves_unique h' hab, hl⟩

/-- A password outside ASCII for which it can be computed, if the upper case of é is É. -/
example (cm : CaseMap) (h : cm.up 'é' = ['É']) : lmHalves cm "éa".toList ("ÉA".toList ++ List.replicate 4 '\x00') (List.replicate 7 '\x00') := by
  have e : cm.upper "éa".toList = "ÉA".toList := by
    show cm.up 'é' ++ (cm.up 'a' ++ []) = _
    rw [h, cm.ascii 'a' (by decide)]
    rfl
  refine ⟨"éa".toList, [], _, rfl, .inl ⟨by decide +kernel, rfl, rfl⟩, ?_, by decide +kernel, by decide +kernel⟩
  rw [e]
  decide +kernel

/-- A typical host name file. -/
example (cm : CaseMap) : workstationIs cm ⟨none, some " srv1 .example.org\r\nx".toList⟩ (some "SRV1".toList) := by
  refine .inr (.inr ⟨rfl, _, " srv1 .example.org".toList, " srv1 ".toList, "srv1".toList, rfl,
    .inr ⟨"x".toList, by decide, .inl rfl⟩, ⟨by decide, .inr ⟨"example.org".toList, rfl⟩⟩,
    ⟨" ".toList, " ".toList, rfl, by decide, by decide, by decide, by decide⟩, ?_⟩)
  rw [upper_ascii cm (by simp [ascii])]
  rfl
example (cm : CaseMap) : lmComputable cm exLogin.password := by
  obtain ⟨r, hr, _⟩ := C24_ascii_partial toyPrims cm exLogin.password (by simp [ascii, exLogin])
  exact (lm_iff toyPrims cm _).mp ⟨r, hr⟩

end Ntlm.Props
