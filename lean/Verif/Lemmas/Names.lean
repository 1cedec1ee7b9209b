import Verif.Spec.Client
/-
  Lemmas about splitting user names and looking up the workstation name.
-/
namespace Ntlm

open Spec

theorem splitOnce_some {sep : Char} {s a b : Str} : splitOnce sep s = some (a, b) ↔ s = a ++ sep :: b ∧ sep ∉ a := by
  induction s generalizing a with
  | nil => simp [splitOnce]
  | cons c cs ih =>
    by_cases h : c = sep
    · subst h
      simp only [splitOnce, if_true, Option.some.injEq, Prod.mk.injEq]
      cases a with
      | nil => simp
      | cons x a =>
        simp only [reduceCtorEq, false_and, List.cons_append, List.cons.injEq, List.mem_cons, false_iff]
        rintro ⟨⟨rfl, _⟩, h⟩
        simp at h
    · simp only [splitOnce, h, if_false]
      cases a with
      | nil =>
        simp only [List.nil_append, List.cons.injEq, h, false_and, iff_false]
        cases splitOnce sep cs <;> simp
      | cons x a =>
        simp only [List.cons.injEq, List.cons_append, List.mem_cons, not_or]
        have ih' := @ih a
        cases hs : splitOnce sep cs with
        | none => rw [hs] at ih'; simp only [reduceCtorEq, false_iff] at ih' ⊢; grind
        | some p =>
          obtain ⟨p, q⟩ := p
          rw [hs] at ih'
          simp only [Option.some.injEq, Prod.mk.injEq, List.cons.injEq] at ih' ⊢
          grind

theorem splitOnce_none {sep : Char} {s : Str} : splitOnce sep s = none ↔ sep ∉ s := by
  induction s with
  | nil => simp [splitOnce]
  | cons c cs ih =>
    by_cases h : c = sep
    · simp [splitOnce, h]
    · simp only [splitOnce, h, if_false, List.mem_cons, not_or, ← ih]
      cases splitOnce sep cs with
      | none => simp; exact fun e => h e.symm
      | some p => obtain ⟨p, q⟩ := p; simp

theorem isWhitespace_iff (c : Char) : isWhitespace c = true ↔ whiteSpace c := by
  simp only [isWhitespace, whiteSpace, Bool.or_eq_true, Bool.and_eq_true, decide_eq_true_eq, beq_iff_eq, List.mem_cons,
    List.not_mem_nil, or_false]
  omega

theorem trim_eq {s t : Str} : trim s = t ↔ trimmed s t := by
  simp only [trimmed, ← isWhitespace_iff, Bool.not_eq_true]
  have key : ∀ s t : Str, (∃ l r, s = l ++ t ++ r ∧ (∀ c ∈ l, isWhitespace c = true) ∧ (∀ c ∈ r, isWhitespace c = true) ∧
      (∀ c, t.head? = some c → isWhitespace c = false) ∧ (∀ c, t.getLast? = some c → isWhitespace c = false)) → trim s = t := by
    rintro s t ⟨l, r, rfl, hl, hr, h1, h2⟩
    simp only [trim]
    rw [List.append_assoc, List.dropWhile_append_of_pos hl]
    cases t with
    | nil =>
      have : List.dropWhile isWhitespace ([] ++ r) = [] := by
        have := List.dropWhile_append_of_pos (p := isWhitespace) (l₂ := []) hr
        simpa using this
      rw [this]; rfl
    | cons c t =>
      have hc := h1 c rfl
      rw [List.cons_append, List.dropWhile_cons_of_neg (by simp [hc]), ← List.cons_append, List.reverse_append,
        List.dropWhile_append_of_pos (by simpa using hr)]
      have : List.dropWhile isWhitespace (c :: t).reverse = (c :: t).reverse := by
        cases e : (c :: t).reverse with
        | nil => rfl
        | cons x xs =>
          have : (c :: t).getLast? = some x := by rw [List.getLast?_eq_head?_reverse, e]; rfl
          rw [List.dropWhile_cons_of_neg (by simp [h2 x this])]
      rw [this, List.reverse_reverse]
  have ex : ∃ l r, s = l ++ trim s ++ r ∧ (∀ c ∈ l, isWhitespace c = true) ∧ (∀ c ∈ r, isWhitespace c = true) ∧
      (∀ c, (trim s).head? = some c → isWhitespace c = false) ∧ (∀ c, (trim s).getLast? = some c → isWhitespace c = false) := by
    refine ⟨s.takeWhile isWhitespace, ((s.dropWhile isWhitespace).reverse.takeWhile isWhitespace).reverse, ?_, ?_, ?_, ?_, ?_⟩
    · simp only [trim]
      rw [List.append_assoc, ← List.reverse_append, List.takeWhile_append_dropWhile, List.reverse_reverse,
        List.takeWhile_append_dropWhile]
    · intro c hc
      exact List.all_eq_true.mp (List.all_takeWhile (p := isWhitespace) (l := s)) c hc
    · intro c hc
      rw [List.mem_reverse] at hc
      exact List.all_eq_true.mp (List.all_takeWhile (p := isWhitespace)) c hc
    · intro c hc
      -- the head of the trimmed text is the head of the left-trimmed text
      simp only [trim] at hc
      have hp : (((s.dropWhile isWhitespace).reverse.dropWhile isWhitespace).reverse).isPrefixOf (s.dropWhile isWhitespace) := by
        rw [List.isPrefixOf_iff_prefix, ← List.reverse_suffix, List.reverse_reverse]
        exact List.dropWhile_suffix _
      rw [List.isPrefixOf_iff_prefix] at hp
      obtain ⟨r, hr⟩ := hp
      have : (s.dropWhile isWhitespace).head? = some c := by
        rw [← hr, List.head?_append, hc]; rfl
      have hh := List.head?_dropWhile_not isWhitespace s
      rw [this] at hh
      simpa using hh
    · intro c hc
      simp only [trim, List.getLast?_reverse] at hc
      have hh := List.head?_dropWhile_not isWhitespace (s.dropWhile isWhitespace).reverse
      rw [hc] at hh
      simpa using hh
  constructor
  · rintro rfl; exact ex
  · exact key s t

theorem firstLine_some {file line : Str} (hne : file ≠ []) : firstLine file = some line ↔ firstLineOf file line := by
  have he : file.isEmpty = false := by cases file <;> simp at hne ⊢
  simp only [firstLine, he, Bool.false_eq_true, if_false, firstLineOf]
  cases h : splitOnce '\n' file with
  | none =>
    rw [splitOnce_none] at h
    simp only [Option.some.injEq, h, not_false_eq_true, true_and]
    constructor
    · rintro rfl; exact .inl rfl
    · rintro (rfl | ⟨rest, _, rfl | ⟨rfl, _⟩⟩)
      · rfl
      · simp at h
      · simp at h
  | some p =>
    obtain ⟨a, b⟩ := p
    obtain ⟨rfl, hna⟩ := splitOnce_some.mp h
    simp only [Option.some.injEq, List.mem_append, List.mem_cons, true_or, or_true, not_true_eq_false, false_and, false_or]
    constructor
    · intro e
      refine ⟨b, ?_⟩
      split at e
      · next hl =>
        subst e
        rw [List.getLast?_eq_some_iff] at hl
        obtain ⟨ys, rfl⟩ := hl
        rw [List.dropLast_concat]
        exact ⟨fun hc => hna (List.mem_append_left _ hc), .inl (by simp)⟩
      · next hl => subst e; exact ⟨hna, .inr ⟨rfl, hl⟩⟩
    · rintro ⟨rest, hnl, e | ⟨e, hl⟩⟩
      · have : splitOnce '\n' (a ++ '\n' :: b) = some (line ++ ['\r'], rest) := by
          rw [splitOnce_some]
          refine ⟨by rw [e]; simp, ?_⟩
          simp [hnl]
        rw [h] at this
        simp only [Option.some.injEq, Prod.mk.injEq] at this
        obtain ⟨rfl, rfl⟩ := this
        simp
      · have : splitOnce '\n' (a ++ '\n' :: b) = some (line, rest) := splitOnce_some.mpr ⟨e, hnl⟩
        rw [h] at this
        simp only [Option.some.injEq, Prod.mk.injEq] at this
        obtain ⟨rfl, rfl⟩ := this
        simp [hl]

theorem firstLine_none {file : Str} : firstLine file = none ↔ file = [] := by
  cases file with
  | nil => simp [firstLine]
  | cons x f =>
    simp only [firstLine, List.isEmpty_cons, Bool.false_eq_true, if_false, reduceCtorEq, iff_false]
    split <;> simp

/-- The first label as computed. -/
def labelOf (line : Str) : Str := match splitOnce '.' line with | some (cn, _) => cn | none => line

theorem firstLabel_iff {line label : Str} : labelOf line = label ↔ firstLabel line label := by
  simp only [firstLabel, labelOf]
  cases h : splitOnce '.' line with
  | none =>
    rw [splitOnce_none] at h
    constructor
    · rintro rfl; exact ⟨h, .inl rfl⟩
    · rintro ⟨_, rfl | ⟨rest, rfl⟩⟩
      · rfl
      · simp at h
  | some p =>
    obtain ⟨a, b⟩ := p
    obtain ⟨rfl, hna⟩ := splitOnce_some.mp h
    simp only []
    constructor
    · rintro rfl; exact ⟨hna, .inr ⟨b, rfl⟩⟩
    · rintro ⟨hn, rfl | ⟨rest, e⟩⟩
      · simp at hn
      · have : splitOnce '.' (a ++ '.' :: b) = some (label, rest) := splitOnce_some.mpr ⟨e, hn⟩
        rw [h] at this
        simp only [Option.some.injEq, Prod.mk.injEq] at this
        exact this.1

/-- The lookup of the workstation name. -/
theorem workstation_iff {cm : CaseMap} {env : HostEnv} {w : Option Str} :
    Client.getWorkstationName cm env = .ok w ↔
      workstationIs cm env w ∧ ¬ (env.computerName = none ∧ env.hostnameFile = some []) := by
  obtain ⟨cn, hf⟩ := env
  cases cn with
  | some n => simp [Client.getWorkstationName, workstationIs, eq_comm]
  | none =>
    cases hf with
    | none => simp [Client.getWorkstationName, workstationIs, eq_comm]
    | some file =>
      by_cases hne : file = []
      · subst hne; simp [Client.getWorkstationName, firstLine]
      · simp only [workstationIs, reduceCtorEq, false_and, and_false, exists_false, false_or,
          Option.some.injEq, true_and, hne, not_false_eq_true, and_true]
        cases hl : firstLine file with
        | none => exact absurd (firstLine_none.mp hl) hne
        | some line =>
          have hl1 : firstLineOf file line := (firstLine_some hne).mp hl
          have hl2 : ∀ line', firstLineOf file line' → line' = line := by
            intro line' h'
            have := (firstLine_some hne).mpr h'
            rw [hl] at this; simpa using this.symm
          have e : Client.getWorkstationName cm ⟨none, some file⟩ = .ok (some (cm.upper (trim (labelOf line)))) := by
            simp only [Client.getWorkstationName, hl, labelOf]
            cases splitOnce '.' line <;> rfl
          rw [e]
          constructor
          · intro h
            refine ⟨file, line, _, _, rfl, hl1, firstLabel_iff.mp rfl, trim_eq.mp rfl, ?_⟩
            exact (Except.ok.inj h).symm
          · rintro ⟨file', line', label, name, rfl, h1, h2, h3, rfl⟩
            obtain rfl := hl2 _ h1
            rw [firstLabel_iff.mpr h2, trim_eq.mpr h3]

end Ntlm
