import Verif.Model.DebugText
import Verif.Props.Debug
/-
  Debugging texts delimit themselves: if followed by what can follow a value, they can be read back.
-/
namespace Ntlm

open Debug (debug)

/-- `k` levels of indentation. -/
def pads (k : Nat) : Str := List.replicate (4 * k) ' '

/-- Indent the lines after the first by `k` levels. -/
def padN (k : Nat) (s : Str) : Str := s.flatMap fun c => if c = '\n' then '\n' :: pads k else [c]

theorem padN_append (k : Nat) (s t : Str) : padN k (s ++ t) = padN k s ++ padN k t := by simp [padN]

theorem padN_nil (k : Nat) : padN k [] = [] := rfl

theorem padN_cons (k : Nat) (c : Char) (s : Str) (h : c ≠ '\n') : padN k (c :: s) = c :: padN k s := by simp [padN, h]

theorem padN_nl (k : Nat) (s : Str) : padN k ('\n' :: s) = '\n' :: pads k ++ padN k s := by simp [padN]

theorem padN_same (k : Nat) (s : Str) (h : '\n' ∉ s) : padN k s = s := by
  induction s with
  | nil => rfl
  | cons c s ih =>
    simp only [List.mem_cons, not_or] at h
    rw [padN_cons k c s (fun e => h.1 e.symm), ih h.2]

theorem padN_zero (s : Str) : padN 0 s = s := by
  induction s with
  | nil => rfl
  | cons c s ih =>
    by_cases h : c = '\n'
    · subst h; rw [padN_nl, ih]; rfl
    · rw [padN_cons 0 c s h, ih]

theorem pads_nl (k : Nat) : '\n' ∉ pads k := by simp [pads, List.mem_replicate]

theorem pads_succ (k : Nat) : pads (k + 1) = pads k ++ "    ".toList := by
  have : "    ".toList = List.replicate 4 ' ' := rfl
  rw [this, pads, pads, List.replicate_append_replicate]
  congr 1

theorem padN_padN (k : Nat) (s : Str) : padN k (padN 1 s) = padN (k + 1) s := by
  induction s with
  | nil => rfl
  | cons c s ih =>
    by_cases h : c = '\n'
    · subst h
      rw [padN_nl, List.cons_append, padN_nl, padN_append, padN_same k (pads 1) (pads_nl 1), padN_nl, pads_succ, ih]
      rw [pads_succ k, show pads 0 = [] from rfl]
      simp only [List.nil_append, List.cons_append, List.append_assoc]
    · rw [padN_cons _ c s h, padN_cons _ c _ h, padN_cons _ c s h, ih]

theorem pad_line (b : Bool) (t : Str) :
    pad b (t ++ ",\n".toList) = (if b then "    ".toList else []) ++ padN 1 t ++ ",\n".toList := by
  induction t generalizing b with
  | nil => cases b <;> rfl
  | cons c t ih =>
    rw [List.cons_append, pad, ih]
    by_cases h : c = '\n'
    · subst h; rw [padN_nl]; cases b <;> simp [pads]
    · rw [padN_cons _ c t h]
      have : (c == '\n') = false := by simpa using h
      rw [this]
      cases b <;> simp

/-- What follows a value in a debugging text: nothing, a comma or a closing bracket. -/
def stops (s : Str) : Prop := s = [] ∨ (∃ r, s = ',' :: r) ∨ (∃ r, s = ')' :: r) ∨ (∃ r, s = ']' :: r) ∨ ∃ r, s = ' ' :: '}' :: r

/-- The two texts delimit themselves. -/
def Sep (u v : Str) : Prop :=
  ∀ k s t, stops s → stops t → padN k u ++ s = padN k v ++ t → u = v ∧ s = t

/-- `e` prints values so that they can be read back. -/
def ReadsBack {α : Type} (e : α → Str) : Prop :=
  ∀ a b k s t, stops s → stops t → padN k (e a) ++ s = padN k (e b) ++ t → a = b ∧ s = t

theorem ReadsBack.sep {α : Type} {e : α → Str} (h : ReadsBack e) (a b : α) : Sep (e a) (e b) := by
  intro k s t hs ht he
  obtain ⟨rfl, rfl⟩ := h a b k s t hs ht he
  exact ⟨rfl, rfl⟩

theorem ReadsBack.inj {α : Type} {e : α → Str} (h : ReadsBack e) {a b : α} (he : e a = e b) : a = b :=
  (h a b 0 [] [] (Or.inl rfl) (Or.inl rfl) (by rw [he])).1

theorem reads_of_sep {α : Type} {e : α → Str} (h : ∀ a b, Sep (e a) (e b)) (hi : ∀ a b, e a = e b → a = b) : ReadsBack e := by
  intro a b k s t hs ht he
  obtain ⟨h1, h2⟩ := h a b k s t hs ht he
  exact ⟨hi a b h1, h2⟩

/-! ### Words -/

/-- Characters of words: not those that follow one. -/
def isTag (c : Char) : Bool := !(c == ',' || c == ')' || c == ']' || c == ' ' || c == '\n' || c == '(')

/-- The word at the start. -/
def tagOf (s : Str) : Str := s.takeWhile isTag

theorem tagOf_stops {s : Str} (h : stops s) : tagOf s = [] := by
  rcases h with rfl | ⟨r, rfl⟩ | ⟨r, rfl⟩ | ⟨r, rfl⟩ | ⟨r, rfl⟩ <;> rfl

theorem tagOf_append {n s : Str} (h : n.all isTag) : tagOf (n ++ s) = n ++ tagOf s := by
  induction n with
  | nil => rfl
  | cons c n ih =>
    simp only [List.all_cons, Bool.and_eq_true] at h
    simp only [tagOf, List.cons_append, List.takeWhile_cons, h.1, if_true] at ih ⊢
    rw [ih h.2]

theorem nl_of_tag {n : Str} (h : n.all isTag) : '\n' ∉ n := fun hm => by
  have := List.all_eq_true.mp h _ hm
  exact absurd this (by decide)

theorem tagOf_word {n s : Str} (h : n.all isTag) (hs : stops s) (k : Nat) : tagOf (padN k n ++ s) = n := by
  rw [padN_same k n (nl_of_tag h), tagOf_append h, tagOf_stops hs, List.append_nil]

theorem sep_word {u v : Str} (hu : u.all isTag) (hv : v.all isTag) : Sep u v := by
  intro k s t hs ht h
  have h1 := tagOf_word hu hs k
  rw [h, tagOf_word hv ht k] at h1
  subst h1
  exact ⟨rfl, List.append_cancel_left h⟩

theorem reads_word {α : Type} {e : α → Str} (h : ∀ a, (e a).all isTag) (hi : ∀ a b, e a = e b → a = b) : ReadsBack e :=
  reads_of_sep (fun a b => sep_word (h a) (h b)) hi

/-! ### Numbers -/

theorem digitChar_inj : ∀ a < 16, ∀ b < 16, Nat.digitChar a = Nat.digitChar b → a = b := by decide +kernel

theorem digitChar_tag : ∀ a < 16, isTag (Nat.digitChar a) = true ∧ Nat.digitChar a ≠ '}' := by decide +kernel

theorem toDigits_inj {b : Nat} (hb : 1 < b) (hb' : b ≤ 16) (n : Nat) : ∀ m, Nat.toDigits b n = Nat.toDigits b m → n = m := by
  induction n using Nat.strongRecOn with
  | ind n ih =>
    intro m h
    rw [Nat.toDigits_eq_if hb, Nat.toDigits_eq_if hb (n := m)] at h
    have key : ∀ (l : Str) (c d : Char), [c] = l ++ [d] → l = [] := by
      intro l c d e
      have := congrArg List.length e
      simp only [List.length_append, List.length_cons, List.length_nil] at this
      exact List.eq_nil_of_length_eq_zero (by omega)
    split at h <;> split at h
    · rename_i h1 h2
      exact digitChar_inj n (by omega) m (by omega) (by simpa using h)
    · exact absurd (key _ _ _ h) Nat.toDigits_ne_nil
    · exact absurd (key _ _ _ h.symm) Nat.toDigits_ne_nil
    · rename_i h1 h2
      have h3 := List.append_inj' h rfl
      have hm : n % b = m % b := digitChar_inj _ (by have := Nat.mod_lt n (show b > 0 by omega); omega) _
        (by have := Nat.mod_lt m (show b > 0 by omega); omega) (by simpa using h3.2)
      have hd : n / b = m / b := ih (n / b) (Nat.div_lt_self (by omega) hb) _ h3.1
      rw [← Nat.div_add_mod n b, ← Nat.div_add_mod m b, hm, hd]

theorem toDigits_all {b : Nat} (hb : 1 < b) (hb' : b ≤ 16) (n : Nat) :
    ∀ c ∈ Nat.toDigits b n, ∃ d < 16, c = Nat.digitChar d := by
  induction n using Nat.strongRecOn with
  | ind n ih =>
    intro c hc
    rw [Nat.toDigits_eq_if hb] at hc
    split at hc
    · exact ⟨n, by omega, by simpa using hc⟩
    · rcases List.mem_append.mp hc with hc | hc
      · exact ih _ (Nat.div_lt_self (by omega) hb) c hc
      · exact ⟨n % b, by have := Nat.mod_lt n (show b > 0 by omega); omega, by simpa using hc⟩

theorem toDigits_tag (n : Nat) : (Nat.toDigits 10 n).all isTag := by
  rw [List.all_eq_true]
  intro c hc
  obtain ⟨d, hd, rfl⟩ := toDigits_all (by omega) (by omega) n c hc
  exact (digitChar_tag d hd).1

theorem reads_u8 (f : Fmt) : ReadsBack (debug f : UInt8 → Str) :=
  reads_word (fun a => toDigits_tag _) fun _ _ h => UInt8.toNat_inj.mp (toDigits_inj (by omega) (by omega) _ _ h)
theorem reads_u16 (f : Fmt) : ReadsBack (debug f : UInt16 → Str) :=
  reads_word (fun a => toDigits_tag _) fun _ _ h => UInt16.toNat_inj.mp (toDigits_inj (by omega) (by omega) _ _ h)
theorem reads_u32 (f : Fmt) : ReadsBack (debug f : UInt32 → Str) :=
  reads_word (fun a => toDigits_tag _) fun _ _ h => UInt32.toNat_inj.mp (toDigits_inj (by omega) (by omega) _ _ h)

theorem reads_bool (f : Fmt) : ReadsBack (debug f : Bool → Str) :=
  reads_word (fun a => by cases a <;> (simp only [debug]; decide)) fun a b h => by
    simp only [debug] at h
    cases a <;> cases b <;> first | rfl | exact absurd h (by decide)

/-- A printable ASCII character. -/
def plain (c : Char) : Bool := decide (32 ≤ c.toNat) && decide (c.toNat < 127)

theorem printable_plain (f : Fmt) {c : Char} (h : plain c = true) : f.printable c = true := by
  simp only [plain, Bool.and_eq_true, decide_eq_true_eq] at h
  simp only [Fmt.printable, if_neg (show ¬ c.toNat < 32 by omega), if_pos h.2]

theorem hexDigit_tag : ∀ n < 16, isTag (hexDigit n) = true ∧ plain (hexDigit n) = true := by decide +kernel

theorem reads_bytes {n : Nat} (f : Fmt) : ReadsBack (debug f : Bytes n → Str) := by
  refine reads_word (fun a => ?_) fun a b h => (Props.C54_buffers a b).2 h
  show (a.val.flatMap hexByte).all isTag
  rw [List.all_eq_true]
  intro c hc
  obtain ⟨x, _, hx⟩ := List.mem_flatMap.mp hc
  have := x.toNat_lt
  simp only [hexByte, List.mem_cons, List.not_mem_nil, or_false] at hx
  rcases hx with rfl | rfl
  · exact (hexDigit_tag _ (by omega)).1
  · exact (hexDigit_tag _ (by omega)).1

theorem flagName_tag : ∀ k < 32, ∀ c ∈ Spec.flagName k, isTag c = true ∧ plain c = true := by decide +kernel

theorem bars_mem {ns : List Str} {c : Char} (h : c ∈ Props.bars ns) : c = '|' ∨ ∃ n ∈ ns, c ∈ n := by
  induction ns with
  | nil => cases h
  | cons n ns ih =>
    by_cases e : ns = []
    · subst e; exact Or.inr ⟨n, by simp, h⟩
    · rw [Props.bars_cons n e] at h
      rcases List.mem_append.mp h with h | h
      · exact Or.inr ⟨n, by simp, h⟩
      · rcases List.mem_cons.mp h with h | h
        · exact Or.inl h
        · rcases ih h with h | ⟨m, hm, h⟩
          · exact Or.inl h
          · exact Or.inr ⟨m, by simp [hm], h⟩

theorem flags_chars (f : Flags) {c : Char} (hc : c ∈ f.debug) : isTag c = true ∧ plain c = true := by
  rw [Props.debug_eq] at hc
  rcases bars_mem hc with rfl | ⟨n, hn, hc⟩
  · decide
  · simp only [List.mem_map, List.mem_filter, List.mem_reverse, List.mem_range] at hn
    obtain ⟨k, ⟨hk, _⟩, rfl⟩ := hn
    exact flagName_tag k hk c hc

theorem reads_flags (f : Fmt) : ReadsBack (debug f : Flags → Str) :=
  reads_word (fun a => List.all_eq_true.mpr fun _ hc => (flags_chars a hc).1) Props.C54_flags_injective

/-! ### Texts -/

theorem escape_chars (f : Fmt) (c : Char) : ∀ d ∈ escapeChar f c, f.printable d = true := by
  intro d hd
  unfold escapeChar at hd
  repeat' split at hd
  all_goals first
    | (simp only [List.mem_cons, List.not_mem_nil, or_false] at hd
       rcases hd with rfl | rfl <;> exact printable_plain f (by decide))
    | skip
  · rename_i h
    simp only [List.mem_singleton] at hd
    subst hd
    exact h
  · simp only [List.mem_append] at hd
    rcases hd with (hd | hd) | hd
    · simp only [List.mem_cons, List.not_mem_nil, or_false] at hd
      rcases hd with rfl | rfl | rfl <;> exact printable_plain f (by decide)
    · obtain ⟨x, hx, rfl⟩ := toDigits_all (by omega) (by omega) _ d hd
      have : ∀ x < 16, plain (Nat.digitChar x) = true := by decide +kernel
      exact printable_plain f (this x hx)
    · simp only [List.mem_cons, List.not_mem_nil, or_false] at hd
      subst hd; exact printable_plain f (by decide)

theorem debugStr_chars (f : Fmt) (s : Str) : ∀ d ∈ debugStr f s, f.printable d = true := by
  intro d hd
  simp only [debugStr, List.mem_cons, List.mem_append, List.mem_flatMap, List.not_mem_nil, or_false, List.cons_append] at hd
  rcases hd with rfl | ⟨c, _, hc⟩ | rfl
  · exact printable_plain f (by decide)
  · exact escape_chars f c d hc
  · exact printable_plain f (by decide)

theorem nl_of_chars {f : Fmt} {s : Str} (h : ∀ d ∈ s, f.printable d = true) : '\n' ∉ s := fun hm => by
  have := h _ hm
  simp [Fmt.printable] at this

theorem hex_unique {n m : Nat} {x y : Str} (h : Nat.toDigits 16 n ++ '}' :: x = Nat.toDigits 16 m ++ '}' :: y) :
    n = m ∧ x = y := by
  have key : ∀ (l l' : Str), '}' ∉ l → '}' ∉ l' → l ++ '}' :: x = l' ++ '}' :: y → l = l' ∧ x = y := by
    intro l
    induction l with
    | nil =>
      intro l' _ h' h
      cases l' with
      | nil => exact ⟨rfl, by simpa using h⟩
      | cons c l' =>
        simp only [List.nil_append, List.cons_append, List.cons.injEq] at h
        exact absurd (by rw [← h.1]; exact List.mem_cons_self) h'
    | cons c l ih =>
      intro l' hl h' h
      cases l' with
      | nil =>
        simp only [List.nil_append, List.cons_append, List.cons.injEq] at h
        exact absurd (by rw [h.1]; exact List.mem_cons_self) hl
      | cons d l' =>
        simp only [List.cons_append, List.cons.injEq] at h
        simp only [List.mem_cons, not_or] at hl h'
        obtain ⟨rfl, rfl⟩ := ih l' hl.2 h'.2 h.2
        exact ⟨by rw [h.1], rfl⟩
  have nb : ∀ n, '}' ∉ Nat.toDigits 16 n := by
    intro n hm
    obtain ⟨d, hd, e⟩ := toDigits_all (by omega) (by omega) n _ hm
    exact (digitChar_tag d hd).2 e.symm
  obtain ⟨h1, h2⟩ := key _ _ (nb n) (nb m) h
  exact ⟨toDigits_inj (by omega) (by omega) n m h1, h2⟩

theorem escape_cases (f : Fmt) (c : Char) :
    (escapeChar f c = [c] ∧ c ≠ '\\' ∧ c ≠ '"') ∨
    (∃ e, e ≠ 'u' ∧ escapeChar f c = ['\\', e] ∧
      ((e = '0' ∧ c = Char.ofNat 0) ∨ (e = 't' ∧ c = '\t') ∨ (e = 'r' ∧ c = '\r') ∨ (e = 'n' ∧ c = '\n') ∨
        (e = '\\' ∧ c = '\\') ∨ (e = '"' ∧ c = '"'))) ∨
    escapeChar f c = ['\\', 'u', '{'] ++ Nat.toDigits 16 c.toNat ++ ['}'] := by
  unfold escapeChar
  by_cases h0 : c = Char.ofNat 0
  · exact Or.inr (Or.inl ⟨'0', by decide, by simp [h0], by simp [h0]⟩)
  by_cases h1 : c = '\t'
  · exact Or.inr (Or.inl ⟨'t', by decide, by subst h1; simp, by simp [h1]⟩)
  by_cases h2 : c = '\r'
  · exact Or.inr (Or.inl ⟨'r', by decide, by subst h2; simp, by simp [h2]⟩)
  by_cases h3 : c = '\n'
  · exact Or.inr (Or.inl ⟨'n', by decide, by subst h3; simp, by simp [h3]⟩)
  by_cases h4 : c = '\\'
  · exact Or.inr (Or.inl ⟨'\\', by decide, by subst h4; simp, by simp [h4]⟩)
  by_cases h5 : c = '"'
  · exact Or.inr (Or.inl ⟨'"', by decide, by subst h5; simp, by simp [h5]⟩)
  simp only [h0, h1, h2, h3, h4, h5, if_false]
  by_cases h6 : f.printable c
  · exact Or.inl ⟨by simp [h6], h4, h5⟩
  · exact Or.inr (Or.inr (by simp [h6]))

theorem escape_unique (f : Fmt) {c d : Char} {x y : Str} (h : escapeChar f c ++ x = escapeChar f d ++ y) :
    c = d ∧ x = y := by
  rcases escape_cases f c with ⟨hc, c1, _⟩ | ⟨e, he, hc, ce⟩ | hc <;>
    rcases escape_cases f d with ⟨hd, d1, _⟩ | ⟨e', he', hd, de⟩ | hd <;> rw [hc, hd] at h <;>
    simp only [List.cons_append, List.nil_append, List.cons.injEq, List.append_assoc] at h
  · exact h
  · exact absurd h.1 c1
  · exact absurd h.1 c1
  · exact absurd h.1.symm d1
  · obtain ⟨_, rfl, h⟩ := h
    refine ⟨?_, h⟩
    rcases ce with ⟨rfl, rfl⟩ | ⟨rfl, rfl⟩ | ⟨rfl, rfl⟩ | ⟨rfl, rfl⟩ | ⟨rfl, rfl⟩ | ⟨rfl, rfl⟩ <;>
      rcases de with ⟨e1, rfl⟩ | ⟨e1, rfl⟩ | ⟨e1, rfl⟩ | ⟨e1, rfl⟩ | ⟨e1, rfl⟩ | ⟨e1, rfl⟩ <;>
      first | rfl | exact absurd e1 (by decide)
  · exact absurd h.2.1 he
  · exact absurd h.1.symm d1
  · exact absurd h.2.1.symm he'
  · obtain ⟨h1, h2⟩ := hex_unique h.2.2.2
    exact ⟨Char.ext (UInt32.toNat_inj.mp h1), h2⟩

theorem escape_head (f : Fmt) (c : Char) (x y : Str) : escapeChar f c ++ x ≠ '"' :: y := by
  intro h
  rcases escape_cases f c with ⟨hc, _, c2⟩ | ⟨e, he, hc, ce⟩ | hc <;> rw [hc] at h <;>
    simp only [List.cons_append, List.nil_append, List.cons.injEq] at h
  · exact c2 h.1
  · exact absurd h.1 (by decide)
  · exact absurd h.1 (by decide)

theorem str_unique (f : Fmt) (a : Str) : ∀ b x y,
    a.flatMap (escapeChar f) ++ '"' :: x = b.flatMap (escapeChar f) ++ '"' :: y → a = b ∧ x = y := by
  induction a with
  | nil =>
    intro b x y h
    cases b with
    | nil => exact ⟨rfl, by simpa using h⟩
    | cons d b =>
      rw [List.flatMap_cons, List.append_assoc] at h
      exact absurd h.symm (escape_head f d _ _)
  | cons c a ih =>
    intro b x y h
    cases b with
    | nil =>
      rw [List.flatMap_cons, List.append_assoc] at h
      exact absurd h (escape_head f c _ _)
    | cons d b =>
      rw [List.flatMap_cons, List.flatMap_cons, List.append_assoc, List.append_assoc] at h
      obtain ⟨rfl, h'⟩ := escape_unique f h
      obtain ⟨rfl, rfl⟩ := ih b x y h'
      exact ⟨rfl, rfl⟩

theorem reads_str (f : Fmt) : ReadsBack (debugStr f) := by
  intro a b k s t _ _ h
  rw [padN_same k _ (nl_of_chars (debugStr_chars f a)), padN_same k _ (nl_of_chars (debugStr_chars f b))] at h
  simp only [debugStr, List.cons_append, List.append_assoc, List.cons.injEq, true_and, List.nil_append] at h
  exact str_unique f a b s t h

theorem reads_unicode (f : Fmt) : ReadsBack (debug f : UnicodeString → Str) := by
  intro a b k s t hs ht h
  obtain ⟨h1, h2⟩ := reads_str f a.s b.s k s t hs ht h
  cases a; cases b
  exact ⟨by simpa using h1, h2⟩

theorem reads_oem (f : Fmt) : ReadsBack (debug f : OEMString → Str) := by
  intro a b k s t hs ht h
  obtain ⟨h1, h2⟩ := reads_str f a.s b.s k s t hs ht h
  cases a; cases b
  exact ⟨by simpa using h1, h2⟩

/-! ### Structs -/

/-- The same field names, and values that delimit themselves. -/
inductive SepFields : List (Str × Str) → List (Str × Str) → Prop
  | nil : SepFields [] []
  | cons {n u v : Str} {l m : List (Str × Str)} (hn : n.all isTag) (h : Sep u v) (r : SepFields l m) :
    SepFields ((n, u) :: l) ((n, v) :: m)

theorem stops_more (k : Nat) (l : List (Str × Str)) (s : Str) : stops (padN k (moreFields l) ++ (' ' :: '}' :: s)) := by
  cases l with
  | nil => exact .inr (.inr (.inr (.inr ⟨s, rfl⟩)))
  | cons x l =>
    refine .inr (.inl ⟨padN k (' ' :: (x.1 ++ ": ".toList ++ x.2 ++ moreFields l)) ++ (' ' :: '}' :: s), ?_⟩)
    show padN k (',' :: ' ' :: _) ++ _ = _
    rw [padN_cons k ',' _ (by decide)]
    simp

theorem more_unique {l m : List (Str × Str)} (h : SepFields l m) (k : Nat) (s t : Str)
    (e : padN k (moreFields l) ++ (' ' :: '}' :: s) = padN k (moreFields m) ++ (' ' :: '}' :: t)) : l = m ∧ s = t := by
  induction h with
  | nil => simpa [moreFields, padN] using e
  | @cons n u v l m hn h r ih =>
    simp only [moreFields, padN_append, List.append_assoc] at e
    have e := List.append_cancel_left (List.append_cancel_left (List.append_cancel_left e))
    obtain ⟨rfl, e'⟩ := h k _ _ (stops_more k l s) (stops_more k m t) e
    obtain ⟨rfl, rfl⟩ := ih e'
    exact ⟨rfl, rfl⟩

theorem padN_line (k : Nat) (n v : Str) :
    padN k (fieldLine (n, v)) =
      "    ".toList ++ (padN (k + 1) n ++ (": ".toList ++ (padN (k + 1) v ++ (',' :: '\n' :: pads k)))) := by
  rw [fieldLine, pad_line]
  simp only [if_true, padN_append, padN_padN]
  have h1 : padN k "    ".toList = "    ".toList := padN_same k _ (by decide)
  have h2 : padN k ",\n".toList = ',' :: '\n' :: pads k := by
    show padN k [',', '\n'] = _
    rw [padN_cons k _ _ (by decide), padN_nl, padN_nil, List.append_nil]
  have h3 : padN (k + 1) ": ".toList = ": ".toList := padN_same _ _ (by decide)
  rw [h1, h2, h3]
  simp

theorem lines_unique {l m : List (Str × Str)} (h : SepFields l m) (k : Nat) (s t : Str)
    (e : padN k (l.flatMap fieldLine) ++ s =
      padN k (m.flatMap fieldLine) ++ t) : l = m ∧ s = t := by
  induction h with
  | nil => exact ⟨rfl, by simpa [padN] using e⟩
  | @cons n u v l m hn h r ih =>
    simp only [List.flatMap_cons, padN_append, padN_line, List.append_assoc] at e
    have e := List.append_cancel_left (List.append_cancel_left (List.append_cancel_left e))
    obtain ⟨rfl, e'⟩ := h (k + 1) _ _ (.inr (.inl ⟨_, rfl⟩)) (.inr (.inl ⟨_, rfl⟩)) e
    simp only [List.cons.injEq, true_and] at e'
    obtain ⟨rfl, rfl⟩ := ih (List.append_cancel_left e')
    exact ⟨rfl, rfl⟩

theorem struct_unique (f : Fmt) (name : Str) {l m : List (Str × Str)} (h : SepFields l m) (k : Nat) (s t : Str)
    (e : padN k (debugStruct f name l) ++ s = padN k (debugStruct f name m) ++ t) : l = m ∧ s = t := by
  unfold debugStruct at e
  cases hf : f.alternate with
  | true =>
    simp only [hf, if_true, padN_append, List.append_assoc] at e
    have e := List.append_cancel_left (List.append_cancel_left e)
    obtain ⟨h1, h2⟩ := lines_unique h k _ _ e
    exact ⟨h1, List.append_cancel_left h2⟩
  | false =>
    simp only [hf, Bool.false_eq_true, if_false] at e
    cases h with
    | nil => exact ⟨rfl, List.append_cancel_left e⟩
    | @cons n u v l m hn h r =>
      simp only [padN_append, List.append_assoc] at e
      have e := List.append_cancel_left (List.append_cancel_left (List.append_cancel_left (List.append_cancel_left e)))
      have hb : ∀ x, padN k " }".toList ++ x = ' ' :: '}' :: x := fun x => by
        rw [padN_same k _ (by decide)]; rfl
      rw [hb, hb] at e
      obtain ⟨rfl, e'⟩ := h k _ _ (stops_more k l s) (stops_more k m t) e
      obtain ⟨rfl, rfl⟩ := more_unique r k s t e'
      exact ⟨rfl, rfl⟩

theorem reads_struct {α : Type} (f : Fmt) (name : Str) (g : α → List (Str × Str)) (h : ∀ a b, SepFields (g a) (g b))
    (hi : ∀ a b, g a = g b → a = b) : ReadsBack fun a => debugStruct f name (g a) := by
  intro a b k s t _ _ e
  obtain ⟨h1, h2⟩ := struct_unique f name (h a b) k s t e
  exact ⟨hi a b h1, h2⟩

/-! ### Enums -/

theorem tuple_unique (f : Fmt) (name : Str) {u v : Str} (h : Sep u v) (k : Nat) (s t : Str)
    (e : padN k (debugTuple f name u) ++ s = padN k (debugTuple f name v) ++ t) : u = v ∧ s = t := by
  unfold debugTuple at e
  cases hf : f.alternate with
  | true =>
    simp only [hf, if_true, padN_append, List.append_assoc, itemLine, pad_line, padN_padN] at e
    have e := List.append_cancel_left (List.append_cancel_left (List.append_cancel_left e))
    have hl : ∀ x, padN k ",\n".toList ++ x = ',' :: ('\n' :: (pads k ++ x)) := fun x => by
      show padN k [',', '\n'] ++ x = _
      rw [padN_cons k _ _ (by decide), padN_nl, padN_nil]
      simp
    rw [hl, hl] at e
    obtain ⟨rfl, e'⟩ := h (k + 1) _ _ (.inr (.inl ⟨_, rfl⟩)) (.inr (.inl ⟨_, rfl⟩)) e
    simp only [List.cons.injEq, true_and] at e'
    exact ⟨rfl, List.append_cancel_left (List.append_cancel_left e')⟩
  | false =>
    simp only [hf, Bool.false_eq_true, if_false, padN_append, List.append_assoc] at e
    have e := List.append_cancel_left (List.append_cancel_left e)
    have hp : ∀ x, padN k ")".toList ++ x = ')' :: x := fun x => by rw [padN_same k _ (by decide)]; rfl
    rw [hp, hp] at e
    obtain ⟨rfl, e'⟩ := h k _ _ (.inr (.inr (.inl ⟨_, rfl⟩))) (.inr (.inr (.inl ⟨_, rfl⟩))) e
    exact ⟨rfl, by simpa using e'⟩

theorem tagOf_tuple (f : Fmt) {name : Str} (h : name.all isTag) (u : Str) (k : Nat) (s : Str) :
    tagOf (padN k (debugTuple f name u) ++ s) = name := by
  unfold debugTuple
  cases f.alternate with
  | true =>
    simp only [if_true, padN_append, List.append_assoc, padN_same k name (nl_of_tag h), tagOf_append h]
    have : padN k "(\n".toList = '(' :: '\n' :: pads k := by
      show padN k ['(', '\n'] = _
      rw [padN_cons k _ _ (by decide), padN_nl, padN_nil, List.append_nil]
    rw [this]
    simp [tagOf, isTag]
  | false =>
    simp only [Bool.false_eq_true, if_false, padN_append, List.append_assoc, padN_same k name (nl_of_tag h), tagOf_append h]
    have : padN k "(".toList = ['('] := padN_same k _ (by decide)
    rw [this]
    simp [tagOf, isTag]

theorem reads_option {α : Type} [Debug α] (f : Fmt) (h : ReadsBack (debug f : α → Str)) : ReadsBack (debug f : Option α → Str) := by
  intro a b k s t hs ht e
  cases a <;> cases b
  · exact ⟨rfl, List.append_cancel_left e⟩
  · have e := congrArg tagOf e
    simp only [debug] at e
    rw [tagOf_word (by decide) hs, tagOf_tuple f (by decide)] at e
    exact absurd e (by decide)
  · have e := congrArg tagOf e
    simp only [debug] at e
    rw [tagOf_word (by decide) ht, tagOf_tuple f (by decide)] at e
    exact absurd e (by decide)
  · obtain ⟨h1, h2⟩ := tuple_unique f _ (h.sep _ _) k s t e
    exact ⟨by rw [h.inj h1], h2⟩

/-! ### Lists -/

/-- A text that is not empty and does not begin with a closing bracket. -/
def begins (u : Str) : Prop := ∃ c r, u = c :: r ∧ c ≠ ']' ∧ c ≠ '\n'

theorem stops_items (k : Nat) (l : List Str) (s : Str) : stops (padN k (l.flatMap nextItem) ++ (']' :: s)) := by
  cases l with
  | nil => exact .inr (.inr (.inr (.inl ⟨s, rfl⟩)))
  | cons x l =>
    refine .inr (.inl ⟨padN k (' ' :: (x ++ l.flatMap nextItem)) ++ (']' :: s), ?_⟩)
    show padN k (',' :: ' ' :: _) ++ _ = _
    rw [padN_cons k ',' _ (by decide)]
    rfl

theorem items_unique (l : List Str) : ∀ (m : List Str) (k : Nat) (s t : Str), (∀ u ∈ l, ∀ v ∈ m, Sep u v) →
    padN k (l.flatMap nextItem) ++ (']' :: s) = padN k (m.flatMap nextItem) ++ (']' :: t) →
    l = m ∧ s = t := by
  have hc : ∀ k, padN k ", ".toList = [',', ' '] := fun k => padN_same k _ (by decide)
  induction l with
  | nil =>
    intro m k s t _ e
    cases m with
    | nil => simpa [padN] using e
    | cons v m =>
      simp only [List.flatMap_cons, nextItem, padN_append, hc, List.flatMap_nil, padN_nil] at e
      simp only [List.cons_append, List.nil_append, List.cons.injEq] at e
      exact absurd e.1 (by decide)
  | cons u l ih =>
    intro m k s t h e
    cases m with
    | nil =>
      simp only [List.flatMap_cons, nextItem, padN_append, hc, List.flatMap_nil, padN_nil] at e
      simp only [List.cons_append, List.nil_append, List.cons.injEq] at e
      exact absurd e.1 (by decide)
    | cons v m =>
      simp only [List.flatMap_cons, nextItem, padN_append, List.append_assoc] at e
      have e := List.append_cancel_left e
      obtain ⟨rfl, e'⟩ := h u (by simp) v (by simp) k _ _ (stops_items k l s) (stops_items k m t) e
      obtain ⟨rfl, rfl⟩ := ih m k s t (fun u hu v hv => h u (by simp [hu]) v (by simp [hv])) e'
      exact ⟨rfl, rfl⟩

theorem padN_item (k : Nat) (v : Str) :
    padN k (itemLine v) = "    ".toList ++ (padN (k + 1) v ++ (',' :: '\n' :: pads k)) := by
  rw [itemLine, pad_line]
  simp only [if_true, padN_append, padN_padN]
  have h1 : padN k "    ".toList = "    ".toList := padN_same k _ (by decide)
  have h2 : padN k ",\n".toList = ',' :: '\n' :: pads k := by
    show padN k [',', '\n'] = _
    rw [padN_cons k _ _ (by decide), padN_nl, padN_nil, List.append_nil]
  rw [h1, h2]
  simp

theorem itemLines_unique (l : List Str) : ∀ (m : List Str) (k : Nat) (s t : Str), (∀ u ∈ l, ∀ v ∈ m, Sep u v) →
    padN k (l.flatMap itemLine) ++ (']' :: s) =
      padN k (m.flatMap itemLine) ++ (']' :: t) → l = m ∧ s = t := by
  induction l with
  | nil =>
    intro m k s t _ e
    cases m with
    | nil => simpa [padN] using e
    | cons v m =>
      simp only [List.flatMap_cons, padN_append, padN_item, List.flatMap_nil, padN_nil] at e
      have : "    ".toList = [' ', ' ', ' ', ' '] := rfl
      simp only [this, List.cons_append, List.nil_append, List.cons.injEq] at e
      exact absurd e.1 (by decide)
  | cons u l ih =>
    intro m k s t h e
    cases m with
    | nil =>
      simp only [List.flatMap_cons, padN_append, padN_item, List.flatMap_nil, padN_nil] at e
      have : "    ".toList = [' ', ' ', ' ', ' '] := rfl
      simp only [this, List.cons_append, List.nil_append, List.cons.injEq] at e
      exact absurd e.1 (by decide)
    | cons v m =>
      simp only [List.flatMap_cons, padN_append, padN_item, List.append_assoc] at e
      have e := List.append_cancel_left e
      obtain ⟨rfl, e'⟩ := h u (by simp) v (by simp) (k + 1) _ _ (.inr (.inl ⟨_, rfl⟩)) (.inr (.inl ⟨_, rfl⟩)) e
      simp only [List.cons.injEq, true_and] at e'
      obtain ⟨rfl, rfl⟩ := ih m k s t (fun u hu v hv => h u (by simp [hu]) v (by simp [hv])) (List.append_cancel_left e')
      exact ⟨rfl, rfl⟩

theorem list_unique (f : Fmt) {l m : List Str} (h : ∀ u ∈ l, ∀ v ∈ m, Sep u v) (hl : ∀ u ∈ l, begins u)
    (hm : ∀ u ∈ m, begins u) (k : Nat) (s t : Str)
    (e : padN k (debugList f l) ++ s = padN k (debugList f m) ++ t) : l = m ∧ s = t := by
  have h0 : padN k "[]".toList = ['[', ']'] := padN_same k _ (by decide)
  have h1 : padN k "[".toList = ['['] := padN_same k _ (by decide)
  have h2 : padN k "[\n".toList = '[' :: '\n' :: pads k := by
    show padN k ['[', '\n'] = _
    rw [padN_cons k _ _ (by decide), padN_nl, padN_nil, List.append_nil]
  have h3 : padN k "]".toList = [']'] := padN_same k _ (by decide)
  have hb : ∀ u x s, begins u → padN k u ++ x ≠ ']' :: s := by
    rintro u x s ⟨c, r, rfl, hc, hn⟩ e
    rw [padN_cons k c r hn] at e
    simp only [List.cons_append, List.cons.injEq] at e
    exact hc e.1
  cases hf : f.alternate with
  | true =>
    cases l with
    | nil =>
      cases m with
      | nil => exact ⟨rfl, List.append_cancel_left e⟩
      | cons v m =>
        simp only [debugList, hf, if_true, padN_append, h0, h2, List.cons_append, List.nil_append, List.cons.injEq] at e
        exact absurd e.2.1 (by decide)
    | cons u l =>
      cases m with
      | nil =>
        simp only [debugList, hf, if_true, padN_append, h0, h2, List.cons_append, List.nil_append, List.cons.injEq] at e
        exact absurd e.2.1 (by decide)
      | cons v m =>
        simp only [debugList, hf, if_true] at e
        rw [padN_append, padN_append, padN_append, padN_append, h3, List.append_assoc, List.append_assoc,
          List.append_assoc, List.append_assoc] at e
        exact itemLines_unique _ _ k s t h (List.append_cancel_left e)
  | false =>
    cases l with
    | nil =>
      cases m with
      | nil => exact ⟨rfl, List.append_cancel_left e⟩
      | cons v m =>
        simp only [debugList, hf, Bool.false_eq_true, if_false, padN_append, h0, h1, List.append_assoc, List.cons_append,
          List.nil_append, List.cons.injEq, true_and] at e
        exact absurd e.symm (hb v _ _ (hm v (by simp)))
    | cons u l =>
      cases m with
      | nil =>
        simp only [debugList, hf, Bool.false_eq_true, if_false, padN_append, h0, h1, List.append_assoc, List.cons_append,
          List.nil_append, List.cons.injEq, true_and] at e
        exact absurd e (hb u _ _ (hl u (by simp)))
      | cons v m =>
        simp only [debugList, hf, Bool.false_eq_true, if_false, padN_append, h1, h3, List.append_assoc, List.cons_append,
          List.nil_append, List.cons.injEq, true_and] at e
        obtain ⟨rfl, e'⟩ := h u (by simp) v (by simp) k _ _ (stops_items k l s) (stops_items k m t) e
        obtain ⟨rfl, rfl⟩ := items_unique l m k s t (fun u hu v hv => h u (by simp [hu]) v (by simp [hv])) e'
        exact ⟨rfl, rfl⟩

theorem map_inj {α β : Type} {g : α → β} (hg : ∀ a b, g a = g b → a = b) :
    ∀ l m : List α, l.map g = m.map g → l = m := by
  intro l
  induction l with
  | nil => intro m h; cases m with
    | nil => rfl
    | cons => cases h
  | cons a l ih =>
    intro m h
    cases m with
    | nil => cases h
    | cons b m =>
      simp only [List.map_cons, List.cons.injEq] at h
      rw [hg a b h.1, ih m h.2]

theorem reads_vec {α : Type} [Debug α] (f : Fmt) (h : ReadsBack (debug f : α → Str)) (hb : ∀ a : α, begins (debug f a)) :
    ReadsBack (debugVec f : List α → Str) := by
  intro a b k s t _ _ e
  have hb' : ∀ l : List α, ∀ u ∈ l.map (debug f), begins u := by
    intro l u hu
    obtain ⟨x, _, rfl⟩ := List.mem_map.mp hu
    exact hb x
  obtain ⟨h1, h2⟩ := list_unique f (fun u hu v hv => by
    obtain ⟨x, _, rfl⟩ := List.mem_map.mp hu
    obtain ⟨y, _, rfl⟩ := List.mem_map.mp hv
    exact h.sep x y) (hb' a) (hb' b) k s t e
  exact ⟨map_inj (fun _ _ => h.inj) a b h1, h2⟩

theorem begins_digits (n : Nat) : begins (Nat.toDigits 10 n) := by
  cases h : Nat.toDigits 10 n with
  | nil => exact absurd h Nat.toDigits_ne_nil
  | cons c r =>
    have hc : isTag c = true := List.all_eq_true.mp (toDigits_tag n) c (by rw [h]; simp)
    exact ⟨c, r, rfl, fun e => by subst e; exact absurd hc (by decide), fun e => by subst e; exact absurd hc (by decide)⟩

theorem reads_array {n : Nat} (f : Fmt) : ReadsBack (debugArray f : Bytes n → Str) := by
  intro a b k s t hs ht e
  obtain ⟨h1, h2⟩ := reads_vec f (reads_u8 f) (fun x => begins_digits _) a.val b.val k s t hs ht e
  exact ⟨Subtype.ext h1, h2⟩

/-! ### The types -/

theorem reads_version (f : Fmt) : ReadsBack (debug f : Version → Str) := by
  refine reads_struct f _ _ (fun a b => ?_) fun a b h => ?_
  · exact .cons (by decide) ((reads_u8 f).sep _ _) <| .cons (by decide) ((reads_u8 f).sep _ _) <|
      .cons (by decide) ((reads_u16 f).sep _ _) <| .cons (by decide) ((reads_u8 f).sep _ _) .nil
  · simp only [List.cons.injEq, Prod.mk.injEq, true_and, and_true] at h
    cases a; cases b
    simp only [Version.mk.injEq]
    exact ⟨(reads_u8 f).inj h.1, (reads_u8 f).inj h.2.1, (reads_u16 f).inj h.2.2.1, (reads_u8 f).inj h.2.2.2⟩

theorem reads_fileTime (f : Fmt) : ReadsBack (debug f : FileTime → Str) := by
  refine reads_struct f _ _ (fun a b => ?_) fun a b h => ?_
  · exact .cons (by decide) ((reads_u32 f).sep _ _) <| .cons (by decide) ((reads_u32 f).sep _ _) .nil
  · simp only [List.cons.injEq, Prod.mk.injEq, true_and, and_true] at h
    cases a; cases b
    simp only [FileTime.mk.injEq]
    exact ⟨(reads_u32 f).inj h.1, (reads_u32 f).inj h.2⟩

theorem reads_singleHostData (f : Fmt) : ReadsBack (debug f : SingleHostData → Str) := by
  refine reads_struct f _ _ (fun a b => ?_) fun a b h => ?_
  · exact .cons (by decide) ((reads_u32 f).sep _ _) <| .cons (by decide) ((reads_u32 f).sep _ _) <|
      .cons (by decide) ((reads_array f).sep _ _) <| .cons (by decide) ((reads_array f).sep _ _) .nil
  · simp only [List.cons.injEq, Prod.mk.injEq, true_and, and_true] at h
    cases a; cases b
    simp only [SingleHostData.mk.injEq]
    exact ⟨(reads_u32 f).inj h.1, (reads_u32 f).inj h.2.1, (reads_array f).inj h.2.2.1, (reads_array f).inj h.2.2.2⟩

theorem reads_signature (f : Fmt) : ReadsBack (debug f : MessageSignature → Str) := by
  refine reads_struct f _ _ (fun a b => ?_) fun a b h => ?_
  · exact .cons (by decide) ((reads_bytes f).sep _ _) <| .cons (by decide) ((reads_u32 f).sep _ _) <|
      .cons (by decide) ((reads_u32 f).sep _ _) .nil
  · simp only [List.cons.injEq, Prod.mk.injEq, true_and, and_true] at h
    cases a; cases b
    simp only [MessageSignature.mk.injEq]
    exact ⟨(reads_bytes f).inj h.1, (reads_u32 f).inj h.2.1, (reads_u32 f).inj h.2.2⟩

theorem reads_avFlags (f : Fmt) : ReadsBack (debug f : MsvAvFlags → Str) := by
  refine reads_struct f _ _ (fun a b => ?_) fun a b h => ?_
  · exact .cons (by decide) ((reads_bool f).sep _ _) <| .cons (by decide) ((reads_bool f).sep _ _) <|
      .cons (by decide) ((reads_bool f).sep _ _) .nil
  · simp only [List.cons.injEq, Prod.mk.injEq, true_and, and_true] at h
    cases a; cases b
    simp only [MsvAvFlags.mk.injEq]
    exact ⟨(reads_bool f).inj h.1, (reads_bool f).inj h.2.1, (reads_bool f).inj h.2.2⟩

theorem reads_avId (f : Fmt) : ReadsBack (debug f : AvId → Str) :=
  reads_word (fun a => by cases a <;> (simp only [debug]; decide)) fun a b h => by
    simp only [debug] at h
    cases a <;> cases b <;> first | rfl | exact absurd h (by decide)

theorem tagOf_avPair (f : Fmt) (a : AvPair) (k : Nat) {s : Str} (hs : stops s) :
    tagOf (padN k (debug f a) ++ s) = debug f a.getId := by
  cases a
  · exact tagOf_word (n := "MsvAvEOL".toList) (by decide) hs k
  all_goals exact tagOf_tuple f (by decide) _ k s

theorem reads_avPair (f : Fmt) : ReadsBack (debug f : AvPair → Str) := by
  intro a b k s t hs ht e
  have hi : a.getId = b.getId := by
    apply (reads_avId f).inj
    rw [← tagOf_avPair f a k hs, ← tagOf_avPair f b k ht, e]
  cases a <;> cases b <;> simp only [AvPair.getId, reduceCtorEq] at hi
  · exact ⟨rfl, List.append_cancel_left e⟩
  · obtain ⟨h1, h2⟩ := tuple_unique f _ ((reads_str f).sep _ _) k s t e
    exact ⟨by rw [(reads_str f).inj h1], h2⟩
  · obtain ⟨h1, h2⟩ := tuple_unique f _ ((reads_str f).sep _ _) k s t e
    exact ⟨by rw [(reads_str f).inj h1], h2⟩
  · obtain ⟨h1, h2⟩ := tuple_unique f _ ((reads_str f).sep _ _) k s t e
    exact ⟨by rw [(reads_str f).inj h1], h2⟩
  · obtain ⟨h1, h2⟩ := tuple_unique f _ ((reads_str f).sep _ _) k s t e
    exact ⟨by rw [(reads_str f).inj h1], h2⟩
  · obtain ⟨h1, h2⟩ := tuple_unique f _ ((reads_str f).sep _ _) k s t e
    exact ⟨by rw [(reads_str f).inj h1], h2⟩
  · obtain ⟨h1, h2⟩ := tuple_unique f _ ((reads_avFlags f).sep _ _) k s t e
    exact ⟨by rw [(reads_avFlags f).inj h1], h2⟩
  · obtain ⟨h1, h2⟩ := tuple_unique f _ ((reads_fileTime f).sep _ _) k s t e
    exact ⟨by rw [(reads_fileTime f).inj h1], h2⟩
  · obtain ⟨h1, h2⟩ := tuple_unique f _ ((reads_singleHostData f).sep _ _) k s t e
    exact ⟨by rw [(reads_singleHostData f).inj h1], h2⟩
  · obtain ⟨h1, h2⟩ := tuple_unique f _ ((reads_str f).sep _ _) k s t e
    exact ⟨by rw [(reads_str f).inj h1], h2⟩
  · obtain ⟨h1, h2⟩ := tuple_unique f _ ((reads_array f).sep _ _) k s t e
    exact ⟨by rw [(reads_array f).inj h1], h2⟩

theorem begins_tuple (f : Fmt) (name u : Str) (h : begins name) : begins (debugTuple f name u) := by
  obtain ⟨c, r, rfl, hc⟩ := h
  unfold debugTuple
  split
  · exact ⟨c, _, rfl, hc⟩
  · exact ⟨c, _, rfl, hc⟩

theorem begins_avPair (f : Fmt) (a : AvPair) : begins (debug f a) := by
  cases a
  · exact ⟨'M', _, rfl, by decide, by decide⟩
  all_goals exact begins_tuple f _ _ ⟨'M', _, rfl, by decide, by decide⟩

theorem reads_avPairs (f : Fmt) : ReadsBack (debugVec f : List AvPair → Str) := reads_vec f (reads_avPair f) (begins_avPair f)

theorem reads_lmv1 (f : Fmt) : ReadsBack (debug f : Lmv1Challenge → Str) := by
  refine reads_struct f _ _ (fun a b => ?_) fun a b h => ?_
  · exact .cons (by decide) ((reads_bytes f).sep _ _) .nil
  · simp only [List.cons.injEq, Prod.mk.injEq, true_and, and_true] at h
    cases a; cases b
    simp only [Lmv1Challenge.mk.injEq]
    exact (reads_bytes f).inj h

theorem reads_lmv2 (f : Fmt) : ReadsBack (debug f : Lmv2Challenge → Str) := by
  refine reads_struct f _ _ (fun a b => ?_) fun a b h => ?_
  · exact .cons (by decide) ((reads_bytes f).sep _ _) <| .cons (by decide) ((reads_bytes f).sep _ _) .nil
  · simp only [List.cons.injEq, Prod.mk.injEq, true_and, and_true] at h
    cases a; cases b
    simp only [Lmv2Challenge.mk.injEq]
    exact ⟨(reads_bytes f).inj h.1, (reads_bytes f).inj h.2⟩

theorem reads_lm (f : Fmt) : ReadsBack (debug f : LmChallenge → Str) := by
  intro a b k s t hs ht e
  cases a <;> cases b
  · obtain ⟨h1, h2⟩ := tuple_unique f _ ((reads_lmv1 f).sep _ _) k s t e
    exact ⟨by rw [(reads_lmv1 f).inj h1], h2⟩
  · have e := congrArg tagOf e
    simp only [debug] at e
    rw [tagOf_tuple f (by decide), tagOf_tuple f (by decide)] at e
    exact absurd e (by decide)
  · have e := congrArg tagOf e
    simp only [debug] at e
    rw [tagOf_tuple f (by decide), tagOf_tuple f (by decide)] at e
    exact absurd e (by decide)
  · obtain ⟨h1, h2⟩ := tuple_unique f _ ((reads_lmv2 f).sep _ _) k s t e
    exact ⟨by rw [(reads_lmv2 f).inj h1], h2⟩

theorem reads_ntv1 (f : Fmt) : ReadsBack (debug f : Ntv1Challenge → Str) := by
  refine reads_struct f _ _ (fun a b => ?_) fun a b h => ?_
  · exact .cons (by decide) ((reads_bytes f).sep _ _) .nil
  · simp only [List.cons.injEq, Prod.mk.injEq, true_and, and_true] at h
    cases a; cases b
    simp only [Ntv1Challenge.mk.injEq]
    exact (reads_bytes f).inj h

theorem reads_ntv2 (f : Fmt) : ReadsBack (debug f : Ntv2Challenge → Str) := by
  refine reads_struct f _ _ (fun a b => ?_) fun a b h => ?_
  · exact .cons (by decide) ((reads_fileTime f).sep _ _) <| .cons (by decide) ((reads_bytes f).sep _ _) <|
      .cons (by decide) ((reads_avPairs f).sep _ _) .nil
  · simp only [List.cons.injEq, Prod.mk.injEq, true_and, and_true] at h
    cases a; cases b
    simp only [Ntv2Challenge.mk.injEq]
    exact ⟨(reads_fileTime f).inj h.1, (reads_bytes f).inj h.2.1, (reads_avPairs f).inj h.2.2⟩

theorem reads_nt (f : Fmt) : ReadsBack (debug f : NtChallenge → Str) := by
  intro a b k s t hs ht e
  cases a <;> cases b
  · obtain ⟨h1, h2⟩ := tuple_unique f _ ((reads_ntv1 f).sep _ _) k s t e
    exact ⟨by rw [(reads_ntv1 f).inj h1], h2⟩
  · have e := congrArg tagOf e
    simp only [debug] at e
    rw [tagOf_tuple f (by decide), tagOf_tuple f (by decide)] at e
    exact absurd e (by decide)
  · have e := congrArg tagOf e
    simp only [debug] at e
    rw [tagOf_tuple f (by decide), tagOf_tuple f (by decide)] at e
    exact absurd e (by decide)
  · obtain ⟨h1, h2⟩ := tuple_unique f _ ((reads_ntv2 f).sep _ _) k s t e
    exact ⟨by rw [(reads_ntv2 f).inj h1], h2⟩

theorem reads_negotiate (f : Fmt) : ReadsBack (debug f : Negotiate → Str) := by
  have o := reads_option f (reads_oem f)
  have v := reads_option f (reads_version f)
  refine reads_struct f _ _ (fun a b => ?_) fun a b h => ?_
  · exact .cons (by decide) ((reads_flags f).sep _ _) <| .cons (by decide) (o.sep _ _) <|
      .cons (by decide) (o.sep _ _) <| .cons (by decide) (v.sep _ _) .nil
  · simp only [List.cons.injEq, Prod.mk.injEq, true_and, and_true] at h
    cases a; cases b
    simp only [Negotiate.mk.injEq]
    exact ⟨(reads_flags f).inj h.1, o.inj h.2.1, o.inj h.2.2.1, v.inj h.2.2.2⟩

theorem reads_challenge (f : Fmt) : ReadsBack (debug f : Challenge → Str) := by
  have u := reads_option f (reads_unicode f)
  have v := reads_option f (reads_version f)
  refine reads_struct f _ _ (fun a b => ?_) fun a b h => ?_
  · exact .cons (by decide) (u.sep _ _) <| .cons (by decide) ((reads_flags f).sep _ _) <|
      .cons (by decide) ((reads_bytes f).sep _ _) <| .cons (by decide) ((reads_avPairs f).sep _ _) <|
      .cons (by decide) (v.sep _ _) .nil
  · simp only [List.cons.injEq, Prod.mk.injEq, true_and, and_true] at h
    cases a; cases b
    simp only [Challenge.mk.injEq]
    exact ⟨u.inj h.1, (reads_flags f).inj h.2.1, (reads_bytes f).inj h.2.2.1, (reads_avPairs f).inj h.2.2.2.1,
      v.inj h.2.2.2.2⟩

theorem reads_authenticate (f : Fmt) : ReadsBack (debug f : Authenticate → Str) := by
  have l := reads_option f (reads_lm f)
  have n := reads_option f (reads_nt f)
  have u := reads_option f (reads_unicode f)
  have v := reads_option f (reads_version f)
  have k := reads_option f (reads_bytes (n := 16) f)
  refine reads_struct f _ _ (fun a b => ?_) fun a b h => ?_
  · exact .cons (by decide) (l.sep _ _) <| .cons (by decide) (n.sep _ _) <| .cons (by decide) (u.sep _ _) <|
      .cons (by decide) (u.sep _ _) <| .cons (by decide) (u.sep _ _) <| .cons (by decide) (k.sep _ _) <|
      .cons (by decide) ((reads_flags f).sep _ _) <| .cons (by decide) (v.sep _ _) <|
      .cons (by decide) ((reads_bytes f).sep _ _) <| .cons (by decide) (k.sep _ _) .nil
  · simp only [List.cons.injEq, Prod.mk.injEq, true_and, and_true] at h
    cases a; cases b
    simp only [Authenticate.mk.injEq]
    obtain ⟨h1, h2, h3, h4, h5, h6, h7, h8, h9, h10⟩ := h
    exact ⟨l.inj h1, n.inj h2, u.inj h3, u.inj h4, u.inj h5, k.inj h6, (reads_flags f).inj h7, v.inj h8,
      (reads_bytes f).inj h9, k.inj h10⟩

/-! ### Control characters -/

/-- No unprintable characters but the line breaks of `{:#?}`. -/
def Clean (f : Fmt) (u : Str) : Prop := ∀ c ∈ u, f.printable c = true ∨ (f.alternate = true ∧ c = '\n')

theorem clean_of (f : Fmt) {u : Str} (h : ∀ c ∈ u, plain c = true) : Clean f u := fun c hc => .inl (printable_plain f (h c hc))

theorem clean_append {f : Fmt} {u v : Str} (hu : Clean f u) (hv : Clean f v) : Clean f (u ++ v) := by
  intro c hc
  rcases List.mem_append.mp hc with h | h
  · exact hu c h
  · exact hv c h

theorem clean_flatMap {α : Type} {f : Fmt} {l : List α} {g : α → Str} (h : ∀ x ∈ l, Clean f (g x)) :
    Clean f (l.flatMap g) := by
  intro c hc
  obtain ⟨x, hx, hc⟩ := List.mem_flatMap.mp hc
  exact h x hx c hc

theorem mem_pad {c : Char} {s : Str} : ∀ {b : Bool}, c ∈ pad b s → c = ' ' ∨ c ∈ s := by
  induction s with
  | nil => intro b h; cases h
  | cons d s ih =>
    intro b h
    rw [pad] at h
    rcases List.mem_append.mp h with h | h
    · left
      cases b
      · cases h
      · have : "    ".toList = List.replicate 4 ' ' := rfl
        rw [this] at h
        exact (List.mem_replicate.mp h).2
    · rcases List.mem_cons.mp h with rfl | h
      · exact .inr List.mem_cons_self
      · rcases ih h with h | h
        · exact .inl h
        · exact .inr (List.mem_cons_of_mem _ h)

theorem clean_pad {f : Fmt} {s : Str} (h : Clean f s) (b : Bool) : Clean f (pad b s) := by
  intro c hc
  rcases mem_pad hc with rfl | hc
  · exact .inl (printable_plain f (by decide))
  · exact h c hc

theorem clean_nl {f : Fmt} (h : f.alternate = true) {u : Str} (hu : ∀ c ∈ u, plain c = true ∨ c = '\n') : Clean f u := by
  intro c hc
  rcases hu c hc with h1 | h1
  · exact .inl (printable_plain f h1)
  · exact .inr ⟨h, h1⟩

theorem clean_struct (f : Fmt) {name : Str} {l : List (Str × Str)} (hn : ∀ c ∈ name, plain c = true)
    (h : ∀ x ∈ l, (∀ c ∈ x.1, plain c = true) ∧ Clean f x.2) : Clean f (debugStruct f name l) := by
  have hc : Clean f ": ".toList := clean_of f (by decide)
  unfold debugStruct
  split
  · rename_i hf
    refine clean_append (clean_append (clean_append (clean_of f hn) (clean_nl hf (by decide))) (clean_flatMap ?_))
      (clean_of f (by decide))
    intro x hx
    exact clean_pad (clean_append (clean_append (clean_append (clean_of f (h x hx).1) hc) (h x hx).2)
      (clean_nl hf (by decide))) true
  · have hm : ∀ l : List (Str × Str), (∀ x ∈ l, (∀ c ∈ x.1, plain c = true) ∧ Clean f x.2) → Clean f (moreFields l) := by
      intro l
      induction l with
      | nil => intro _ c hc; cases hc
      | cons x l ih =>
        intro h
        have hx := h x (by simp)
        exact clean_append (clean_append (clean_append (clean_append (clean_of f (by decide)) (clean_of f hx.1)) hc) hx.2)
          (ih fun y hy => h y (by simp [hy]))
    cases l with
    | nil => exact clean_of f hn
    | cons x l =>
      have hx := h x (by simp)
      exact clean_append (clean_append (clean_append (clean_append (clean_append (clean_append (clean_of f hn)
        (clean_of f (by decide))) (clean_of f hx.1)) hc) hx.2) (hm l fun y hy => h y (by simp [hy])))
        (clean_of f (by decide))

theorem clean_tuple (f : Fmt) {name u : Str} (hn : ∀ c ∈ name, plain c = true) (h : Clean f u) :
    Clean f (debugTuple f name u) := by
  unfold debugTuple
  split
  · rename_i hf
    exact clean_append (clean_append (clean_append (clean_of f hn) (clean_nl hf (by decide)))
      (clean_pad (clean_append h (clean_nl hf (by decide))) true)) (clean_of f (by decide))
  · exact clean_append (clean_append (clean_append (clean_of f hn) (clean_of f (by decide))) h) (clean_of f (by decide))

theorem clean_list (f : Fmt) {l : List Str} (h : ∀ u ∈ l, Clean f u) : Clean f (debugList f l) := by
  cases l with
  | nil => exact clean_of f (u := "[]".toList) (by decide)
  | cons u l =>
    simp only [debugList]
    split
    · rename_i hf
      refine clean_append (clean_append (clean_nl hf (by decide)) (clean_flatMap ?_)) (clean_of f (by decide))
      intro x hx
      exact clean_pad (clean_append (h x hx) (clean_nl hf (by decide))) true
    · refine clean_append (clean_append (clean_append (clean_of f (by decide)) (h u (by simp))) (clean_flatMap ?_))
        (clean_of f (by decide))
      intro x hx
      exact clean_append (clean_of f (by decide)) (h x (by simp [hx]))

theorem clean_nat (f : Fmt) (n : Nat) : Clean f (Nat.toDigits 10 n) := by
  refine clean_of f fun c hc => ?_
  obtain ⟨x, hx, rfl⟩ := toDigits_all (by omega) (by omega) _ c hc
  have : ∀ x < 16, plain (Nat.digitChar x) = true := by decide +kernel
  exact this x hx

theorem clean_u8 (f : Fmt) (x : UInt8) : Clean f (debug f x) := clean_nat f _
theorem clean_u16 (f : Fmt) (x : UInt16) : Clean f (debug f x) := clean_nat f _
theorem clean_u32 (f : Fmt) (x : UInt32) : Clean f (debug f x) := clean_nat f _

theorem clean_bool (f : Fmt) (x : Bool) : Clean f (debug f x) := by
  cases x
  · exact clean_of f (u := "false".toList) (by decide)
  · exact clean_of f (u := "true".toList) (by decide)

theorem clean_bytes (f : Fmt) {n : Nat} (x : Bytes n) : Clean f (debug f x) := by
  refine clean_of f (u := x.val.flatMap hexByte) fun c hc => ?_
  obtain ⟨b, _, hb⟩ := List.mem_flatMap.mp hc
  have := b.toNat_lt
  simp only [hexByte, List.mem_cons, List.not_mem_nil, or_false] at hb
  rcases hb with rfl | rfl
  · exact (hexDigit_tag _ (by omega)).2
  · exact (hexDigit_tag _ (by omega)).2

theorem clean_flags (f : Fmt) (x : Flags) : Clean f (debug f x) := clean_of f fun _ hc => (flags_chars x hc).2

theorem clean_str (f : Fmt) (s : Str) : Clean f (debugStr f s) := fun c hc => .inl (debugStr_chars f s c hc)

theorem clean_array (f : Fmt) {n : Nat} (x : Bytes n) : Clean f (debugArray f x) := by
  refine clean_list f fun u hu => ?_
  obtain ⟨b, _, rfl⟩ := List.mem_map.mp hu
  exact clean_u8 f b

theorem clean_option {α : Type} [Debug α] (f : Fmt) (h : ∀ a : α, Clean f (debug f a)) (x : Option α) :
    Clean f (debug f x) := by
  cases x with
  | none => exact clean_of f (u := "None".toList) (by decide)
  | some x => exact clean_tuple f (by decide) (h x)

theorem clean_fields {f : Fmt} {n u : Str} {l : List (Str × Str)} (hn : ∀ c ∈ n, plain c = true) (hu : Clean f u)
    (h : ∀ x ∈ l, (∀ c ∈ x.1, plain c = true) ∧ Clean f x.2) :
    ∀ x ∈ (n, u) :: l, (∀ c ∈ x.1, plain c = true) ∧ Clean f x.2 := by
  intro x hx
  rcases List.mem_cons.mp hx with rfl | hx
  · exact ⟨hn, hu⟩
  · exact h x hx

theorem clean_none {f : Fmt} : ∀ x ∈ ([] : List (Str × Str)), (∀ c ∈ x.1, plain c = true) ∧ Clean f x.2 :=
  fun _ h => nomatch h

theorem clean_version (f : Fmt) (x : Version) : Clean f (debug f x) :=
  clean_struct f (by decide) <| clean_fields (by decide) (clean_u8 f _) <| clean_fields (by decide) (clean_u8 f _) <|
    clean_fields (by decide) (clean_u16 f _) <| clean_fields (by decide) (clean_u8 f _) clean_none

theorem clean_fileTime (f : Fmt) (x : FileTime) : Clean f (debug f x) :=
  clean_struct f (by decide) <| clean_fields (by decide) (clean_u32 f _) <| clean_fields (by decide) (clean_u32 f _)
    clean_none

theorem clean_singleHostData (f : Fmt) (x : SingleHostData) : Clean f (debug f x) :=
  clean_struct f (by decide) <| clean_fields (by decide) (clean_u32 f _) <| clean_fields (by decide) (clean_u32 f _) <|
    clean_fields (by decide) (clean_array f _) <| clean_fields (by decide) (clean_array f _) clean_none

theorem clean_signature (f : Fmt) (x : MessageSignature) : Clean f (debug f x) :=
  clean_struct f (by decide) <| clean_fields (by decide) (clean_bytes f _) <| clean_fields (by decide) (clean_u32 f _) <|
    clean_fields (by decide) (clean_u32 f _) clean_none

theorem clean_avFlags (f : Fmt) (x : MsvAvFlags) : Clean f (debug f x) :=
  clean_struct f (by decide) <| clean_fields (by decide) (clean_bool f _) <| clean_fields (by decide) (clean_bool f _) <|
    clean_fields (by decide) (clean_bool f _) clean_none

theorem clean_avPair (f : Fmt) (x : AvPair) : Clean f (debug f x) := by
  cases x
  · exact clean_of f (u := "MsvAvEOL".toList) (by decide)
  · exact clean_tuple f (by decide) (clean_str f _)
  · exact clean_tuple f (by decide) (clean_str f _)
  · exact clean_tuple f (by decide) (clean_str f _)
  · exact clean_tuple f (by decide) (clean_str f _)
  · exact clean_tuple f (by decide) (clean_str f _)
  · exact clean_tuple f (by decide) (clean_avFlags f _)
  · exact clean_tuple f (by decide) (clean_fileTime f _)
  · exact clean_tuple f (by decide) (clean_singleHostData f _)
  · exact clean_tuple f (by decide) (clean_str f _)
  · exact clean_tuple f (by decide) (clean_array f _)

theorem clean_avPairs (f : Fmt) (l : List AvPair) : Clean f (debugVec f l) := by
  refine clean_list f fun u hu => ?_
  obtain ⟨b, _, rfl⟩ := List.mem_map.mp hu
  exact clean_avPair f b

theorem clean_lm (f : Fmt) (x : LmChallenge) : Clean f (debug f x) := by
  cases x
  · exact clean_tuple f (by decide) (clean_struct f (by decide) <| clean_fields (by decide) (clean_bytes f _) clean_none)
  · exact clean_tuple f (by decide) (clean_struct f (by decide) <| clean_fields (by decide) (clean_bytes f _) <|
      clean_fields (by decide) (clean_bytes f _) clean_none)

theorem clean_nt (f : Fmt) (x : NtChallenge) : Clean f (debug f x) := by
  cases x
  · exact clean_tuple f (by decide) (clean_struct f (by decide) <| clean_fields (by decide) (clean_bytes f _) clean_none)
  · exact clean_tuple f (by decide) (clean_struct f (by decide) <| clean_fields (by decide) (clean_fileTime f _) <|
      clean_fields (by decide) (clean_bytes f _) <| clean_fields (by decide) (clean_avPairs f _) clean_none)

theorem clean_negotiate (f : Fmt) (x : Negotiate) : Clean f (debug f x) :=
  clean_struct f (by decide) <| clean_fields (by decide) (clean_flags f _) <|
    clean_fields (by decide) (clean_option f (fun a => clean_str f a.s) _) <|
    clean_fields (by decide) (clean_option f (fun a => clean_str f a.s) _) <|
    clean_fields (by decide) (clean_option f (clean_version f) _) clean_none

theorem clean_challenge (f : Fmt) (x : Challenge) : Clean f (debug f x) :=
  clean_struct f (by decide) <| clean_fields (by decide) (clean_option f (fun a => clean_str f a.s) _) <|
    clean_fields (by decide) (clean_flags f _) <| clean_fields (by decide) (clean_bytes f _) <|
    clean_fields (by decide) (clean_avPairs f _) <| clean_fields (by decide) (clean_option f (clean_version f) _) clean_none

theorem clean_authenticate (f : Fmt) (x : Authenticate) : Clean f (debug f x) :=
  clean_struct f (by decide) <| clean_fields (by decide) (clean_option f (clean_lm f) _) <|
    clean_fields (by decide) (clean_option f (clean_nt f) _) <|
    clean_fields (by decide) (clean_option f (fun a => clean_str f a.s) _) <|
    clean_fields (by decide) (clean_option f (fun a => clean_str f a.s) _) <|
    clean_fields (by decide) (clean_option f (fun a => clean_str f a.s) _) <|
    clean_fields (by decide) (clean_option f (clean_bytes f) _) <| clean_fields (by decide) (clean_flags f _) <|
    clean_fields (by decide) (clean_option f (clean_version f) _) <| clean_fields (by decide) (clean_bytes f _) <|
    clean_fields (by decide) (clean_option f (clean_bytes f) _) clean_none

end Ntlm
