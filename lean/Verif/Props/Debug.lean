import Verif.Model.Debug
import Verif.Spec.Debug
import Verif.Props.Builders
/-
  C54: debugging output.
-/
namespace Ntlm.Props

open Spec

/-- Names joined by vertical bars. -/
def bars : List Str → Str
  | [] => []
  | [n] => n
  | n :: m :: ns => n ++ '|' :: bars (m :: ns)

theorem bars_cons (n : Str) {ns : List Str} (h : ns ≠ []) : bars (n :: ns) = n ++ '|' :: bars ns := by
  cases ns with
  | nil => exact absurd rfl h
  | cons => rfl

theorem pieces_plain {n : Str} (h : '|' ∉ n) : pieces n = [n] := by
  induction n with
  | nil => rfl
  | cons c n ih =>
    simp only [List.mem_cons, not_or] at h
    rw [pieces, if_neg (fun e => h.1 e.symm), ih h.2]

theorem pieces_bar {n : Str} (h : '|' ∉ n) (s : Str) : pieces (n ++ '|' :: s) = n :: pieces s := by
  induction n with
  | nil => rfl
  | cons c n ih =>
    simp only [List.mem_cons, not_or] at h
    rw [List.cons_append, pieces, if_neg (fun e => h.1 e.symm), ih h.2]

theorem pieces_bars {ns : List Str} (h : ns ≠ []) (hn : ∀ n ∈ ns, '|' ∉ n) : pieces (bars ns) = ns := by
  induction ns with
  | nil => exact absurd rfl h
  | cons n ns ih =>
    by_cases e : ns = []
    · subst e; exact pieces_plain (hn n (by simp))
    · rw [bars_cons n e, pieces_bar (hn n (by simp)), ih e (fun m hm => hn m (by simp [hm]))]

/-- The blocks, started with `first` unset, write every name with a bar in front. -/
theorem blocks_rest (f : Flags) (t : List (UInt32 × Str)) (s : Str) :
    (t.foldl f.debugBlock (false, s)).2 = s ++ ((t.filter (fun e => f.hasFlag e.1)).map (·.2)).flatMap ('|' :: ·) := by
  induction t generalizing s with
  | nil => simp
  | cons e t ih =>
    rw [List.foldl_cons]
    by_cases h : f.hasFlag e.1
    · simp [Flags.debugBlock, h, ih]
    · simp [Flags.debugBlock, h, ih]

theorem bars_flatMap (n : Str) (ns : List Str) : bars (n :: ns) = n ++ ns.flatMap ('|' :: ·) := by
  induction ns generalizing n with
  | nil => simp [bars]
  | cons m ns ih => rw [bars_cons n (by simp), ih]; simp

theorem blocks_first (f : Flags) (t : List (UInt32 × Str)) :
    (t.foldl f.debugBlock (true, [])).2 = bars ((t.filter (fun e => f.hasFlag e.1)).map (·.2)) := by
  induction t with
  | nil => rfl
  | cons e t ih =>
    rw [List.foldl_cons]
    by_cases h : f.hasFlag e.1
    · simp [Flags.debugBlock, h, blocks_rest, bars_flatMap]
    · simpa [Flags.debugBlock, h] using ih

/-- The table of the code is the list of names of the specification, from bit 31 down. -/
theorem debugTable_eq : Flags.debugTable.map (fun e => (e.1.toNat, e.2)) = (List.range 32).reverse.map fun k => (k, flagName k) := by
  decide +kernel

theorem debug_eq (f : Flags) :
    f.debug = bars (((List.range 32).reverse.filter (fun k => f.bits.toNat.testBit k)).map flagName) := by
  have h32 : ∀ e ∈ Flags.debugTable, e.1 < 32 := by decide +kernel
  have h1 : Flags.debugTable.filter (fun e => f.hasFlag e.1) = Flags.debugTable.filter (fun e => f.bits.toNat.testBit e.1.toNat) :=
    List.filter_congr fun e he => hasFlag_testBit f e.1 (h32 e he)
  have h2 : (Flags.debugTable.filter (fun e => f.bits.toNat.testBit e.1.toNat)).map (·.2) =
      ((Flags.debugTable.map (fun e => (e.1.toNat, e.2))).filter (fun e => f.bits.toNat.testBit e.1)).map (·.2) := by
    rw [List.filter_map, List.map_map]
    rfl
  have h3 : (((List.range 32).reverse.map fun k => (k, flagName k)).filter (fun e => f.bits.toNat.testBit e.1)).map (·.2) =
      ((List.range 32).reverse.filter (fun k => f.bits.toNat.testBit k)).map flagName := by
    rw [List.filter_map, List.map_map]
    rfl
  rw [Flags.debug, blocks_first, h1, h2, debugTable_eq, h3]

theorem flagName_plain : ∀ k < 32, '|' ∉ flagName k ∧ flagName k ≠ [] := by decide +kernel

theorem flagName_inj : ∀ k < 32, ∀ j < 32, flagName k = flagName j → k = j := by decide +kernel

/-- C54: the output for a flag word consists of the names of its flags, the highest first, separated by vertical bars; it is empty
    for the word without flags. -/
theorem C54_flags (f : Flags) :
    ((∃ k, bit f k) → pieces f.debug = ((List.range 32).reverse.filter (fun k => f.bits.toNat.testBit k)).map flagName) ∧
    ((∀ k, ¬ bit f k) → f.debug = []) := by
  rw [debug_eq]
  constructor
  · rintro ⟨k, hk⟩
    have hk32 : k < 32 := by
      apply Classical.byContradiction
      intro h
      have := Nat.testBit_lt_two_pow (x := f.bits.toNat) (i := k)
        (Nat.lt_of_lt_of_le f.bits.toNat_lt (Nat.pow_le_pow_right (by omega) (by omega)))
      rw [bit, this] at hk; cases hk
    apply pieces_bars
    · intro e
      have : k ∈ (List.range 32).reverse.filter (fun k => f.bits.toNat.testBit k) := by simp [hk32]; exact hk
      rw [List.map_eq_nil_iff.mp e] at this
      cases this
    · intro n hn
      simp only [List.mem_map, List.mem_filter, List.mem_reverse, List.mem_range] at hn
      obtain ⟨k, ⟨hk, _⟩, rfl⟩ := hn
      exact (flagName_plain k hk).1
  · intro h
    have : (List.range 32).reverse.filter (fun k => f.bits.toNat.testBit k) = [] := by
      rw [List.filter_eq_nil_iff]
      intro k _
      exact h k
    rw [this]; rfl

example : pieces (⟨0x80000001⟩ : Flags).debug = ["NTLMSSP_NEGOTIATE_56".toList, "NTLMSSP_NEGOTIATE_UNICODE".toList] :=
  ((C54_flags ⟨0x80000001⟩).1 ⟨0, by simp only [bit]; decide⟩).trans (by decide +kernel)
example : (⟨0⟩ : Flags).debug = [] := (C54_flags ⟨0⟩).2 (by intro k; simp [bit])

/-- C54: a flag is named in the output exactly when it is set. -/
theorem C54_named_iff (f : Flags) (k : Nat) (hk : k < 32) : flagName k ∈ pieces f.debug ↔ bit f k := by
  obtain ⟨h1, h2⟩ := C54_flags f
  by_cases h : ∃ k, bit f k
  · rw [h1 h]
    simp only [List.mem_map, List.mem_filter, List.mem_reverse, List.mem_range]
    constructor
    · rintro ⟨j, ⟨hj, hb⟩, e⟩
      rw [flagName_inj k hk j hj e.symm]
      exact hb
    · intro hb; exact ⟨k, ⟨hk, hb⟩, rfl⟩
  · have h : ∀ k, ¬ bit f k := fun k hk => h ⟨k, hk⟩
    rw [h2 h]
    simp only [pieces, List.mem_singleton, (flagName_plain k hk).2, false_iff]
    exact h k

example : "NTLMSSP_NEGOTIATE_KEY_EXCH".toList ∈ pieces (⟨0x40000000⟩ : Flags).debug :=
  (C54_named_iff ⟨0x40000000⟩ 30 (by decide)).mpr (by simp only [bit]; decide)

/-- C54: different flag words print differently. -/
theorem C54_flags_injective (f g : Flags) (h : f.debug = g.debug) : f = g := by
  rw [C15_extensional]
  intro k hk
  rw [← C54_named_iff f k hk, ← C54_named_iff g k hk, h]

example : (⟨0x00080201⟩ : Flags).debug =
    "NTLMSSP_NEGOTIATE_EXTENDED_SESSIONSECURITY|NTLMSSP_NEGOTIATE_NTLM|NTLMSSP_NEGOTIATE_UNICODE".toList := by decide +kernel

theorem hexValue_digit : ∀ n < 16, hexValue (hexDigit n) = some n := by decide +kernel

theorem hexDump_bytes (l : List UInt8) : isHexDump (l.flatMap hexByte) l := by
  induction l with
  | nil => exact ⟨rfl, fun i h => absurd h (by simp)⟩
  | cons b l ih =>
    have hb := b.toNat_lt
    refine ⟨?_, ?_⟩
    · have := ih.1
      simp only [List.flatMap_cons, List.length_append, hexByte, List.length_cons, List.length_nil] at this ⊢
      omega
    · intro i h
      cases i with
      | zero =>
        refine ⟨b.toNat / 16, b.toNat % 16, hexValue_digit _ (by omega), hexValue_digit _ (by omega), ?_⟩
        simp only [List.getElem_cons_zero]
        omega
      | succ i =>
        obtain ⟨x, y, h1, h2, h3⟩ := ih.2 i (by simpa using h)
        refine ⟨x, y, ?_, ?_, by simpa using h3⟩
        · simpa [hexByte, Nat.mul_add] using h1
        · simpa [hexByte, Nat.mul_add] using h2

theorem hexDump_unique {s : Str} {b c : List UInt8} (hb : isHexDump s b) (hc : isHexDump s c) : b = c := by
  apply List.ext_getElem
  · have := hb.1; have := hc.1; omega
  · intro i h1 h2
    obtain ⟨x, y, e1, e2, e3⟩ := hb.2 i h1
    obtain ⟨x', y', e1', e2', e3'⟩ := hc.2 i h2
    rw [e1] at e1'; rw [e2] at e2'
    cases e1'; cases e2'
    exact UInt8.toNat_inj.mp (e3.trans e3'.symm)

/-- C54: the output for a buffer (responses, challenges, keys, MICs) is its hexadecimal dump, which determines it. -/
theorem C54_buffers {n : Nat} (b c : Bytes n) : isHexDump b.debug b.val ∧ (b.debug = c.debug → b = c) := by
  refine ⟨hexDump_bytes b.val, fun h => Subtype.ext ?_⟩
  have h1 : isHexDump b.debug b.val := hexDump_bytes b.val
  have h2 : isHexDump c.debug c.val := hexDump_bytes c.val
  rw [h] at h1
  exact hexDump_unique h1 h2

example : Bytes.debug (⟨[0x4e, 0x54, 0x0a], rfl⟩ : Bytes 3) = "4e540a".toList := by decide +kernel

end Ntlm.Props
