import Verif.Prims.Cipher
/-
  DES is injective in the block for every key.
-/
namespace Ntlm.Cipher

open Digest (force force_eq)

theorem testBit_two_mul_add (y b i : Nat) (hb : b < 2) :
    (2 * y + b).testBit i = if i = 0 then decide (b = 1) else y.testBit (i - 1) := by
  cases i with
  | zero =>
    simp only [Nat.testBit_zero, if_true]
    rw [show (2 * y + b) % 2 = b by omega]
  | succ i =>
    simp only [Nat.testBit_succ, Nat.add_sub_cancel, if_neg (Nat.succ_ne_zero i)]
    rw [show (2 * y + b) / 2 = y by omega]

theorem shiftRight_mod_two (x k : Nat) : decide ((x >>> k) % 2 = 1) = x.testBit k := by
  rw [Nat.testBit, Nat.one_and_eq_mod_two]
  rcases Nat.mod_two_eq_zero_or_one (x >>> k) with h | h <;> simp [h]

theorem select_snoc (n : Nat) (t : List Nat) (j x : Nat) : select n (t ++ [j]) x = 2 * select n t x + (x >>> (n - j)) % 2 := by
  simp only [select, List.foldl_append, List.foldl_cons, List.foldl_nil, force_eq, id]

theorem select_testBit (n : Nat) (t : List Nat) (x : Nat) :
    (∀ i, i < t.length → (select n t x).testBit i = x.testBit (n - t.reverse.getD i 0)) ∧
      select n t x < 2 ^ t.length := by
  have key : ∀ r : List Nat, (∀ i, i < r.length → (select n r.reverse x).testBit i = x.testBit (n - r.getD i 0)) ∧
      select n r.reverse x < 2 ^ r.length := by
    intro r
    induction r with
    | nil => exact ⟨fun i h => absurd h (Nat.not_lt_zero _), by simp [select]⟩
    | cons j r ih =>
      rw [List.reverse_cons, select_snoc]
      have hb : (x >>> (n - j)) % 2 < 2 := Nat.mod_lt _ (by decide)
      refine ⟨fun i hi => ?_, ?_⟩
      · rw [testBit_two_mul_add _ _ _ hb]
        cases i with
        | zero => simp only [if_true, List.getD_cons_zero]; exact shiftRight_mod_two x (n - j)
        | succ i =>
          rw [if_neg (Nat.succ_ne_zero i), Nat.add_sub_cancel, List.getD_cons_succ]
          exact ih.1 i (by simpa using hi)
      · rw [List.length_cons, Nat.pow_succ]
        have := ih.2
        omega
  have := key t.reverse
  rw [List.reverse_reverse, List.length_reverse] at this
  exact this

/-- A table in which every bit occurs keeps all bits. -/
theorem select_injective (n : Nat) (t : List Nat) (ht : ∀ k, k < n → ∃ i, i < t.length ∧ n - t.reverse.getD i 0 = k) {x y : Nat}
    (hx : x < 2 ^ n) (hy : y < 2 ^ n) (h : select n t x = select n t y) : x = y := by
  apply Nat.eq_of_testBit_eq
  intro k
  by_cases hk : k < n
  · obtain ⟨i, hi, e⟩ := ht k hk
    have h1 := (select_testBit n t x).1 i hi
    have h2 := (select_testBit n t y).1 i hi
    rw [e] at h1 h2
    rw [← h1, ← h2, h]
  · have hp : 2 ^ n ≤ 2 ^ k := Nat.pow_le_pow_right (by decide) (by omega)
    rw [Nat.testBit_lt_two_pow (by omega), Nat.testBit_lt_two_pow (by omega)]

theorem IP_all : ∀ k, k < 64 → ∃ i, i < IP.length ∧ 64 - IP.reverse.getD i 0 = k := by decide +kernel
theorem FP_all : ∀ k, k < 64 → ∃ i, i < FP.length ∧ 64 - FP.reverse.getD i 0 = k := by decide +kernel

theorem feistel_lt (r k : Nat) : feistel r k < 2 ^ 32 := by
  simp only [feistel, force_eq]
  exact (select_testBit 32 PERM _).2

theorem rounds_lt (ss : List Nat) : ∀ c d l r, l < 2 ^ 32 → r < 2 ^ 32 → rounds ss c d l r < 2 ^ 64 := by
  induction ss with
  | nil => intro c d l r hl hr; simp only [rounds]; omega
  | cons s ss ih =>
    intro c d l r hl hr
    simp only [rounds, force_eq]
    exact ih _ _ _ _ hr (Nat.xor_lt_two_pow hl (feistel_lt _ _))

theorem xor_left_cancel {a b f : Nat} (h : a ^^^ f = b ^^^ f) : a = b := by
  have := congrArg (· ^^^ f) h
  simpa [Nat.xor_assoc] using this

/-- Each round can be undone. -/
theorem rounds_injective (ss : List Nat) : ∀ c d l r l' r', l < 2 ^ 32 → r < 2 ^ 32 → l' < 2 ^ 32 → r' < 2 ^ 32 →
    rounds ss c d l r = rounds ss c d l' r' → l = l' ∧ r = r' := by
  induction ss with
  | nil => intro c d l r l' r' hl hr hl' hr' h; simp only [rounds] at h; omega
  | cons s ss ih =>
    intro c d l r l' r' hl hr hl' hr' h
    simp only [rounds, force_eq] at h
    obtain ⟨h1, h2⟩ := ih _ _ _ _ _ _ hr (Nat.xor_lt_two_pow hl (feistel_lt _ _)) hr' (Nat.xor_lt_two_pow hl' (feistel_lt _ _)) h
    subst h1
    exact ⟨xor_left_cancel h2, rfl⟩

theorem beNat_acc (l : List UInt8) : ∀ a, l.foldl (fun n b => 256 * n + b.toNat) a = 256 ^ l.length * a + beNat l := by
  induction l with
  | nil => intro a; simp [beNat]
  | cons b l ih =>
    intro a
    have e : beNat (b :: l) = l.foldl (fun n b => 256 * n + b.toNat) (256 * 0 + b.toNat) := rfl
    rw [List.foldl_cons, ih, e, ih, List.length_cons, Nat.pow_succ, Nat.mul_add, Nat.mul_zero, Nat.zero_add, ← Nat.mul_assoc,
      Nat.add_assoc]

theorem beNat_cons (b : UInt8) (l : List UInt8) : beNat (b :: l) = 256 ^ l.length * b.toNat + beNat l := by
  have e : beNat (b :: l) = l.foldl (fun n b => 256 * n + b.toNat) (256 * 0 + b.toNat) := rfl
  rw [e, beNat_acc, Nat.mul_zero, Nat.zero_add]

theorem beNat_lt (l : List UInt8) : beNat l < 256 ^ l.length := by
  induction l with
  | nil => simp [beNat]
  | cons b l ih =>
    rw [beNat_cons, List.length_cons, Nat.pow_succ]
    have h1 : b.toNat ≤ 255 := by have := b.toNat_lt; omega
    have h2 := Nat.mul_le_mul_left (256 ^ l.length) h1
    omega

theorem beNat_injective : ∀ (l l' : List UInt8), l.length = l'.length → beNat l = beNat l' → l = l'
  | [], [], _, _ => rfl
  | b :: l, b' :: l', hl, h => by
    have hl : l.length = l'.length := by simpa using hl
    rw [beNat_cons, beNat_cons, ← hl] at h
    have h1 := beNat_lt l
    have h2 := beNat_lt l'
    rw [← hl] at h2
    have hpos : 0 < 256 ^ l.length := Nat.pow_pos (by decide)
    have e1 := congrArg (· / 256 ^ l.length) h
    simp only [Nat.mul_add_div hpos, Nat.div_eq_of_lt h1, Nat.div_eq_of_lt h2, Nat.add_zero] at e1
    rw [e1] at h
    rw [UInt8.toNat_inj.mp e1, beNat_injective l l' hl (by omega)]

theorem beBytes_injective : ∀ (k m n : Nat), m < 256 ^ k → n < 256 ^ k → beBytes k m = beBytes k n → m = n := by
  have key : ∀ k m, beNat (beBytes k m) = m % 256 ^ k := by
    intro k
    induction k with
    | zero => intro m; simp [beBytes, beNat, Nat.mod_one]
    | succ k ih =>
      intro m
      simp only [beBytes]
      rw [beNat_cons, ih, beBytes_length]
      have : (UInt8.ofNat (m / 256 ^ k % 256)).toNat = m / 256 ^ k % 256 := by simp
      rw [this, Nat.pow_succ, Nat.mod_mul, Nat.add_comm]
  intro k m n hm hn h
  have := congrArg beNat h
  rw [key, key, Nat.mod_eq_of_lt hm, Nat.mod_eq_of_lt hn] at this
  exact this

/-- DES: under one key, different blocks have different encryptions. -/
theorem desBlock_injective (key x y : Bytes 8) (h : desBlock key x = desBlock key y) : x = y := by
  have h := congrArg Subtype.val h
  simp only [desBlock, force_eq] at h
  have hx := beNat_lt x.val
  have hy := beNat_lt y.val
  rw [x.property] at hx
  rw [y.property] at hy
  have hx64 : beNat x.val < 2 ^ 64 := hx
  have hy64 : beNat y.val < 2 ^ 64 := hy
  have hp : ∀ v, select 64 IP v < 2 ^ 64 := fun v => (select_testBit 64 IP v).2
  have hp1 := hp (beNat x.val)
  have hp2 := hp (beNat y.val)
  have hr : ∀ v, v < 2 ^ 64 → ∀ c d, rounds SHIFTS c d (v / 4294967296) (v % 4294967296) < 2 ^ 64 := by
    intro v hv c d
    exact rounds_lt _ _ _ _ _ (by omega) (by omega)
  have h1 := beBytes_injective 8 _ _ (select_testBit 64 FP _).2 (select_testBit 64 FP _).2 h
  have h2 := select_injective 64 FP FP_all (hr _ hp1 _ _) (hr _ hp2 _ _) h1
  obtain ⟨h3, h4⟩ := rounds_injective _ _ _ _ _ _ _ (by omega) (by omega) (by omega) (by omega) h2
  have h5 : select 64 IP (beNat x.val) = select 64 IP (beNat y.val) := by
    rw [← Nat.div_add_mod (select 64 IP (beNat x.val)) 4294967296, h3, h4, Nat.div_add_mod]
  have h6 := select_injective 64 IP IP_all hx64 hy64 h5
  exact Subtype.ext (beNat_injective _ _ (by rw [x.property, y.property]) h6)

end Ntlm.Cipher
