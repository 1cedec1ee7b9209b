import Verif.Model.Basic
/-
  Lemmas about the writer and parser foundations.
-/
namespace Ntlm

/-! ### The two monads, unfolded -/

@[simp] theorem W.pure_apply {α : Type} (a : α) (w : List UInt8) : (pure a : W α) w = .ok (a, w) := rfl

theorem W.bind_apply {α β : Type} (x : W α) (f : α → W β) (w : List UInt8) :
    (x >>= f) w = match x w with
      | .ok (a, w') => f a w'
      | .error e => .error e := rfl

theorem W.bind_ok {α β : Type} {x : W α} {f : α → W β} {w w' : List UInt8} {a : α}
    (h : x w = .ok (a, w')) : (x >>= f) w = f a w' := by
  simp [W.bind_apply, h]

theorem W.bind_err {α β : Type} {x : W α} {f : α → W β} {w : List UInt8} {e : Panic}
    (h : x w = .error e) : (x >>= f) w = .error e := by
  simp [W.bind_apply, h]

@[simp] theorem W.panic_apply {α : Type} (p : Panic) (w : List UInt8) : (W.panic p : W α) w = .error p := rfl

@[simp] theorem writeAll_apply (bs w : List UInt8) : writeAll bs w = .ok ((), w ++ bs) := rfl

@[simp] theorem writeLen_apply (bs w : List UInt8) : writeLen bs w = .ok (bs.length, w ++ bs) := rfl

@[simp] theorem Parser.pure_apply {α : Type} (a : α) (i : List UInt8) : (pure a : Parser α) i = .ok (a, i) := rfl

theorem Parser.bind_apply {α β : Type} (p : Parser α) (f : α → Parser β) (i : List UInt8) :
    (p >>= f) i = match p i with
      | .ok (a, i') => f a i'
      | .error e => .error e := rfl

theorem Parser.bind_ok {α β : Type} {p : Parser α} {f : α → Parser β} {i i' : List UInt8} {a : α}
    (h : p i = .ok (a, i')) : (p >>= f) i = f a i' := by
  simp [Parser.bind_apply, h]

theorem Parser.bind_err {α β : Type} {p : Parser α} {f : α → Parser β} {i : List UInt8} {e : PErr}
    (h : p i = .error e) : (p >>= f) i = .error e := by
  simp [Parser.bind_apply, h]

/-! ### Little-endian integers -/

@[simp] theorem length_leBytes (k n : Nat) : (leBytes k n).length = k := by
  induction k generalizing n with
  | zero => rfl
  | succ k ih => simp [leBytes, ih]

theorem leVal_lt (bs : List UInt8) : leVal bs < 256 ^ bs.length := by
  induction bs with
  | nil => simp [leVal]
  | cons b bs ih =>
    have hb := b.toNat_lt
    simp only [leVal, List.length_cons, Nat.pow_succ]
    omega

theorem leVal_leBytes (k n : Nat) : leVal (leBytes k n) = n % 256 ^ k := by
  induction k generalizing n with
  | zero => simp [leBytes, leVal, Nat.mod_one]
  | succ k ih =>
    simp only [leBytes, leVal, ih, UInt8.toNat_ofNat']
    rw [Nat.pow_succ' (n := k), Nat.mod_mul]
    omega

theorem leBytes_leVal (bs : List UInt8) : leBytes bs.length (leVal bs) = bs := by
  induction bs with
  | nil => rfl
  | cons b bs ih =>
    have hb := b.toNat_lt
    simp only [leBytes, leVal, List.length_cons]
    have h1 : (b.toNat + 256 * leVal bs) % 256 = b.toNat := by omega
    have h2 : (b.toNat + 256 * leVal bs) / 256 = leVal bs := by omega
    rw [h1, h2, ih]
    simp

theorem leVal_append (a b : List UInt8) : leVal (a ++ b) = leVal a + 256 ^ a.length * leVal b := by
  induction a with
  | nil => simp [leVal]
  | cons x a ih =>
    simp only [List.cons_append, leVal, ih, List.length_cons, Nat.pow_succ, Nat.mul_add]
    rw [Nat.mul_comm (256 ^ a.length) 256, Nat.mul_assoc]
    omega

theorem leVal_replicate_zero (k : Nat) : leVal (List.replicate k 0) = 0 := by
  induction k with
  | zero => rfl
  | succ k ih => simp [List.replicate_succ, leVal, ih]

/-! ### Elementary parsers on an input that starts with the right bytes -/

theorem take_append {n : Nat} (b r : List UInt8) (h : b.length = n) : take n (b ++ r) = .ok (b, r) := by
  subst h
  simp [take]

theorem takeBytes_append {n : Nat} (b : Bytes n) (r : List UInt8) : takeBytes n (b.val ++ r) = .ok (b, r) := by
  obtain ⟨l, hl⟩ := b
  subst hl
  have h : ¬ (l ++ r).length < l.length := by simp only [List.length_append]; omega
  simp only [takeBytes, h, dite_false]
  simp

theorem tag_append (t r : List UInt8) : tag t (t ++ r) = .ok ((), r) := by
  simp [tag]

theorem leNat_append {k : Nat} (b r : List UInt8) (h : b.length = k) : leNat k (b ++ r) = .ok (leVal b, r) := by
  simp [leNat, Parser.bind_ok (take_append b r h)]

theorem leNat_short {k : Nat} (i : List UInt8) (h : i.length < k) : leNat k i = .error .error := by
  have : take k i = .error .error := by simp [take, h]
  simp [leNat, Parser.bind_err this]

theorem leNat_eq (k : Nat) (i : List UInt8) :
    leNat k i = if i.length < k then .error .error else .ok (leVal (i.take k), i.drop k) := by
  by_cases h : i.length < k
  · simp [h, leNat_short i h]
  · have : take k i = .ok (i.take k, i.drop k) := by simp [take, h]
    simp [h, leNat, Parser.bind_ok this]

theorem leU8_append (n : UInt8) (r : List UInt8) : leU8 (leBytes 1 n.toNat ++ r) = .ok (n, r) := by
  simp only [leU8, Parser.bind_ok (leNat_append _ r (length_leBytes 1 _)), leVal_leBytes, Parser.pure_apply]
  have := n.toNat_lt
  rw [Nat.mod_eq_of_lt (by simpa using this)]
  simp

theorem leU16_append (n : UInt16) (r : List UInt8) : leU16 (leBytes 2 n.toNat ++ r) = .ok (n, r) := by
  simp only [leU16, Parser.bind_ok (leNat_append _ r (length_leBytes 2 _)), leVal_leBytes, Parser.pure_apply]
  have := n.toNat_lt
  rw [Nat.mod_eq_of_lt (by simpa using this)]
  simp

theorem leU32_append (n : UInt32) (r : List UInt8) : leU32 (leBytes 4 n.toNat ++ r) = .ok (n, r) := by
  simp only [leU32, Parser.bind_ok (leNat_append _ r (length_leBytes 4 _)), leVal_leBytes, Parser.pure_apply]
  have := n.toNat_lt
  rw [Nat.mod_eq_of_lt (by simpa using this)]
  simp

theorem leU64_append (n : UInt64) (r : List UInt8) : leU64 (leBytes 8 n.toNat ++ r) = .ok (n, r) := by
  simp only [leU64, Parser.bind_ok (leNat_append _ r (length_leBytes 8 _)), leVal_leBytes, Parser.pure_apply]
  have := n.toNat_lt
  rw [Nat.mod_eq_of_lt (by simpa using this)]
  simp

theorem leU8_eq (i : List UInt8) :
    leU8 i = if i.length < 1 then .error .error else .ok (UInt8.ofNat (leVal (i.take 1)), i.drop 1) := by
  rw [leU8, Parser.bind_apply, leNat_eq]; split <;> rename_i h <;> split at h <;> simp_all
theorem leU16_eq (i : List UInt8) :
    leU16 i = if i.length < 2 then .error .error else .ok (UInt16.ofNat (leVal (i.take 2)), i.drop 2) := by
  rw [leU16, Parser.bind_apply, leNat_eq]; split <;> rename_i h <;> split at h <;> simp_all
theorem leU24_eq (i : List UInt8) :
    leU24 i = if i.length < 3 then .error .error else .ok (UInt32.ofNat (leVal (i.take 3)), i.drop 3) := by
  rw [leU24, Parser.bind_apply, leNat_eq]; split <;> rename_i h <;> split at h <;> simp_all
theorem leU32_eq (i : List UInt8) :
    leU32 i = if i.length < 4 then .error .error else .ok (UInt32.ofNat (leVal (i.take 4)), i.drop 4) := by
  rw [leU32, Parser.bind_apply, leNat_eq]; split <;> rename_i h <;> split at h <;> simp_all
theorem leU64_eq (i : List UInt8) :
    leU64 i = if i.length < 8 then .error .error else .ok (UInt64.ofNat (leVal (i.take 8)), i.drop 8) := by
  rw [leU64, Parser.bind_apply, leNat_eq]; split <;> rename_i h <;> split at h <;> simp_all

theorem verify_ok {α : Type} {p : Parser α} {ok : α → Bool} {i r : List UInt8} {a : α}
    (h : p i = .ok (a, r)) (hok : ok a = true) : verify p ok i = .ok (a, r) := by
  simp [verify, h, hok]

theorem verify_eq {α : Type} (p : Parser α) (ok : α → Bool) (i : List UInt8) :
    verify p ok i = match p i with
      | .ok (a, r) => if ok a then .ok (a, r) else .error .error
      | .error e => .error e := rfl

theorem pmap_ok {α β : Type} {p : Parser α} {f : α → β} {i r : List UInt8} {a : α}
    (h : p i = .ok (a, r)) : pmap p f i = .ok (f a, r) := by
  simp [pmap, h]

/-! ### Fuel-free equation for `many0` -/

theorem many0Aux_fuel {α : Type} (p : Parser α) :
    ∀ (f g : Nat) (i : List UInt8), i.length < f → i.length < g → many0Aux p f i = many0Aux p g i := by
  intro f
  induction f with
  | zero => intro g i h; omega
  | succ f ih =>
    intro g i hf hg
    cases g with
    | zero => omega
    | succ g =>
      simp only [many0Aux]
      cases hp : p i with
      | error e => cases e <;> rfl
      | ok v =>
        obtain ⟨a, r⟩ := v
        by_cases hr : r.length < i.length
        · simp only [hr, if_true]
          rw [ih g r (by omega) (by omega)]
        · simp [hr]

/-- The defining equation of `many0`, without fuel. -/
theorem many0_eq {α : Type} (p : Parser α) (i : List UInt8) :
    many0 p i = match p i with
      | .error .error => .ok ([], i)
      | .error e => .error e
      | .ok (a, r) =>
        if r.length < i.length then
          match many0 p r with
          | .ok (as, r') => .ok (a :: as, r')
          | .error e => .error e
        else .error .error := by
  show many0Aux p (i.length + 1) i = _
  rw [many0Aux]
  cases hp : p i with
  | error e => cases e <;> rfl
  | ok v =>
    obtain ⟨a, r⟩ := v
    by_cases hr : r.length < i.length
    · simp only [hr, if_true]
      rw [many0Aux_fuel p i.length (r.length + 1) r hr (by omega)]
      rfl
    · simp [hr]

theorem many0_stop {α : Type} {p : Parser α} {i : List UInt8} (h : p i = .error .error) :
    many0 p i = .ok ([], i) := by
  rw [many0_eq, h]

theorem many0_cons {α : Type} {p : Parser α} {i r r' : List UInt8} {a : α} {as : List α}
    (h : p i = .ok (a, r)) (hlt : r.length < i.length) (ht : many0 p r = .ok (as, r')) :
    many0 p i = .ok (a :: as, r') := by
  rw [many0_eq, h]; simp [hlt, ht]

end Ntlm
