import Verif.Spec.Memory
import Verif.Lemmas.Target
import Verif.Prims.Cipher
/-
  C83: the `unsafe` byte views.
-/
namespace Ntlm

open Spec

/-! ### Helper lemmas -/

theorem unitBytes_inMemory (t : Target) (u : UInt16) : t.unitBytes u = [(unitInMemory t u).1, (unitInMemory t u).2] := by
  have e : UInt8.ofNat (u.toNat % 256) = UInt8.ofNat u.toNat := by
    apply UInt8.toNat_inj.mp
    simp
  simp only [Target.unitBytes, unitInMemory, e]
  split <;> rfl

theorem unitsAsBytes_inMemory (t : Target) (us : List UInt16) :
    us.flatMap (fun u => [(unitInMemory t u).1, (unitInMemory t u).2]) = t.unitsAsBytes us := by
  have : t.unitBytes = fun u => [(unitInMemory t u).1, (unitInMemory t u).2] := funext (unitBytes_inMemory t)
  rw [Target.unitsAsBytes, this]

theorem read_units (t : Target) (m : Memory) : ∀ (us : List UInt16) (ptr : Nat),
    (∀ i u, us[i]? = some u → m (ptr + 2 * i) = some (unitInMemory t u).1 ∧ m (ptr + 2 * i + 1) = some (unitInMemory t u).2) →
    m.read ptr (us.length * 2) = some (t.unitsAsBytes us)
  | [], _, _ => rfl
  | u :: us, ptr, h => by
    obtain ⟨h1, h2⟩ := h 0 u rfl
    have ih := read_units t m us (ptr + 2) (fun i v hv => by
      have := h (i + 1) v hv
      rwa [show ptr + 2 * (i + 1) = ptr + 2 + 2 * i by omega] at this)
    have e : (u :: us).length * 2 = us.length * 2 + 1 + 1 := by rw [List.length_cons]; omega
    have e2 : t.unitsAsBytes (u :: us) = (unitInMemory t u).1 :: (unitInMemory t u).2 :: t.unitsAsBytes us := by
      simp only [Target.unitsAsBytes, List.flatMap_cons, unitBytes_inMemory]
      rfl
    rw [e, e2]
    simp only [Memory.read]
    have h1 : m ptr = some (unitInMemory t u).1 := h1
    have h2 : m (ptr + 1) = some (unitInMemory t u).2 := h2
    rw [h1, h2, show ptr + 1 + 1 = ptr + 2 from rfl, ih]
    rfl

/-- A memory with the bytes of a vector at `ptr` and nothing else. -/
def memoryOf (t : Target) (ptr : Nat) (us : List UInt16) : Memory :=
  fun a => if a < ptr then none else (t.unitsAsBytes us)[a - ptr]?

theorem unitsAsBytes_get (t : Target) : ∀ (us : List UInt16) (i : Nat) (u : UInt16), us[i]? = some u →
    (t.unitsAsBytes us)[2 * i]? = some (unitInMemory t u).1 ∧ (t.unitsAsBytes us)[2 * i + 1]? = some (unitInMemory t u).2
  | [], i, u, h => by simp at h
  | v :: us, i, u, h => by
    have e2 : t.unitsAsBytes (v :: us) = (unitInMemory t v).1 :: (unitInMemory t v).2 :: t.unitsAsBytes us := by
      simp only [Target.unitsAsBytes, List.flatMap_cons, unitBytes_inMemory]
      rfl
    rw [e2]
    cases i with
    | zero =>
      have h : v = u := by simpa using h
      subst h
      exact ⟨rfl, rfl⟩
    | succ i =>
      have := unitsAsBytes_get t us i u (by simpa using h)
      rw [show 2 * (i + 1) = 2 * i + 1 + 1 by omega]
      simpa using this

theorem memoryOf_vecAt (t : Target) (ptr : Nat) (us : List UInt16) (h1 : ptr ≠ 0) (h2 : ptr % 2 = 0)
    (h3 : us.length * 2 < 2 ^ (t.bits - 1)) (h4 : ptr + us.length * 2 ≤ 2 ^ t.bits) : vecAt t (memoryOf t ptr us) ptr us := by
  refine ⟨h1, h2, h3, h4, fun i u hu => ?_⟩
  obtain ⟨a, b⟩ := unitsAsBytes_get t us i u hu
  refine ⟨?_, ?_⟩
  · simp only [memoryOf]
    rw [if_neg (by omega), show ptr + 2 * i - ptr = 2 * i by omega, a]
  · simp only [memoryOf]
    rw [if_neg (by omega), show ptr + 2 * i + 1 - ptr = 2 * i + 1 by omega, b]

namespace Props

/-! ### C83 -/

/-- C83: for every machine, memory, place and content of the vector, viewing it as bytes neither panics nor is undefined
    behaviour, and gives the bytes of its elements, all of them and no others. -/
theorem C83_view (t : Target) (m : Memory) (ptr : Nat) (us : List UInt16) (h : vecAt t m ptr us) :
    t.byteView m ptr us.length = .value (us.flatMap fun u => [(unitInMemory t u).1, (unitInMemory t u).2]) := by
  have hs := h.size
  have hle : 2 ^ (t.bits - 1) ≤ 2 ^ t.bits := Nat.pow_le_pow_right (by decide) (by omega)
  have e : t.usizeMul us.length 2 = .value (us.length * 2) := by
    rw [Target.usizeMul, if_pos (by omega)]
  have hi := h.inside
  have hn := h.notNull
  rw [Target.byteView, e]
  simp only [Target.fromRawParts]
  rw [if_neg (by simp only [Target.isizeMax]; omega), read_units t m us ptr h.elements, unitsAsBytes_inMemory]

/-- "A" and a surrogate pair on a 64-bit and on a big-endian 32-bit machine, and the dangling pointer of the empty vector. -/
example : (⟨false, 64, true⟩ : Target).byteView (memoryOf ⟨false, 64, true⟩ 4096 [0x41, 0xd83d, 0xde00]) 4096 3 =
      .value [0x41, 0, 0x3d, 0xd8, 0, 0xde] ∧
    (⟨true, 32, false⟩ : Target).byteView (memoryOf ⟨true, 32, false⟩ 6 [0x41, 0xd83d]) 6 2 = .value [0, 0x41, 0xd8, 0x3d] ∧
    (⟨false, 64, false⟩ : Target).byteView (fun _ => none) 2 0 = .value [] :=
  ⟨C83_view _ _ _ [0x41, 0xd83d, 0xde00] (memoryOf_vecAt _ _ _ (by decide) (by decide) (by decide) (by decide)),
    C83_view _ _ _ [0x41, 0xd83d] (memoryOf_vecAt _ _ _ (by decide) (by decide) (by decide) (by decide)),
    C83_view _ _ _ [] ⟨by decide, by decide, by decide, by decide, fun i u h => by simp at h⟩⟩

/-- C83: the view reads the vector and nothing else: on two memories that agree on the vector's bytes it comes to the same. -/
theorem C83_confined (t : Target) (m m' : Memory) (ptr len : Nat) (hl : len * 2 < 2 ^ t.bits)
    (h : ∀ a, ptr ≤ a → a < ptr + len * 2 → m a = m' a) :
    t.byteView m ptr len = t.byteView m' ptr len := by
  have key : ∀ n p, (∀ a, p ≤ a → a < p + n → m a = m' a) → m.read p n = m'.read p n := by
    intro n
    induction n with
    | zero => intro p _; rfl
    | succ n ih =>
      intro p hp
      simp only [Memory.read]
      rw [hp p (by omega) (by omega), ih (p + 1) (fun a h1 h2 => hp a (by omega) (by omega))]
  simp only [Target.byteView, Target.usizeMul, if_pos hl, Target.fromRawParts, key (len * 2) ptr h]

/-- The rest of memory may be missing altogether. -/
example (m : Memory) (h : vecAt ⟨false, 64, true⟩ m 4096 [0x41]) :
    (⟨false, 64, true⟩ : Target).byteView (fun a => if a < 4096 ∨ 4098 ≤ a then none else m a) 4096 1 = .value [0x41, 0] := by
  rw [C83_confined _ _ m 4096 1 (by decide) (fun a h1 h2 => if_neg (by omega))]
  exact C83_view _ m 4096 [0x41] h

/-- C83: so the three functions with such a view are defined for every text, and compute what the rest of the model says. -/
theorem C83_functions (t : Target) (P : Prims) (cm : CaseMap) (m : Memory) (ptr : Nat) :
    (∀ pw, vecAt t m ptr (encodeUtf16 pw) → t.ntowfv1At P m ptr pw = .value (t.ntowfv1 P pw)) ∧
    (∀ user hash domain, vecAt t m ptr (encodeUtf16 (cm.upper user ++ domain)) →
      t.ntowfv2At P cm m ptr user hash domain = .value (t.ntowfv2 P cm user hash domain)) ∧
    ∀ s, vecAt t m ptr (encodeUtf16 s) → t.encodeStringAt m ptr s = .value (t.encodeString s) := by
  have e : ∀ us, vecAt t m ptr us → t.byteView m ptr us.length = .value (t.unitsAsBytes us) := by
    intro us h
    rw [C83_view t m ptr us h, unitsAsBytes_inMemory]
  refine ⟨fun pw h => ?_, fun user hash domain h => ?_, fun s h => ?_⟩
  · simp only [Target.ntowfv1At, e _ h, Target.ntowfv1]
  · simp only [Target.ntowfv2At, e _ h, Target.ntowfv2]
  · simp only [Target.encodeStringAt, e _ h, Target.encodeString]

/-- C83: on a little-endian machine these are the UTF-16LE texts of the protocol. -/
theorem C83_protocol (t : Target) (h : t.bigEndian = false) (m : Memory) (ptr : Nat) (s : Str)
    (hv : vecAt t m ptr (encodeUtf16 s)) : t.byteView m ptr (encodeUtf16 s).length = .value (utf16le s) := by
  rw [C83_view t m ptr _ hv, unitsAsBytes_inMemory, Target.text_le t h]

/-- The password "Password" somewhere in memory. -/
example (P : Prims) : ∃ m, vecAt ⟨false, 64, true⟩ m 65536 (encodeUtf16 "Password".toList) ∧
    (⟨false, 64, true⟩ : Target).ntowfv1At P m 65536 "Password".toList =
      .value ((⟨false, 64, true⟩ : Target).ntowfv1 P "Password".toList) ∧
    (⟨false, 64, true⟩ : Target).byteView m 65536 (encodeUtf16 "Password".toList).length = .value (utf16le "Password".toList) := by
  have hv := memoryOf_vecAt ⟨false, 64, true⟩ 65536 (encodeUtf16 "Password".toList) (by decide) (by decide) (by decide) (by decide)
  exact ⟨_, hv, (C83_functions _ P ⟨fun c => [c.toUpper], fun _ _ => rfl⟩ _ _).1 _ hv, C83_protocol _ rfl _ _ _ hv⟩

/-- C83: there is such a place for every text whose vector can be allocated at all. -/
theorem C83_exists (t : Target) (hb : 2 ≤ t.bits) (us : List UInt16) (h : us.length * 2 < 2 ^ (t.bits - 1)) :
    ∃ m ptr, vecAt t m ptr us := by
  refine ⟨memoryOf t 2 us, 2, memoryOf_vecAt t 2 us (by decide) (by decide) h ?_⟩
  obtain ⟨k, hk⟩ : ∃ k, t.bits = k + 2 := ⟨t.bits - 2, by omega⟩
  rw [hk] at h ⊢
  rw [show k + 2 - 1 = k + 1 by omega] at h
  have : 2 ^ (k + 1) ≥ 2 := by rw [Nat.pow_succ]; have := Nat.one_le_two_pow (n := k); omega
  rw [show k + 2 = k + 1 + 1 from rfl, Nat.pow_succ]
  omega

example : ∃ m ptr, vecAt ⟨true, 16, false⟩ m ptr [1, 2, 3] := C83_exists _ (by decide) _ (by decide)

end Props

end Ntlm
