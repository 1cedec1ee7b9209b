import Verif.Lemmas.DecodeText
/-
  Parsers of a fixed number of bytes: what they do on every input.
-/
namespace Ntlm

open Spec

/-- `p` looks at exactly the first `n` bytes: it fails with a plain error if there are fewer, and otherwise its
    verdict depends on them only and the rest is left. -/
def Fixed {α : Type} (p : Parser α) (n : Nat) : Prop :=
  ∃ f : List UInt8 → Option α, ∀ i, p i =
    if i.length < n then .error .error
    else match f (i.take n) with
      | some a => .ok (a, i.drop n)
      | none => .error .error

/-- `p` fails with a plain error on inputs of fewer than `n` bytes. -/
def Short {α : Type} (p : Parser α) (n : Nat) : Prop := ∀ i, i.length < n → p i = .error .error

theorem Fixed.short {α : Type} {p : Parser α} {n : Nat} (h : Fixed p n) : Short p n := by
  obtain ⟨f, hf⟩ := h
  intro i hi
  rw [hf i, if_pos hi]

theorem Fixed.cases {α : Type} {p : Parser α} {n : Nat} (h : Fixed p n) (i : List UInt8) :
    p i = .error .error ∨ ∃ a, p i = .ok (a, i.drop n) ∧ n ≤ i.length := by
  obtain ⟨f, hf⟩ := h
  rw [hf i]
  split
  · exact .inl rfl
  · rename_i hi
    split
    · exact .inr ⟨_, rfl, by omega⟩
    · exact .inl rfl

theorem Fixed.rest {α : Type} {p : Parser α} {n : Nat} (h : Fixed p n) {i r : List UInt8} {a : α}
    (hp : p i = .ok (a, r)) : r = i.drop n ∧ n ≤ i.length := by
  rcases h.cases i with h1 | ⟨b, h1, h2⟩
  · simp [hp] at h1
  · rw [hp] at h1
    simp only [Except.ok.injEq, Prod.mk.injEq] at h1
    exact ⟨h1.2, h2⟩

/-- Only the first `n` bytes matter. -/
theorem Fixed.local {α : Type} {p : Parser α} {n : Nat} (h : Fixed p n) {i j r : List UInt8} {a : α}
    (hij : i.take n = j.take n) (hp : p i = .ok (a, r)) : p j = .ok (a, j.drop n) := by
  have hn := (h.rest hp).2
  have hj : n ≤ j.length := by
    have := congrArg List.length hij
    simp only [List.length_take] at this
    omega
  obtain ⟨f, hf⟩ := h
  rw [hf, if_neg (by omega)] at hp
  rw [hf, if_neg (by omega), ← hij]
  split at hp
  · rename_i a' ha
    simp only [Except.ok.injEq, Prod.mk.injEq] at hp
    simp [hp.1]
  · simp at hp

theorem Fixed.error {α : Type} {p : Parser α} {n : Nat} (h : Fixed p n) {i : List UInt8} {e : PErr}
    (hp : p i = .error e) : e = .error := by
  rcases h.cases i with h1 | ⟨b, h1, h2⟩
  · rw [hp] at h1; simpa using h1
  · simp [hp] at h1

theorem fixed_take (n : Nat) : Fixed (take n) n := ⟨some, fun i => by simp [take]⟩

theorem fixed_takeBytes (n : Nat) : Fixed (takeBytes n) n := by
  refine ⟨fun l => if h : l.length = n then some ⟨l, h⟩ else none, fun i => ?_⟩
  simp only [takeBytes]
  by_cases h : i.length < n
  · simp [h]
  · have : (i.take n).length = n := by simp only [List.length_take]; omega
    simp only [h, dite_false, if_false, this, dite_true]

theorem fixed_pure {α : Type} (a : α) : Fixed (pure a : Parser α) 0 := ⟨fun _ => some a, fun i => by simp⟩

theorem fixed_bind {α β : Type} {p : Parser α} {q : α → Parser β} {n m : Nat} (hp : Fixed p n)
    (hq : ∀ a, Fixed (q a) m) : Fixed (p >>= q) (n + m) := by
  obtain ⟨f, hf⟩ := hp
  have hq' : ∃ g : α → List UInt8 → Option β, ∀ a i, q a i =
      if i.length < m then .error .error
      else match g a (i.take m) with
        | some a => .ok (a, i.drop m)
        | none => .error .error := ⟨fun a => (hq a).choose, fun a => (hq a).choose_spec⟩
  obtain ⟨g, hg⟩ := hq'
  refine ⟨fun l => match f (l.take n) with | some a => g a (l.drop n) | none => none, fun i => ?_⟩
  rw [Parser.bind_apply, hf]
  by_cases h1 : i.length < n
  · have : i.length < n + m := by omega
    simp [h1, this]
  · have ht : (i.take (n + m)).take n = i.take n := by rw [List.take_take]; congr 1; omega
    simp only [h1, if_false, ht]
    by_cases h2 : i.length < n + m
    · simp only [h2, if_true]
      cases f (i.take n) with
      | none => rfl
      | some a =>
        simp only [hg]
        rw [if_pos (by simp only [List.length_drop]; omega)]
    · simp only [h2, if_false]
      cases f (i.take n) with
      | none => rfl
      | some a =>
        simp only [hg]
        rw [if_neg (by simp only [List.length_drop]; omega)]
        have e1 : (i.take (n + m)).drop n = (i.drop n).take m := by rw [List.drop_take]; congr 1; omega
        simp only [e1, List.drop_drop]

theorem Fixed.cast {α : Type} {p : Parser α} {n m : Nat} (h : Fixed p n) (e : n = m) : Fixed p m := e ▸ h

theorem fixed_pmap {α β : Type} {p : Parser α} {n : Nat} (hp : Fixed p n) (g : α → β) : Fixed (pmap p g) n := by
  obtain ⟨f, hf⟩ := hp
  refine ⟨fun l => (f l).map g, fun i => ?_⟩
  simp only [pmap, hf]
  by_cases h : i.length < n
  · simp [h]
  · simp only [h, if_false]
    cases f (i.take n) <;> rfl

theorem fixed_mapOpt {α β : Type} {p : Parser α} {n : Nat} (hp : Fixed p n) (g : α → Option β) :
    Fixed (mapOpt p g) n := by
  obtain ⟨f, hf⟩ := hp
  refine ⟨fun l => (f l).bind g, fun i => ?_⟩
  simp only [mapOpt, hf]
  by_cases h : i.length < n
  · simp [h]
  · simp only [h, if_false]
    cases f (i.take n) with
    | none => rfl
    | some a => simp only [Option.bind_some]; cases g a <;> rfl

theorem fixed_verify {α : Type} {p : Parser α} {n : Nat} (hp : Fixed p n) (g : α → Bool) :
    Fixed (verify p g) n := by
  obtain ⟨f, hf⟩ := hp
  refine ⟨fun l => (f l).filter g, fun i => ?_⟩
  simp only [verify, hf]
  by_cases h : i.length < n
  · simp [h]
  · simp only [h, if_false]
    cases f (i.take n) with
    | none => rfl
    | some a => by_cases hg : g a <;> simp [hg, Option.filter]

theorem fixed_leNat (k : Nat) : Fixed (leNat k) k := (fixed_bind (fixed_take k) fun _ => fixed_pure _).cast (by omega)
theorem fixed_leU8 : Fixed leU8 1 := (fixed_bind (fixed_leNat 1) fun _ => fixed_pure _).cast (by omega)
theorem fixed_leU16 : Fixed leU16 2 := (fixed_bind (fixed_leNat 2) fun _ => fixed_pure _).cast (by omega)
theorem fixed_leU24 : Fixed leU24 3 := (fixed_bind (fixed_leNat 3) fun _ => fixed_pure _).cast (by omega)
theorem fixed_leU32 : Fixed leU32 4 := (fixed_bind (fixed_leNat 4) fun _ => fixed_pure _).cast (by omega)
theorem fixed_leU64 : Fixed leU64 8 := (fixed_bind (fixed_leNat 8) fun _ => fixed_pure _).cast (by omega)

theorem fixed_tag (t : List UInt8) : Fixed (tag t) t.length := by
  refine ⟨fun l => if l = t then some () else none, fun i => ?_⟩
  simp only [tag]
  by_cases h : i.length < t.length
  · have : ¬ i.take t.length = t := by
      intro hc
      have := congrArg List.length hc
      simp only [List.length_take] at this
      omega
    simp [h, this]
  · by_cases ht : i.take t.length = t
    · simp only [h, ht, if_true, if_false]
    · simp only [h, ht, if_false]

theorem short_bind {α β : Type} {p : Parser α} {q : α → Parser β} {n m : Nat} (hp : Fixed p n)
    (hq : ∀ a, Short (q a) m) : Short (p >>= q) (n + m) := by
  intro i hi
  rcases hp.cases i with h | ⟨a, h, hn⟩
  · exact Parser.bind_err h
  · rw [Parser.bind_ok h]
    exact hq a _ (by simp only [List.length_drop]; omega)

theorem short_zero {α : Type} (p : Parser α) : Short p 0 := fun _ h => absurd h (by omega)

/-! ### The wire structures -/

theorem fixed_bytes (cfg : Cfg) (n : Nat) : Fixed (Wire.deserialize cfg : Parser (Bytes n)) n := fixed_takeBytes n

theorem fixed_flags (cfg : Cfg) : Fixed (Wire.deserialize cfg : Parser Flags) 4 :=
  fixed_pmap (fixed_verify fixed_leU32 _) _

theorem fixed_field (cfg : Cfg) : Fixed (Wire.deserialize cfg : Parser Field) 8 :=
  fixed_bind fixed_leU16 fun _ => fixed_bind fixed_leU16 fun _ => fixed_bind fixed_leU32 fun _ => fixed_pure _

theorem fixed_version (cfg : Cfg) : Fixed (Wire.deserialize cfg : Parser Version) 8 :=
  fixed_bind fixed_leU8 fun _ => fixed_bind fixed_leU8 fun _ => fixed_bind fixed_leU16 fun _ =>
    fixed_bind (fixed_verify fixed_leU24 _) fun _ => fixed_bind (fixed_verify fixed_leU8 _) fun _ => fixed_pure _

theorem fixed_fileTime (cfg : Cfg) : Fixed (Wire.deserialize cfg : Parser FileTime) 8 := by
  have h : Fixed (do let low ← leU32; let high ← leU32; return ({ low, high } : FileTime) : Parser FileTime) 8 :=
    fixed_bind fixed_leU32 fun _ => fixed_bind fixed_leU32 fun _ => fixed_pure _
  have h2 := fixed_verify h (fun t => (t.toSystemTime cfg).isSome)
  obtain ⟨f, hf⟩ := h2
  refine ⟨f, fun i => ?_⟩
  rw [← hf i]
  simp only [Wire.deserialize, verify]
  generalize (do let low ← leU32; let high ← leU32; return ({ low, high } : FileTime) : Parser FileTime) i = x
  rcases x with _ | ⟨t, r⟩
  · rfl
  · show (if (t.toSystemTime cfg).isNone = true then _ else _) = (if (t.toSystemTime cfg).isSome = true then _ else _)
    cases t.toSystemTime cfg <;> rfl

theorem fixed_singleHost (cfg : Cfg) : Fixed (Wire.deserialize cfg : Parser SingleHostData) 48 :=
  fixed_bind fixed_leU32 fun _ => fixed_bind (fixed_verify fixed_leU32 _) fun _ => fixed_bind (fixed_takeBytes 8) fun _ =>
    fixed_bind (fixed_takeBytes 32) fun _ => fixed_pure _

theorem fixed_signature (cfg : Cfg) : Fixed (Wire.deserialize cfg : Parser MessageSignature) 16 :=
  fixed_bind (fixed_verify fixed_leU32 _) fun _ => fixed_bind (fixed_bytes cfg 4) fun _ => fixed_bind fixed_leU32 fun _ =>
    fixed_bind fixed_leU32 fun _ => fixed_pure _

theorem fixed_avFlags (cfg : Cfg) : Fixed (Wire.deserialize cfg : Parser MsvAvFlags) 4 :=
  fixed_bind (fixed_verify fixed_leU32 _) fun _ => fixed_pure _

theorem fixed_avId (cfg : Cfg) : Fixed (Wire.deserialize cfg : Parser AvId) 2 := fixed_mapOpt fixed_leU16 _

theorem fixed_lmv1 (cfg : Cfg) : Fixed (Wire.deserialize cfg : Parser Lmv1Challenge) 24 :=
  fixed_bind (fixed_bytes cfg 24) fun _ => fixed_pure _

theorem fixed_ntv1 (cfg : Cfg) : Fixed (Wire.deserialize cfg : Parser Ntv1Challenge) 24 :=
  fixed_bind (fixed_bytes cfg 24) fun _ => fixed_pure _

theorem fixed_lmv2 (cfg : Cfg) : Fixed (Wire.deserialize cfg : Parser Lmv2Challenge) 24 :=
  fixed_bind (fixed_bytes cfg 16) fun _ => fixed_bind (fixed_bytes cfg 8) fun _ => fixed_pure _

/-- Fewer than 28 bytes never decode as an NTLMv2 response. -/
theorem short_ntv2 (cfg : Cfg) : Short (Wire.deserialize cfg : Parser Ntv2Challenge) 28 :=
  short_bind (fixed_verify fixed_leU8 _) fun _ => short_bind (fixed_verify fixed_leU8 _) fun _ =>
    short_bind (fixed_verify fixed_leU16 _) fun _ => short_bind (fixed_verify fixed_leU32 _) fun _ =>
      short_bind (fixed_fileTime cfg) fun _ => short_bind (fixed_bytes cfg 8) fun _ =>
        short_bind (fixed_verify fixed_leU32 _) fun _ => short_zero _

theorem fixed_negotiateHeader (cfg : Cfg) : Fixed (Negotiate.header cfg) 32 :=
  fixed_bind (fixed_tag signature) fun _ => fixed_bind (fixed_verify fixed_leU32 _) fun _ =>
    fixed_bind (fixed_flags cfg) fun _ => fixed_bind (fixed_field cfg) fun _ => fixed_bind (fixed_field cfg) fun _ =>
      fixed_pure _

theorem fixed_reserved (cfg : Cfg) : Fixed (Challenge.parseReserved cfg) 8 := by
  unfold Challenge.parseReserved
  split
  · exact fixed_verify fixed_leU64 _
  · exact fixed_leU64

theorem fixed_challengeHeader (cfg : Cfg) : Fixed (Challenge.header cfg) 48 :=
  fixed_bind (fixed_tag signature) fun _ => fixed_bind (fixed_verify fixed_leU32 _) fun _ =>
    fixed_bind (fixed_field cfg) fun _ => fixed_bind (fixed_flags cfg) fun _ => fixed_bind (fixed_bytes cfg 8) fun _ =>
      fixed_bind (fixed_reserved cfg) fun _ => fixed_bind (fixed_field cfg) fun _ => fixed_pure _

theorem fixed_authenticateHeader (cfg : Cfg) : Fixed (Authenticate.header cfg) 64 :=
  fixed_bind (fixed_tag signature) fun _ => fixed_bind (fixed_verify fixed_leU32 _) fun _ =>
    fixed_bind (fixed_field cfg) fun _ => fixed_bind (fixed_field cfg) fun _ => fixed_bind (fixed_field cfg) fun _ =>
      fixed_bind (fixed_field cfg) fun _ => fixed_bind (fixed_field cfg) fun _ => fixed_bind (fixed_field cfg) fun _ =>
        fixed_bind (fixed_flags cfg) fun _ => fixed_pure _

end Ntlm
