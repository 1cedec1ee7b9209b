import Verif.Spec.Report
import Verif.Lemmas.Trace
import Verif.Lemmas.MsgAt
import Verif.Props.Structures
/-
  The reports of rejected messages.
-/
namespace Ntlm

namespace Trace

open Spec

/-! ### Tables of checks -/

theorem allHold_nil : allHold [] := fun _ h => absurd h List.not_mem_nil

theorem allHold_cons {c : Check} {cs : List Check} : allHold (c :: cs) ↔ c.1 ∧ allHold cs := by
  simp [allHold]

theorem allHold_append {a b : List Check} : allHold (a ++ b) ↔ allHold a ∧ allHold b := by
  simp only [allHold, List.mem_append]
  exact ⟨fun h => ⟨fun c hc => h c (.inl hc), fun c hc => h c (.inr hc)⟩,
    fun h c hc => hc.elim (h.1 c) (h.2 c)⟩

theorem firstFailed_append {a b : List Check} {o : Option Verbose} :
    firstFailed (a ++ b) o ↔ firstFailed a o ∨ (allHold a ∧ firstFailed b o) := by
  induction a with
  | nil => simp [firstFailed, allHold_nil]
  | cons c a ih =>
    obtain ⟨p, r⟩ := c
    simp only [List.cons_append, firstFailed, ih, allHold_cons]
    constructor
    · rintro (h | ⟨h1, h2 | ⟨h2, h3⟩⟩)
      · exact .inl (.inl h)
      · exact .inl (.inr ⟨h1, h2⟩)
      · exact .inr ⟨⟨h1, h2⟩, h3⟩
    · rintro ((h | ⟨h1, h2⟩) | ⟨⟨h1, h2⟩, h3⟩)
      · exact .inl h
      · exact .inr ⟨h1, .inl h2⟩
      · exact .inr ⟨h1, .inr ⟨h2, h3⟩⟩

theorem firstFailed_not {cs : List Check} {o : Option Verbose} (h : firstFailed cs o) : ¬ allHold cs := by
  induction cs with
  | nil => exact absurd h id
  | cons c cs ih =>
    rw [allHold_cons]
    rintro ⟨h1, h2⟩
    rcases h with ⟨h, _⟩ | ⟨_, h⟩
    · exact h h1
    · exact ih h h2

theorem checks_cases (cs : List Check) : allHold cs ∨ ∃ o, firstFailed cs o := by
  induction cs with
  | nil => exact .inl allHold_nil
  | cons c cs ih =>
    obtain ⟨p, r⟩ := c
    rw [allHold_cons]
    by_cases hp : p
    · rcases ih with h | ⟨o, h⟩
      · exact .inl ⟨hp, h⟩
      · exact .inr ⟨o, .inr ⟨hp, h⟩⟩
    · exact .inr ⟨r, .inl ⟨hp, rfl⟩⟩

/-- The result `x` is the one announced by the table `cs`. -/
structure Gives {α : Type} (x : Except (TErr Verbose) α) (cs : List Check) : Prop where
  ok : allHold cs → ∃ v, x = .ok v
  report : ∀ r, firstFailed cs (some r) → x = .error (.error r)
  silent : firstFailed cs none → ∃ e, x = .error e ∧ ∀ r, e ≠ .error r

variable {α β : Type}

theorem Gives.of_ok {x : Except (TErr Verbose) α} {cs : List Check} (h : Gives x cs) {v : α} (hx : x = .ok v) :
    allHold cs := by
  rcases checks_cases cs with hc | ⟨_ | r, hc⟩
  · exact hc
  · obtain ⟨e, h1, _⟩ := h.silent hc
    rw [hx] at h1; cases h1
  · have := h.report r hc
    rw [hx] at this; cases this

theorem Gives.iff {x : Except (TErr Verbose) α} {cs : List Check} (h : Gives x cs) :
    ((∃ v, x = .ok v) ↔ allHold cs) ∧ ∀ r, x = .error (.error r) ↔ firstFailed cs (some r) := by
  refine ⟨⟨fun ⟨v, hv⟩ => h.of_ok hv, h.ok⟩, fun r => ⟨fun hx => ?_, h.report r⟩⟩
  rcases checks_cases cs with hc | ⟨_ | r', hc⟩
  · obtain ⟨v, hv⟩ := h.ok hc
    rw [hx] at hv; cases hv
  · obtain ⟨e, h1, h2⟩ := h.silent hc
    rw [hx] at h1
    cases h1
    exact absurd rfl (h2 r)
  · have := h.report r' hc
    rw [hx] at this
    cases this
    exact hc

theorem gives_ok {x : Except (TErr Verbose) α} (h : ∃ v, x = .ok v) : Gives x [] :=
  ⟨fun _ => h, fun _ h => absurd h id, fun h => absurd h id⟩

theorem gives_bind {x : Except (TErr Verbose) α} {f : α → Except (TErr Verbose) β} {cs cs' : List Check}
    (h : Gives x cs) (hf : ∀ v, x = .ok v → Gives (f v) cs') : Gives (x >>= f) (cs ++ cs') := by
  refine ⟨fun ha => ?_, fun r hr => ?_, fun hr => ?_⟩
  · obtain ⟨h1, h2⟩ := allHold_append.mp ha
    obtain ⟨v, hv⟩ := h.ok h1
    obtain ⟨w, hw⟩ := (hf v hv).ok h2
    exact ⟨w, by rw [hv]; exact hw⟩
  · rcases firstFailed_append.mp hr with h1 | ⟨h1, h2⟩
    · rw [h.report r h1]; rfl
    · obtain ⟨v, hv⟩ := h.ok h1
      rw [hv]
      exact (hf v hv).report r h2
  · rcases firstFailed_append.mp hr with h1 | ⟨h1, h2⟩
    · obtain ⟨e, he, hn⟩ := h.silent h1
      exact ⟨e, by rw [he]; rfl, hn⟩
    · obtain ⟨v, hv⟩ := h.ok h1
      obtain ⟨e, he, hn⟩ := (hf v hv).silent h2
      exact ⟨e, by rw [hv]; exact he, hn⟩

/-- Put an entry at the outer end of every report. -/
def wrap (entry : Slice × What) (cs : List Check) : List Check :=
  cs.map fun c => (c.1, c.2.map (· ++ [entry]))

theorem allHold_wrap {entry : Slice × What} {cs : List Check} : allHold (wrap entry cs) ↔ allHold cs := by
  induction cs with
  | nil => exact ⟨fun _ => allHold_nil, fun _ => allHold_nil⟩
  | cons c cs ih =>
    simp only [wrap, List.map_cons, allHold_cons] at ih ⊢
    rw [ih]

theorem firstFailed_wrap {entry : Slice × What} {cs : List Check} {o : Option Verbose}
    (h : firstFailed (wrap entry cs) o) : ∃ o', firstFailed cs o' ∧ o = o'.map (· ++ [entry]) := by
  induction cs with
  | nil => exact absurd h id
  | cons c cs ih =>
    obtain ⟨p, r⟩ := c
    rcases h with ⟨h1, h2⟩ | ⟨h1, h2⟩
    · exact ⟨r, .inl ⟨h1, rfl⟩, h2⟩
    · obtain ⟨o', h3, h4⟩ := ih h2
      exact ⟨o', .inr ⟨h1, h3⟩, h4⟩

theorem gives_context {p : TP Verbose α} {s : Slice} {cs : List Check} (name : String) (h : Gives (p s) cs) :
    Gives (context name p s) (wrap (inside s name) cs) := by
  unfold context
  refine ⟨fun ha => ?_, fun r hr => ?_, fun hr => ?_⟩
  · obtain ⟨v, hv⟩ := h.ok (allHold_wrap.mp ha)
    exact ⟨v, by rw [hv]⟩
  · obtain ⟨o', h1, h2⟩ := firstFailed_wrap hr
    cases o' with
    | none => cases h2
    | some r' =>
      cases h2
      rw [h.report r' h1]; rfl
  · obtain ⟨o', h1, h2⟩ := firstFailed_wrap hr
    cases o' with
    | some r' => cases h2
    | none =>
      obtain ⟨e, he, hn⟩ := h.silent h1
      refine ⟨e, ?_, hn⟩
      rw [he]
      cases e with
      | error r => exact absurd rfl (hn r)
      | incomplete => rfl
      | panic p => rfl

theorem gives_pmap {p : TP Verbose α} {s : Slice} {cs : List Check} (f : α → β) (h : Gives (p s) cs) :
    Gives (pmap p f s) cs := by
  unfold pmap
  refine ⟨fun ha => ?_, fun r hr => ?_, fun hr => ?_⟩
  · obtain ⟨⟨v, t⟩, hv⟩ := h.ok ha
    exact ⟨(f v, t), by rw [hv]⟩
  · rw [h.report r hr]
  · obtain ⟨e, he, hn⟩ := h.silent hr
    exact ⟨e, by rw [he], hn⟩

/-! ### Steps through the fixed part -/

/-- `p`, run at position `pos` of `i`, gives what `cs` announces, and continues at `pos + n`. -/
structure Steps (i : List UInt8) (pos n : Nat) (p : TP Verbose α) (cs : List Check) : Prop where
  gives : Gives (p (restAt i pos)) cs
  moves : ∀ v s, p (restAt i pos) = .ok (v, s) → s = restAt i (pos + n)

variable {i : List UInt8} {pos n m : Nat}

theorem steps_pure (v : α) : Steps i pos 0 (pure v) [] :=
  ⟨gives_ok ⟨_, rfl⟩, fun _ _ h => by cases h; rfl⟩

theorem tp_bind (p : TP Verbose α) (f : α → TP Verbose β) (s : Slice) :
    (p >>= f) s = (p s >>= fun x => f x.1 x.2) := by
  simp only [bind]
  rcases p s with e | ⟨a, s'⟩ <;> rfl

theorem steps_bind {p : TP Verbose α} {f : α → TP Verbose β} {cs cs' : List Check} (h : Steps i pos n p cs)
    (hf : ∀ v, Steps i (pos + n) m (f v) cs') : Steps i pos (n + m) (p >>= f) (cs ++ cs') := by
  constructor
  · rw [tp_bind]
    refine gives_bind h.gives fun v hv => ?_
    obtain ⟨v, s⟩ := v
    have := h.moves v s hv
    subst this
    exact (hf v).gives
  · intro w s hw
    rw [tp_bind] at hw
    rcases hx : p (restAt i pos) with e | ⟨v, t⟩
    · rw [hx] at hw; cases hw
    · rw [hx] at hw
      have := h.moves v t hx
      subst this
      rw [← Nat.add_assoc]
      exact (hf v).moves w s hw

theorem steps_map {p : TP Verbose α} {cs : List Check} (h : Steps i pos n p cs) (f : α → β) :
    Steps i pos n (p >>= fun a => pure (f a)) cs := by
  have := steps_bind h (fun v => steps_pure (f v))
  simpa using this

theorem steps_context {p : TP Verbose α} {cs : List Check} (name : String) (h : Steps i pos n p cs) :
    Steps i pos n (context name p) (wrap (inside (restAt i pos) name) cs) := by
  refine ⟨gives_context name h.gives, fun v s hv => ?_⟩
  unfold context at hv
  rcases hx : p (restAt i pos) with (e | _ | _) | ⟨v', s'⟩
  · rw [hx] at hv; cases hv
  · rw [hx] at hv; cases hv
  · rw [hx] at hv; cases hv
  · rw [hx] at hv
    cases hv
    exact h.moves _ _ hx

theorem steps_pmap {p : TP Verbose α} {cs : List Check} (f : α → β) (h : Steps i pos n p cs) :
    Steps i pos n (pmap p f) cs := by
  refine ⟨gives_pmap f h.gives, fun v s hv => ?_⟩
  unfold pmap at hv
  rcases hx : p (restAt i pos) with e | ⟨v', s'⟩
  · rw [hx] at hv; cases hv
  · rw [hx] at hv
    cases hv
    exact h.moves _ _ hx

theorem steps_verify {p : TP Verbose α} {cs : List Check} (f : α → Bool) (Q : Prop) (h : Steps i pos n p cs)
    (hf : ∀ v s, p (restAt i pos) = .ok (v, s) → (f v = true ↔ Q)) :
    Steps i pos n (verify p f) (cs ++ [(Q, some [failed (restAt i pos) .verify])]) := by
  constructor
  · have e : verify p f (restAt i pos) =
        (p (restAt i pos) >>= fun x => if f x.1 then .ok (x.1, x.2) else
          .error (.error (NomError.fromKind (restAt i pos) .verify))) := by
      unfold verify
      rcases p (restAt i pos) with e | ⟨v, s⟩ <;> rfl
    rw [e]
    refine gives_bind h.gives fun v hv => ?_
    obtain ⟨v, s⟩ := v
    have hq := hf v s hv
    refine ⟨fun ha => ?_, fun r hr => ?_, fun hr => ?_⟩
    · have hQ : Q := (allHold_cons.mp ha).1
      exact ⟨(v, s), by simp only [hq.mpr hQ, if_true]⟩
    · rcases hr with ⟨h1, h2⟩ | ⟨_, h2⟩
      · cases h2
        have : ¬ f v = true := fun hc => h1 (hq.mp hc)
        simp only [this]
        rfl
      · exact absurd h2 id
    · rcases hr with ⟨_, h2⟩ | ⟨_, h2⟩
      · cases h2
      · exact absurd h2 id
  · intro v s hv
    unfold verify at hv
    rcases hx : p (restAt i pos) with e | ⟨v', s'⟩
    · rw [hx] at hv; cases hv
    · rw [hx] at hv
      simp only at hv
      split at hv
      · cases hv; exact h.moves _ _ hx
      · cases hv

/-- A check that fails with one entry. -/
theorem steps_one {p : TP Verbose α} {Q : Prop} {k : Kind}
    (h1 : Q → ∃ v, p (restAt i pos) = .ok (v, restAt i (pos + n)))
    (h2 : ¬ Q → p (restAt i pos) = .error (.error [failed (restAt i pos) k])) :
    Steps i pos n p [(Q, some [failed (restAt i pos) k])] := by
  refine ⟨⟨fun ha => ?_, fun r hr => ?_, fun hr => ?_⟩, fun v s hv => ?_⟩
  · obtain ⟨v, hv⟩ := h1 (allHold_cons.mp ha).1
    exact ⟨_, hv⟩
  · rcases hr with ⟨h3, h4⟩ | ⟨_, h4⟩
    · cases h4; exact h2 h3
    · exact absurd h4 id
  · rcases hr with ⟨_, h4⟩ | ⟨_, h4⟩
    · cases h4
    · exact absurd h4 id
  · by_cases hQ : Q
    · obtain ⟨v', hv'⟩ := h1 hQ
      rw [hv] at hv'; cases hv'; rfl
    · rw [h2 hQ] at hv; cases hv

theorem restAt_drop (i : List UInt8) (pos n : Nat) : (restAt i pos).drop n = restAt i (pos + n) := by
  simp [restAt, Slice.drop, List.drop_drop]

theorem leNat_restAt (i : List UInt8) (pos k : Nat) (h : pos + k ≤ i.length) :
    (leNat k : TP Verbose Nat) (restAt i pos) = .ok (leVal ((i.drop pos).take k), restAt i (pos + k)) := by
  simp only [leNat, tp_bind, take]
  rw [if_neg (by simp only [restAt, List.length_drop]; omega), ← restAt_drop]
  rfl

theorem leNat_restAt_no (i : List UInt8) (pos k : Nat) (hk : 0 < k) (h : ¬ pos + k ≤ i.length) :
    (leNat k : TP Verbose Nat) (restAt i pos) = .error (.error [failed (restAt i pos) .eof]) := by
  simp only [leNat, tp_bind, take]
  rw [if_pos (by simp only [restAt, List.length_drop]; omega)]
  rfl

theorem steps_leNat (k : Nat) (hk : 0 < k) :
    Steps i pos k (leNat k : TP Verbose Nat) [(pos + k ≤ i.length, some [failed (restAt i pos) .eof])] :=
  steps_one (fun h => ⟨_, leNat_restAt i pos k h⟩) (leNat_restAt_no i pos k hk)

theorem steps_leU8 : Steps i pos 1 (leU8 : TP Verbose UInt8) [(pos + 1 ≤ i.length, some [failed (restAt i pos) .eof])] :=
  steps_map (steps_leNat 1 (by omega)) _
theorem steps_leU16 :
    Steps i pos 2 (leU16 : TP Verbose UInt16) [(pos + 2 ≤ i.length, some [failed (restAt i pos) .eof])] :=
  steps_map (steps_leNat 2 (by omega)) _
theorem steps_leU24 :
    Steps i pos 3 (leU24 : TP Verbose UInt32) [(pos + 3 ≤ i.length, some [failed (restAt i pos) .eof])] :=
  steps_map (steps_leNat 3 (by omega)) _
theorem steps_leU32 :
    Steps i pos 4 (leU32 : TP Verbose UInt32) [(pos + 4 ≤ i.length, some [failed (restAt i pos) .eof])] :=
  steps_map (steps_leNat 4 (by omega)) _
theorem steps_leU64 :
    Steps i pos 8 (leU64 : TP Verbose UInt64) [(pos + 8 ≤ i.length, some [failed (restAt i pos) .eof])] :=
  steps_map (steps_leNat 8 (by omega)) _

theorem steps_takeBytes (k : Nat) (hk : 0 < k) :
    Steps i pos k (takeBytes k : TP Verbose (Bytes k)) [(pos + k ≤ i.length, some [failed (restAt i pos) .eof])] := by
  refine steps_one (fun h => ?_) (fun h => ?_)
  · unfold takeBytes
    rw [dif_neg (by simp only [restAt, List.length_drop]; omega), restAt_drop]
    exact ⟨_, rfl⟩
  · unfold takeBytes
    rw [dif_pos (by simp only [restAt, List.length_drop]; omega)]
    rfl

theorem value_of_sim {p : TP Verbose α} {q : Parser α} (h : Sim i (fun _ => True) p q) {s : Slice} (hs : Within i s)
    {v w : α} {t : Slice} {r : List UInt8} (h1 : p s = .ok (v, t)) (h2 : q s.data = .ok (w, r)) : v = w := by
  have := h s hs
  rw [h1, h2] at this
  cases this
  rfl

theorem within_restAt (h : pos ≤ i.length) : Within i (restAt i pos) := by
  have := within_drop (within_self i) (n := pos) h
  simpa [Slice.drop, restAt] using this

theorem leNat_value (k : Nat) (hk : 0 < k) {v : Nat} {s : Slice}
    (h : (leNat k : TP Verbose Nat) (restAt i pos) = .ok (v, s)) : v = leVal ((i.drop pos).take k) := by
  by_cases hl : pos + k ≤ i.length
  · rw [leNat_restAt i pos k hl] at h; cases h; rfl
  · rw [leNat_restAt_no i pos k hk hl] at h; cases h

theorem map_value {p : TP Verbose α} {f : α → β} {v : β} {s t : Slice} (h : (p >>= fun a => pure (f a)) s = .ok (v, t)) :
    ∃ a, p s = .ok (a, t) ∧ v = f a := by
  rw [tp_bind] at h
  rcases hx : p s with e | ⟨a, t'⟩
  · rw [hx] at h; cases h
  · rw [hx] at h
    cases h
    exact ⟨a, rfl, rfl⟩

theorem leU8_value {v : UInt8} {s : Slice} (h : (leU8 : TP Verbose UInt8) (restAt i pos) = .ok (v, s)) :
    v.toNat = byteAt i pos := by
  obtain ⟨a, h1, rfl⟩ := map_value h
  rw [leNat_value 1 (by omega) h1, leVal_take1, byteAt_drop]
  have := byteAt_lt i pos
  simp only [UInt8.toNat_ofNat']; simp only [Nat.add_zero]; omega

theorem leU32_value {v : UInt32} {s : Slice} (h : (leU32 : TP Verbose UInt32) (restAt i pos) = .ok (v, s)) :
    v.toNat = u32At i pos := by
  obtain ⟨a, h1, rfl⟩ := map_value h
  rw [leNat_value 4 (by omega) h1, leVal_take4, u32At_drop]
  have := u32At_lt i pos
  simp only [UInt32.toNat_ofNat']; simp only [Nat.add_zero]; omega

theorem leU24_value {v : UInt32} {s : Slice} (h : (leU24 : TP Verbose UInt32) (restAt i pos) = .ok (v, s)) :
    v.toNat = byteAt i pos + 256 * byteAt i (pos + 1) + 65536 * byteAt i (pos + 2) := by
  obtain ⟨a, h1, rfl⟩ := map_value h
  rw [leNat_value 3 (by omega) h1, leVal_take3, byteAt_drop, byteAt_drop, byteAt_drop]
  have := byteAt_lt i pos
  have := byteAt_lt i (pos + 1)
  have := byteAt_lt i (pos + 2)
  simp only [UInt32.toNat_ofNat']; simp only [Nat.add_zero]; omega

theorem leU64_value {v : UInt64} {s : Slice} (h : (leU64 : TP Verbose UInt64) (restAt i pos) = .ok (v, s)) :
    v.toNat = u32At i pos + 2 ^ 32 * u32At i (pos + 4) := by
  obtain ⟨a, h1, rfl⟩ := map_value h
  have hl : pos + 8 ≤ i.length := by
    apply Classical.byContradiction
    intro hl
    rw [leNat_restAt_no i pos 8 (by omega) hl] at h1; cases h1
  have hv : leVal ((i.drop pos).take 8) = u32At i pos + 2 ^ 32 * u32At i (pos + 4) := by
    have e : (i.drop pos).take 8 = (i.drop pos).take 4 ++ (i.drop (pos + 4)).take 4 := by
      rw [show i.drop (pos + 4) = (i.drop pos).drop 4 by rw [List.drop_drop]]
      rw [← List.take_append_drop 4 ((i.drop pos).take 8), List.take_take, List.drop_take]
      rfl
    rw [e, leVal_append, leVal_take4, leVal_take4, u32At_drop, u32At_drop]
    have : ((i.drop pos).take 4).length = 4 := by simp only [List.length_take, List.length_drop]; omega
    rw [this]
    simp only [Nat.add_zero]
  rw [leNat_value 8 (by omega) h1, hv]
  have := u32At_lt i pos
  have := u32At_lt i (pos + 4)
  simp only [UInt64.toNat_ofNat']; omega

theorem beq32 (v n : UInt32) : (v == n) = true ↔ v.toNat = n.toNat := by
  rw [beq_iff_eq, ← UInt32.toNat_inj]

theorem beq64 (v n : UInt64) : (v == n) = true ↔ v.toNat = n.toNat := by
  rw [beq_iff_eq, ← UInt64.toNat_inj]

theorem beq8 (v n : UInt8) : (v == n) = true ↔ v.toNat = n.toNat := by
  rw [beq_iff_eq, ← UInt8.toNat_inj]

theorem steps_type (k : UInt32) : Steps i 8 4 (verify leU32 (fun mt => mt == k) : TP Verbose UInt32)
    [(12 ≤ i.length, some [failed (restAt i 8) .eof]), (u32At i 8 = k.toNat, some [failed (restAt i 8) .verify])] :=
  steps_verify _ _ steps_leU32 fun v _ hv => by rw [beq32, leU32_value hv]

theorem steps_tag : Steps i 0 8 (tag signature : TP Verbose Unit)
    [(i.take 8 = ntlmssp, some [failed (restAt i 0) .tag])] := by
  rw [← signature_eq]
  refine steps_one (fun h => ?_) (fun h => ?_)
  · unfold tag
    rw [if_pos (by simpa [restAt, signature] using h)]
    exact ⟨(), by rw [restAt_drop]; rfl⟩
  · unfold tag
    rw [if_neg (by simpa [restAt, signature] using h)]
    rfl

theorem steps_flags (cfg : Cfg) : Steps i pos 4 (flags cfg : TP Verbose Flags)
    [(pos + 4 ≤ i.length, some [failed (restAt i pos) .eof, inside (restAt i pos) "Flags"])] := by
  have h : Steps i pos 4 (verify leU32 (Flags.validate cfg) : TP Verbose UInt32)
      [(pos + 4 ≤ i.length, some [failed (restAt i pos) .eof])] := by
    have e : (verify leU32 (Flags.validate cfg) : TP Verbose UInt32) = leU32 := by
      funext s
      simp only [verify, validate_true, if_true]
      rcases (leU32 : TP Verbose UInt32) s with e | ⟨a, r⟩ <;> rfl
    rw [e]
    exact steps_leU32
  exact steps_context "Flags" (steps_pmap Flags.mk h)

theorem steps_bytes (name : String) (k : Nat) (hk : 0 < k) : Steps i pos k (bytes name k : TP Verbose (Bytes k))
    [(pos + k ≤ i.length, some [failed (restAt i pos) .eof, inside (restAt i pos) name])] :=
  steps_context name (steps_takeBytes k hk)

theorem steps_field : Steps i pos 8 (field : TP Verbose Field) (descriptorChecks i pos []) :=
  steps_context "Field" <|
    steps_bind steps_leU16 fun _ => steps_bind steps_leU16 fun _ => steps_map steps_leU32 _

theorem steps_version : Steps i pos 8 (version : TP Verbose Version) (versionChecks i pos []) :=
  steps_context "Version" <|
    steps_bind (steps_context "major" steps_leU8) fun _ =>
    steps_bind (steps_context "minor" steps_leU8) fun _ =>
    steps_bind (steps_context "build" steps_leU16) fun _ =>
    steps_bind (steps_context "reserved" (steps_verify _
      (byteAt i (pos + 4) = 0 ∧ byteAt i (pos + 5) = 0 ∧ byteAt i (pos + 6) = 0) steps_leU24
      fun v _ hv => by
        rw [beq32, leU24_value hv, show (0 : UInt32).toNat = 0 from rfl]
        simp only [Nat.add_assoc, Nat.reduceAdd]; omega)) fun _ =>
    steps_map (steps_context "revision_count" (steps_verify _ (byteAt i (pos + 7) = 15) steps_leU8
      fun v _ hv => by rw [beq8, leU8_value hv]; rfl)) _

/-! ### Headers -/

theorem steps_negotiateHeader (cfg : Cfg) : Steps i 0 32 (negotiateHeader cfg : TP Verbose _)
    (startChecks i 1 [inside (restAt i 0) "Negotiate"] ++
      flagChecks i 12 [inside (restAt i 0) "Negotiate"] ++
      descriptorChecks i 16 [inside (restAt i 16) "domain_name_field", inside (restAt i 0) "Negotiate"] ++
      descriptorChecks i 24 [inside (restAt i 24) "workstation_field", inside (restAt i 0) "Negotiate"]) :=
  steps_context "Negotiate" <|
    steps_bind steps_tag fun _ =>
    steps_bind (steps_type 1) fun _ =>
    steps_bind (steps_flags cfg) fun _ =>
    steps_bind (steps_context "domain_name_field" steps_field) fun _ =>
    steps_map (steps_context "workstation_field" steps_field) _

theorem steps_parseReserved (cfg : Cfg) : Steps i 32 8 (parseReserved cfg : TP Verbose UInt64)
    [(32 + 8 ≤ i.length, some [failed (restAt i 32) .eof]),
      (cfg.strict = true → u32At i 32 = 0 ∧ u32At i 36 = 0, some [failed (restAt i 32) .verify])] := by
  unfold parseReserved
  cases hs : cfg.strict
  · have h : Steps i 32 8 (leU64 : TP Verbose UInt64) _ := steps_leU64
    rw [if_neg (by simp)]
    refine ⟨⟨fun ha => h.gives.ok ?_, fun r hr => h.gives.report r ?_, fun hr => h.gives.silent ?_⟩, h.moves⟩
    · exact allHold_cons.mpr ⟨(allHold_cons.mp ha).1, allHold_nil⟩
    · rcases hr with h1 | ⟨h1, ⟨h2, _⟩ | ⟨_, h2⟩⟩
      · exact .inl h1
      · simp at h2
      · exact absurd h2 id
    · rcases hr with h1 | ⟨h1, ⟨h2, _⟩ | ⟨_, h2⟩⟩
      · exact .inl h1
      · simp at h2
      · exact absurd h2 id
  · rw [if_pos rfl]
    refine steps_verify _ _ steps_leU64 fun v _ hv => ?_
    rw [beq64, leU64_value hv, show (0 : UInt64).toNat = 0 from rfl]
    simp only [Nat.reduceAdd, true_imp_iff]
    omega

theorem steps_challengeHeader (cfg : Cfg) : Steps i 0 48 (challengeHeader cfg : TP Verbose _)
    (startChecks i 2 [inside (restAt i 0) "Challenge"] ++
      descriptorChecks i 12 [inside (restAt i 12) "target_name_field", inside (restAt i 0) "Challenge"] ++
      flagChecks i 20 [inside (restAt i 20) "negotiate_flags", inside (restAt i 0) "Challenge"] ++
      [ (32 ≤ i.length, some [failed (restAt i 24) .eof, inside (restAt i 24) "server_challenge",
          inside (restAt i 0) "Challenge"]),
        (40 ≤ i.length, some [failed (restAt i 32) .eof, inside (restAt i 32) "reserved",
          inside (restAt i 0) "Challenge"]),
        (cfg.strict = true → u32At i 32 = 0 ∧ u32At i 36 = 0,
          some [failed (restAt i 32) .verify, inside (restAt i 32) "reserved", inside (restAt i 0) "Challenge"]) ] ++
      descriptorChecks i 40 [inside (restAt i 40) "target_infos_field", inside (restAt i 0) "Challenge"]) :=
  steps_context "Challenge" <|
    steps_bind steps_tag fun _ =>
    steps_bind (steps_type 2) fun _ =>
    steps_bind (steps_context "target_name_field" steps_field) fun _ =>
    steps_bind (steps_context "negotiate_flags" (steps_flags cfg)) fun _ =>
    steps_bind (steps_bytes "server_challenge" 8 (by omega)) fun _ =>
    steps_bind (steps_context "reserved" (steps_parseReserved cfg)) fun _ =>
    steps_map (steps_context "target_infos_field" steps_field) _

theorem steps_authenticateHeader (cfg : Cfg) : Steps i 0 64 (authenticateHeader cfg : TP Verbose _)
    (startChecks i 3 [inside (restAt i 0) "Authenticate"] ++
      descriptorChecks i 12 [inside (restAt i 12) "lm_challenge", inside (restAt i 0) "Authenticate"] ++
      descriptorChecks i 20 [inside (restAt i 20) "nt_challenge", inside (restAt i 0) "Authenticate"] ++
      descriptorChecks i 28 [inside (restAt i 28) "domain_field", inside (restAt i 0) "Authenticate"] ++
      descriptorChecks i 36 [inside (restAt i 36) "user_field", inside (restAt i 0) "Authenticate"] ++
      descriptorChecks i 44 [inside (restAt i 44) "workstation_field", inside (restAt i 0) "Authenticate"] ++
      descriptorChecks i 52 [inside (restAt i 52) "encrypted_random_session_key_field",
        inside (restAt i 0) "Authenticate"] ++
      flagChecks i 60 [inside (restAt i 0) "Authenticate"]) :=
  steps_context "Authenticate" <|
    steps_bind steps_tag fun _ =>
    steps_bind (steps_type 3) fun _ =>
    steps_bind (steps_context "lm_challenge" steps_field) fun _ =>
    steps_bind (steps_context "nt_challenge" steps_field) fun _ =>
    steps_bind (steps_context "domain_field" steps_field) fun _ =>
    steps_bind (steps_context "user_field" steps_field) fun _ =>
    steps_bind (steps_context "workstation_field" steps_field) fun _ =>
    steps_bind (steps_context "encrypted_random_session_key_field" steps_field) fun _ =>
    steps_map (steps_flags cfg) _

theorem steps_versionIf (fp pos : Nat) (name : String) :
    Steps i pos (versionSize i fp)
      (cond ((flagsAt i fp).hasFlag Flags.NTLMSSP_NEGOTIATE_VERSION) (context name version) : TP Verbose _)
      (versionIf i fp pos name) := by
  rw [hasFlag_version, versionSize, versionIf, cond]
  cases (u32At i fp).testBit 25
  · exact steps_pure none
  · exact steps_pmap some (steps_context name steps_version)

theorem start_holds {t : Nat} {outer : Verbose} {cs : List Check} (h : allHold (startChecks i t outer ++ cs)) :
    i.take 8 = ntlmssp ∧ u32At i 8 = t := by
  have := (allHold_append.mp h).1
  simp only [startChecks, allHold_cons] at this
  exact ⟨this.1, this.2.2.1⟩

theorem allHold_mem {cs : List Check} (h : allHold cs) {c : Check} (hc : c ∈ cs) : c.1 := h c hc

/-- With a header that decodes, its values are those of the base decoder. -/
theorem header_value {p : TP Verbose α} {q : Parser α} (h : Sim i (fun _ => True) p q) {v w : α} {t : Slice}
    {r : List UInt8} (h1 : p ⟨0, i⟩ = .ok (v, t)) (h2 : q i = .ok (w, r)) : v = w :=
  value_of_sim h (within_self i) h1 h2

/-! ### Payload -/

theorem trace_slice (pos : Nat) (h0 : ¬ emptyField i pos) (ho : ¬ outOfRange i pos) :
    (slice (fieldAt i pos) ⟨0, i⟩ : Except (TErr Verbose) Slice) = .ok (rangeOf i pos) := by
  have h0' : u16At i pos ≠ 0 := h0
  have hl : u32At i (pos + 4) + u16At i pos ≤ i.length := by
    simp only [outOfRange] at ho; omega
  unfold slice
  rw [if_pos (by rw [fieldAt_len, fieldAt_offset]; exact hl), fieldAt_len, fieldAt_offset]
  simp [rangeOf, fieldBytes, bytesAt, Slice.take, Slice.drop]

theorem within_rangeOf (pos : Nat) (ho : ¬ outOfRange i pos) (h0 : ¬ emptyField i pos) : Within i (rangeOf i pos) := by
  have h0' : u16At i pos ≠ 0 := h0
  have hl : u32At i (pos + 4) + u16At i pos ≤ i.length := by
    simp only [outOfRange] at ho; omega
  constructor
  · simp only [rangeOf, fieldBytes, bytesAt, List.length_take, List.length_drop]; omega
  · simp only [rangeOf, fieldBytes, bytesAt, List.length_take, List.length_drop]
    rw [Nat.min_eq_left (by omega)]

theorem rangeOf_length (pos : Nat) (ho : ¬ outOfRange i pos) (h0 : ¬ emptyField i pos) :
    (fieldBytes i pos).length = u16At i pos := by
  have h0' : u16At i pos ≠ 0 := h0
  simp only [outOfRange] at ho
  simp only [fieldBytes, bytesAt, List.length_take, List.length_drop]; omega

theorem gives_getDataIf {p : TP Verbose α} (name : String) (pos : Nat) {cs : List Check}
    (he : emptyField i pos → allHold cs)
    (h : ¬ emptyField i pos → ¬ outOfRange i pos →
      Gives (context name (context "Field::get_data" p) (rangeOf i pos)) cs) :
    Gives (getDataIf p name (fieldAt i pos) ⟨0, i⟩ true) (rangeCheck i pos :: cs) := by
  by_cases h0 : emptyField i pos
  · have hn : ¬ outOfRange i pos := fun hc => hc.1 h0
    have hall : allHold (rangeCheck i pos :: cs) := allHold_cons.mpr ⟨hn, he h0⟩
    have hx : getDataIf p name (fieldAt i pos) ⟨0, i⟩ true = .ok none := by
      unfold getDataIf
      rw [if_pos rfl, if_pos ((fieldAt_len_zero i pos).mpr h0)]
    exact ⟨fun _ => ⟨_, hx⟩, fun r hr => absurd hall (firstFailed_not hr), fun hr => absurd hall (firstFailed_not hr)⟩
  · have h0' : ¬ (fieldAt i pos).len = 0 := fun hc => h0 ((fieldAt_len_zero i pos).mp hc)
    by_cases ho : outOfRange i pos
    · have hx : getDataIf p name (fieldAt i pos) ⟨0, i⟩ true = .error (.panic .sliceIndex (.outOfRange (fieldAt i pos).offset.toNat
          ((fieldAt i pos).offset.toNat + (fieldAt i pos).len.toNat) i.length)) := by
        unfold getDataIf slice
        rw [if_pos rfl, if_neg h0', if_neg (by rw [fieldAt_len, fieldAt_offset]; exact Nat.not_le.mpr ho.2)]
      refine ⟨fun ha => absurd ho (allHold_cons.mp ha).1, fun r hr => ?_, fun _ => ⟨_, hx, by simp⟩⟩
      rcases hr with ⟨_, h2⟩ | ⟨h1, _⟩
      · cases h2
      · exact absurd ho h1
    · have g := h h0 ho
      have hx : getDataIf p name (fieldAt i pos) ⟨0, i⟩ true =
          (context name (context "Field::get_data" p) (rangeOf i pos) >>= fun x => .ok (some x.1)) := by
        unfold getDataIf
        rw [if_pos rfl, if_neg h0', trace_slice pos h0 ho]
        simp only
        rcases context name (context "Field::get_data" p) (rangeOf i pos) with e | ⟨v, s⟩ <;> rfl
      rw [hx]
      have g' := gives_bind (cs' := []) g fun v _ => gives_ok (x := Except.ok (some v.1)) ⟨_, rfl⟩
      rw [List.append_nil] at g'
      refine ⟨fun ha => g'.ok (allHold_cons.mp ha).2, fun r hr => g'.report r ?_, fun hr => g'.silent ?_⟩
      · rcases hr with ⟨h1, _⟩ | ⟨_, h2⟩
        · exact absurd ho h1
        · exact h2
      · rcases hr with ⟨h1, _⟩ | ⟨_, h2⟩
        · exact absurd ho h1
        · exact h2

theorem gives_one {x : Except (TErr Verbose) α} {Q : Prop} {r : Verbose} (h1 : Q → ∃ v, x = .ok v)
    (h2 : ¬ Q → x = .error (.error r)) : Gives x [(Q, some r)] := by
  refine ⟨fun ha => h1 (allHold_cons.mp ha).1, fun r hr => ?_, fun hr => ?_⟩
  · rcases hr with ⟨h3, h4⟩ | ⟨_, h4⟩
    · cases h4; exact h2 h3
    · exact absurd h4 id
  · rcases hr with ⟨_, h4⟩ | ⟨_, h4⟩
    · cases h4
    · exact absurd h4 id

theorem gives_weaken {x : Except (TErr Verbose) α} {Q Q' : Prop} {r : Option Verbose} (h : Gives x [(Q, r)]) (hq : Q ↔ Q') :
    Gives x [(Q', r)] := by
  rw [← propext hq]; exact h

theorem gives_oem (s : Slice) (name : String) :
    Gives (context name (context "Field::get_data" oemString) s : Except (TErr Verbose) _)
      [(∃ t, s.data = utf8Bytes t, some [failed s .mapOpt, inside s "OEM string", inside s "Field::get_data",
        inside s name])] := by
  have h : Gives ((mapOpt rest fromUtf8 : TP Verbose _) s) [(∃ t, s.data = utf8Bytes t, some [failed s .mapOpt])] := by
    refine gives_one ?_ ?_
    · rintro ⟨t, ht⟩
      simp only [mapOpt, rest, ht, utf8Bytes_eq, fromUtf8_utf8]
      exact ⟨_, rfl⟩
    · intro hn
      have : fromUtf8 s.data = none := by
        rcases hx : fromUtf8 s.data with _ | t
        · rfl
        · exact absurd ⟨t, by rw [utf8Bytes_eq, utf8_fromUtf8 hx]⟩ hn
      simp only [mapOpt, rest, this]
      rfl
  exact gives_context name (gives_context "Field::get_data" (gives_context "OEM string" (gives_pmap _ h)))

theorem gives_oemField (pos : Nat) (name : String) :
    Gives (getDataIf oemString name (fieldAt i pos) ⟨0, i⟩ true : Except (TErr Verbose) _) (oemChecks i pos name) := by
  refine gives_getDataIf name pos (fun h0 => allHold_cons.mpr ⟨.inl h0, allHold_nil⟩) fun h0 _ => ?_
  refine gives_weaken (gives_oem (rangeOf i pos) name) ?_
  show (∃ t, fieldBytes i pos = utf8Bytes t) ↔ _
  simp [h0]

/-- A decoder that never fails. -/
theorem gives_total {p : TP Verbose α} {q : Parser α} (h : Sim i (fun _ => True) p q) {s : Slice} (hs : Within i s)
    (hq : ∃ v r, q s.data = .ok (v, r)) : ∃ v, p s = .ok v := by
  obtain ⟨v, r, hq⟩ := hq
  have := h s hs
  rw [hq] at this
  cases hx : p s with
  | ok v => exact ⟨_, rfl⟩
  | error e => rw [hx] at this; cases this

theorem gives_textField (cfg : Cfg) (pos : Nat) (name : String) :
    Gives (getDataIf unicodeString name (fieldAt i pos) ⟨0, i⟩ true : Except (TErr Verbose) _) [rangeCheck i pos] := by
  refine gives_getDataIf name pos (fun _ => allHold_nil) fun h0 ho => gives_ok ?_
  obtain ⟨s, r, h, _⟩ := unicode_total cfg (rangeOf i pos).data
  exact gives_total (sim_context (closed_true i) name (sim_context (closed_true i) "Field::get_data"
    (sim_unicodeString (closed_true i) cfg))) (within_rangeOf pos ho h0) ⟨_, _, h⟩

/-! ### NEGOTIATE -/

theorem negotiate_gives (cfg : Cfg) (i : List UInt8) : Gives (run (negotiate cfg) i) (negotiateChecks i) := by
  have hh := steps_negotiateHeader (i := i) cfg
  have e : run (negotiate cfg : TP Verbose Negotiate) i =
      ((negotiateHeader cfg : TP Verbose _) ⟨0, i⟩ >>= fun x =>
        (cond (x.1.1.hasFlag Flags.NTLMSSP_NEGOTIATE_VERSION) (context "Negotiate/version" version) : TP Verbose _) x.2 >>=
        fun v => getDataIf oemString "domain" x.1.2.1 ⟨0, i⟩ true >>= fun d =>
        getDataIf oemString "workstation" x.1.2.2 ⟨0, i⟩ true >>= fun w =>
        .ok (⟨x.1.1, d, w, v.1⟩, ⟨0, []⟩)) := by
    simp only [run, negotiate, Bool.or_true]
    rcases (negotiateHeader cfg : TP Verbose _) ⟨0, i⟩ with _ | ⟨⟨a, b, c⟩, r⟩
    · rfl
    · simp only [bind, Except.bind]
      rcases (cond (a.hasFlag Flags.NTLMSSP_NEGOTIATE_VERSION) (context "Negotiate/version" version) : TP Verbose _) r
        with _ | ⟨v, _⟩
      · rfl
      · simp only
        rcases (getDataIf oemString "domain" b ⟨0, i⟩ true : Except (TErr Verbose) _) with _ | _
        · rfl
        · simp only
          rcases (getDataIf oemString "workstation" c ⟨0, i⟩ true : Except (TErr Verbose) _) with _ | _ <;> rfl
  rw [e]
  have key := gives_bind (cs' := versionIf i 12 32 "Negotiate/version" ++ (oemChecks i 16 "domain" ++
    oemChecks i 24 "workstation")) hh.gives (f := fun x =>
        (cond (x.1.1.hasFlag Flags.NTLMSSP_NEGOTIATE_VERSION) (context "Negotiate/version" version) : TP Verbose _) x.2 >>=
        fun v => getDataIf oemString "domain" x.1.2.1 ⟨0, i⟩ true >>= fun d =>
        getDataIf oemString "workstation" x.1.2.2 ⟨0, i⟩ true >>= fun w =>
        .ok ((⟨x.1.1, d, w, v.1⟩ : Negotiate), (⟨0, []⟩ : Slice))) ?_
  · simp only [List.append_assoc] at key
    simp only [negotiateChecks, List.append_assoc]
    exact key
  · rintro ⟨h, r⟩ hv
    have hr := hh.moves h r hv
    have hall := hh.gives.of_ok hv
    have hhead : hasHeader i 1 32 := by
      simp only [allHold_append, startChecks, descriptorChecks, flagChecks, allHold_cons] at hall
      refine ⟨?_, ?_, ?_⟩
      · omega
      · exact hall.1.1.1.1
      · exact hall.1.1.1.2.2.1
    have hval : h = (flagsAt i 12, fieldAt i 16, fieldAt i 24) :=
      header_value (sim_negotiateHeader (closed_true i) cfg) hv (negotiate_header_at cfg i hhead)
    subst hval hr
    refine gives_bind (steps_versionIf 12 32 "Negotiate/version").gives fun v _ => ?_
    refine gives_bind (gives_oemField 16 "domain") fun d _ => ?_
    have := gives_bind (cs' := []) (gives_oemField (i := i) 24 "workstation")
      (f := fun w => .ok ((⟨flagsAt i 12, d, w, v.1⟩ : Negotiate), (⟨0, []⟩ : Slice))) fun w _ => gives_ok ⟨_, rfl⟩
    rwa [List.append_nil] at this

/-! ### CHALLENGE -/

/-- What reading the target infos gives, in terms of the base decoder. -/
theorem gives_infos (cfg : Cfg) (i : List UInt8) {f : List AvPair → Except (TErr Verbose) β} {cs : List Check}
    (hf : ∀ l, infosAre cfg i 40 l → Gives (f l) cs) :
    Gives (getManyIf (avPair cfg) (fieldAt i 40) ⟨0, i⟩ true >>= f)
      (rangeCheck i 40 :: (∃ l, infosAre cfg i 40 l, none) :: cs) := by
  have rel := rel_getManyIf (closed_true (E := Verbose) i) cfg (sim_avPair (closed_true i) cfg) (fieldAt i 40)
    (within_self i) true
  simp only at rel
  have ok : ∀ l, infosAre cfg i 40 l →
      (getManyIf (avPair cfg) (fieldAt i 40) ⟨0, i⟩ true : Except (TErr Verbose) _) = .ok l := by
    intro l hl
    have hb : ((fieldAt i 40).getManyIf cfg i true : Except PErr (List AvPair)) = .ok l := by
      rcases hl with ⟨h0, rfl⟩ | ⟨h0, ho, r, hw⟩
      · exact getManyIf_empty cfg i 40 h0
      · rw [getManyIf_in cfg i 40 h0 ho, (many0_walk cfg _ _ _).mpr hw]
    rw [hb] at rel
    cases hx : (getManyIf (avPair cfg) (fieldAt i 40) ⟨0, i⟩ true : Except (TErr Verbose) _) with
    | ok l' => rw [hx] at rel; cases rel; rfl
    | error e => rw [hx] at rel; cases rel
  have bad : (¬ ∃ l, infosAre cfg i 40 l) → ∃ e,
      (getManyIf (avPair cfg) (fieldAt i 40) ⟨0, i⟩ true : Except (TErr Verbose) _) = .error e ∧ ∀ r, e ≠ .error r := by
    intro hn
    have h0 : u16At i 40 ≠ 0 := fun h0 => hn ⟨[], .inl ⟨h0, rfl⟩⟩
    have hb : ∃ e, ((fieldAt i 40).getManyIf cfg i true : Except PErr (List AvPair)) = .error e ∧ e ≠ .error := by
      by_cases ho : outOfRange i 40
      · exact ⟨_, getManyIf_out cfg i 40 ho, by simp⟩
      · rw [getManyIf_in cfg i 40 h0 ho]
        rcases hx : Ntlm.many0 (Wire.deserialize cfg : Parser AvPair) (fieldBytes i 40) with e | ⟨l, r⟩
        · refine ⟨e, rfl, ?_⟩
          rcases many0_avError cfg _ _ (Nat.le_refl _) e hx with rfl | ⟨rfl, _⟩ <;> simp
        · exact absurd ⟨l, .inr ⟨h0, ho, r, (many0_walk cfg _ _ _).mp hx⟩⟩ hn
    obtain ⟨e, he, hne⟩ := hb
    rw [he] at rel
    cases hx : (getManyIf (avPair cfg) (fieldAt i 40) ⟨0, i⟩ true : Except (TErr Verbose) _) with
    | ok l' => rw [hx] at rel; cases rel
    | error e' =>
      rw [hx] at rel
      refine ⟨e', rfl, fun r hr => ?_⟩
      subst hr
      cases rel
      exact hne rfl
  have range : (∃ l, infosAre cfg i 40 l) → ¬ outOfRange i 40 := by
    rintro ⟨l, ⟨h0, _⟩ | ⟨_, ho, _⟩⟩
    · exact fun hc => hc.1 h0
    · exact ho
  refine ⟨fun ha => ?_, fun r hr => ?_, fun hr => ?_⟩
  · obtain ⟨_, h2⟩ := allHold_cons.mp ha
    obtain ⟨⟨l, hl⟩, h3⟩ := allHold_cons.mp h2
    obtain ⟨v, hv⟩ := (hf l hl).ok h3
    exact ⟨v, by rw [ok l hl]; exact hv⟩
  · rcases hr with ⟨_, h2⟩ | ⟨_, ⟨_, h2⟩ | ⟨⟨l, hl⟩, h3⟩⟩
    · cases h2
    · cases h2
    · rw [ok l hl]; exact (hf l hl).report r h3
  · have hbad : (¬ ∃ l, infosAre cfg i 40 l) → ∃ e, (getManyIf (avPair cfg) (fieldAt i 40) ⟨0, i⟩ true >>= f) = .error e ∧
        ∀ r, e ≠ .error r := by
      intro hn
      obtain ⟨e, he, hne⟩ := bad hn
      exact ⟨e, by rw [he]; rfl, hne⟩
    rcases hr with ⟨h1, _⟩ | ⟨_, ⟨h1, _⟩ | ⟨⟨l, hl⟩, h3⟩⟩
    · exact hbad fun hn => h1 (range hn)
    · exact hbad h1
    · rw [ok l hl]; exact (hf l hl).silent h3

theorem infos_unique {cfg : Cfg} {pos : Nat} {l l' : List AvPair} (h : infosAre cfg i pos l) (h' : infosAre cfg i pos l') :
    l = l' := by
  rcases h with ⟨h0, rfl⟩ | ⟨h0, _, r, hw⟩
  · rcases h' with ⟨_, rfl⟩ | ⟨h1, _⟩
    · rfl
    · exact absurd h0 h1
  · rcases h' with ⟨h1, _⟩ | ⟨_, _, r', hw'⟩
    · exact absurd h1 h0
    · have h1 := (many0_walk cfg _ _ _).mpr hw
      rw [(many0_walk cfg _ _ _).mpr hw'] at h1
      cases h1
      rfl

theorem challenge_gives (cfg : Cfg) (i : List UInt8) : Gives (run (challenge cfg) i) (challengeChecks cfg i) := by
  have hh := steps_challengeHeader (i := i) cfg
  let eol (s : Field) : Except (TErr Verbose) (Challenge × Slice) := do
    let data ← slice s ⟨0, i⟩
    .error (.error [failed data .verify, inside data "Challenge/TargetInfos/EOL"])
  let fin (x : (Field × Flags × Bytes 8 × Field) × Slice) (v : Option Version × Slice) (t : Option UnicodeString)
      (l : List AvPair) : Except (TErr Verbose) (Challenge × Slice) :=
    if Challenge.lastIsEol l then .ok (⟨t, x.1.2.1, x.1.2.2.1, l, v.1⟩, ⟨0, []⟩) else eol x.1.2.2.2
  let body (x : (Field × Flags × Bytes 8 × Field) × Slice) : Except (TErr Verbose) (Challenge × Slice) := do
    let v ← (cond (x.1.2.1.hasFlag Flags.NTLMSSP_NEGOTIATE_VERSION) (context "version" version) : TP Verbose _) x.2
    let t ← getDataIf unicodeString "target_name" x.1.1 ⟨0, i⟩ true
    let l ← getManyIf (avPair cfg) x.1.2.2.2 ⟨0, i⟩ true
    fin x v t l
  have e : run (challenge cfg : TP Verbose Challenge) i = ((challengeHeader cfg : TP Verbose _) ⟨0, i⟩ >>= body) := by
    simp only [run, challenge, Bool.or_true]
    rcases (challengeHeader cfg : TP Verbose _) ⟨0, i⟩ with _ | ⟨⟨a, b, c, d⟩, r⟩
    · rfl
    · simp only [bind, Except.bind, body]
      rcases (cond (b.hasFlag Flags.NTLMSSP_NEGOTIATE_VERSION) (context "version" version) : TP Verbose _) r
        with _ | ⟨v, _⟩
      · rfl
      · simp only
        rcases (getDataIf unicodeString "target_name" a ⟨0, i⟩ true : Except (TErr Verbose) _) with _ | _
        · rfl
        · simp only
          rcases (getManyIf (avPair cfg) d ⟨0, i⟩ true : Except (TErr Verbose) _) with _ | l
          · rfl
          · simp only [fin, eol, bind, Except.bind]
            cases Challenge.lastIsEol l
            · simp only [Bool.false_eq_true, if_false]
              rcases (slice d ⟨0, i⟩ : Except (TErr Verbose) _) with _ | _ <;> rfl
            · rfl
  rw [e]
  have key := gives_bind (cs' := versionIf i 20 48 "version" ++ ([rangeCheck i 12] ++ [rangeCheck i 40,
    (∃ l, infosAre cfg i 40 l, none),
    (∃ l, infosAre cfg i 40 l ∧ (l = [] ∨ l.getLast? = some .eol),
      some [failed (rangeOf i 40) .verify, inside (rangeOf i 40) "Challenge/TargetInfos/EOL"])])) hh.gives (f := body) ?_
  · simp only [List.append_assoc] at key
    simp only [challengeChecks, List.append_assoc]
    exact key
  · rintro ⟨h, r⟩ hv
    have hr := hh.moves h r hv
    have hall := hh.gives.of_ok hv
    have hhead : Spec.challengeHeader cfg i := by
      simp only [allHold_append, startChecks, descriptorChecks, flagChecks, allHold_cons] at hall
      refine ⟨⟨?_, ?_, ?_⟩, ?_⟩
      · omega
      · exact hall.1.1.1.1.1
      · exact hall.1.1.1.1.2.2.1
      · exact hall.1.2.2.2.1
    have h24 : 24 + 8 ≤ i.length := by have := hhead.1.1; omega
    have hval := header_value (sim_challengeHeader (closed_true i) cfg) hv (challenge_header_at cfg i hhead h24)
    subst hval hr
    refine gives_bind (steps_versionIf 20 48 "version").gives fun v _ => ?_
    refine gives_bind (gives_textField cfg 12 "target_name") fun t _ => ?_
    refine gives_infos cfg i fun l hl => ?_
    refine gives_one ?_ ?_
    · rintro ⟨l', hl', hlast⟩
      rw [← infos_unique hl hl'] at hlast
      simp only [fin, (lastIsEol_iff l).mpr hlast, if_true]
      exact ⟨_, rfl⟩
    · intro hn
      have hlast : ¬ Challenge.lastIsEol l = true := fun hc => hn ⟨l, hl, (lastIsEol_iff l).mp hc⟩
      simp only [fin, hlast, eol]
      rcases hl with ⟨_, rfl⟩ | ⟨h0, ho, _⟩
      · exact absurd rfl hlast
      · rw [trace_slice 40 h0 ho]
        rfl

/-! ### AUTHENTICATE -/

theorem ntv1_short (s : Slice) (h : s.data.length < 24) :
    (ntv1 : TP Verbose Ntv1Challenge) s =
      .error (.error [failed s .eof, inside s "response", inside s "Ntv1Challenge"]) := by
  unfold ntv1
  rw [tp_bind]
  simp only [bytes, context, takeBytes, dif_pos h]
  rfl

theorem gives_nt (cfg : Cfg) (h0 : ¬ emptyField i 20) (ho : ¬ outOfRange i 20) :
    Gives (context "nt_challenge_response" (context "Field::get_data" (ntChallenge cfg)) (rangeOf i 20) :
        Except (TErr Verbose) _)
      [ (emptyField i 20 ∨ 24 ≤ u16At i 20,
          some [failed (rangeOf i 20) .eof, inside (rangeOf i 20) "response", inside (rangeOf i 20) "Ntv1Challenge",
            failed (rangeOf i 20) .alt, inside (rangeOf i 20) "Field::get_data",
            inside (rangeOf i 20) "nt_challenge_response"]),
        (emptyField i 20 ∨ ntDecodes cfg (fieldBytes i 20), none) ] := by
  have hs := within_rangeOf 20 ho h0
  have hlen := rangeOf_length 20 ho h0
  have sim := sim_ntChallenge (closed_true (E := Verbose) i) cfg (rangeOf i 20) hs
  have g : Gives ((ntChallenge cfg : TP Verbose _) (rangeOf i 20))
      [ (emptyField i 20 ∨ 24 ≤ u16At i 20,
          some [failed (rangeOf i 20) .eof, inside (rangeOf i 20) "response", inside (rangeOf i 20) "Ntv1Challenge",
            failed (rangeOf i 20) .alt]),
        (emptyField i 20 ∨ ntDecodes cfg (fieldBytes i 20), none) ] := by
    have ok : ntDecodes cfg (fieldBytes i 20) → ∃ v, (ntChallenge cfg : TP Verbose _) (rangeOf i 20) = .ok v :=
      fun hd => gives_total (sim_ntChallenge (closed_true i) cfg) hs ((nt_ok cfg _).mpr hd)
    refine ⟨fun ha => ?_, fun r hr => ?_, fun hr => ?_⟩
    · obtain ⟨_, h2⟩ := allHold_cons.mp ha
      rcases (allHold_cons.mp h2).1 with hc | hd
      · exact absurd hc h0
      · exact ok hd
    · rcases hr with ⟨h1, h2⟩ | ⟨_, ⟨_, h2⟩ | ⟨_, h2⟩⟩
      · cases h2
        have hl : (rangeOf i 20).data.length < 24 := by
          show (fieldBytes i 20).length < 24
          rw [hlen]
          apply Classical.byContradiction
          intro hc
          exact h1 (.inr (by omega))
        have h2' : ¬ ntv2Fixed cfg (rangeOf i 20).data := fun hc => by have := hc.1; omega
        have r2 := sim_ntv2 (closed_true (E := Verbose) i) cfg (rangeOf i 20) hs
        rw [ntv2_no cfg _ h2'] at r2
        unfold ntChallenge alt pmap
        cases hx : (ntv2 cfg : TP Verbose _) (rangeOf i 20) with
        | ok v => rw [hx] at r2; cases r2
        | error e =>
          rw [hx] at r2
          cases r2
          simp only [ntv1_short _ hl]
          rfl
      · cases h2
      · exact absurd h2 id
    · rcases hr with ⟨_, h2⟩ | ⟨h1, ⟨h2, _⟩ | ⟨_, h2⟩⟩
      · cases h2
      · have h1' : 24 ≤ (fieldBytes i 20).length := by
          rw [hlen]; exact h1.resolve_left h0
        have hnd : ¬ ntDecodes cfg (fieldBytes i 20) := fun hc => h2 (.inr hc)
        have hbase : (Wire.deserialize cfg : Parser NtChallenge) (fieldBytes i 20) ≠ .error .error := by
          have h2f : ntv2Fixed cfg (fieldBytes i 20) := by
            apply Classical.byContradiction
            intro hc
            exact hnd (.inr ⟨hc, h1'⟩)
          show Ntlm.alt _ _ (fieldBytes i 20) ≠ _
          simp only [Ntlm.alt, Ntlm.pmap]
          rw [ntv2_at cfg _ h2f (by have := h2f.1; omega)]
          rcases hx : Ntlm.many0 (Wire.deserialize cfg : Parser AvPair) ((fieldBytes i 20).drop 28) with e | ⟨l, r⟩
          · rcases many0_avError cfg _ _ (Nat.le_refl _) e hx with rfl | ⟨rfl, _⟩ <;> simp
          · simp
        cases hx : (ntChallenge cfg : TP Verbose _) (rangeOf i 20) with
        | ok v =>
          rw [hx] at sim
          exfalso
          obtain ⟨v, s⟩ := v
          have hd : ∃ v r, (Wire.deserialize cfg : Parser NtChallenge) (fieldBytes i 20) = .ok (v, r) := by
            change Rel i _ _ ((Wire.deserialize cfg : Parser NtChallenge) (fieldBytes i 20)) at sim
            cases hy : (Wire.deserialize cfg : Parser NtChallenge) (fieldBytes i 20) with
            | ok w => exact ⟨w.1, w.2, rfl⟩
            | error e => rw [hy] at sim; cases sim
          exact hnd ((nt_ok cfg _).mp hd)
        | error e =>
          refine ⟨e, rfl, fun r hr => ?_⟩
          subst hr
          rw [hx] at sim
          change Rel i _ _ ((Wire.deserialize cfg : Parser NtChallenge) (fieldBytes i 20)) at sim
          cases hy : (Wire.deserialize cfg : Parser NtChallenge) (fieldBytes i 20) with
          | ok w => rw [hy] at sim; cases sim
          | error e' => rw [hy] at sim; cases sim; exact hbase hy
      · exact absurd h2 id
  exact gives_context "nt_challenge_response" (gives_context "Field::get_data" g)

theorem gives_lm (cfg : Cfg) : Gives (lmResponse (authHeaderAt i) ⟨0, i⟩ : Except (TErr Verbose) _) [rangeCheck i 12] := by
  have rel := rel_lmResponse (closed_true (E := Verbose) i) cfg (authHeaderAt i) (within_self i)
  simp only at rel
  refine ⟨fun ha => ?_, fun r hr => ?_, fun hr => ?_⟩
  · obtain ⟨x, hx⟩ := lmResponse_ok cfg i (allHold_cons.mp ha).1
    rw [hx] at rel
    cases hy : (lmResponse (authHeaderAt i) ⟨0, i⟩ : Except (TErr Verbose) _) with
    | ok v => exact ⟨_, rfl⟩
    | error e => rw [hy] at rel; cases rel
  · rcases hr with ⟨_, h2⟩ | ⟨_, h2⟩
    · cases h2
    · exact absurd h2 id
  · rcases hr with ⟨h1, _⟩ | ⟨_, h2⟩
    · obtain ⟨p, hp⟩ := (lmResponse_panics cfg i).mpr (Classical.not_not.mp h1)
      rw [hp] at rel
      cases hy : (lmResponse (authHeaderAt i) ⟨0, i⟩ : Except (TErr Verbose) _) with
      | ok v => rw [hy] at rel; cases rel
      | error e =>
        rw [hy] at rel
        refine ⟨e, rfl, fun r hr => ?_⟩
        subst hr
        cases rel
    · exact absurd h2 id

theorem gives_key : Gives (getDataIf (bytes "encrypted_random_session_key" 16) "encrypted_random_session_key"
      (fieldAt i 52) ⟨0, i⟩ ((flagsAt i 60).hasFlag Flags.NTLMSSP_NEGOTIATE_KEY_EXCH) : Except (TErr Verbose) _)
    [ (flagAt i 60 30 → ¬ outOfRange i 52, none),
      (flagAt i 60 30 → emptyField i 52 ∨ 16 ≤ u16At i 52,
        some [failed (rangeOf i 52) .eof, inside (rangeOf i 52) "encrypted_random_session_key",
          inside (rangeOf i 52) "Field::get_data", inside (rangeOf i 52) "encrypted_random_session_key"]) ] := by
  have e : (flagsAt i 60).hasFlag Flags.NTLMSSP_NEGOTIATE_KEY_EXCH = (u32At i 60).testBit 30 := by
    rw [hasFlag_testBit _ _ (by decide), flagsAt_bits]; rfl
  rw [e]
  simp only [flagAt]
  cases (u32At i 60).testBit 30
  · have hall : allHold [ ((false = true → ¬ outOfRange i 52), (none : Option Verbose)),
      (false = true → emptyField i 52 ∨ 16 ≤ u16At i 52,
        some [failed (rangeOf i 52) .eof, inside (rangeOf i 52) "encrypted_random_session_key",
          inside (rangeOf i 52) "Field::get_data", inside (rangeOf i 52) "encrypted_random_session_key"]) ] :=
      allHold_cons.mpr ⟨by simp, allHold_cons.mpr ⟨by simp, allHold_nil⟩⟩
    exact ⟨fun _ => ⟨_, rfl⟩, fun r hr => absurd hall (firstFailed_not hr), fun hr => absurd hall (firstFailed_not hr)⟩
  · simp only [true_imp_iff]
    refine gives_getDataIf _ 52 (fun h0 => allHold_cons.mpr ⟨.inl h0, allHold_nil⟩) fun h0 ho => ?_
    have hlen := rangeOf_length 52 ho h0
    have g : Gives ((takeBytes 16 : TP Verbose _) (rangeOf i 52)) [(emptyField i 52 ∨ 16 ≤ u16At i 52,
        some [failed (rangeOf i 52) .eof])] := by
      refine gives_one (fun h => ?_) (fun h => ?_)
      · have : ¬ (rangeOf i 52).data.length < 16 := by
          show ¬ (fieldBytes i 52).length < 16
          rw [hlen]
          have := h.resolve_left h0
          omega
        unfold takeBytes
        rw [dif_neg this]
        exact ⟨_, rfl⟩
      · have : (rangeOf i 52).data.length < 16 := by
          show (fieldBytes i 52).length < 16
          rw [hlen]
          apply Classical.byContradiction
          intro hc
          exact h (.inr (by omega))
        unfold takeBytes
        rw [dif_pos this]
        rfl
    exact gives_context _ (gives_context _ (gives_context _ g))

theorem authenticate_gives (cfg : Cfg) (i : List UInt8) : Gives (run (authenticate cfg) i) (authenticateChecks cfg i) := by
  have hh := steps_authenticateHeader (i := i) cfg
  let body (x : Authenticate.Header × Slice) : Except (TErr Verbose) (Authenticate × Slice) := do
    let v ← (cond (x.1.flags.hasFlag Flags.NTLMSSP_NEGOTIATE_VERSION) (context "Authenticate/version" version) :
      TP Verbose _) x.2
    let m ← (context "Authenticate/mic" (bytes "mic" 16) : TP Verbose _) v.2
    let r ← authenticateBody cfg x.1 v.1 m.1 ⟨0, i⟩
    .ok (r, ⟨0, []⟩)
  have e : run (authenticate cfg : TP Verbose Authenticate) i =
      ((authenticateHeader cfg : TP Verbose _) ⟨0, i⟩ >>= body) := by
    simp only [run, authenticate]
    rcases (authenticateHeader cfg : TP Verbose _) ⟨0, i⟩ with _ | ⟨h, r⟩
    · rfl
    · simp only [bind, Except.bind, body]
      rcases (cond (h.flags.hasFlag Flags.NTLMSSP_NEGOTIATE_VERSION) (context "Authenticate/version" version) :
        TP Verbose _) r with _ | ⟨v, r⟩
      · rfl
      · simp only
        rcases (context "Authenticate/mic" (bytes "mic" 16) : TP Verbose _) r with _ | ⟨m, _⟩
        · rfl
        · simp only
          rcases (authenticateBody cfg h v m ⟨0, i⟩ : Except (TErr Verbose) _) with _ | _ <;> rfl
  rw [e]
  have key := gives_bind (cs' := versionIf i 60 64 "Authenticate/version" ++
    ([ (64 + versionSize i 60 + 16 ≤ i.length,
      some [failed (restAt i (64 + versionSize i 60)) .eof, inside (restAt i (64 + versionSize i 60)) "mic",
        inside (restAt i (64 + versionSize i 60)) "Authenticate/mic"])] ++
    ([rangeCheck i 12] ++ ([rangeCheck i 20,
      (emptyField i 20 ∨ 24 ≤ u16At i 20,
        some [failed (rangeOf i 20) .eof, inside (rangeOf i 20) "response", inside (rangeOf i 20) "Ntv1Challenge",
          failed (rangeOf i 20) .alt, inside (rangeOf i 20) "Field::get_data",
          inside (rangeOf i 20) "nt_challenge_response"]),
      (emptyField i 20 ∨ ntDecodes cfg (fieldBytes i 20), none)] ++
    ([rangeCheck i 28] ++ ([rangeCheck i 36] ++ ([rangeCheck i 44] ++
      [(flagAt i 60 30 → ¬ outOfRange i 52, none),
      (flagAt i 60 30 → emptyField i 52 ∨ 16 ≤ u16At i 52,
        some [failed (rangeOf i 52) .eof, inside (rangeOf i 52) "encrypted_random_session_key",
          inside (rangeOf i 52) "Field::get_data", inside (rangeOf i 52) "encrypted_random_session_key"])]))))))) hh.gives
    (f := body) ?_
  · simp only [List.append_assoc] at key
    simp only [authenticateChecks, List.append_assoc]
    exact key
  · rintro ⟨h, r⟩ hv
    have hr := hh.moves h r hv
    have hall := hh.gives.of_ok hv
    have hhead : hasHeader i 3 64 := by
      simp only [allHold_append, startChecks, descriptorChecks, flagChecks, allHold_cons] at hall
      refine ⟨?_, ?_, ?_⟩
      · omega
      · exact hall.1.1.1.1.1.1.1.1
      · exact hall.1.1.1.1.1.1.1.2.2.1
    have hval : h = authHeaderAt i :=
      header_value (sim_authenticateHeader (closed_true i) cfg) hv (authenticate_header_at cfg i hhead)
    subst hval hr
    have hver := steps_versionIf (i := i) 60 64 "Authenticate/version"
    refine gives_bind hver.gives fun v hvv => ?_
    obtain ⟨v, s⟩ := v
    have := hver.moves v s hvv
    subst this
    refine gives_bind (steps_context "Authenticate/mic" (steps_bytes "mic" 16 (by omega))).gives fun m _ => ?_
    obtain ⟨m, s⟩ := m
    have inner : Gives (authenticateBody cfg (authHeaderAt i) v m ⟨0, i⟩ : Except (TErr Verbose) _) _ :=
      gives_bind (gives_lm cfg) fun _ _ =>
      gives_bind (gives_getDataIf "nt_challenge_response" 20
        (fun h0 => allHold_cons.mpr ⟨Or.inl h0, allHold_cons.mpr ⟨Or.inl h0, allHold_nil⟩⟩) (gives_nt cfg)) fun _ _ =>
      gives_bind (gives_textField cfg 28 "domain") fun _ _ =>
      gives_bind (gives_textField cfg 36 "user") fun _ _ =>
      gives_bind (gives_textField cfg 44 "workstation") fun _ _ =>
      gives_bind (cs' := []) gives_key fun _ _ => gives_ok ⟨_, rfl⟩
    have := gives_bind (cs' := []) inner (f := fun r => .ok (r, (⟨0, []⟩ : Slice))) fun _ _ => gives_ok ⟨_, rfl⟩
    simp only [List.append_nil] at this
    exact this

end Trace

end Ntlm
