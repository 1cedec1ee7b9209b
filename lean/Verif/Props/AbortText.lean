import Verif.Lemmas.AbortText
import Verif.Model.AbortText
/-
  C94: the message of an abort of a decoder.
-/
namespace Ntlm.Props

open Spec Trace

theorem aborts_of_says {i : List UInt8} {m : Msg} {ps : List Nat} (h : firstOut i ps m) : ∃ p ∈ ps, outOfRange i p := by
  induction ps with
  | nil => exact absurd h id
  | cons p ps ih =>
    rcases h with ⟨h, _⟩ | ⟨_, h⟩
    · exact ⟨p, by simp, h⟩
    · obtain ⟨q, h1, h2⟩ := ih h
      exact ⟨q, by simp [h1], h2⟩

theorem firstOut_inside {i : List UInt8} {m : Msg} {ps : List Nat} (h : ∀ p ∈ ps, ¬ outOfRange i p) : ¬ firstOut i ps m :=
  fun hf => by obtain ⟨p, h1, h2⟩ := aborts_of_says hf; exact h p h1 h2

theorem firstOut_unique {i : List UInt8} {m m' : Msg} {ps : List Nat} (h : firstOut i ps m) (h' : firstOut i ps m') : m = m' := by
  induction ps with
  | nil => exact absurd h id
  | cons p ps ih =>
    rcases h with ⟨h1, rfl⟩ | ⟨h1, h2⟩
    · rcases h' with ⟨_, rfl⟩ | ⟨h3, _⟩
      · rfl
      · exact absurd h1 h3
    · rcases h' with ⟨h3, _⟩ | ⟨_, h3⟩
      · exact absurd h3 h1
      · exact ih h2 h3

theorem trace_panics {E α : Type} [NomError E] {p : TP E α} {q : Parser α} {i : List UInt8}
    (h : Sim i (fun _ => True) p q) (hq : panics (q i)) : ∃ pp m, run p i = .error (.panic pp m) := by
  obtain ⟨pp, hq⟩ := hq
  have := h ⟨0, i⟩ (within_self i)
  simp only [run] at this ⊢
  rw [hq] at this
  generalize p ⟨0, i⟩ = x at this ⊢
  cases this
  exact ⟨_, _, rfl⟩

/-- C94: the message with which decoding a NEGOTIATE message aborts. -/
theorem C94_negotiate {E : Type} [NomError E] (cfg : Cfg) (i : List UInt8) (m : Msg) :
    (∃ p, run (negotiate cfg : TP E Negotiate) i = .error (.panic p m)) ↔ negotiateSays i m := by
  refine ⟨fun ⟨p, h⟩ => negotiate_says h, fun h => ?_⟩
  have hab : negotiateAborts i := by
    obtain ⟨h1, h2, h3 | ⟨h3, h4, h5⟩⟩ := h
    · obtain ⟨p, hp, ho⟩ := aborts_of_says h3
      simp only [List.mem_singleton] at hp
      exact ⟨h1, h2, .inl (hp ▸ ho)⟩
    · obtain ⟨p, hp, ho⟩ := aborts_of_says h5
      simp only [List.mem_singleton] at hp
      exact ⟨h1, h2, .inr ⟨h4, hp ▸ ho⟩⟩
  obtain ⟨p, m', hx⟩ := trace_panics (sim_negotiate (closed_true (E := E) i) cfg) ((negotiate_panics cfg i).mpr hab)
  have h' := negotiate_says hx
  have : m' = m := by
    rcases h.2.2 with g | ⟨g1, _, g⟩ <;> rcases h'.2.2 with k | ⟨k1, _, k⟩
    · exact firstOut_unique k g
    · exact absurd g (firstOut_inside (by simpa using k1))
    · exact absurd k (firstOut_inside (by simpa using g1))
    · exact firstOut_unique k g
  exact ⟨p, this ▸ hx⟩

/-- A NEGOTIATE message of 32 bytes whose domain is said to be the bytes from 40 to 45. -/
def exFar : List UInt8 := ntlmssp ++ [1, 0, 0, 0, 0, 0, 0, 0, 5, 0, 5, 0, 40, 0, 0, 0, 0, 0, 0, 0, 0, 0, 0, 0]

example : run (negotiate ⟨false, false, .unix⟩ : TP Unit Negotiate) exFar = .error (.panic .sliceIndex (.outOfRange 40 45 32)) ∧
    negotiateSays exFar (.outOfRange 40 45 32) ∧
    (Msg.outOfRange 40 45 32).text false = "range end index 45 out of range for slice of length 32".toList ∧
    (Msg.outOfRange 40 45 32).text true = "range start index 40 out of range for slice of length 32".toList :=
  ⟨rfl, (C94_negotiate (E := Unit) ⟨false, false, .unix⟩ exFar _).mp ⟨_, rfl⟩, by decide +kernel, by decide +kernel⟩

/-- C94: the message with which decoding a CHALLENGE message aborts. -/
theorem C94_challenge {E : Type} [NomError E] (cfg : Cfg) (i : List UInt8) (m : Msg) :
    (∃ p, run (challenge cfg : TP E Challenge) i = .error (.panic p m)) ↔ challengeSays cfg i m := by
  refine ⟨fun ⟨p, h⟩ => challenge_says h, fun h => ?_⟩
  have hab : challengeAborts cfg i := by
    obtain ⟨h1, h2, h3 | ⟨h3, h4, h5, h6, n, h7, _⟩⟩ := h
    · obtain ⟨p, hp, ho⟩ := aborts_of_says h3
      simp only [List.mem_cons, List.not_mem_nil, or_false] at hp
      rcases hp with rfl | rfl
      · exact ⟨h1, h2, .inl ho⟩
      · exact ⟨h1, h2, .inr (.inl ho)⟩
    · exact ⟨h1, h2, .inr (.inr ⟨h5, h6, avLeft_residue h7⟩)⟩
  obtain ⟨p, m', hx⟩ := trace_panics (sim_challenge (closed_true (E := E) i) cfg) ((challenge_panics cfg i).mpr hab)
  have h' := challenge_says hx
  have : m' = m := by
    rcases h.2.2 with g | ⟨g1, g2, _, _, n, g3, rfl⟩ <;> rcases h'.2.2 with k | ⟨k1, k2, _, _, n', k3, rfl⟩
    · exact firstOut_unique k g
    · exact absurd g (firstOut_inside (by simp [k1, k2]))
    · exact absurd k (firstOut_inside (by simp [g1, g2]))
    · rw [avLeft_unique k3 g3]
  exact ⟨p, this ▸ hx⟩

/-- A CHALLENGE message with target infos whose first value, the flags, has five bytes. -/
def exLong : List UInt8 := ntlmssp ++ [2, 0, 0, 0] ++ List.replicate 28 0 ++ [13, 0, 13, 0, 48, 0, 0, 0] ++
  [6, 0, 5, 0, 2, 0, 0, 0, 9, 0, 0, 0, 0]

example : run (challenge ⟨true, false, .unix⟩ : TP Unit Challenge) exLong = .error (.panic .debugAssert (.leftOver 1)) ∧
    challengeSays ⟨true, false, .unix⟩ exLong (.leftOver 1) ∧
    (Msg.leftOver 1).text true = "assertion `left == right` failed\n  left: 1\n right: 0".toList ∧
    ∃ m r, run (challenge ⟨false, false, .unix⟩ : TP Unit Challenge) exLong = .ok (m, r) :=
  ⟨rfl, (C94_challenge (E := Unit) ⟨true, false, .unix⟩ exLong _).mp ⟨_, rfl⟩, by decide +kernel, _, _, rfl⟩

theorem ntLeft_not_decodes {cfg : Cfg} {b : List UInt8} (hd : cfg.debug = true) (hf : ntv2Fixed cfg b) {n : Nat}
    (h : AvLeft cfg (b.drop 28) n) : ¬ ntDecodes cfg b := by
  intro hn
  obtain ⟨v, r, hok⟩ := (nt_ok cfg b).mpr hn
  have hp := (nt_panics cfg b).mpr ⟨hd, hf, avLeft_residue h⟩
  rw [hok] at hp
  exact panics_ok _ hp

/-- C94: the message with which decoding an AUTHENTICATE message aborts. -/
theorem C94_authenticate {E : Type} [NomError E] (cfg : Cfg) (i : List UInt8) (m : Msg) :
    (∃ p, run (authenticate cfg : TP E Authenticate) i = .error (.panic p m)) ↔ authenticateSays cfg i m := by
  refine ⟨fun ⟨p, h⟩ => authenticate_says h, fun h => ?_⟩
  have hab : authenticateAborts cfg i := by
    obtain ⟨h1, h2, h3, h4⟩ := h
    refine ⟨h1, h2, h3, ?_⟩
    rcases h4 with h4 | ⟨_, _, g3, g4, g5, n, g6, _⟩ | ⟨_, _, g3, g4 | ⟨_, _, _, g7, g8⟩⟩
    · obtain ⟨p, hp, ho⟩ := aborts_of_says h4
      simp only [List.mem_cons, List.not_mem_nil, or_false] at hp
      rcases hp with rfl | rfl
      · exact .inl ho
      · exact .inr (.inl ho)
    · exact .inr (.inr (.inl ⟨g3, g4, g5, avLeft_residue g6⟩))
    · obtain ⟨p, hp, ho⟩ := aborts_of_says g4
      simp only [List.mem_cons, List.not_mem_nil, or_false] at hp
      rcases hp with rfl | rfl | rfl
      · exact .inr (.inr (.inr ⟨g3, .inl ho⟩))
      · exact .inr (.inr (.inr ⟨g3, .inr (.inl ho)⟩))
      · exact .inr (.inr (.inr ⟨g3, .inr (.inr (.inl ho))⟩))
    · obtain ⟨p, hp, ho⟩ := aborts_of_says g8
      simp only [List.mem_singleton] at hp
      exact .inr (.inr (.inr ⟨g3, .inr (.inr (.inr ⟨g7, hp ▸ ho⟩))⟩))
  obtain ⟨p, m', hx⟩ := trace_panics (sim_authenticate (closed_true (E := E) i) cfg)
    ((authenticate_panics cfg i).mpr hab)
  have h' := authenticate_says hx
  have hlow : ∀ {k}, (firstOut i [28, 36, 44] k ∨
      (¬ outOfRange i 28 ∧ ¬ outOfRange i 36 ∧ ¬ outOfRange i 44 ∧ flagAt i 60 30 ∧ firstOut i [52] k)) →
      ∀ {k'}, (firstOut i [28, 36, 44] k' ∨
      (¬ outOfRange i 28 ∧ ¬ outOfRange i 36 ∧ ¬ outOfRange i 44 ∧ flagAt i 60 30 ∧ firstOut i [52] k')) → k = k' := by
    rintro k (g | ⟨g1, g2, g3, _, g⟩) k' (j | ⟨j1, j2, j3, _, j⟩)
    · exact firstOut_unique g j
    · exact absurd g (firstOut_inside (by simp [j1, j2, j3]))
    · exact absurd j (firstOut_inside (by simp [g1, g2, g3]))
    · exact firstOut_unique g j
  have : m' = m := by
    rcases h.2.2.2 with g | ⟨g1, g2, g3, g0, gf, n, g4, rfl⟩ | ⟨g1, g2, gn, g⟩ <;>
      rcases h'.2.2.2 with k | ⟨k1, k2, k3, k0, kf, n', k4, rfl⟩ | ⟨k1, k2, kn, k⟩
    · exact firstOut_unique k g
    · exact absurd g (firstOut_inside (by simp [k1, k2]))
    · exact absurd g (firstOut_inside (by simp [k1, k2]))
    · exact absurd k (firstOut_inside (by simp [g1, g2]))
    · rw [avLeft_unique k4 g4]
    · rcases kn with kn | kn
      · exact absurd kn g0
      · exact absurd kn (ntLeft_not_decodes g3 gf g4)
    · exact absurd k (firstOut_inside (by simp [g1, g2]))
    · rcases gn with gn | gn
      · exact absurd gn k0
      · exact absurd gn (ntLeft_not_decodes k3 kf k4)
    · exact hlow k g
  exact ⟨p, this ▸ hx⟩

/-- An AUTHENTICATE message of 80 bytes whose user is said to be the bytes from 78 to 82, and its workstation beyond that. -/
def exUser : List UInt8 := ntlmssp ++ [3, 0, 0, 0] ++ List.replicate 24 0 ++ [4, 0, 4, 0, 78, 0, 0, 0] ++
  [9, 0, 9, 0, 255, 0, 0, 0] ++ List.replicate 28 0

example : run (authenticate ⟨true, false, .unix⟩ : TP Unit Authenticate) exUser =
      .error (.panic .sliceIndex (.outOfRange 78 82 80)) ∧
    authenticateSays ⟨true, false, .unix⟩ exUser (rangeMsg exUser 36) ∧ rangeMsg exUser 44 = .outOfRange 255 264 80 :=
  ⟨rfl, (C94_authenticate (E := Unit) ⟨true, false, .unix⟩ exUser _).mp ⟨_, rfl⟩, rfl⟩

/-- C94: a message signature never aborts. -/
theorem C94_signature {E : Type} [NomError E] (cfg : Cfg) (i : List UInt8) (p : Panic) (m : Msg) :
    run (messageSignature : TP E MessageSignature) i ≠ .error (.panic p m) :=
  silent (sim_messageSignature (closed_true i) cfg) (within_self i) ((fixed_signature cfg).noPanic _)

/-- C94: the text that is printed: about the stop of the range (or, with a newer standard library, about its start if that is
    outside already), or about the number of bytes left over. -/
theorem C94_text (newer : Bool) (i : List UInt8) (pos n : Nat) :
    (rangeMsg i pos).text newer =
      (if newer = true ∧ i.length < u32At i (pos + 4) then startText (u32At i (pos + 4)) i.length
       else endText (u32At i (pos + 4) + u16At i pos) i.length) ∧
    (Msg.leftOver n).text newer = leftText n := by
  have e : ∀ a b l, (Msg.outOfRange a b l).text newer =
      if (newer && decide (l < a)) = true then startText a l else endText b l := fun _ _ _ => rfl
  refine ⟨?_, rfl⟩
  unfold rangeMsg
  rw [e]
  cases newer
  · rw [if_neg (by simp), if_neg (by simp)]
  · by_cases h : i.length < u32At i (pos + 4)
    · rw [if_pos (by simp [h]), if_pos ⟨rfl, h⟩]
    · rw [if_neg (by simp [h]), if_neg (fun hc => h hc.2)]

end Ntlm.Props
