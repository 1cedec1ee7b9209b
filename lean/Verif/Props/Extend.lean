import Verif.Props.Decode
/-
  C55: bytes after a message, and cut messages.
-/
namespace Ntlm.Props

open Spec

theorem byteAt_append {i : List UInt8} (x : List UInt8) {p : Nat} (h : p < i.length) : byteAt (i ++ x) p = byteAt i p := by
  simp only [byteAt, List.getD_eq_getElem?_getD, List.getElem?_append_left h]

theorem u16At_append {i : List UInt8} (x : List UInt8) {p : Nat} (h : p + 2 ≤ i.length) : u16At (i ++ x) p = u16At i p := by
  simp only [u16At, byteAt_append x (show p < i.length by omega), byteAt_append x (show p + 1 < i.length by omega)]

theorem u32At_append {i : List UInt8} (x : List UInt8) {p : Nat} (h : p + 4 ≤ i.length) : u32At (i ++ x) p = u32At i p := by
  simp only [u32At, u16At_append x (show p + 2 ≤ i.length by omega), u16At_append x (show p + 2 + 2 ≤ i.length by omega)]

theorem bytesAt_append {i : List UInt8} (x : List UInt8) {p n : Nat} (h : p + n ≤ i.length) :
    bytesAt (i ++ x) p n = bytesAt i p n := by
  simp only [bytesAt]
  rw [List.drop_append_of_le_length (by omega), List.take_append_of_le_length (by simp; omega)]

theorem bytesAt_inside {i : List UInt8} {p n : Nat} {v : List UInt8} (h : bytesAt i p n = v) (hv : v.length = n) (hn : 0 < n) :
    p + n ≤ i.length := by
  have := congrArg List.length h
  simp only [bytesAt, List.length_take, List.length_drop] at this
  omega

theorem header_append {i : List UInt8} (x : List UInt8) {t s : Nat} (h : hasHeader i t s) (hs : 12 ≤ s) : hasHeader (i ++ x) t s := by
  obtain ⟨h1, h2, h3⟩ := h
  refine ⟨by simp; omega, ?_, ?_⟩
  · rw [List.take_append_of_le_length (by omega), h2]
  · rw [u32At_append x (by omega), h3]

theorem empty_append {i : List UInt8} (x : List UInt8) {p : Nat} (h : p + 8 ≤ i.length) :
    emptyField (i ++ x) p ↔ emptyField i p := by
  simp only [emptyField, u16At_append x (show p + 2 ≤ i.length by omega)]

theorem range_append {i : List UInt8} (x : List UInt8) {p : Nat} (h : p + 8 ≤ i.length) (hr : ¬ outOfRange i p) :
    ¬ outOfRange (i ++ x) p := by
  simp only [outOfRange, u16At_append x (show p + 2 ≤ i.length by omega), u32At_append x (show p + 4 + 4 ≤ i.length by omega),
    List.length_append] at *
  omega

theorem fieldBytes_append {i : List UInt8} (x : List UInt8) {p : Nat} (h : p + 8 ≤ i.length) (he : ¬ emptyField i p)
    (hr : ¬ outOfRange i p) : fieldBytes (i ++ x) p = fieldBytes i p := by
  simp only [fieldBytes, u16At_append x (show p + 2 ≤ i.length by omega), u32At_append x (show p + 4 + 4 ≤ i.length by omega)]
  apply bytesAt_append
  simp only [outOfRange, emptyField] at *
  omega

theorem field_append {α : Type} {i : List UInt8} (x : List UInt8) {p : Nat} (h : p + 8 ≤ i.length) {P : List UInt8 → α → Prop}
    {v : Option α} (hf : fieldIs i p P v) : fieldIs (i ++ x) p P v := by
  rcases hf with ⟨h1, h2⟩ | ⟨h1, h2, w, h3, h4⟩
  · exact .inl ⟨(empty_append x h).mpr h1, h2⟩
  · exact .inr ⟨fun e => h1 ((empty_append x h).mp e), range_append x h h2, w, h3, by rw [fieldBytes_append x h h1 h2]; exact h4⟩

theorem infos_append {cfg : Cfg} {i : List UInt8} (x : List UInt8) {p : Nat} (h : p + 8 ≤ i.length) {l : List AvPair}
    (hf : infosAre cfg i p l) : infosAre cfg (i ++ x) p l := by
  rcases hf with ⟨h1, h2⟩ | ⟨h1, h2, h3⟩
  · exact .inl ⟨(empty_append x h).mpr h1, h2⟩
  · exact .inr ⟨fun e => h1 ((empty_append x h).mp e), range_append x h h2, by rw [fieldBytes_append x h h1 h2]; exact h3⟩

theorem flag_append {i : List UInt8} (x : List UInt8) {p k : Nat} (h : p + 4 ≤ i.length) :
    flagAt (i ++ x) p k ↔ flagAt i p k := by
  simp only [flagAt, u32At_append x h]

theorem version_append {i : List UInt8} (x : List UInt8) {p s : Nat} (h : p + 4 ≤ i.length) {v : Option Version}
    (hv : versionIs i p s v) : versionIs (i ++ x) p s v := by
  rcases hv with ⟨h1, w, h2, h3, h4⟩ | ⟨h1, h2⟩
  · refine .inl ⟨(flag_append x h).mpr h1, w, h2, h3, ?_⟩
    rw [bytesAt_append x (bytesAt_inside h4 (by simp [versionBytes, length_le]) (by omega)), h4]
  · exact .inr ⟨fun e => h1 ((flag_append x h).mp e), h2⟩

theorem lm_append {i : List UInt8} (x : List UInt8) (h : 64 ≤ i.length) {v : Option LmChallenge} (hl : lmIs i v) :
    lmIs (i ++ x) v := by
  rcases hl with ⟨h1, h2⟩ | ⟨h1, h2, h3⟩
  · exact .inl ⟨(empty_append x (by omega)).mpr h1, h2⟩
  · refine .inr ⟨fun e => h1 ((empty_append x (by omega)).mp e), range_append x (by omega) h2, ?_⟩
    rw [fieldBytes_append x (by omega) h1 h2, flag_append x (by omega)]
    exact h3

theorem key_append {i : List UInt8} (x : List UInt8) (h : 64 ≤ i.length) {v : Option (Bytes 16)} (hk : keyIs i v) :
    keyIs (i ++ x) v := by
  rcases hk with ⟨h1, h2⟩ | ⟨h1, h2⟩
  · exact .inl ⟨fun e => h1 ((flag_append x (by omega)).mp e), h2⟩
  · exact .inr ⟨(flag_append x (by omega)).mpr h1, field_append x (by omega) h2⟩

/-- C55: bytes after an accepted NEGOTIATE message do not change what is read. -/
theorem C55_negotiate_append (cfg : Cfg) (i x : List UInt8) (m : Negotiate) (r : List UInt8)
    (h : (Wire.deserialize cfg : Parser Negotiate) i = .ok (m, r)) :
    (Wire.deserialize cfg : Parser Negotiate) (i ++ x) = .ok (m, r) := by
  rw [C51_negotiate_contents] at *
  obtain ⟨h1, h2, h3, h4, h5, h6⟩ := h
  have hl := h2.1
  exact ⟨h1, header_append x h2 (by omega), by rw [u32At_append x (by omega), h3], version_append x (by omega) h4,
    field_append x (by omega) h5, field_append x (by omega) h6⟩

example (cfg : Cfg) (x : List UInt8) : (Wire.deserialize cfg : Parser Negotiate) (negotiateBytes exNegotiate ++ x) = .ok (exNegotiate, []) :=
  C55_negotiate_append cfg _ x _ _ ((negotiate_roundtrip cfg exNegotiate exNegotiate_fits).mpr exNegotiate_ok)

/-- C55: the same for CHALLENGE. -/
theorem C55_challenge_append (cfg : Cfg) (i x : List UInt8) (m : Challenge) (r : List UInt8)
    (h : (Wire.deserialize cfg : Parser Challenge) i = .ok (m, r)) :
    (Wire.deserialize cfg : Parser Challenge) (i ++ x) = .ok (m, r) := by
  rw [C51_challenge_contents] at *
  obtain ⟨h1, ⟨h2, h2'⟩, h3, h4, h5, h6, h7, h8⟩ := h
  have hl := h2.1
  refine ⟨h1, ⟨header_append x h2 (by omega), ?_⟩, by rw [u32At_append x (by omega), h3],
    by rw [bytesAt_append x (by omega), h4], version_append x (by omega) h5, field_append x (by omega) h6,
    infos_append x (by omega) h7, h8⟩
  rw [u32At_append x (by omega), u32At_append x (by omega)]
  exact h2'

example (cfg : Cfg) (x : List UInt8) : (Wire.deserialize cfg : Parser Challenge) (challengeBytes exChallenge ++ x) = .ok (exChallenge, []) :=
  C55_challenge_append cfg _ x _ _ ((challenge_roundtrip cfg exChallenge exChallenge_fits).mpr (exChallenge_ok cfg))

/-- C55: the same for AUTHENTICATE. -/
theorem C55_authenticate_append (cfg : Cfg) (i x : List UInt8) (m : Authenticate) (r : List UInt8)
    (h : (Wire.deserialize cfg : Parser Authenticate) i = .ok (m, r)) :
    (Wire.deserialize cfg : Parser Authenticate) (i ++ x) = .ok (m, r) := by
  rw [C51_authenticate_contents] at *
  obtain ⟨h1, h2, h3, h4, h5, h6, h7, h8, h9, h10, h11, h12⟩ := h
  have hl := h2.1
  have hs : versionSize (i ++ x) 60 = versionSize i 60 := by simp only [versionSize, u32At_append x (show 60 + 4 ≤ i.length by omega)]
  refine ⟨h1, header_append x h2 (by omega), by rw [u32At_append x (by omega), h3], version_append x (by omega) h4, ?_,
    lm_append x hl h6, field_append x (by omega) h7, field_append x (by omega) h8, field_append x (by omega) h9,
    field_append x (by omega) h10, key_append x hl h11, h12⟩
  rw [hs, bytesAt_append x (bytesAt_inside h5.symm m.mic.property (by omega)), h5]

example (cfg : Cfg) (x : List UInt8) : (Wire.deserialize cfg : Parser Authenticate) (authenticateBytes exAuthenticate ++ x) =
    .ok ({ exAuthenticate with exportedSessionKey := none }, []) :=
  C55_authenticate_append cfg _ x _ _ ((authenticate_roundtrip cfg exAuthenticate exAuthenticate_fits).mpr (exAuthenticate_ok cfg))

/-- C55: cutting a message never turns it into another one of the same type. -/
theorem C55_cut (cfg : Cfg) (i : List UInt8) (k : Nat) :
    (∀ (m m' : Negotiate) r r', (Wire.deserialize cfg : Parser Negotiate) i = .ok (m, r) →
      (Wire.deserialize cfg : Parser Negotiate) (i.take k) = .ok (m', r') → m' = m) ∧
    (∀ (m m' : Challenge) r r', (Wire.deserialize cfg : Parser Challenge) i = .ok (m, r) →
      (Wire.deserialize cfg : Parser Challenge) (i.take k) = .ok (m', r') → m' = m) ∧
    (∀ (m m' : Authenticate) r r', (Wire.deserialize cfg : Parser Authenticate) i = .ok (m, r) →
      (Wire.deserialize cfg : Parser Authenticate) (i.take k) = .ok (m', r') → m' = m) := by
  refine ⟨?_, ?_, ?_⟩
  · intro m m' r r' h h'
    have := C55_negotiate_append cfg _ (i.drop k) m' r' h'
    rw [List.take_append_drop, h] at this
    cases this; rfl
  · intro m m' r r' h h'
    have := C55_challenge_append cfg _ (i.drop k) m' r' h'
    rw [List.take_append_drop, h] at this
    cases this; rfl
  · intro m m' r r' h h'
    have := C55_authenticate_append cfg _ (i.drop k) m' r' h'
    rw [List.take_append_drop, h] at this
    cases this; rfl

/-- Both hypotheses are met by an encoded challenge with two more bytes, cut back to its length. -/
example (cfg : Cfg) : (Wire.deserialize cfg : Parser Challenge) (challengeBytes exChallenge ++ [1, 2]) = .ok (exChallenge, []) ∧
    (Wire.deserialize cfg : Parser Challenge) ((challengeBytes exChallenge ++ [1, 2]).take (challengeBytes exChallenge).length) =
      .ok (exChallenge, []) := by
  have h := (challenge_roundtrip cfg exChallenge exChallenge_fits).mpr (exChallenge_ok cfg)
  refine ⟨C55_challenge_append cfg _ _ _ _ h, ?_⟩
  rw [List.take_left]
  exact h

end Ntlm.Props
