import Verif.Props.Session
/-
  C68: the public method `compute_mic`, on any message.
-/
namespace Ntlm.Props

open Spec

/-- C68: with a session key present, `compute_mic` succeeds exactly when the three messages can be encoded. -/
theorem C68_succeeds_iff (P : Prims) (cfg : Cfg) (m : Authenticate) (key : Bytes 16) (hk : m.exportedSessionKey = some key)
    (n : Negotiate) (ch : Challenge) :
    (∃ r, m.computeMic P cfg n ch = .ok r) ↔
      (∃ b, Wire.serialize cfg n = .ok b) ∧ (∃ b, Wire.serialize cfg ch = .ok b) ∧ ∃ b, Wire.serialize cfg m = .ok b := by
  simp only [computeMic_eq P cfg m key hk n ch, serialize_negotiate, serialize_challenge, serialize_authenticate]
  constructor
  · rintro ⟨r, h1, h2, h3, _⟩
    exact ⟨⟨_, h1, rfl⟩, ⟨_, h2, rfl⟩, _, h3, rfl⟩
  · rintro ⟨⟨_, h1, _⟩, ⟨_, h2, _⟩, _, h3, _⟩
    exact ⟨_, h1, h2, h3, rfl⟩

/-- C68: it changes nothing but the 16 bytes of the MIC in the encoding, and puts there the HMAC-MD5, under the session key, of the
    encodings of the two other messages and of the message itself with a zero MIC. -/
theorem C68_value (P : Prims) (cfg : Cfg) (m r : Authenticate) (key : Bytes 16) (hk : m.exportedSessionKey = some key)
    (n : Negotiate) (ch : Challenge) (neg chal before after : List UInt8) (hn : Wire.serialize cfg n = .ok neg)
    (hc : Wire.serialize cfg ch = .ok chal) (hm : Wire.serialize cfg m = .ok before) (hr : m.computeMic P cfg n ch = .ok r)
    (ha : Wire.serialize cfg r = .ok after) :
    r.exportedSessionKey = some key ∧ zeroAt after (micOffset m) = zeroAt before (micOffset m) ∧
      bytesAt after (micOffset m) 16 = (P.hmacMd5 key.val (neg ++ chal ++ zeroAt before (micOffset m))).val := by
  obtain ⟨h1, h2, h3, hre⟩ := (computeMic_eq P cfg m key hk n ch r).mp hr
  obtain ⟨_, rfl⟩ := (serialize_negotiate cfg n _).mp hn
  obtain ⟨_, rfl⟩ := (serialize_challenge cfg ch _).mp hc
  obtain ⟨_, rfl⟩ := (serialize_authenticate cfg m _).mp hm
  obtain ⟨_, rfl⟩ := (serialize_authenticate cfg r _).mp ha
  have ho : micOffset m = micOffset r := by rw [hre]; rfl
  have hz : zeroAt (authenticateBytes r) (micOffset m) = zeroAt (authenticateBytes m) (micOffset m) := by
    rw [zeroAt_bytes m, ho, zeroAt_bytes r, hre]
  refine ⟨by rw [hre]; exact hk, hz, ?_⟩
  rw [ho, micAt_bytes, ← ho, zeroAt_bytes m, hre]

/-- A message with a version block: its MIC is at byte 72. -/
def micSample : Authenticate := { exAuthenticate with version := some ⟨10, 0, 19041, 15⟩ }

example : micOffset micSample = 72 := rfl
example (P : Prims) (cfg : Cfg) : ∃ r neg chal before after, micSample.computeMic P cfg exNegotiate exChallenge = .ok r ∧
    Wire.serialize cfg exNegotiate = .ok neg ∧ Wire.serialize cfg exChallenge = .ok chal ∧
    Wire.serialize cfg micSample = .ok before ∧ Wire.serialize cfg r = .ok after ∧
    bytesAt after (micOffset micSample) 16 =
      (P.hmacMd5 (List.replicate 16 0) (neg ++ chal ++ zeroAt before (micOffset micSample))).val := by
  have h1 := (serialize_negotiate cfg exNegotiate _).mpr ⟨exNegotiate_fits, rfl⟩
  have h2 := (serialize_challenge cfg exChallenge _).mpr ⟨exChallenge_fits, rfl⟩
  have hf : ∀ mic, authenticateFits { micSample with mic := mic } := fun _ => exAuthenticate_fits
  have h3 := (serialize_authenticate cfg micSample _).mpr ⟨hf _, rfl⟩
  have hr := (computeMic_eq P cfg micSample (Bytes.zero 16) rfl exNegotiate exChallenge _).mpr
    ⟨exNegotiate_fits, exChallenge_fits, hf _, rfl⟩
  have h4 mic := (serialize_authenticate cfg _ _).mpr ⟨hf mic, rfl⟩
  exact ⟨_, _, _, _, _, hr, h1, h2, h3, h4 _, (C68_value P cfg _ _ (Bytes.zero 16) rfl _ _ _ _ _ _ h1 h2 h3 hr (h4 _)).2.2⟩

/-- C68: the MIC the message had before does not matter; in particular computing it again changes nothing. -/
theorem C68_again (P : Prims) (cfg : Cfg) (m r : Authenticate) (n : Negotiate) (ch : Challenge) (old : Bytes 16)
    (hr : m.computeMic P cfg n ch = .ok r) (hk : m.exportedSessionKey ≠ none) :
    { m with mic := old }.computeMic P cfg n ch = .ok r ∧ r.computeMic P cfg n ch = .ok r := by
  obtain ⟨key, h⟩ := Option.ne_none_iff_exists'.mp hk
  obtain ⟨h1, h2, h3, hre⟩ := (computeMic_eq P cfg m key h n ch r).mp hr
  constructor
  · exact (computeMic_eq P cfg { m with mic := old } key h n ch r).mpr ⟨h1, h2, h3, hre⟩
  · refine (computeMic_eq P cfg r key (by rw [hre]; exact h) n ch r).mpr ⟨h1, h2, by rw [hre]; exact h3, ?_⟩
    conv => lhs; rw [hre]
    rw [hre]

/-- A message that came with some other MIC. -/
example (P : Prims) (cfg : Cfg) : ∃ r, exAuthenticate.computeMic P cfg exNegotiate exChallenge = .ok r ∧
    { exAuthenticate with mic := ⟨List.replicate 16 0xaa, rfl⟩ }.computeMic P cfg exNegotiate exChallenge = .ok r := by
  have hr := (computeMic_eq P cfg exAuthenticate (Bytes.zero 16) rfl exNegotiate exChallenge _).mpr
    ⟨exNegotiate_fits, exChallenge_fits, exAuthenticate_fits, rfl⟩
  exact ⟨_, hr, (C68_again P cfg _ _ _ _ _ hr (by simp [exAuthenticate])).1⟩

/-- C68: without a session key it changes nothing. -/
theorem C68_no_key (P : Prims) (cfg : Cfg) (m : Authenticate) (n : Negotiate) (ch : Challenge)
    (hk : m.exportedSessionKey = none) : m.computeMic P cfg n ch = .ok m := by
  simp only [Authenticate.computeMic, hk]

example (P : Prims) (cfg : Cfg) : { exAuthenticate with exportedSessionKey := none }.computeMic P cfg exNegotiate exChallenge =
    .ok { exAuthenticate with exportedSessionKey := none } := C68_no_key P cfg _ _ _ rfl

/-- Three messages it succeeds on, one of them with a version block. -/
example (P : Prims) (cfg : Cfg) : ∃ r,
    { exAuthenticate with version := some ⟨10, 0, 19041, 15⟩ }.computeMic P cfg exNegotiate exChallenge = .ok r := by
  refine (C68_succeeds_iff P cfg _ (Bytes.zero 16) rfl exNegotiate exChallenge).mpr
    ⟨⟨_, (serialize_negotiate cfg _ _).mpr ⟨?_, rfl⟩⟩, ⟨_, (serialize_challenge cfg _ _).mpr ⟨exChallenge_fits, rfl⟩⟩,
      _, (serialize_authenticate cfg _ _).mpr ⟨exAuthenticate_fits, rfl⟩⟩
  constructor <;> intro x hx <;> simp [exNegotiate] at hx <;> subst hx <;> decide

/-- The two readings of `compute_mic` agree. -/
theorem C68_effect (P : Prims) (cfg : Cfg) (m r : Authenticate) (n : Negotiate) (ch : Challenge) :
    m.computeMicEffect P cfg n ch = (r, .ok ()) ↔ m.computeMic P cfg n ch = .ok r := by
  obtain ⟨a1, a2, a3, a4, a5, a6, a7, a8, a9, a10⟩ := m
  simp only [Authenticate.computeMicEffect, Authenticate.computeMic, bind, pure]
  cases a10 with
  | none => simp
  | some key =>
    dsimp only
    cases Wire.serializeInto cfg n [] with
    | error e => simp
    | ok x =>
      dsimp only
      cases Wire.serializeInto cfg ch x.2 with
      | error e => simp
      | ok y =>
        dsimp only
        cases Wire.serializeInto cfg (⟨a1, a2, a3, a4, a5, a6, a7, a8, Bytes.zero 16, some key⟩ : Authenticate) y.2 with
        | error e => simp
        | ok z => simp

example (P : Prims) (cfg : Cfg) : ∃ r, exAuthenticate.computeMicEffect P cfg exNegotiate exChallenge = (r, .ok ()) :=
  ⟨_, (C68_effect P cfg _ _ _ _).mpr ((computeMic_eq P cfg exAuthenticate (Bytes.zero 16) rfl exNegotiate exChallenge _).mpr
    ⟨exNegotiate_fits, exChallenge_fits, exAuthenticate_fits, rfl⟩)⟩

/-- C68: if one of the three messages cannot be encoded the call aborts, and leaves the message with a zero MIC and otherwise as it
    was. -/
theorem C68_aborted (P : Prims) (cfg : Cfg) (m : Authenticate) (key : Bytes 16) (hk : m.exportedSessionKey = some key)
    (n : Negotiate) (ch : Challenge)
    (hf : ¬ ((∃ b, Wire.serialize cfg n = .ok b) ∧ (∃ b, Wire.serialize cfg ch = .ok b) ∧ ∃ b, Wire.serialize cfg m = .ok b)) :
    ∃ e, m.computeMicEffect P cfg n ch = ({ m with mic := Bytes.zero 16 }, .error e) := by
  rw [← C68_succeeds_iff P cfg m key hk n ch] at hf
  obtain ⟨a1, a2, a3, a4, a5, a6, a7, a8, a9, a10⟩ := m
  cases hk
  have h := fun r he => hf ⟨r, (C68_effect P cfg _ r n ch).mp he⟩
  simp only [Authenticate.computeMicEffect] at h ⊢
  cases h1 : Wire.serializeInto cfg n [] with
  | error e => exact ⟨e, rfl⟩
  | ok x =>
    simp only [h1] at h ⊢
    cases h2 : Wire.serializeInto cfg ch x.2 with
    | error e => exact ⟨e, rfl⟩
    | ok y =>
      simp only [h2] at h ⊢
      cases h3 : Wire.serializeInto cfg (⟨a1, a2, a3, a4, a5, a6, a7, a8, Bytes.zero 16, some key⟩ : Authenticate) y.2 with
      | error e => exact ⟨e, rfl⟩
      | ok z =>
        simp only [h3] at h
        exact absurd rfl (h _)

/-- A user name of 40000 characters does not fit. -/
example (P : Prims) (cfg : Cfg) : ∃ e,
    { exAuthenticate with user := some ⟨List.replicate 40000 'a'⟩ }.computeMicEffect P cfg exNegotiate exChallenge =
      ({ exAuthenticate with user := some ⟨List.replicate 40000 'a'⟩, mic := Bytes.zero 16 }, .error e) := by
  refine C68_aborted P cfg _ (Bytes.zero 16) rfl _ _ ?_
  rintro ⟨_, _, b, hb⟩
  have hu := ((serialize_authenticate cfg _ b).mp hb).1.2.2.1 _ rfl
  rw [utf16le_replicate] at hu
  omega

end Ntlm.Props
