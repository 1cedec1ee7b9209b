import Verif.Props.Server
import Verif.Props.Edit
/-
  C62: a whole exchange over the network.
-/
namespace Ntlm.Props

open Spec Client

theorem exchange_eq (h : List Op) (junk : List UInt8) (ch : Challenge) :
    exchange h junk ch = (h ++ [.sendNegociate junk]) ++ [.recvChallenge ch] := by simp [exchange]

theorem exchange_pending (h : List Op) (junk : List UInt8) : pending (h ++ [.sendNegociate junk]) :=
  ⟨h, junk, [], rfl, by simp⟩

theorem exchange_first {P : Prims} {cm : CaseMap} {cfg : Cfg} {ver : UInt32} (hver : ver.toNat ≤ 5) {l : Login} {c : Client}
    (hc : created P cm l c) (hn : negotiable ver l.domain) (h : List Op) (junk junk' : List UInt8) (ch : Challenge)
    (rnd : AuthRand) (b : List UInt8)
    (hb : resultOf P cfg ver c (exchange h junk ch) (.sendAuthenticate rnd junk') = .ok b) :
    firstAnswer P cfg ver c (exchange h junk ch ++ [.sendAuthenticate rnd junk']) ch rnd b := by
  obtain ⟨n, h1, h2⟩ := (negotiable_iff P cm l c hc ver).mp hn
  refine ⟨_, junk', [], rfl, by simp, ?_, hb⟩
  rw [exchange_eq]
  exact unanswered_recv P cfg hver c (created_state hc).1 n h1 h2 _ ch (exchange_pending h junk)

/-- The first two steps, and which of the client's answers is meant. -/
theorem exchange_start {P : Prims} {cm : CaseMap} {cfg : Cfg} {ver : UInt32} {l : Login} {c : Client}
    (hc : created P cm l c) (hn : negotiable ver l.domain) (server : Cfg) (h : List Op) (junk : List UInt8)
    (ch : Challenge) (hch : challengeOk cfg ch) (wire : List UInt8) (hw : Wire.serialize server ch = .ok wire) :
    (∃ nb n, resultOf P cfg ver c h (.sendNegociate junk) = .ok nb ∧
      (Wire.deserialize server : Parser Negotiate) nb = .ok (n, [])) ∧
    (Wire.deserialize cfg : Parser Challenge) wire = .ok (ch, []) ∧ accepted (exchange h junk ch) ch ∧
    ∀ rnd b junk', Answers P cm cfg ver l (exchange h junk ch) ch rnd b →
      resultOf P cfg ver c (exchange h junk ch) (.sendAuthenticate rnd junk') = .ok b := by
  have hacc : accepted (exchange h junk ch) ch := by
    rw [exchange_eq]
    exact (accepted_snoc _ _ ch).mpr (.inl ⟨rfl, exchange_pending h junk⟩)
  refine ⟨?_, ?_, hacc, ?_⟩
  · obtain ⟨n, h1, h2⟩ := (negotiable_iff P cm l c hc ver).mp hn
    have hr : resultOf P cfg ver c h (.sendNegociate junk) = .ok (negotiateBytes n) := by
      obtain ⟨s, b', e⟩ := run_reset P cfg ver c h
      simp only [resultOf, step, sendNegociate_eq, e, negotiateMessage_reset, h1,
        (serialize_negotiate cfg n _).mpr ⟨h2, rfl⟩]
    obtain ⟨n', hn', _⟩ := C36_negotiate P cm cfg ver l c hc h junk _ hr server
    exact ⟨_, n', hr, hn'⟩
  · rw [serialize_challenge, ← serialize_challenge cfg] at hw
    exact (C02_challenge_roundtrip cfg ch wire hw).mpr hch
  · intro rnd b junk' hb
    obtain ⟨_, c', j, hc', hr⟩ := hb
    obtain rfl : c' = c := by
      have h2 : created P cm l c := hc
      simp only [created] at hc' h2
      rw [hc'] at h2
      simpa using h2
    rw [← hr]
    exact C34_first_challenge P cm cfg ver l c' hc _ _ ch hacc hacc _ _ _

/-- C62, NTLMv1: whatever the client did before, an exchange with a server that sends a well-formed challenge goes through.  The
    negotiate message is decoded by the server; the challenge is decoded by the client as it was; the answer passes the
    server's check of the NT response; without the VERSION flag (25) the server reads the client's user and
    domain; and with extended session security (19) and key exchange both ends hold the same session key. -/
theorem C62_v1 (P : Prims) (cm : CaseMap) (cfg server : Cfg) (ver : UInt32) (hver : isV1 ver) (l : Login) (c : Client)
    (hc : created P cm l c) (hnames : namesFit cm l) (h : List Op) (junk junk' : List UInt8) (rnd : AuthRand)
    (ch : Challenge) (hch : challengeOk cfg ch) (wire : List UInt8) (hw : Wire.serialize server ch = .ok wire) :
    (∃ nb n, resultOf P cfg ver c h (.sendNegociate junk) = .ok nb ∧
      (Wire.deserialize server : Parser Negotiate) nb = .ok (n, [])) ∧
    (Wire.deserialize cfg : Parser Challenge) wire = .ok (ch, []) ∧
    ∃ b, resultOf P cfg ver c (exchange h junk ch) (.sendAuthenticate rnd junk') = .ok b ∧
      verifiesNtlmv1 P (P.md4 (utf16le l.password)) ch.serverChallenge b ∧
      (¬ bit ch.negotiateFlags 25 → ∃ a, (Wire.deserialize server : Parser Authenticate) b = .ok (a, []) ∧
        a.user = readText l.user ∧ a.domain = readText l.domain) ∧
      (bit ch.negotiateFlags 19 → keyExchange ch.negotiateFlags →
        exportsKey (run P cfg ver c (exchange h junk ch ++ [.sendAuthenticate rnd junk'])) rnd.exportedKey ∧
        ∀ lmHash k, serverSessionKeyV1 P ch.negotiateFlags (P.md4 (utf16le l.password)) lmHash ch.serverChallenge b k ↔
          k = rnd.exportedKey.val) := by
  have hv5 : ver.toNat ≤ 5 := by simp only [isV1] at hver; omega
  have hn : negotiable ver l.domain := ⟨hv5, hnames.1⟩
  obtain ⟨e1, e2, hacc, e3⟩ := exchange_start hc hn server h junk ch hch wire hw
  obtain ⟨b, hb⟩ := C46_v1 P cm cfg ver hver l (exchange h junk ch) ch hacc rnd c hc hnames
  have hr := e3 rnd b junk' hb
  have hf := exchange_first hv5 hc hn h junk junk' ch rnd b hr
  refine ⟨e1, e2, b, hr, C56_v1_accepted P cm cfg ver hver l _ ch rnd b hb, ?_, ?_⟩
  · intro h25
    obtain ⟨n, a, w, _, _, _, _, _, lm, _, _, _, hd⟩ := C39_v1_decodes_partial P cm cfg ver hver l c hc _ ch h25 rnd b hf server
    exact ⟨_, hd, rfl, rfl⟩
  · intro h19 hx
    have := fun lmHash => C57_v1_agree P cm cfg ver hver l c hc _ ch h19 hx rnd b hf lmHash
    exact ⟨(this (Bytes.zero 16)).1, fun lmHash => (this lmHash).2⟩

/-- C62, NTLMv2: the same if the target info is at most 65507 bytes, and the client's clock and the challenge's contents can be
    represented on both machines.  Here the answer always decodes, and its LM response passes the server's check
    (the NT response does not, see C29). -/
theorem C62_v2 (P : Prims) (cm : CaseMap) (cfg server : Cfg) (ver : UInt32) (hver : isV2 ver) (l : Login) (c : Client)
    (hc : created P cm l c) (hnames : namesFit cm l) (h : List Op) (junk junk' : List UInt8) (rnd : AuthRand)
    (hclock : 0 ≤ rnd.clock.secs ∧ rnd.clock.secs * 1000000 < 2 ^ 64)
    (ch : Challenge) (hch : challengeOk cfg ch) (wire : List UInt8) (hw : Wire.serialize server ch = .ok wire)
    (hlen : (avListBytes ch.targetInfos).length ≤ 65507) (hsrv : ∀ p ∈ ch.targetInfos, pairOk server p)
    (htime : ∀ t, clientTime ch.targetInfos rnd.clock t → timeOk server t) :
    (∃ nb n, resultOf P cfg ver c h (.sendNegociate junk) = .ok nb ∧
      (Wire.deserialize server : Parser Negotiate) nb = .ok (n, [])) ∧
    (Wire.deserialize cfg : Parser Challenge) wire = .ok (ch, []) ∧
    ∃ b a, resultOf P cfg ver c (exchange h junk ch) (.sendAuthenticate rnd junk') = .ok b ∧
      verifiesLmv2 P (Spec.ntlmv2Hash P cm l) ch.serverChallenge b ∧
      (Wire.deserialize server : Parser Authenticate) b = .ok (a, []) ∧
        a.user = readText l.user ∧ a.domain = readText l.domain := by
  have hv5 : ver.toNat ≤ 5 := hver.2
  have hn : negotiable ver l.domain := ⟨hv5, hnames.1⟩
  obtain ⟨e1, e2, hacc, e3⟩ := exchange_start hc hn server h junk ch hch wire hw
  obtain ⟨b, hb⟩ := C46_v2_partial P cm cfg ver hver l (exchange h junk ch) wire ch [] e2 hlen hacc rnd hclock c hc hnames
  have hr := e3 rnd b junk' hb
  have hf := exchange_first hv5 hc hn h junk junk' ch rnd b hr
  obtain ⟨n, a, w, _, _, _, _, _, hd⟩ := C39_v2_decodes_partial P cm cfg ver hver l c hc _ ch rnd b hf server htime hsrv
  exact ⟨e1, e2, b, _, hr, C56_v2_lm_accepted P cm cfg ver hver l _ ch rnd b hb, hd, rfl, rfl⟩

/-- The hypotheses are met by the example login and challenge, even after an aborted call. -/
example (P : Prims) (cm : CaseMap) (cfg server : Cfg) : ∃ c b, created P cm exLogin c ∧
    resultOf P cfg 2 c (exchange [.sendAuthenticate exRand []] [] exChallenge) (.sendAuthenticate exRand []) = .ok b ∧
      verifiesNtlmv1 P (P.md4 (utf16le exLogin.password)) exChallenge.serverChallenge b := by
  obtain ⟨c, hc⟩ := exLogin_created P cm
  obtain ⟨_, _, b, hb, hv, _⟩ := C62_v1 P cm cfg server 2 (by simp [isV1]) exLogin c hc (exLogin_names cm)
    [.sendAuthenticate exRand []] [] [] exRand exChallenge (exChallenge_ok cfg) _
    ((serialize_challenge server exChallenge _).mpr ⟨exChallenge_fits, rfl⟩)
  exact ⟨c, b, hc, hb, hv⟩

example (P : Prims) (cm : CaseMap) (cfg server : Cfg) : ∃ c b a, created P cm exLogin c ∧
    resultOf P cfg 3 c (exchange [] [] exChallenge) (.sendAuthenticate exRand []) = .ok b ∧
      (Wire.deserialize server : Parser Authenticate) b = .ok (a, []) ∧ a.user = some ⟨"user".toList⟩ := by
  obtain ⟨c, hc⟩ := exLogin_created P cm
  obtain ⟨_, _, b, a, hb, hv, hd, hu, _⟩ := C62_v2 P cm cfg server 3 (by simp [isV2]) exLogin c hc (exLogin_names cm)
    [] [] [] exRand (by decide) exChallenge (exChallenge_ok cfg) _
    ((serialize_challenge server exChallenge _).mpr ⟨exChallenge_fits, rfl⟩) (by decide) (exChallenge_ok server).2.2.2 (by
      intro t ht
      obtain rfl : t = ⟨5, 7⟩ := timeUsed_unique (timeUsed_client.mpr ht) (.inl rfl)
      cases hc : server.platform <;> simp [timeOk, fileTimeValue, Platform.maxSecs, hc])
  exact ⟨c, b, a, hc, hb, hd, by rw [hu]; decide⟩

end Ntlm.Props
