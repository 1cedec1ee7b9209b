import Verif.Props.Session
import Verif.Prims.Cipher
/-
  C30 to C32 are false, with the primitives the crate is linked with.
-/
namespace Ntlm.Props

open Spec Client

/-- The LM response field of an NTLMv1 message of level 1 without extended session security. -/
theorem plain_lm_field {cm : CaseMap} {cfg : Cfg} {h : List Op} {b : List UInt8}
    (hb : Answers Prims.std cm cfg 1 exLogin h plainChallenge exRand b) :
    fieldBytes b 12 = (desl Prims.std (Prims.std.md4 (utf16le exLogin.password)) plainChallenge.serverChallenge).val := by
  obtain ⟨_, _, c, hc, hf, rfl⟩ := (answers_v1 Prims.std cm cfg (by simp [isV1]) _ _ _ _ _).mp hb
  rw [(sent_layout _ hf rfl).2.2.2.2.1.1, ← (created_fields hc).2.2.2.1]
  rfl

/-- C30 is false without extended session security: there the key-exchange key should be the session base key.  A client of
    level 1 whose server asks for signing and key exchange does not encrypt the session key under it, so that the server recovers
    another key than the client holds. -/
theorem C30_refuted (cm : CaseMap) (cfg : Cfg) : ∃ (l : Login) (c : Client) (h : List Op) (ch : Challenge) (rnd : AuthRand)
    (b : List UInt8), created Prims.std cm l c ∧ firstAnswer Prims.std cfg 1 c h ch rnd b ∧ keyExchange ch.negotiateFlags ∧
      exportsKey (run Prims.std cfg 1 c h) rnd.exportedKey ∧
      ∀ kek lmowf, isKxkey Prims.std ch.negotiateFlags (Prims.std.md4 (Prims.std.md4 (utf16le l.password)).val) (fieldBytes b 12) lmowf
        ch.serverChallenge kek.val → ¬ serverKey Prims.std b kek rnd.exportedKey.val := by
  have hv : isV1 1 := by simp [isV1]
  obtain ⟨b, hb⟩ := exAnswers_v1' Prims.std cm cfg 1 hv plainChallenge exRand
  obtain ⟨c, hc, hf⟩ := exFirstAnswer Prims.std cm cfg 1 (by decide) plainChallenge exRand b hb [] (by simp)
  have h19 : ¬ bit plainChallenge.negotiateFlags 19 := by simp only [bit]; decide
  have h7 : ¬ bit plainChallenge.negotiateFlags 7 := by simp only [bit]; decide
  have h22 : ¬ bit plainChallenge.negotiateFlags 22 := by simp only [bit]; decide
  have hx : keyExchange plainChallenge.negotiateFlags := ⟨by simp only [bit]; decide, .inl (by simp only [bit]; decide)⟩
  obtain ⟨h52, hex⟩ := (C30_key_used Prims.std cm cfg 1 hv _ c hc _ _ _ _ hf _ rfl).1 hx
  refine ⟨exLogin, c, _, plainChallenge, exRand, b, hc, hf, hx, hex, ?_⟩
  intro kek lmowf hk
  obtain rfl : kek = _ := Subtype.ext (hk.2.2.2 h19 h7 h22)
  rw [plain_lm_field hb] at h52
  rintro (⟨_, e, he, hk⟩ | ⟨hn, _⟩)
  · rw [h52.1] at he
    rw [rc4k, he] at hk
    revert hk
    decide +kernel
  · exact hn (key_exch_set Prims.std cm cfg 1 _ _ _ _ _ hb)

/-- C31 is false in general: without a key exchange the server arrives at another key. -/
theorem C31_refuted (cm : CaseMap) (cfg : Cfg) : ∃ (l : Login) (c : Client) (h : List Op) (ch : Challenge) (rnd : AuthRand)
    (b : List UInt8) (kek : Bytes 16), created Prims.std cm l c ∧ firstAnswer Prims.std cfg 1 c h ch rnd b ∧
      keyExchangeKey Prims.std cm 1 l ch rnd b kek ∧ ¬ ∃ k, exportsKey (run Prims.std cfg 1 c h) k ∧ serverKey Prims.std b kek k.val := by
  obtain ⟨b, hb⟩ := exAnswers_v1' Prims.std cm cfg 1 (by simp [isV1]) quietChallenge exRand
  have hlm : fieldBytes b 12 = exRand.clientChallenge.val ++ List.replicate 16 0 := by
    obtain ⟨_, _, c, hc, hf, rfl⟩ := (answers_v1 Prims.std cm cfg (by simp [isV1]) _ _ _ _ _).mp hb
    rw [(sent_layout _ hf rfl).2.2.2.2.1.1]
    rfl
  obtain ⟨c, hc, hf⟩ := exFirstAnswer Prims.std cm cfg 1 (by decide) quietChallenge exRand b hb [] (by simp)
  have hk : keyExchangeKey Prims.std cm 1 exLogin quietChallenge exRand b _ := .inl ⟨by simp [isV1], rfl⟩
  refine ⟨exLogin, c, _, quietChallenge, exRand, b, _, hc, hf, hk, ?_⟩
  rw [C31_agree_iff Prims.std cm cfg 1 exLogin c hc _ _ _ _ hf _ hk]
  rintro (h | h)
  · exact absurd h.1 (by simp only [bit]; decide)
  · rw [hlm] at h
    revert h
    decide +kernel

/-- The client of `exLogin`, up to its LM hash. -/
def stdClient (lm : Bytes 16) : Client :=
  ⟨.new, exLogin.user, lm, Prims.std.md4 (utf16le exLogin.password),
    Prims.std.hmacMd5 (Prims.std.md4 (utf16le exLogin.password)).val (utf16le ("USER".toList ++ exLogin.domain)),
    exLogin.domain, some "WS".toList, exLogin.target, [], none⟩

theorem stdClient_created {cm : CaseMap} {c : Client} (hc : created Prims.std cm exLogin c) : ∃ lm, c = stdClient lm := by
  have hw := exLogin_workstation hc
  obtain ⟨_, _, _, hnt, hv2, _⟩ := created_fields hc
  obtain ⟨lm, w, _, _, rfl⟩ := (created_iff Prims.std cm exLogin c).mp hc
  simp only at hw hv2 hnt
  have hu : exLogin.user.flatMap cm.up = "USER".toList := by
    have := upper_ascii cm (s := exLogin.user) (by simp [ascii, exLogin])
    simpa [CaseMap.upper] using this.trans (by decide)
  refine ⟨lm, ?_⟩
  rw [hw, hv2, hnt, Spec.ntlmv2Hash, hu]
  rfl

/-- The negotiate message of that client. -/
def stdNegotiate : Negotiate :=
  match negotiateMessage 3 (stdClient (Bytes.zero 16)) with
  | .ok n => n
  | .error _ => Negotiate.default

theorem stdNegotiate_eq (lm : Bytes 16) : negotiateMessage 3 (stdClient lm) = .ok stdNegotiate := rfl

/-- C32 is false for the messages clients send: the MIC is not the integrity code of the exchange. -/
theorem C32_refuted (cm : CaseMap) (cfg : Cfg) : ∃ (l : Login) (c : Client) (h : List Op) (ch : Challenge) (rnd : AuthRand)
    (b neg chal : List UInt8) (k : Bytes 16), created Prims.std cm l c ∧ firstAnswer Prims.std cfg 3 c h ch rnd b ∧
      exportsKey (run Prims.std cfg 3 c h) k ∧
      resultOf Prims.std cfg 3 c [] (.sendNegociate []) = .ok neg ∧ Wire.serialize cfg ch = .ok chal ∧
      bytesAt b 64 16 ≠ (Prims.std.hmacMd5 k.val (neg ++ chal ++ zeroMic b)).val := by
  have hv3 : isV2 3 := by simp [isV2]
  obtain ⟨b, hb⟩ := exAnswers_v2 Prims.std cm cfg 3 hv3
  obtain ⟨c, hc, hf⟩ := exFirstAnswer Prims.std cm cfg 3 (by decide) exChallenge exRand b hb [] (by simp)
  obtain ⟨n, a, hn, hnf, hst, rfl, haf, hm⟩ := firstAnswer_state Prims.std cm cfg 3 exLogin c hc _ _ _ _ hf
  obtain ⟨_, _, _, _, _, hv⟩ := created_fields hc
  obtain ⟨t, ht, _, hcf, hpf, rfl⟩ := (v2_message Prims.std cfg hv3 exRand c hv n exChallenge [] a).mp hm
  refine ⟨exLogin, c, _, exChallenge, exRand, _, negotiateBytes n, challengeBytes exChallenge, _, hc, hf,
    ⟨_, _, _, hst, rfl⟩, ?_, (serialize_challenge cfg _ _).mpr ⟨hcf, rfl⟩, ?_⟩
  · simp only [resultOf, step, run, List.foldl_nil, sendNegociate_eq, hn, (serialize_negotiate cfg n _).mpr ⟨hnf, rfl⟩]
  · rw [(sent_layout _ haf rfl).2.2.2.1, zeroMic_bytes _ rfl]
    obtain ⟨lm, rfl⟩ := stdClient_created hc
    rw [stdNegotiate_eq] at hn
    obtain rfl : stdNegotiate = n := by simpa using hn
    obtain rfl : t = ⟨5, 7⟩ := timeUsed_unique (timeUsed_client.mpr ht) (.inl rfl)
    have key : ∀ P rnd c n ch t (lm : Bytes 16), v2Msg P rnd { c with lmHash := lm } n ch t = v2Msg P rnd c n ch t ∧
        v2Keys P rnd { c with lmHash := lm } ch t = v2Keys P rnd c ch t := fun _ _ _ _ _ _ _ => ⟨rfl, rfl⟩
    have e : stdClient lm = { stdClient (Bytes.zero 16) with lmHash := lm } := rfl
    have hk : (v2Msg Prims.std exRand (stdClient lm) stdNegotiate exChallenge ⟨5, 7⟩).mic.val ≠
        (Prims.std.hmacMd5 (v2Keys Prims.std exRand (stdClient lm) exChallenge ⟨5, 7⟩).1.val
          (negotiateBytes stdNegotiate ++ challengeBytes exChallenge ++
            authenticateBytes { v2Msg Prims.std exRand (stdClient lm) stdNegotiate exChallenge ⟨5, 7⟩ with mic := Bytes.zero 16 })).val := by
      rw [e, (key _ _ _ _ _ _ _).1, (key _ _ _ stdNegotiate _ _ _).2]
      decide +kernel
    exact hk

end Ntlm.Props
