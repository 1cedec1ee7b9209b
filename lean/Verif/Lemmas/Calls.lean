import Verif.Spec.Calls
import Verif.Lemmas.ClientAuth
import Verif.Props.Size
/-
  Lemmas about the calls of primitives.
-/
namespace Ntlm

open Spec Client

namespace Calls

theorem bind_ok {α β : Type} (l : List Call) (a : α) (f : α → T β) :
    (⟨l, .ok a⟩ : T α) >>= f = ⟨l ++ (f a).calls, (f a).result⟩ := rfl

theorem bind_error {α β : Type} (l : List Call) (e : Panic) (f : α → T β) :
    (⟨l, .error e⟩ : T α) >>= f = ⟨l, .error e⟩ := rfl

theorem pure_eq {α : Type} (a : α) : (pure a : T α) = ⟨[], .ok a⟩ := rfl

theorem lift_ok {α β : Type} (a : α) (f : α → T β) : (T.lift (.ok a) : T α) >>= f = f a := rfl

theorem lift_error {α β : Type} (e : Panic) (f : α → T β) : (T.lift (.error e) : T α) >>= f = ⟨[], .error e⟩ := rfl

theorem des7_eq (P : Prims) (k : Bytes 7) (d : Bytes 8) : des7Encrypt P k.val d = ⟨[.des], .ok (Ntlm.des7 P k d)⟩ := by
  obtain ⟨e, h, _⟩ := des56To64_ok k.val k.property
  simp only [des7Encrypt, h, T.lift, bind_ok, desBlock, Ntlm.des7, Ntlm.des7Encrypt]
  rfl

theorem desl_eq (P : Prims) (k : Bytes 16) (d : Bytes 8) :
    desl P k d = ⟨[.des, .des, .des], .ok (Ntlm.desl P k d)⟩ := by
  simp only [desl, des7_eq, bind_ok, pure_eq, Ntlm.desl]
  rfl

theorem kxkey_snd (P : Prims) (flags : Flags) (sbk : Bytes 16) (lm : Bytes 8) (hash : Bytes 16) (sc : Option (Bytes 8)) :
    (kxkey P flags sbk lm hash sc).result = .ok (Ntlm.kxkey P flags sbk lm hash sc) := by
  cases sc with
  | some sc => rfl
  | none =>
    simp only [kxkey, Ntlm.kxkey]
    split
    · simp only [des7_eq, bind_ok, pure_eq]
    · split <;> rfl

theorem kxkey_eq (P : Prims) (flags : Flags) (sbk : Bytes 16) (lm : Bytes 8) (hash : Bytes 16) (sc : Bytes 8) :
    kxkey P flags sbk lm hash (some sc) = ⟨[.hmacMd5 16 16], .ok (Ntlm.kxkey P flags sbk lm hash (some sc))⟩ := by
  simp only [kxkey, hmacMd5, Ntlm.kxkey, List.length_append, sbk.property, sc.property, lm.property]

theorem exchangesKey_iff (flags : Flags) :
    (flags.hasFlag Flags.NTLMSSP_NEGOTIATE_KEY_EXCH &&
      (flags.hasFlag Flags.NTLMSSP_NEGOTIATE_SIGN || flags.hasFlag Flags.NTLMSSP_NEGOTIATE_SEAL)) = exchangesKey flags := by
  simp only [exchangesKey, hasFlag_testBit _ Flags.NTLMSSP_NEGOTIATE_KEY_EXCH (by decide),
    hasFlag_testBit _ Flags.NTLMSSP_NEGOTIATE_SIGN (by decide), hasFlag_testBit _ Flags.NTLMSSP_NEGOTIATE_SEAL (by decide)]
  rfl

theorem random_eq (P : Prims) (flags : Flags) (kek : Bytes 16) (e : Option (Bytes 16)) (r : Bytes 16) :
    encryptRandomSessionKey P flags kek e r =
      ⟨if exchangesKey flags then [.rc4 16 16] else [], .ok (Ntlm.encryptRandomSessionKey P flags kek e r)⟩ := by
  simp only [encryptRandomSessionKey, Ntlm.encryptRandomSessionKey, exchangesKey_iff]
  cases exchangesKey flags <;> rfl

/-- The calls of an NTLMv1 response. -/
def v1Calls (flags : Flags) (noLm : Bool) : List Call :=
  [.md4 16] ++ (if flags.bits.toNat.testBit 19 then [.md5 16, .des, .des, .des]
    else if noLm then [.des, .des, .des] else [.des, .des, .des, .des, .des, .des])

theorem ntlmv1_eq (P : Prims) (flags : Flags) (keyNt keyLm : Bytes 16) (s c : Bytes 8) (noLm : Bool) :
    ntlmv1Response P flags keyNt keyLm s c noLm =
      ⟨v1Calls flags noLm, .ok (Ntlm.ntlmv1Response P flags keyNt keyLm s c noLm)⟩ := by
  have h19 : flags.hasFlag Flags.NTLMSSP_NEGOTIATE_EXTENDED_SESSIONSECURITY = flags.bits.toNat.testBit 19 :=
    hasFlag_testBit _ _ (by decide)
  simp only [ntlmv1Response, md4, md5, bind_ok, desl_eq, pure_eq, v1Calls, Ntlm.ntlmv1Response, h19, keyNt.property,
    List.length_append, s.property, c.property]
  cases flags.bits.toNat.testBit 19 <;> cases noLm <;> rfl

theorem v1_eq (P : Prims) (ver : UInt32) (rnd : AuthRand) (c : Client) :
    authenticateNtlmv1 P ver rnd c =
      ⟨match c.getChallenge with
        | .ok ch => v1Calls ch.negotiateFlags (ver != 0) ++ [.hmacMd5 16 16] ++
            (if exchangesKey ch.negotiateFlags then [.rc4 16 16] else [])
        | .error _ => [], Client.authenticateNtlmv1 P ver rnd c⟩ := by
  simp only [authenticateNtlmv1, Client.authenticateNtlmv1, T.lift]
  cases h : c.getChallenge with
  | error e => rfl
  | ok ch =>
    simp only [ntlmv1_eq, kxkey_eq, random_eq, List.nil_append, List.append_nil, List.append_assoc,
      bind, Except.bind, pure, Except.pure]

/-- The calls of an NTLMv2 response. -/
def v2Calls (infos : List AvPair) : List Call :=
  [.hmacMd5 16 (8 + 32 + (avListBytes infos).length), .hmacMd5 16 16, .hmacMd5 16 16]

theorem ntlmv2_eq (P : Prims) (cfg : Cfg) (flags : Flags) (keyNt keyLm : Bytes 16) (s c : Bytes 8) (time : Option FileTime)
    (infos : List AvPair) (clock : SystemTime) (ht : ∃ t, timeUsed time clock t) (hf : ∀ p ∈ infos, avPairFits p) :
    ntlmv2Response P cfg keyNt keyLm s c time infos clock =
      ⟨v2Calls infos, Ntlm.ntlmv2Response P cfg flags keyNt keyLm s c time infos clock⟩ := by
  obtain ⟨t, ht⟩ := ht
  have h2 : Wire.serialize cfg (⟨t, c, infos⟩ : Ntv2Challenge) = .ok (ntv2Bytes ⟨t, c, infos⟩) :=
    serialize_of_enc (enc_ntv2 cfg _ hf)
  have hl : (s.val ++ (ntv2Bytes ⟨t, c, infos⟩ ++ [0, 0, 0, 0])).length = 8 + 32 + (avListBytes infos).length := by
    simp only [ntv2Bytes, fileTimeBytes, List.length_append, length_le, s.property, c.property, List.length_cons, List.length_nil]
    omega
  have h3 : Ntlm.ntlmv2Response P cfg flags keyNt keyLm s c time infos clock =
      .ok (P.hmacMd5 keyNt.val (s.val ++ (ntv2Bytes ⟨t, c, infos⟩ ++ [0, 0, 0, 0])),
        ⟨P.hmacMd5 keyLm.val (s.val ++ c.val), c⟩, ⟨t, c, infos⟩,
        P.hmacMd5 keyNt.val (P.hmacMd5 keyNt.val (s.val ++ (ntv2Bytes ⟨t, c, infos⟩ ++ [0, 0, 0, 0]))).val) := by
    rcases ht with rfl | ⟨rfl, ht⟩
    · simp only [Ntlm.ntlmv2Response, bind, Except.bind, pure, Except.pure, h2]
    · simp only [Ntlm.ntlmv2Response, bind, Except.bind, pure, Except.pure, (now_iff clock t).mpr ht, h2]
  have hl : 8 + ((ntv2Bytes ⟨t, c, infos⟩).length + 4) = 8 + 32 + (avListBytes infos).length := by
    simp only [List.length_append, s.property, List.length_cons, List.length_nil] at hl
    omega
  rw [h3]
  rcases ht with rfl | ⟨rfl, ht⟩
  · simp only [ntlmv2Response, lift_ok, h2, hmacMd5, bind_ok, keyNt.property, keyLm.property, s.property, c.property,
      List.length_append, pure_eq, (P.hmacMd5 _ _).property, List.length_cons, List.length_nil, Nat.zero_add, Nat.reduceAdd, hl]
    rfl
  · simp only [ntlmv2Response, (now_iff clock t).mpr ht, lift_ok, h2, hmacMd5, bind_ok, keyNt.property, keyLm.property, s.property,
      c.property, List.length_append, pure_eq, (P.hmacMd5 _ _).property, List.length_cons, List.length_nil, Nat.zero_add,
      Nat.reduceAdd, hl]
    rfl

theorem ntlmv2_not (P : Prims) (cfg : Cfg) (flags : Flags) (keyNt keyLm : Bytes 16) (s c : Bytes 8) (time : Option FileTime)
    (infos : List AvPair) (clock : SystemTime) (h : ¬ ((∃ t, timeUsed time clock t) ∧ ∀ p ∈ infos, avPairFits p)) :
    ∃ e, ntlmv2Response P cfg keyNt keyLm s c time infos clock = ⟨[], .error e⟩ ∧
      Ntlm.ntlmv2Response P cfg flags keyNt keyLm s c time infos clock = .error e := by
  by_cases ht : ∃ t, timeUsed time clock t
  · refine ⟨.stringTooLong, ?_, (Props.C28_failure P cfg flags keyNt keyLm s c time infos clock).2 ht (fun hf => h ⟨ht, hf⟩)⟩
    obtain ⟨t, ht⟩ := ht
    have h2 : Wire.serialize cfg (⟨t, c, infos⟩ : Ntv2Challenge) = .error .stringTooLong := by
      simp only [Wire.serialize, ntv2_err cfg ⟨t, c, infos⟩ (fun hf => h ⟨⟨t, ht⟩, hf⟩)]
    rcases ht with rfl | ⟨rfl, ht⟩
    · simp only [ntlmv2Response, lift_ok, h2, lift_error]
    · simp only [ntlmv2Response, (now_iff clock t).mpr ht, lift_ok, h2, lift_error]
  · refine ⟨.clock, ?_, (Props.C28_failure P cfg flags keyNt keyLm s c time infos clock).1 ht⟩
    cases time with
    | some t => exact absurd ⟨t, .inl rfl⟩ ht
    | none =>
      have := now_err clock (fun ⟨t, h⟩ => ht ⟨t, .inr ⟨rfl, h⟩⟩)
      simp only [ntlmv2Response, this, lift_error]

theorem mic_eq (P : Prims) (cfg : Cfg) (m : Authenticate) (key : Bytes 16) (hk : m.exportedSessionKey = some key)
    (n : Negotiate) (ch : Challenge) (h : negotiateFits n ∧ challengeFits ch ∧ authenticateFits m) :
    computeMic P cfg m n ch =
      ⟨[.hmacMd5 16 ((negotiateBytes n).length + (challengeBytes ch).length + (authenticateBytes m).length)],
        m.computeMic P cfg n ch⟩ := by
  have h1 := (triple cfg n ch { m with mic := Bytes.zero 16 }).1 h
  have hl : (authenticateBytes { m with mic := Bytes.zero 16 }).length = (authenticateBytes m).length := by
    rw [Props.length_authenticateBytes, Props.length_authenticateBytes]
  rw [(computeMic_eq P cfg m key hk n ch _).mpr ⟨h.1, h.2.1, h.2.2, rfl⟩]
  simp only [computeMic]
  split
  · rename_i k e
    rw [hk] at e
    cases e
    rw [h1]
    simp only [lift_ok, hmacMd5, bind_ok, pure_eq, List.length_append, hl, key.property, List.append_nil]
  · rename_i e
    rw [hk] at e; cases e

theorem mic_not (P : Prims) (cfg : Cfg) (m : Authenticate) (key : Bytes 16) (hk : m.exportedSessionKey = some key)
    (n : Negotiate) (ch : Challenge) (h : ¬ (negotiateFits n ∧ challengeFits ch ∧ authenticateFits m)) :
    computeMic P cfg m n ch = ⟨[], m.computeMic P cfg n ch⟩ := by
  obtain ⟨p, _, h1⟩ := (triple cfg n ch { m with mic := Bytes.zero 16 }).2 h
  cases m
  simp only at hk
  subst hk
  simp only [computeMic, Authenticate.computeMic]
  rw [h1]
  rfl

/-! ### The message -/

/-- The three messages under the message integrity code can be encoded. -/
def signable (domain user : Str) (n : Negotiate) (ch : Challenge) : Prop :=
  negotiateFits n ∧ challengeFits ch ∧ (avListBytes ch.targetInfos).length + 28 ≤ 65535 ∧ (utf16le domain).length ≤ 65535 ∧
    (utf16le user).length ≤ 65535

/-- The number of bytes under the message integrity code. -/
def signedLength (domain user : Str) (n : Negotiate) (ch : Challenge) : Nat :=
  (negotiateBytes n).length + (challengeBytes ch).length +
    (148 + (avListBytes ch.targetInfos).length + (utf16le domain).length + (utf16le user).length)

open Classical in
/-- The calls of an answer, for every outcome. -/
noncomputable def messageCalls (ver : UInt32) (clock : SystemTime) (domain user : Str) : Option (Negotiate × Challenge) → List Call
  | none => []
  | some (n, ch) =>
    if ver.toNat ≤ 2 then
      v1Calls ch.negotiateFlags (ver != 0) ++ [.hmacMd5 16 16] ++ (if exchangesKey ch.negotiateFlags then [.rc4 16 16] else [])
    else if ver.toNat ≤ 5 then
      if (∃ t, timeUsed (firstTimestamp ch.targetInfos) clock t) ∧ ∀ p ∈ ch.targetInfos, avPairFits p then
        v2Calls ch.targetInfos ++ (if exchangesKey ch.negotiateFlags then [.rc4 16 16] else []) ++
          (if signable domain user n ch then [.hmacMd5 16 (signedLength domain user n ch)] else [])
      else []
    else []

theorem v2Pre_length (P : Prims) (rnd : AuthRand) (c : Client) (ch : Challenge) (t : FileTime) :
    (authenticateBytes (v2Pre P rnd c ch t)).length =
      148 + (avListBytes ch.targetInfos).length + (utf16le c.domain).length + (utf16le c.username).length := by
  rw [Props.length_authenticateBytes]
  simp only [v2Pre, v2Blob, auV, auL, auN, auD, auU, auW, auK, payload, Option.map, lmBytes, ntBytes, ntv2Bytes, fileTimeBytes,
    Option.getD, List.length_append, length_le, rnd.clientChallenge.property, (P.hmacMd5 _ _).property,
    (v2Keys P rnd c ch t).2.property, List.length_cons, List.length_nil]
  omega

theorem v2Pre_fits (P : Prims) (rnd : AuthRand) (c : Client) (n : Negotiate) (ch : Challenge) (t : FileTime) :
    negotiateFits n ∧ challengeFits ch ∧ authenticateFits (v2Pre P rnd c ch t) ↔ signable c.domain c.username n ch := by
  have hl : (ntv2Bytes (v2Blob rnd ch t)).length = (avListBytes ch.targetInfos).length + 28 := by
    simp only [v2Blob, ntv2Bytes, fileTimeBytes, List.length_append, length_le, rnd.clientChallenge.property,
      List.length_cons, List.length_nil]
    omega
  simp only [signable, authenticateFits, v2Pre, Option.some.injEq, forall_eq', ntFits, hl, strFits, Option.map, reduceCtorEq,
    false_implies, implies_true, and_true]
  constructor
  · rintro ⟨h1, h2, ⟨_, h3⟩, h4, h5⟩; exact ⟨h1, h2, h3, h4, h5⟩
  · rintro ⟨h1, h2, h3, h4, h5⟩; exact ⟨h1, h2, ⟨h2.2.1, h3⟩, h4, h5⟩

theorem v2_eq (P : Prims) (cfg : Cfg) (rnd : AuthRand) (c : Client) (n : Negotiate) (ch : Challenge)
    (hn : getNegotiate c = .ok n) (hc : getChallenge c = .ok ch) (ver : UInt32) (h1 : ¬ ver.toNat ≤ 2) (h2 : ver.toNat ≤ 5) :
    authenticateNtlmv2 P cfg rnd c =
      ⟨messageCalls ver rnd.clock c.domain c.username (some (n, ch)), Client.authenticateNtlmv2 P cfg rnd c⟩ := by
  simp only [messageCalls, if_neg h1, if_pos h2]
  by_cases h : (∃ t, timeUsed (firstTimestamp ch.targetInfos) rnd.clock t) ∧ ∀ p ∈ ch.targetInfos, avPairFits p
  · rw [if_pos h]
    obtain ⟨⟨t, ht⟩, hf⟩ := h
    have e : Client.authenticateNtlmv2 P cfg rnd c = (v2Pre P rnd c ch t).computeMic P cfg n ch := by
      simp only [Client.authenticateNtlmv2, hn, hc, bind, Except.bind, v2_response P cfg rnd c ch t ht hf]
      rfl
    have e' : authenticateNtlmv2 P cfg rnd c =
        ⟨v2Calls ch.targetInfos ++ (if exchangesKey ch.negotiateFlags then [.rc4 16 16] else []) ++
          (computeMic P cfg (v2Pre P rnd c ch t) n ch).calls, (computeMic P cfg (v2Pre P rnd c ch t) n ch).result⟩ := by
      simp only [authenticateNtlmv2, hn, hc, lift_ok, ntlmv2_eq P cfg ch.negotiateFlags _ _ _ _ _ _ _ ⟨t, ht⟩ hf,
        v2_response P cfg rnd c ch t ht hf, bind_ok, random_eq, List.append_assoc]
      rfl
    rw [e, e']
    by_cases hs : signable c.domain c.username n ch
    · rw [if_pos hs, mic_eq P cfg _ _ rfl n ch ((v2Pre_fits P rnd c n ch t).mpr hs), v2Pre_length]
      rfl
    · rw [if_neg hs, mic_not P cfg _ _ rfl n ch (fun h => hs ((v2Pre_fits P rnd c n ch t).mp h))]
  · rw [if_neg h]
    obtain ⟨e, h3, h4⟩ := ntlmv2_not P cfg ch.negotiateFlags c.ntlmv2Hash c.ntlmv2Hash ch.serverChallenge rnd.clientChallenge
      (firstTimestamp ch.targetInfos) ch.targetInfos rnd.clock h
    have a : Client.authenticateNtlmv2 P cfg rnd c = .error e := by
      simp only [Client.authenticateNtlmv2, hn, hc, bind, Except.bind, h4]
    have b : authenticateNtlmv2 P cfg rnd c = ⟨[], .error e⟩ := by
      simp only [authenticateNtlmv2, hn, hc, lift_ok, h3, bind_error]
    rw [a, b]

theorem message_eq (P : Prims) (cfg : Cfg) (ver : UInt32) (rnd : AuthRand) (c : Client) :
    authenticateMessage P cfg ver rnd c =
      ⟨messageCalls ver rnd.clock c.domain c.username (sessionOf c.state), Client.authenticateMessage P cfg ver rnd c⟩ := by
  have hb : ∀ (x : T Authenticate) (f : Authenticate → Authenticate),
      (do let a ← x; return f a : T Authenticate) = ⟨x.calls, do let a ← x.result; return f a⟩ := by
    rintro ⟨l, ⟨e⟩ | ⟨a⟩⟩ f
    · rfl
    · simp only [bind_ok, pure_eq, List.append_nil]; rfl
  simp only [authenticateMessage, Client.authenticateMessage, hb]
  by_cases h1 : ver = 0 ∨ ver = 1 ∨ ver = 2
  · have h1' : ver.toNat ≤ 2 := isV1_iff.mpr h1
    simp only [if_pos h1, v1_eq]
    congr 1
    cases hs : c.state <;> simp only [getChallenge, hs, sessionOf, messageCalls, if_pos h1']
  · have h1' : ¬ ver.toNat ≤ 2 := fun h => h1 (isV1_iff.mp h)
    simp only [if_neg h1]
    by_cases h2 : ver = 3 ∨ ver = 4 ∨ ver = 5
    · have h2' : ver.toNat ≤ 5 := (isV2_iff.mpr h2).2
      simp only [if_pos h2]
      have key : authenticateNtlmv2 P cfg rnd c =
          ⟨messageCalls ver rnd.clock c.domain c.username (sessionOf c.state), Client.authenticateNtlmv2 P cfg rnd c⟩ := by
        cases hs : c.state with
        | challengeReceived n ch => exact v2_eq P cfg rnd c n ch (by simp [getNegotiate, hs]) (by simp [getChallenge, hs]) ver h1' h2'
        | authenticateSent n ch a => exact v2_eq P cfg rnd c n ch (by simp [getNegotiate, hs]) (by simp [getChallenge, hs]) ver h1' h2'
        | new => simp only [authenticateNtlmv2, Client.authenticateNtlmv2, getNegotiate, getChallenge, hs, sessionOf, messageCalls]; rfl
        | negociateSent n =>
          simp only [authenticateNtlmv2, Client.authenticateNtlmv2, getNegotiate, getChallenge, hs, sessionOf, messageCalls]; rfl
      rw [key]
    · have h2' : ¬ ver.toNat ≤ 5 := fun h => h2 (isV2_iff.mp ⟨by omega, h⟩)
      simp only [if_neg h2, T.lift]
      congr 1
      cases hs : c.state <;> simp only [sessionOf, messageCalls, if_neg h1', if_neg h2']

theorem send_eq (P : Prims) (cfg : Cfg) (ver : UInt32) (rnd : AuthRand) (junk : List UInt8) (c : Client) :
    sendAuthenticate P cfg ver rnd junk c =
      (messageCalls ver rnd.clock c.domain c.username (sessionOf c.state), Client.sendAuthenticate P cfg ver rnd junk c) := by
  simp only [sendAuthenticate, Client.sendAuthenticate, message_eq]
  cases hm : Client.authenticateMessage P cfg ver rnd c with
  | error e => rfl
  | ok a =>
    simp only []
    cases Wire.serializeInto cfg a [] <;> rfl

theorem step_snd (P : Prims) (cfg : Cfg) (ver : UInt32) (c : Client) (op : Op) :
    (step P cfg ver c op).2 = Client.step P cfg ver c op := by
  cases op with
  | sendAuthenticate rnd junk => simp only [step, send_eq, Client.step]
  | _ => rfl

theorem run_snd (P : Prims) (cfg : Cfg) (ver : UInt32) (c : Client) (h : List Op) :
    (run P cfg ver c h).2 = Client.run P cfg ver c h := by
  induction h generalizing c with
  | nil => rfl
  | cons op ops ih =>
    simp only [run, ih, step_snd, Client.run, List.foldl_cons]

/-! ### Creation -/

theorem des7Encrypt_result (P : Prims) (k : List UInt8) (d : Bytes 8) :
    (des7Encrypt P k d).result = Ntlm.des7Encrypt P k d := by
  simp only [des7Encrypt, Ntlm.des7Encrypt]
  cases des56To64 k <;> rfl

theorem des7Encrypt_calls (P : Prims) (k : List UInt8) (d x : Bytes 8) (h : Ntlm.des7Encrypt P k d = .ok x) :
    des7Encrypt P k d = ⟨[.des], .ok x⟩ := by
  simp only [Ntlm.des7Encrypt] at h
  simp only [des7Encrypt]
  cases hk : des56To64 k with
  | error e => rw [hk] at h; cases h
  | ok y => rw [hk] at h; cases h; rfl

theorem des7Encrypt_error (P : Prims) (k : List UInt8) (d : Bytes 8) (e : Panic) (h : Ntlm.des7Encrypt P k d = .error e) :
    des7Encrypt P k d = ⟨[], .error e⟩ := by
  simp only [Ntlm.des7Encrypt] at h
  simp only [des7Encrypt]
  cases hk : des56To64 k with
  | error e => rw [hk] at h; cases h; rfl
  | ok y => rw [hk] at h; cases h

theorem lm_eq (P : Prims) (cm : CaseMap) (p : Str) :
    (∃ x, Ntlm.lmowfv1 P cm p = .ok x ∧ lmowfv1 P cm p = ⟨[.des, .des], .ok x⟩) ∨
    (∃ e l, Ntlm.lmowfv1 P cm p = .error e ∧ lmowfv1 P cm p = ⟨l, .error e⟩ ∧ (l = [] ∨ l = [.des])) := by
  simp only [Ntlm.lmowfv1, lmowfv1]
  cases h1 : preparePassword cm p with
  | error e => exact .inr ⟨e, [], rfl, rfl, .inl rfl⟩
  | ok q =>
    simp only [lift_ok]
    cases h2 : splitAtByte q 7 with
    | none => exact .inr ⟨_, [], rfl, rfl, .inl rfl⟩
    | some ks =>
      obtain ⟨k1, k2⟩ := ks
      simp only [lift_ok]
      cases h3 : Ntlm.des7Encrypt P (utf8 k1) lmMagic with
      | error e => exact .inr ⟨_, [], rfl, by rw [des7Encrypt_error _ _ _ _ h3]; rfl, .inl rfl⟩
      | ok a =>
        cases h4 : Ntlm.des7Encrypt P (utf8 k2) lmMagic with
        | error e =>
          exact .inr ⟨_, [.des], rfl, by rw [des7Encrypt_calls _ _ _ _ h3, bind_ok, des7Encrypt_error _ _ _ _ h4]; rfl, .inr rfl⟩
        | ok b =>
          exact .inl ⟨_, rfl, by rw [des7Encrypt_calls _ _ _ _ h3, bind_ok, des7Encrypt_calls _ _ _ _ h4]; rfl⟩

theorem new_result (P : Prims) (cm : CaseMap) (env : HostEnv) (user domain password target : Str) :
    (newWithDomain P cm env user domain password target).result = Client.newWithDomain P cm env user domain password target := by
  simp only [newWithDomain, Client.newWithDomain, computeNtlmHashes, Client.computeNtlmHashes]
  rcases lm_eq P cm password with ⟨x, h1, h2⟩ | ⟨e, l, h1, h2, _⟩
  · rw [h1, h2]
    cases hw : Client.getWorkstationName cm env <;> rfl
  · rw [h1, h2]; rfl

theorem new_calls (P : Prims) (cm : CaseMap) (env : HostEnv) (user domain password target : Str) :
    (newWithDomain P cm env user domain password target).calls ∈
      [[], [.des], [.des, .des, .md4 (u16sAsBytes (encodeUtf16 password)).length,
        .hmacMd5 16 (u16sAsBytes (encodeUtf16 (cm.upper user ++ domain))).length]] ∧
    ((∃ x, Ntlm.lmowfv1 P cm password = .ok x) → (newWithDomain P cm env user domain password target).calls =
      [.des, .des, .md4 (u16sAsBytes (encodeUtf16 password)).length,
        .hmacMd5 16 (u16sAsBytes (encodeUtf16 (cm.upper user ++ domain))).length]) := by
  rcases lm_eq P cm password with ⟨x, h1, h2⟩ | ⟨e, l, h1, h2, hl⟩
  · have e : (newWithDomain P cm env user domain password target).calls =
        [.des, .des, .md4 (u16sAsBytes (encodeUtf16 password)).length,
          .hmacMd5 16 (u16sAsBytes (encodeUtf16 (cm.upper user ++ domain))).length] := by
      simp only [newWithDomain, computeNtlmHashes]
      rw [h2]
      simp only [ntowfv1, md4, ntowfv2, hmacMd5, bind_ok, pure_eq, (P.md4 _).property]
      cases Client.getWorkstationName cm env <;> rfl
    rw [e]
    exact ⟨by simp, fun _ => rfl⟩
  · refine ⟨?_, ?_⟩
    · simp only [newWithDomain, computeNtlmHashes]
      rw [h2]
      rcases hl with rfl | rfl <;> simp [bind_error]
    · rintro ⟨x, h⟩; rw [h1] at h; cases h

end Calls

end Ntlm
