import Verif.Lemmas.Crypto
import Verif.Props.Builders
import Verif.Props.Structures
/-
  C24-C28, C30 and C31 (the functions): password hashing, responses and session keys, over arbitrary primitives.
-/
namespace Ntlm

open Spec

/-- Primitives for examples: simple stand-ins that depend on all their inputs. -/
def toyPrims : Prims where
  md4 m := ⟨List.replicate 15 4 ++ [m.foldl (· + ·) 0], by simp⟩
  md5 m := ⟨List.replicate 15 5 ++ [m.foldl (· + ·) 0], by simp⟩
  hmacMd5 k m := ⟨List.replicate 14 6 ++ [k.foldl (· + ·) 0, m.foldl (· + ·) 0], by simp⟩
  desBlock k d := xorBytes k d
  rc4Keystream k := ⟨List.replicate 15 7 ++ [k.val.foldl (· + ·) 0], by simp⟩

/-- An upper-casing table for examples: ASCII only. -/
def asciiCase : CaseMap where
  up c := [c.toUpper]
  ascii _ _ := rfl

theorem now_iff (clock : SystemTime) (t : FileTime) : FileTime.now clock = .ok t ↔ clockTime clock t := by
  have hv : fileTimeValue t < 2 ^ 64 := by
    have := t.low.toNat_lt
    have := t.high.toNat_lt
    simp only [fileTimeValue]; omega
  obtain ⟨h1, h2, h3⟩ := Props.C18_tryFrom clock
  simp only [FileTime.now, clockTime]
  by_cases c1 : clock.secs < 0
  · rw [h1 c1]; simp; omega
  · by_cases c2 : 2 ^ 64 ≤ clock.secs * 1000000
    · rw [h2 (by omega) c2]; simp; omega
    · obtain ⟨f, h4, h5⟩ := h3 (by omega) (by omega)
      rw [h4]
      simp only [Except.ok.injEq]
      constructor
      · rintro rfl; exact ⟨by omega, h5⟩
      · rintro ⟨_, h⟩
        apply (Props.C18_value f t).2
        apply UInt64.toNat_inj.mp
        rw [fileTime_asU64, fileTime_asU64]
        omega

theorem now_err (clock : SystemTime) (h : ¬ ∃ t, clockTime clock t) : FileTime.now clock = .error .clock := by
  cases e : FileTime.now clock with
  | ok t => exact absurd ⟨t, (now_iff clock t).mp e⟩ h
  | error x =>
    simp only [FileTime.now] at e
    split at e
    · cases e
    · cases e; rfl

theorem utf16Units_inj {c d : Char} {x y : List Nat} (h : utf16Units c ++ x = utf16Units d ++ y) : c = d ∧ x = y := by
  have hc := char_lt c
  have hd := char_lt d
  have vc := c.valid
  have vd := d.valid
  have ec : c.toNat = c.val.toNat := rfl
  have ed : d.toNat = d.val.toNat := rfl
  simp only [UInt32.isValidChar, Nat.isValidChar] at vc vd
  have key : c.toNat = d.toNat ∧ x = y := by
    simp only [utf16Units, Nat.shiftRight_eq_div_pow, show (0x3FF : Nat) = 2 ^ 10 - 1 from rfl,
      Nat.and_two_pow_sub_one_eq_mod] at h
    split at h <;> split at h <;>
      simp only [List.cons_append, List.nil_append, List.cons.injEq] at h
    · exact h
    · omega
    · omega
    · exact ⟨by omega, h.2.2⟩
  exact ⟨by rw [← Char.ofNat_toNat c, key.1, Char.ofNat_toNat], key.2⟩

theorem units_inj {s t : Str} (h : s.flatMap utf16Units = t.flatMap utf16Units) : s = t := by
  induction s generalizing t with
  | nil =>
    cases t with
    | nil => rfl
    | cons d t => simp [utf16Units] at h; split at h <;> simp at h
  | cons c s ih =>
    cases t with
    | nil => simp [utf16Units] at h; split at h <;> simp at h
    | cons d t =>
      simp only [List.flatMap_cons] at h
      obtain ⟨rfl, h2⟩ := utf16Units_inj h
      rw [ih h2]

theorem le2_flat_inj {a b : List Nat} (ha : ∀ x ∈ a, x < 65536) (hb : ∀ x ∈ b, x < 65536)
    (h : a.flatMap (le 2) = b.flatMap (le 2)) : a = b := by
  induction a generalizing b with
  | nil =>
    cases b with
    | nil => rfl
    | cons y b =>
      have := congrArg List.length h
      simp [length_le] at this
      omega
  | cons x a ih =>
    cases b with
    | nil =>
      have := congrArg List.length h
      simp [length_le] at this
    | cons y b =>
      simp only [List.flatMap_cons] at h
      obtain ⟨h1, h2⟩ := List.append_inj h (by simp [length_le])
      have e := congrArg leVal h1
      rw [leVal_le_lt (ha x (by simp)), leVal_le_lt (hb y (by simp))] at e
      rw [e, ih (fun x hx => ha x (by simp [hx])) (fun x hx => hb x (by simp [hx])) h2]

theorem units_lt (s : Str) : ∀ x ∈ s.flatMap utf16Units, x < 65536 := by
  intro x hx
  obtain ⟨c, _, hc⟩ := List.mem_flatMap.mp hx
  have hl := char_lt c
  simp only [utf16Units, Nat.shiftRight_eq_div_pow, show (0x3FF : Nat) = 2 ^ 10 - 1 from rfl,
    Nat.and_two_pow_sub_one_eq_mod] at hc
  split at hc <;> simp at hc <;> omega

theorem utf16le_inj {s t : Str} (h : utf16le s = utf16le t) : s = t :=
  units_inj (le2_flat_inj (units_lt s) (units_lt t) h)

/-- RC4 undoes itself. -/
theorem rc4k_rc4 (P : Prims) (kek e : Bytes 16) : rc4k P kek (P.rc4 kek e) = e.val := by
  have hk := (P.rc4Keystream kek).property
  have he := e.property
  simp only [rc4k, Prims.rc4, xorBytes]
  apply List.ext_getElem (by simp [he, hk])
  intro i h1 h2
  simp only [List.getElem_zipWith]
  rw [UInt8.xor_assoc, UInt8.xor_self, UInt8.xor_zero]

namespace Props

/-! ### C25 -/

/-- C25: key expansion succeeds exactly on 7-byte keys; the result has the 56 key bits in order in the upper seven bits of
    each byte, and odd parity; and nothing else has. -/
theorem C25_expansion (k : List UInt8) :
    (k.length = 7 → ∃ e, des56To64 k = .ok e ∧ isDesKey k e.val ∧ ∀ e', isDesKey k e' → e' = e.val) ∧
    (k.length ≠ 7 → des56To64 k = .error .desKeyLen) := by
  constructor
  · intro h
    obtain ⟨e, h1, h2⟩ := des56To64_ok k h
    exact ⟨e, h1, h2, fun e' h' => isDesKey_unique h' h2⟩
  · intro h; simp only [des56To64, h, if_false]

/-- C25: distinct keys have distinct expansions. -/
theorem C25_injective (k k' : List UInt8) (e : Bytes 8) (h : des56To64 k = .ok e) (h' : des56To64 k' = .ok e) : k = k' := by
  have hk : k.length = 7 := by
    apply Classical.byContradiction
    intro hc; rw [(C25_expansion k).2 hc] at h; cases h
  have hk' : k'.length = 7 := by
    apply Classical.byContradiction
    intro hc; rw [(C25_expansion k').2 hc] at h'; cases h'
  obtain ⟨e1, h1, h2⟩ := des56To64_ok k hk
  obtain ⟨e2, h1', h2'⟩ := des56To64_ok k' hk'
  rw [h] at h1
  rw [h'] at h1'
  cases h1
  cases h1'
  exact isDesKey_inj hk hk' h2 h2'

example : des56To64 [0x50, 0x41, 0x53, 0x53, 0x57, 0x4f, 0x52] ≠ des56To64 [0x50, 0x41, 0x53, 0x53, 0x57, 0x4f, 0x53] := by
  intro e
  obtain ⟨k, hk, _⟩ := (C25_expansion [0x50, 0x41, 0x53, 0x53, 0x57, 0x4f, 0x52]).1 rfl
  exact absurd (C25_injective _ _ k hk (e ▸ hk)) (by decide)

/-- `"PASSWOR"` expands to a valid DES key starting `51`. -/
example : ∃ e, des56To64 [0x50, 0x41, 0x53, 0x53, 0x57, 0x4f, 0x52] = .ok e ∧
    isDesKey [0x50, 0x41, 0x53, 0x53, 0x57, 0x4f, 0x52] e.val ∧ e.val.head? = some 0x51 := by
  obtain ⟨e, h1, h2, _⟩ := (C25_expansion [0x50, 0x41, 0x53, 0x53, 0x57, 0x4f, 0x52]).1 rfl
  refine ⟨e, h1, h2, ?_⟩
  have : des56To64 [0x50, 0x41, 0x53, 0x53, 0x57, 0x4f, 0x52] =
      .ok ⟨[0x51, 0x20, 0x54, 0x6b, 0x34, 0xba, 0x3d, 0xa4], rfl⟩ := rfl
  rw [this] at h1
  cases h1
  rfl

/-! ### C24 -/

/-- C24, what holds: every ASCII password is accepted, and its LM hash is that of its first 14 characters in upper case, padded
    with zeros.  (Missing: other passwords, see `C24_construct_iff` and `C24_refuted`.) -/
theorem C24_ascii_partial (P : Prims) (cm : CaseMap) (pw : Str) (h : ascii pw) :
    ∃ r, lmowfv1 P cm pw = .ok r ∧ isLmHash P (lmPassword pw) r.val := lm_ascii P cm h

/-- "Password" is accepted; what is hashed is "PASSWORD" and six zeros. -/
example (P : Prims) (cm : CaseMap) : ∃ r, lmowfv1 P cm "Password".toList = .ok r ∧
    isLmHash P [80, 65, 83, 83, 87, 79, 82, 68, 0, 0, 0, 0, 0, 0] r.val :=
  C24_ascii_partial P cm "Password".toList (by simp [ascii])

/-- C24: hence for ASCII passwords the LM hash depends only on the first 14 characters, up to case. -/
theorem C24_case_and_length (P : Prims) (cm : CaseMap) (pw pw' : Str) (h : ascii pw) (h' : ascii pw')
    (e : (pw.take 14).map Char.toUpper = (pw'.take 14).map Char.toUpper) : lmowfv1 P cm pw = lmowfv1 P cm pw' := by
  have hl := congrArg List.length e
  simp only [List.length_map, List.length_take] at hl
  have : preparePassword cm pw = preparePassword cm pw' := by
    rw [preparePassword_ascii cm h, preparePassword_ascii cm h', e]
    congr 3
    omega
  simp only [lmowfv1, this]

/-- C24: creating a client succeeds exactly when the LM hash of the password can be computed (a condition on the UTF-8 sizes of the
    password and its upper case) and the workstation lookup does not meet an empty host name file. -/
theorem C24_construct_iff (P : Prims) (cm : CaseMap) (env : HostEnv) (user domain pw target : Str) :
    (∃ c, Client.newWithDomain P cm env user domain pw target = .ok c) ↔
      lmComputable cm pw ∧ ¬ (env.computerName = none ∧ env.hostnameFile = some []) := by
  have hw : (∃ w, Client.getWorkstationName cm env = .ok w) ↔ ¬ (env.computerName = none ∧ env.hostnameFile = some []) := by
    obtain ⟨cn, hf⟩ := env
    cases cn with
    | some n => simp [Client.getWorkstationName]
    | none =>
      cases hf with
      | none => simp [Client.getWorkstationName]
      | some f =>
        cases f with
        | nil => simp [Client.getWorkstationName, firstLine]
        | cons x f =>
          simp only [true_and, Option.some.injEq, reduceCtorEq, not_false_eq_true, iff_true]
          cases hfl : firstLine (x :: f) with
          | none =>
            simp only [firstLine, List.isEmpty_cons, Bool.false_eq_true, if_false] at hfl
            split at hfl <;> cases hfl
          | some line =>
            simp only [Client.getWorkstationName, hfl]
            split <;> exact ⟨_, rfl⟩
  rw [← lm_iff P cm pw, ← hw]
  simp only [Client.newWithDomain, Client.computeNtlmHashes]
  cases h1 : lmowfv1 P cm pw with
  | error e => simp [bind, Except.bind]
  | ok lm =>
    cases h2 : Client.getWorkstationName cm env with
    | error e => simp [bind, Except.bind, pure, Except.pure]
    | ok w => simp [bind, Except.bind, pure, Except.pure]

/-- A client can be created where `/etc/hostname` cannot be read, but not where it is empty. -/
example (P : Prims) (cm : CaseMap) :
    (∃ c, Client.newWithDomain P cm ⟨none, none⟩ ['u'] ['d'] "Password".toList [] = .ok c) ∧
    ¬ ∃ c, Client.newWithDomain P cm ⟨none, some []⟩ ['u'] ['d'] "Password".toList [] = .ok c := by
  refine ⟨?_, fun h => ((C24_construct_iff P cm _ _ _ _ _).mp h).2 ⟨rfl, rfl⟩⟩
  obtain ⟨r, hr, _⟩ := C24_ascii_partial P cm "Password".toList (by simp [ascii])
  have : ∃ c, Client.newWithDomain P cm ⟨some ['w'], none⟩ ['u'] ['d'] "Password".toList [] = .ok c := by
    simp only [Client.newWithDomain, Client.computeNtlmHashes, hr]
    exact ⟨_, rfl⟩
  exact (C24_construct_iff P cm _ _ _ _ _).mpr ⟨((C24_construct_iff P cm _ _ _ _ _).mp this).1, by simp⟩

/-- C24 is false in general: thirteen ASCII characters followed by a two-byte one. -/
theorem C24_refuted : ∃ pw : Str, ∀ (P : Prims) (cm : CaseMap) (env : HostEnv) (user domain target : Str),
    ∃ e, Client.newWithDomain P cm env user domain pw target = .error e := by
  refine ⟨"aaaaaaaaaaaaaé".toList, fun P cm env user domain target => ?_⟩
  have h : lmowfv1 P cm "aaaaaaaaaaaaaé".toList = .error .charBoundary := rfl
  simp only [Client.newWithDomain, Client.computeNtlmHashes, h]
  exact ⟨_, rfl⟩

/-- "Password" and "PASSWORD" have the same LM hash. -/
example (P : Prims) (cm : CaseMap) : lmowfv1 P cm "Password".toList = lmowfv1 P cm "PASSWORD".toList :=
  C24_case_and_length P cm _ _ (by simp [ascii]) (by simp [ascii]) (by decide)

/-! ### C26 -/

/-- C26: the NT hash is MD4 of the UTF-16LE password; the NTLMv2 hash is HMAC-MD5 under it of the UTF-16LE of the user in
    upper case followed by the domain as given. -/
theorem C26_formula (P : Prims) (cm : CaseMap) (pw user domain : Str) (h : Bytes 16) :
    ntowfv1 P pw = P.md4 (utf16le pw) ∧
    ntowfv2 P cm user h domain = P.hmacMd5 h.val (utf16le (user.flatMap cm.up ++ domain)) := by
  simp only [ntowfv1, ntowfv2, u16sAsBytes_encodeUtf16, CaseMap.upper, and_self]

example (P : Prims) (cm : CaseMap) (h : Bytes 16) : ntowfv2 P cm ['u'] h ['D'] = P.hmacMd5 h.val [0x55, 0, 0x44, 0] := by
  rw [(C26_formula P cm [] ['u'] ['D'] h).2]
  simp only [List.flatMap_cons, List.flatMap_nil, cm.ascii 'u' (by decide)]
  rfl

/-- C26: user-name case does not matter (ASCII names: without assumptions on the upper-casing table). -/
theorem C26_case_insensitive (P : Prims) (cm : CaseMap) (u u' domain : Str) (h : Bytes 16) (hu : ascii u) (hu' : ascii u')
    (e : u.map Char.toUpper = u'.map Char.toUpper) : ntowfv2 P cm u h domain = ntowfv2 P cm u' h domain := by
  simp only [ntowfv2, upper_ascii cm hu, upper_ascii cm hu', e]

/-- C26: user and domain matter only through the concatenation, which is what is hashed: equal hash inputs mean equal
    concatenations, and equal NT hash inputs mean equal passwords. -/
theorem C26_inputs (cm : CaseMap) (pw pw' u u' d d' : Str) :
    (utf16le pw = utf16le pw' ↔ pw = pw') ∧
    (utf16le (u.flatMap cm.up ++ d) = utf16le (u'.flatMap cm.up ++ d') ↔ u.flatMap cm.up ++ d = u'.flatMap cm.up ++ d') :=
  ⟨⟨utf16le_inj, fun h => by rw [h]⟩, ⟨utf16le_inj, fun h => by rw [h]⟩⟩

/-- User `ab` of domain `c` and user `a` of domain `Bc` have the same hash input. -/
example (cm : CaseMap) : utf16le ("ab".toList.flatMap cm.up ++ "c".toList) = utf16le ("a".toList.flatMap cm.up ++ "Bc".toList) :=
  (C26_inputs cm [] [] "ab".toList "a".toList "c".toList "Bc".toList).2.mpr
    (by simp [cm.ascii 'a' (by decide), cm.ascii 'b' (by decide)])

example (P : Prims) (cm : CaseMap) (h : Bytes 16) :
    ntowfv2 P cm "User".toList h "Domain".toList = ntowfv2 P cm "uSER".toList h "Domain".toList :=
  C26_case_insensitive P cm _ _ _ h (by simp [ascii]) (by simp [ascii]) (by decide)

/-! ### C27 -/

/-- C27: the NTLMv1 computation returns what MS-NLMP 3.3.1 prescribes. -/
theorem C27_ntlmv1 (P : Prims) (flags : Flags) (keyNt keyLm : Bytes 16) (server client : Bytes 8) (noLm : Bool) :
    let r := ntlmv1Response P flags keyNt keyLm server client noLm
    isNtlmv1 P flags keyNt keyLm server client noLm r.2.1.response.val r.1.response.val r.2.2.val := by
  have hb := hasFlag_bit flags Flags.NTLMSSP_NEGOTIATE_EXTENDED_SESSIONSECURITY
  simp only [show Flags.NTLMSSP_NEGOTIATE_EXTENDED_SESSIONSECURITY.toNat % 32 = 19 from rfl] at hb
  simp only [ntlmv1Response, isNtlmv1]
  split
  · next h =>
    refine ⟨rfl, .inl ⟨hb.mp h, ⟨_, rfl, desl_isDesl P keyNt _⟩, ?_⟩⟩
    simp [Lmv1Challenge.fromClientChallenge, Bytes.append, Bytes.zero]
  · next h =>
    refine ⟨rfl, .inr ⟨fun hc => h (hb.mpr hc), desl_isDesl P keyNt _, ?_⟩⟩
    cases noLm with
    | true => exact .inl ⟨rfl, rfl⟩
    | false => exact .inr ⟨rfl, desl_isDesl P keyLm _⟩

/-- The specification determines the responses. -/
theorem C27_determined (P : Prims) (flags : Flags) (keyNt keyLm : Bytes 16) (server client : Bytes 8) (noLm : Bool)
    (nt nt' lm lm' sbk sbk' : List UInt8) (h : isNtlmv1 P flags keyNt keyLm server client noLm nt lm sbk)
    (h' : isNtlmv1 P flags keyNt keyLm server client noLm nt' lm' sbk') : nt = nt' ∧ lm = lm' ∧ sbk = sbk' := by
  have hd : ∀ {k d r r'}, isDesl P k d r → isDesl P k d r' → r = r' := by
    rintro k d r r' ⟨c1, c2, c3, h1, h2, h3, rfl⟩ ⟨c1', c2', c3', h1', h2', h3', rfl⟩
    rw [isDes_unique h1 h1', isDes_unique h2 h2', isDes_unique h3 h3']
  obtain ⟨h1, h2⟩ := h
  obtain ⟨h1', h2'⟩ := h'
  rcases h2 with ⟨f, ⟨d, e, h3⟩, h4⟩ | ⟨f, h3, h4⟩ <;> rcases h2' with ⟨f', ⟨d', e', h3'⟩, h4'⟩ | ⟨f', h3', h4'⟩
  · have : d = d' := Subtype.ext (e.trans e'.symm)
    subst this
    exact ⟨hd h3 h3', h4.trans h4'.symm, h1.trans h1'.symm⟩
  · exact absurd f f'
  · exact absurd f' f
  · have hn := hd h3 h3'
    refine ⟨hn, ?_, h1.trans h1'.symm⟩
    rcases h4 with ⟨n, h4⟩ | ⟨n, h4⟩ <;> rcases h4' with ⟨n', h4'⟩ | ⟨n', h4'⟩
    · rw [h4, h4', hn]
    · rw [n] at n'; cases n'
    · rw [n] at n'; cases n'
    · exact hd h4 h4'

/-- Whoever computes the responses of a level-0 client by the specification gets what the code computes. -/
example (P : Prims) (kn kl : Bytes 16) (s c : Bytes 8) (nt lm sbk : List UInt8)
    (h : isNtlmv1 P ⟨0x00080201⟩ kn kl s c false nt lm sbk) :
    lm = (ntlmv1Response P ⟨0x00080201⟩ kn kl s c false).1.response.val :=
  (C27_determined P _ kn kl s c false _ _ _ _ _ _ h (C27_ntlmv1 P _ kn kl s c false)).2.1

/-- With extended session security the LM response is the client challenge and zeros. -/
example (P : Prims) (kn kl : Bytes 16) (s c : Bytes 8) :
    (ntlmv1Response P ⟨0x00080000⟩ kn kl s c false).1.response.val = c.val ++ List.replicate 16 0 := by
  rcases (C27_ntlmv1 P ⟨0x00080000⟩ kn kl s c false).2 with ⟨_, _, h⟩ | ⟨h, _⟩
  · exact h
  · exact absurd (by simp only [bit]; decide) h

/-! ### C28 -/

/-- C28: the NTLMv2 computation returns what MS-NLMP 3.3.2 prescribes, for the time given or the clock's. -/
theorem C28_ntlmv2 (P : Prims) (cfg : Cfg) (flags : Flags) (keyNt keyLm : Bytes 16) (server client : Bytes 8)
    (given : Option FileTime) (infos : List AvPair) (clock : SystemTime) (t : FileTime) (ht : timeUsed given clock t)
    (hf : ∀ p ∈ infos, avPairFits p) :
    ∃ proof lm nt sbk,
      ntlmv2Response P cfg flags keyNt keyLm server client given infos clock = .ok (proof, lm, nt, sbk) ∧
      proof = P.hmacMd5 keyNt.val (server.val ++ ntlmv2Temp t client infos) ∧
      lm.response = P.hmacMd5 keyLm.val (server.val ++ client.val) ∧ lm.challengeFromClient = client ∧
      sbk = P.hmacMd5 keyNt.val proof.val ∧
      nt.timestamp = t ∧ nt.challengeFromClient = client ∧ nt.targetInfos = infos := by
  have h2 : Wire.serialize cfg (⟨t, client, infos⟩ : Ntv2Challenge) = .ok (ntv2Bytes ⟨t, client, infos⟩) :=
    serialize_of_enc (enc_ntv2 cfg _ hf)
  rcases ht with rfl | ⟨rfl, ht⟩
  · simp only [ntlmv2Response, bind, Except.bind, pure, Except.pure, h2]
    exact ⟨_, _, _, _, rfl, rfl, rfl, rfl, rfl, rfl, rfl, rfl⟩
  · simp only [ntlmv2Response, bind, Except.bind, pure, Except.pure, (now_iff clock t).mpr ht, h2]
    exact ⟨_, _, _, _, rfl, rfl, rfl, rfl, rfl, rfl, rfl, rfl⟩

/-- C28: it fails otherwise: the clock cannot be represented and no time is given, or a text of the target info is too long. -/
theorem C28_failure (P : Prims) (cfg : Cfg) (flags : Flags) (keyNt keyLm : Bytes 16) (server client : Bytes 8)
    (given : Option FileTime) (infos : List AvPair) (clock : SystemTime) :
    (¬ (∃ t, timeUsed given clock t) →
      ntlmv2Response P cfg flags keyNt keyLm server client given infos clock = .error .clock) ∧
    ((∃ t, timeUsed given clock t) → ¬ (∀ p ∈ infos, avPairFits p) →
      ntlmv2Response P cfg flags keyNt keyLm server client given infos clock = .error .stringTooLong) := by
  constructor
  · intro h
    cases given with
    | some t => exact absurd ⟨t, .inl rfl⟩ h
    | none =>
      have := now_err clock (fun ⟨t, ht⟩ => h ⟨t, .inr ⟨rfl, ht⟩⟩)
      simp only [ntlmv2Response, this]
      rfl
  · rintro ⟨t, ht⟩ hf
    have h2 : Wire.serialize cfg (⟨t, client, infos⟩ : Ntv2Challenge) = .error .stringTooLong := by
      simp only [Wire.serialize, ntv2_err cfg ⟨t, client, infos⟩ hf]
    rcases ht with rfl | ⟨rfl, ht⟩
    · simp only [ntlmv2Response, bind, Except.bind, pure, Except.pure, h2]
    · simp only [ntlmv2Response, bind, Except.bind, (now_iff clock t).mpr ht, h2]

/-- Before 1970, without a time from the server. -/
example (P : Prims) (cfg : Cfg) (k : Bytes 16) (s c : Bytes 8) :
    ntlmv2Response P cfg ⟨0⟩ k k s c none [.eol] ⟨-1, 0⟩ = .error .clock :=
  (C28_failure P cfg ⟨0⟩ k k s c none [.eol] ⟨-1, 0⟩).1 (by
    rintro ⟨t, h⟩
    simp [timeUsed, clockTime] at h)

example (P : Prims) (cfg : Cfg) (k : Bytes 16) (s c : Bytes 8) :
    ∃ r, ntlmv2Response P cfg ⟨0⟩ k k s c none [.nbDomainName "D".toList, .eol] ⟨1700000000, 0⟩ = .ok r := by
  obtain ⟨p, lm, nt, sbk, h, _⟩ := C28_ntlmv2 P cfg ⟨0⟩ k k s c none [.nbDomainName "D".toList, .eol] ⟨1700000000, 0⟩
    ⟨404635648, 395812⟩ (.inr ⟨rfl, by simp [clockTime, fileTimeValue]⟩)
    (by simp [avPairFits, avValueBytes, utf16le, utf16Units, length_le])
  exact ⟨_, h⟩

/-! ### C30 (the function) -/

/-- C30: `kxkey` called with the server challenge exactly under extended session security is KXKEY. -/
theorem C30_kxkey (P : Prims) (flags : Flags) (sbk : Bytes 16) (lm : Bytes 24) (lmowf : Bytes 16) (server : Bytes 8)
    (arg : Option (Bytes 8)) (h : (bit flags 19 → arg = some server) ∧ (¬ bit flags 19 → arg = none)) :
    isKxkey P flags sbk lm.val lmowf server (kxkey P flags sbk (lm.sub 0 8 (by omega)) lmowf arg).val := by
  have h7 := hasFlag_bit flags Flags.NTLMSSP_NEGOTIATE_LM_KEY
  have h22 := hasFlag_bit flags Flags.NTLMSSP_REQUEST_NON_NT_SESSION_KEY
  simp only [show Flags.NTLMSSP_NEGOTIATE_LM_KEY.toNat % 32 = 7 from rfl] at h7
  simp only [show Flags.NTLMSSP_REQUEST_NON_NT_SESSION_KEY.toNat % 32 = 22 from rfl] at h22
  refine ⟨fun h19 => ?_, fun h19 c7 => ?_, fun h19 c7 c22 => ?_, fun h19 c7 c22 => ?_⟩
  · rw [h.1 h19]
    rfl
  · rw [h.2 h19]
    simp only [kxkey, h7.mpr c7, if_true]
    refine ⟨lm.sub 0 8 (by omega), _, _, rfl, des7_isDes' P _ _ ?_, des7_isDes' P _ _ ?_, rfl⟩
    · rfl
    · rfl
  · rw [h.2 h19]
    simp only [kxkey, show flags.hasFlag Flags.NTLMSSP_NEGOTIATE_LM_KEY = false from
      Bool.eq_false_iff.mpr fun hc => c7 (h7.mp hc), h22.mpr c22, Bool.false_eq_true, if_false, if_true]
    rfl
  · rw [h.2 h19]
    simp only [kxkey, show flags.hasFlag Flags.NTLMSSP_NEGOTIATE_LM_KEY = false from
      Bool.eq_false_iff.mpr fun hc => c7 (h7.mp hc), show flags.hasFlag Flags.NTLMSSP_REQUEST_NON_NT_SESSION_KEY = false from
      Bool.eq_false_iff.mpr fun hc => c22 (h22.mp hc), Bool.false_eq_true, if_false]

/-- Without any of the three flags the key-exchange key is the session base key. -/
example (P : Prims) (sbk lmowf : Bytes 16) (lm : Bytes 24) :
    (kxkey P ⟨0⟩ sbk (lm.sub 0 8 (by omega)) lmowf none).val = sbk.val :=
  (C30_kxkey P ⟨0⟩ sbk lm lmowf (Bytes.zero 8) none
    ⟨fun h => absurd h (by simp [bit]), fun _ => rfl⟩).2.2.2 (by simp [bit]) (by simp [bit]) (by simp [bit])

/-! ### C31 (the function) -/

/-- C31: if a key exchange was negotiated, decrypting the encrypted key under the key-exchange key gives the exported key,
    which is the one supplied or the random one. -/
theorem C31_exchange (P : Prims) (flags : Flags) (kek : Bytes 16) (given : Option (Bytes 16)) (random : Bytes 16)
    (h : keyExchange flags) :
    let r := encryptRandomSessionKey P flags kek given random
    r.1 = given.getD random ∧ rc4k P kek r.2 = r.1.val := by
  have h30 := hasFlag_bit flags Flags.NTLMSSP_NEGOTIATE_KEY_EXCH
  have h4 := hasFlag_bit flags Flags.NTLMSSP_NEGOTIATE_SIGN
  have h5 := hasFlag_bit flags Flags.NTLMSSP_NEGOTIATE_SEAL
  simp only [show Flags.NTLMSSP_NEGOTIATE_KEY_EXCH.toNat % 32 = 30 from rfl] at h30
  simp only [show Flags.NTLMSSP_NEGOTIATE_SIGN.toNat % 32 = 4 from rfl] at h4
  simp only [show Flags.NTLMSSP_NEGOTIATE_SEAL.toNat % 32 = 5 from rfl] at h5
  have hc : (flags.hasFlag Flags.NTLMSSP_NEGOTIATE_KEY_EXCH
      && (flags.hasFlag Flags.NTLMSSP_NEGOTIATE_SIGN || flags.hasFlag Flags.NTLMSSP_NEGOTIATE_SEAL)) = true := by
    rw [Bool.and_eq_true, Bool.or_eq_true, h30, h4, h5]
    exact h
  simp only [encryptRandomSessionKey, hc, if_true]
  constructor
  · cases given <;> rfl
  · exact rc4k_rc4 P kek _

/-- C31: otherwise the exported key is the key-exchange key and the encrypted key is all zero. -/
theorem C31_no_exchange (P : Prims) (flags : Flags) (kek : Bytes 16) (given : Option (Bytes 16)) (random : Bytes 16)
    (h : ¬ keyExchange flags) : encryptRandomSessionKey P flags kek given random = (kek, Bytes.zero 16) := by
  have h30 := hasFlag_bit flags Flags.NTLMSSP_NEGOTIATE_KEY_EXCH
  have h4 := hasFlag_bit flags Flags.NTLMSSP_NEGOTIATE_SIGN
  have h5 := hasFlag_bit flags Flags.NTLMSSP_NEGOTIATE_SEAL
  simp only [show Flags.NTLMSSP_NEGOTIATE_KEY_EXCH.toNat % 32 = 30 from rfl] at h30
  simp only [show Flags.NTLMSSP_NEGOTIATE_SIGN.toNat % 32 = 4 from rfl] at h4
  simp only [show Flags.NTLMSSP_NEGOTIATE_SEAL.toNat % 32 = 5 from rfl] at h5
  have hc : (flags.hasFlag Flags.NTLMSSP_NEGOTIATE_KEY_EXCH
      && (flags.hasFlag Flags.NTLMSSP_NEGOTIATE_SIGN || flags.hasFlag Flags.NTLMSSP_NEGOTIATE_SEAL)) = false := by
    apply Bool.eq_false_iff.mpr
    rw [ne_eq, Bool.and_eq_true, Bool.or_eq_true, h30, h4, h5]
    exact h
  simp only [encryptRandomSessionKey, hc, Bool.false_eq_true, if_false]

/-- KEY_EXCH without SIGN or SEAL is no key exchange. -/
example (P : Prims) (kek r : Bytes 16) : encryptRandomSessionKey P ⟨0x40000000⟩ kek none r = (kek, Bytes.zero 16) :=
  C31_no_exchange P _ kek none r (by simp only [keyExchange, bit]; decide)

example (P : Prims) (kek r : Bytes 16) :
    rc4k P kek (encryptRandomSessionKey P ⟨0x40000010⟩ kek none r).2 = r.val :=
  (C31_exchange P ⟨0x40000010⟩ kek none r ⟨by simp only [bit]; decide, .inl (by simp only [bit]; decide)⟩).2

end Props
end Ntlm
