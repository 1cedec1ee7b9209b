import Verif.Props.Session
import Verif.Lemmas.Contents
/-
  Injectivity of the wire layouts: what an encoding determines.
-/
namespace Ntlm

open Spec

theorem leBytes_inj (k : Nat) {n m : Nat} (hn : n < 256 ^ k) (hm : m < 256 ^ k) (h : leBytes k n = leBytes k m) : n = m := by
  induction k generalizing n m with
  | zero => simp only [Nat.pow_zero] at hn hm; omega
  | succ k ih =>
    rw [Nat.pow_succ] at hn hm
    simp only [leBytes, List.cons.injEq] at h
    have e := ih (by omega) (by omega) h.2
    have e' := congrArg UInt8.toNat h.1
    simp only [UInt8.toNat_ofNat'] at e'
    omega

theorem le_inj (k : Nat) {n m : Nat} (hn : n < 256 ^ k) (hm : m < 256 ^ k) (h : le k n = le k m) : n = m := by
  rw [le_eq, le_eq] at h
  exact leBytes_inj k hn hm h

theorem le1_inj {a b : UInt8} (h : le 1 a.toNat = le 1 b.toNat) : a = b := by
  have h1 := a.toNat_lt
  have h2 := b.toNat_lt
  exact UInt8.toNat_inj.mp (le_inj 1 (by omega) (by omega) h)

theorem le2_inj {a b : UInt16} (h : le 2 a.toNat = le 2 b.toNat) : a = b := by
  have h1 := a.toNat_lt
  have h2 := b.toNat_lt
  exact UInt16.toNat_inj.mp (le_inj 2 (by omega) (by omega) h)

/-- Two appends with first parts of equal length. -/
theorem split_eq {a b c d : List UInt8} (h : a ++ b = c ++ d) (hl : a.length = c.length) : a = c ∧ b = d :=
  List.append_inj h hl

theorem utf8Bytes_inj {s t : Str} (h : utf8Bytes s = utf8Bytes t) : s = t := by
  have h1 := oem_decode ⟨false, false, .unix⟩ s
  have h2 := oem_decode ⟨false, false, .unix⟩ t
  rw [h, h2] at h1
  cases h1
  rfl

theorem versionBytes_inj {v w : Version} (h : versionBytes v = versionBytes w) : v = w := by
  obtain ⟨a, b, c, d⟩ := v
  obtain ⟨a', b', c', d'⟩ := w
  simp only [versionBytes, List.append_assoc] at h
  obtain ⟨h1, h⟩ := split_eq h (by simp only [length_le])
  obtain ⟨h2, h⟩ := split_eq h (by simp only [length_le])
  obtain ⟨h3, h⟩ := split_eq h (by simp only [length_le])
  obtain ⟨_, h4⟩ := split_eq h rfl
  rw [le1_inj h1, le1_inj h2, le2_inj h3, le1_inj h4]

theorem fileTimeBytes_inj {t u : FileTime} (h : fileTimeBytes t = fileTimeBytes u) : t = u := by
  obtain ⟨a, b⟩ := t
  obtain ⟨a', b'⟩ := u
  simp only [fileTimeBytes] at h
  obtain ⟨h1, h2⟩ := split_eq h (by simp only [length_le])
  rw [le4_inj h1, le4_inj h2]

theorem singleHostBytes_inj {x y : SingleHostData} (h : singleHostBytes x = singleHostBytes y) : x = y := by
  obtain ⟨a, b, c, d⟩ := x
  obtain ⟨a', b', c', d'⟩ := y
  simp only [singleHostBytes, List.append_assoc] at h
  obtain ⟨h1, h⟩ := split_eq h (by simp only [length_le])
  obtain ⟨h2, h⟩ := split_eq h (by simp only [length_le])
  obtain ⟨h3, h4⟩ := split_eq h (by rw [c.property, c'.property])
  rw [le4_inj h1, le4_inj h2, Subtype.ext h3, Subtype.ext h4]

theorem avFlagsValue_lt (f : MsvAvFlags) : avFlagsValue f < 8 := by
  obtain ⟨_ | _, _ | _, _ | _⟩ := f <;> decide

theorem avFlagsValue_inj {f g : MsvAvFlags} (h : avFlagsValue f = avFlagsValue g) : f = g := by
  obtain ⟨_ | _, _ | _, _ | _⟩ := f <;> obtain ⟨_ | _, _ | _, _ | _⟩ := g <;> first | rfl | exact absurd h (by decide)

theorem avIdValue_lt (p : AvPair) : avIdValue p < 11 := by cases p <;> simp only [avIdValue] <;> omega

theorem avFlagsBytes_inj {f g : MsvAvFlags} (h : le 4 (avFlagsValue f) = le 4 (avFlagsValue g)) : f = g := by
  have h1 := avFlagsValue_lt f
  have h2 := avFlagsValue_lt g
  exact avFlagsValue_inj (le_inj 4 (by omega) (by omega) h)

theorem avPair_inj {p q : AvPair} (hi : avIdValue p = avIdValue q) (hv : avValueBytes p = avValueBytes q) : p = q := by
  cases p <;> cases q <;> simp only [avIdValue, Nat.reduceEqDiff] at hi <;> simp only [avValueBytes] at hv
  · rfl
  · rw [utf16le_inj hv]
  · rw [utf16le_inj hv]
  · rw [utf16le_inj hv]
  · rw [utf16le_inj hv]
  · rw [utf16le_inj hv]
  · rw [avFlagsBytes_inj hv]
  · rw [fileTimeBytes_inj hv]
  · rw [singleHostBytes_inj hv]
  · rw [utf16le_inj hv]
  · rw [Subtype.ext hv]

/-- AV pairs are self-delimiting. -/
theorem avPairBytes_split {p q : AvPair} {r s : List UInt8} (hp : avPairFits p) (hq : avPairFits q)
    (h : avPairBytes p ++ r = avPairBytes q ++ s) : p = q ∧ r = s := by
  have h1 := avIdValue_lt p
  have h2 := avIdValue_lt q
  simp only [avPairFits] at hp hq
  simp only [avPairBytes, List.append_assoc] at h
  obtain ⟨hi, h⟩ := split_eq h (by simp only [length_le])
  obtain ⟨hl, h⟩ := split_eq h (by simp only [length_le])
  obtain ⟨hv, h⟩ := split_eq h (le_inj 2 (by omega) (by omega) hl)
  exact ⟨avPair_inj (le_inj 2 (by omega) (by omega) hi) hv, h⟩

theorem length_avPairBytes_pos (p : AvPair) : 4 ≤ (avPairBytes p).length := by
  simp only [avPairBytes, List.length_append, length_le]
  omega

theorem avListBytes_inj {l k : List AvPair} (hl : ∀ p ∈ l, avPairFits p) (hk : ∀ p ∈ k, avPairFits p)
    (h : avListBytes l = avListBytes k) : l = k := by
  induction l generalizing k with
  | nil =>
    cases k with
    | nil => rfl
    | cons q k =>
      have := congrArg List.length h
      have := length_avPairBytes_pos q
      simp only [avListBytes, List.flatMap_nil, List.flatMap_cons, List.length_append, List.length_nil] at *
      omega
  | cons p l ih =>
    cases k with
    | nil =>
      have := congrArg List.length h
      have := length_avPairBytes_pos p
      simp only [avListBytes, List.flatMap_nil, List.flatMap_cons, List.length_append, List.length_nil] at *
      omega
    | cons q k =>
      simp only [avListBytes, List.flatMap_cons] at h
      obtain ⟨rfl, h'⟩ := avPairBytes_split (hl p (by simp)) (hk q (by simp)) h
      rw [ih (fun x hx => hl x (by simp [hx])) (fun x hx => hk x (by simp [hx])) h']

theorem ntv2Bytes_inj {c d : Ntv2Challenge} (hc : ∀ p ∈ c.targetInfos, avPairFits p) (hd : ∀ p ∈ d.targetInfos, avPairFits p)
    (h : ntv2Bytes c = ntv2Bytes d) : c = d := by
  obtain ⟨t, n, l⟩ := c
  obtain ⟨t', n', l'⟩ := d
  simp only [ntv2Bytes, List.append_assoc] at h
  obtain ⟨_, h⟩ := split_eq h rfl
  obtain ⟨h1, h⟩ := split_eq h (by simp only [fileTimeBytes, List.length_append, length_le])
  obtain ⟨h2, h⟩ := split_eq h (by rw [n.property, n'.property])
  obtain ⟨_, h⟩ := split_eq h rfl
  rw [fileTimeBytes_inj h1, Subtype.ext h2, avListBytes_inj (l := l) (k := l') hc hd h]

theorem ntBytes_inj {c d : NtChallenge} (hc : ntFits c) (hd : ntFits d) (h : ntBytes c = ntBytes d) : c = d := by
  cases c with
  | v1 a =>
    cases d with
    | v1 b =>
      obtain ⟨a⟩ := a
      obtain ⟨b⟩ := b
      rw [Subtype.ext (show a.val = b.val from h)]
    | v2 b =>
      have := congrArg List.length h
      simp only [ntBytes, ntv2Bytes, List.length_append, a.response.property, b.challengeFromClient.property, fileTimeBytes,
        length_le, List.length_cons, List.length_nil] at this
      omega
  | v2 a =>
    cases d with
    | v1 b =>
      have := congrArg List.length h
      simp only [ntBytes, ntv2Bytes, List.length_append, b.response.property, a.challengeFromClient.property, fileTimeBytes,
        length_le, List.length_cons, List.length_nil] at this
      omega
    | v2 b => rw [ntv2Bytes_inj hc.1 hd.1 h]

/-! ### Descriptors -/

theorem descriptor_inj {v w : Option (List UInt8)} {o p : Nat} (hv : (payload v).length ≤ 65535)
    (hw : (payload w).length ≤ 65535) (ho : 0 < o ∧ o < 2 ^ 32) (hp : 0 < p ∧ p < 2 ^ 32)
    (h : descriptor v o = descriptor w p) : v.map List.length = w.map List.length ∧ (v ≠ none → o = p) := by
  have hz : ([0, 0, 0, 0, 0, 0, 0, 0] : List UInt8) = le 2 0 ++ (le 2 0 ++ le 4 0) := by decide
  cases v with
  | none =>
    cases w with
    | none => exact ⟨rfl, fun h => absurd rfl h⟩
    | some b =>
      simp only [descriptor, List.append_assoc, hz] at h
      obtain ⟨_, h⟩ := split_eq h (by simp only [length_le])
      obtain ⟨_, h⟩ := split_eq h (by simp only [length_le])
      have := le_inj 4 (by omega) (by omega) h
      omega
  | some a =>
    cases w with
    | none =>
      simp only [descriptor, List.append_assoc, hz] at h
      obtain ⟨_, h⟩ := split_eq h (by simp only [length_le])
      obtain ⟨_, h⟩ := split_eq h (by simp only [length_le])
      have := le_inj 4 (by omega) (by omega) h
      omega
    | some b =>
      simp only [descriptor, List.append_assoc] at h
      simp only [payload, Option.getD_some] at hv hw
      obtain ⟨hl, h⟩ := split_eq h (by simp only [length_le])
      obtain ⟨_, h⟩ := split_eq h (by simp only [length_le])
      have e1 := le_inj 2 (by omega) (by omega) hl
      have e2 := le_inj 4 (by omega) (by omega) h
      exact ⟨by simp only [Option.map_some, e1], fun _ => e2⟩

theorem payload_length {v w : Option (List UInt8)} (h : v.map List.length = w.map List.length) :
    (payload v).length = (payload w).length := by
  cases v <;> cases w <;> simp_all [payload]

theorem payload_inj {v w : Option (List UInt8)} (h : v.map List.length = w.map List.length) (e : payload v = payload w) :
    v = w := by
  cases v <;> cases w <;> simp_all [payload]

theorem optMap_inj {α : Type} {f : α → List UInt8} {x y : Option α} (hf : ∀ a b, x = some a → y = some b → f a = f b → a = b)
    (h : x.map f = y.map f) : x = y := by
  cases x <;> cases y <;> simp_all

theorem oem_inj {x y : Option OEMString} (h : (x.map fun s => utf8Bytes s.s) = y.map fun s => utf8Bytes s.s) : x = y :=
  optMap_inj (fun _ _ _ _ e => congrArg OEMString.mk (utf8Bytes_inj e)) h

theorem unicode_inj {x y : Option UnicodeString} (h : (x.map fun s => utf16le s.s) = y.map fun s => utf16le s.s) : x = y :=
  optMap_inj (fun _ _ _ _ e => congrArg UnicodeString.mk (utf16le_inj e)) h

theorem key_inj {x y : Option (Bytes 16)} (h : (x.map fun b => b.val) = y.map fun b => b.val) : x = y :=
  optMap_inj (fun _ _ _ _ e => Subtype.ext e) h

/-- Two texts that begin a message, or have the same length. -/
def restOk (r s : List UInt8) : Prop := r.length = s.length ∨ (ntlmssp <+: r ∧ ntlmssp <+: s)

theorem version_not_signature {v : Version} {r s : List UInt8} (h : versionBytes v ++ r = ntlmssp ++ s) : False := by
  have := congrArg (·[4]?) h
  have e : versionBytes v ++ r = (le 1 v.major.toNat ++ le 1 v.minor.toNat ++ le 2 v.build.toNat) ++
      (0 :: ([0, 0] ++ le 1 v.revisionCount.toNat ++ r)) := by
    simp only [versionBytes, List.append_assoc, List.cons_append]
  rw [e, List.getElem?_append_right (by simp only [List.length_append, length_le]; omega)] at this
  have e2 : (ntlmssp ++ s)[4]? = some 83 := by
    rw [List.getElem?_append_left (by rw [length_ntlmssp]; omega)]
    decide
  rw [e2] at this
  simp only [List.length_append, length_le, Nat.reduceAdd, Nat.sub_self, List.getElem?_cons_zero, Option.some.injEq] at this
  exact absurd this (by decide)

/-- Whether a version block is there, when nothing but the next message can follow it. -/
theorem version_length {v w : Option Version} {r s : List UInt8} (hr : restOk r s)
    (h : payload (v.map versionBytes) ++ r = payload (w.map versionBytes) ++ s) :
    (payload (v.map versionBytes)).length = (payload (w.map versionBytes)).length := by
  rcases hr with hl | ⟨⟨r', rfl⟩, ⟨s', rfl⟩⟩
  · have := congrArg List.length h
    simp only [List.length_append] at this
    omega
  · cases v with
    | none =>
      cases w with
      | none => rfl
      | some w => exact (version_not_signature (s := r') h.symm).elim
    | some v =>
      cases w with
      | none => exact (version_not_signature (s := s') h).elim
      | some w => simp only [Option.map_some, payload, Option.getD_some, versionBytes, List.length_append, length_le]

theorem version_inj {v w : Option Version} (h : payload (v.map versionBytes) = payload (w.map versionBytes)) : v = w := by
  have hz (x : Version) : (versionBytes x).length = 8 := by
    simp only [versionBytes, List.length_append, length_le, List.length_cons, List.length_nil]
  cases v <;> cases w <;> simp only [Option.map_some, Option.map_none, payload, Option.getD_some, Option.getD_none] at h
  · rfl
  · have := hz _ ▸ congrArg List.length h; simp at this
  · have := hz _ ▸ congrArg List.length h; simp at this
  · rw [versionBytes_inj h]

/-! ### Messages -/

theorem negotiate_split {m n : Negotiate} (hm : negotiateFits m) (hn : negotiateFits n) {r s : List UInt8} (hr : restOk r s)
    (h : negotiateBytes m ++ r = negotiateBytes n ++ s) : m = n ∧ r = s := by
  obtain ⟨f, d, w, v⟩ := m
  obtain ⟨f', d', w', v'⟩ := n
  have lv : (payload (v.map versionBytes)).length ≤ 8 := length_payload_version v
  have lv' : (payload (v'.map versionBytes)).length ≤ 8 := length_payload_version v'
  have ld : (payload (d.map fun s => utf8Bytes s.s)).length ≤ 65535 := strFits_payload hm.1
  have lw : (payload (w.map fun s => utf8Bytes s.s)).length ≤ 65535 := strFits_payload hm.2
  have ld' : (payload (d'.map fun s => utf8Bytes s.s)).length ≤ 65535 := strFits_payload hn.1
  have lw' : (payload (w'.map fun s => utf8Bytes s.s)).length ≤ 65535 := strFits_payload hn.2
  simp only [negotiateBytes, List.append_assoc] at h
  obtain ⟨_, h⟩ := split_eq h rfl
  obtain ⟨_, h⟩ := split_eq h rfl
  obtain ⟨hf, h⟩ := split_eq h (by simp only [length_le])
  obtain ⟨hd, h⟩ := split_eq h (by simp only [length_descriptor])
  obtain ⟨hw, h⟩ := split_eq h (by simp only [length_descriptor])
  obtain ⟨hd1, hd2⟩ := descriptor_inj ld ld' (by omega) (by omega) hd
  obtain ⟨hw1, hw2⟩ := descriptor_inj lw lw' (by omega) (by omega) hw
  have pd := payload_length hd1
  have pw := payload_length hw1
  have hv : (payload (v.map versionBytes)).length = (payload (v'.map versionBytes)).length := by
    by_cases hdn : d = none
    · by_cases hwn : w = none
      · subst hdn; subst hwn
        have ed : d' = none := by
          cases d' with
          | none => rfl
          | some x => simp at hd1
        have ew : w' = none := by
          cases w' with
          | none => rfl
          | some x => simp at hw1
        subst ed; subst ew
        exact version_length hr h
      · have := hw2 (by simpa using hwn)
        omega
    · have := hd2 (by simpa using hdn)
      omega
  obtain ⟨hve, h⟩ := split_eq h hv
  obtain ⟨hde, h⟩ := split_eq h pd
  obtain ⟨hwe, h⟩ := split_eq h pw
  have i1 := oem_inj (payload_inj hd1 hde)
  have i2 := oem_inj (payload_inj hw1 hwe)
  have i3 : f = f' := congrArg Flags.mk (le4_inj hf)
  rw [version_inj hve, i1, i2, i3]
  exact ⟨rfl, h⟩

theorem infosField_inj {l k : List AvPair} (hl : ∀ p ∈ l, avPairFits p) (hk : ∀ p ∈ k, avPairFits p)
    (h : infosField l = infosField k) : l = k := by
  simp only [infosField] at h
  by_cases h1 : l = [] <;> by_cases h2 : k = [] <;> simp only [h1, h2, if_true, if_false] at h
  · rw [h1, h2]
  · simp at h
  · simp at h
  · exact avListBytes_inj hl hk (Option.some.inj h)

theorem challenge_split {m n : Challenge} (hm : challengeFits m) (hn : challengeFits n) {r s : List UInt8} (hr : restOk r s)
    (h : challengeBytes m ++ r = challengeBytes n ++ s) : m = n ∧ r = s := by
  obtain ⟨t, f, c, i, v⟩ := m
  obtain ⟨t', f', c', i', v'⟩ := n
  have lv : (payload (v.map versionBytes)).length ≤ 8 := length_payload_version v
  have lv' : (payload (v'.map versionBytes)).length ≤ 8 := length_payload_version v'
  have ld : (payload (t.map fun s => utf16le s.s)).length ≤ 65535 := strFits_payload hm.1
  have lw : (payload (infosField i)).length ≤ 65535 := length_payload_infos hm.2
  have ld' : (payload (t'.map fun s => utf16le s.s)).length ≤ 65535 := strFits_payload hn.1
  have lw' : (payload (infosField i')).length ≤ 65535 := length_payload_infos hn.2
  simp only [challengeBytes, List.append_assoc] at h
  obtain ⟨_, h⟩ := split_eq h rfl
  obtain ⟨_, h⟩ := split_eq h rfl
  obtain ⟨hd, h⟩ := split_eq h (by simp only [length_descriptor])
  obtain ⟨hf, h⟩ := split_eq h (by simp only [length_le])
  obtain ⟨hc, h⟩ := split_eq h (by rw [c.property, c'.property])
  obtain ⟨_, h⟩ := split_eq h rfl
  obtain ⟨hw, h⟩ := split_eq h (by simp only [length_descriptor])
  obtain ⟨hd1, hd2⟩ := descriptor_inj ld ld' (by omega) (by omega) hd
  obtain ⟨hw1, hw2⟩ := descriptor_inj lw lw' (by omega) (by omega) hw
  have pd := payload_length hd1
  have pw := payload_length hw1
  have hv : (payload (v.map versionBytes)).length = (payload (v'.map versionBytes)).length := by
    by_cases hdn : t = none
    · by_cases hwn : infosField i = none
      · subst hdn
        have ed : t' = none := by
          cases t' with
          | none => rfl
          | some x => simp at hd1
        have ew : infosField i' = none := by
          rw [hwn] at hw1
          revert hw1
          cases infosField i' <;> simp
        subst ed
        rw [hwn, ew] at h
        exact version_length hr h
      · have := hw2 hwn
        omega
    · have := hd2 (by simpa using hdn)
      omega
  obtain ⟨hve, h⟩ := split_eq h hv
  obtain ⟨hde, h⟩ := split_eq h pd
  obtain ⟨hwe, h⟩ := split_eq h pw
  have i1 := unicode_inj (payload_inj hd1 hde)
  have i2 : i = i' := infosField_inj hm.2.1 hn.2.1 (payload_inj hw1 hwe)
  have i3 : f = f' := congrArg Flags.mk (le4_inj hf)
  rw [version_inj hve, i1, i2, i3, Subtype.ext hc]
  exact ⟨rfl, h⟩

theorem authenticate_inj {m n : Authenticate} (hm : authenticateFits m) (hn : authenticateFits n)
    (h : authenticateBytes m = authenticateBytes n) :
    m.lmChallengeResponse.map lmBytes = n.lmChallengeResponse.map lmBytes ∧ m.ntChallengeResponse = n.ntChallengeResponse ∧
      m.domain = n.domain ∧ m.user = n.user ∧ m.workstation = n.workstation ∧
      m.encryptedRandomSessionKey = n.encryptedRandomSessionKey ∧ m.negotiateFlags = n.negotiateFlags ∧
      m.version = n.version ∧ m.mic = n.mic := by
  obtain ⟨l1, l2, l3, l4, l5, l6, o1, o2, o3, o4, o5, o6⟩ := authenticate_offsets m hm
  obtain ⟨k1, k2, k3, k4, k5, k6, q1, q2, q3, q4, q5, q6⟩ := authenticate_offsets n hn
  have lm1 : 0 < auO1 m := by simp only [auO1]; omega
  have ln1 : 0 < auO1 n := by simp only [auO1]; omega
  have hl := congrArg List.length h
  rw [authenticateBytes_eq, authenticateBytes_eq] at h hl
  simp only [auH, List.append_assoc] at h
  obtain ⟨_, h⟩ := split_eq h rfl
  obtain ⟨_, h⟩ := split_eq h rfl
  obtain ⟨d1, h⟩ := split_eq h (by simp only [length_descriptor])
  obtain ⟨d2, h⟩ := split_eq h (by simp only [length_descriptor])
  obtain ⟨d3, h⟩ := split_eq h (by simp only [length_descriptor])
  obtain ⟨d4, h⟩ := split_eq h (by simp only [length_descriptor])
  obtain ⟨d5, h⟩ := split_eq h (by simp only [length_descriptor])
  obtain ⟨d6, h⟩ := split_eq h (by simp only [length_descriptor])
  obtain ⟨hf, h⟩ := split_eq h (by simp only [length_le])
  have p1 := (descriptor_inj l1 k1 ⟨lm1, o1⟩ ⟨ln1, q1⟩ d1).1
  have p2 := (descriptor_inj l2 k2 ⟨Nat.lt_of_lt_of_le lm1 (by simp only [auO2]; omega), o2⟩
    ⟨Nat.lt_of_lt_of_le ln1 (by simp only [auO2]; omega), q2⟩ d2).1
  have p3 := (descriptor_inj l3 k3 ⟨Nat.lt_of_lt_of_le lm1 (by simp only [auO3, auO2]; omega), o3⟩
    ⟨Nat.lt_of_lt_of_le ln1 (by simp only [auO3, auO2]; omega), q3⟩ d3).1
  have p4 := (descriptor_inj l4 k4 ⟨Nat.lt_of_lt_of_le lm1 (by simp only [auO4, auO3, auO2]; omega), o4⟩
    ⟨Nat.lt_of_lt_of_le ln1 (by simp only [auO4, auO3, auO2]; omega), q4⟩ d4).1
  have p5 := (descriptor_inj l5 k5 ⟨Nat.lt_of_lt_of_le lm1 (by simp only [auO5, auO4, auO3, auO2]; omega), o5⟩
    ⟨Nat.lt_of_lt_of_le ln1 (by simp only [auO5, auO4, auO3, auO2]; omega), q5⟩ d5).1
  have p6 := (descriptor_inj l6 k6 ⟨Nat.lt_of_lt_of_le lm1 (by simp only [auO6, auO5, auO4, auO3, auO2]; omega), o6⟩
    ⟨Nat.lt_of_lt_of_le ln1 (by simp only [auO6, auO5, auO4, auO3, auO2]; omega), q6⟩ d6).1
  have e1 := payload_length p1
  have e2 := payload_length p2
  have e3 := payload_length p3
  have e4 := payload_length p4
  have e5 := payload_length p5
  have e6 := payload_length p6
  have hv : (auV m).length = (auV n).length := by
    simp only [List.length_append, length_ntlmssp, length_le, length_descriptor, m.mic.property, n.mic.property] at hl
    omega
  obtain ⟨hve, h⟩ := split_eq h hv
  obtain ⟨hmic, h⟩ := split_eq h (by rw [m.mic.property, n.mic.property])
  obtain ⟨v1, h⟩ := split_eq h e1
  obtain ⟨v2, h⟩ := split_eq h e2
  obtain ⟨v3, h⟩ := split_eq h e3
  obtain ⟨v4, h⟩ := split_eq h e4
  obtain ⟨v5, v6⟩ := split_eq h e5
  have hflags : m.negotiateFlags = n.negotiateFlags := by
    exact congrArg Flags.mk (le4_inj hf)
  exact ⟨payload_inj p1 v1, optMap_inj (fun a b ha hb e => ntBytes_inj (hm.1 a ha) (hn.1 b hb) e) (payload_inj p2 v2),
    unicode_inj (payload_inj p3 v3), unicode_inj (payload_inj p4 v4), unicode_inj (payload_inj p5 v5),
    key_inj (payload_inj p6 v6), hflags, version_inj hve, Subtype.ext hmic⟩

end Ntlm
