import Verif.Props.Confine
import Verif.Props.Server
/-
  C87: what an answer at the levels 0 to 2 gives away.
-/
namespace Ntlm

open Spec Client

theorem isDes_length {P : Prims} {k : List UInt8} {d : Bytes 8} {c : List UInt8} (h : isDes P k d c) : c.length = 8 := by
  obtain ⟨e, _, rfl⟩ := h; exact (P.desBlock e d).property

/-- The thirds of a response. -/
theorem isDesl_thirds {P : Prims} {k : List UInt8} {d : Bytes 8} {r : List UInt8} (h : isDesl P k d r) :
    isDes P (k.take 7) d (r.take 8) ∧ isDes P ((k.drop 7).take 7) d ((r.drop 8).take 8) ∧
      isDes P (k.drop 14 ++ [0, 0, 0, 0, 0]) d (r.drop 16) := by
  obtain ⟨c1, c2, c3, h1, h2, h3, rfl⟩ := h
  have l1 := isDes_length h1
  have l2 := isDes_length h2
  refine ⟨?_, ?_, ?_⟩
  · rw [List.append_assoc, List.take_left' l1]; exact h1
  · rw [List.append_assoc, List.drop_left' l1, List.take_left' l2]; exact h2
  · rw [List.drop_left' (by rw [List.length_append, l1, l2])]; exact h3

/-- The key for two bytes of a hash. -/
def key2 (n : Nat) : Bytes 7 := ⟨[UInt8.ofNat (n / 256), UInt8.ofNat n, 0, 0, 0, 0, 0], rfl⟩

theorem key2_all {k : List UInt8} (h : k.length = 2) : ∃ n, n < 65536 ∧ (key2 n).val = k ++ [0, 0, 0, 0, 0] := by
  match k, h with
  | [x, y], _ =>
    have hx := x.toNat_lt
    have hy := y.toNat_lt
    refine ⟨256 * x.toNat + y.toNat, by omega, ?_⟩
    have e1 : UInt8.ofNat ((256 * x.toNat + y.toNat) / 256) = x := by
      apply UInt8.toNat_inj.mp
      rw [UInt8.toNat_ofNat']; omega
    have e2 : UInt8.ofNat (256 * x.toNat + y.toNat) = y := by
      apply UInt8.toNat_inj.mp
      rw [UInt8.toNat_ofNat']; omega
    simp only [key2, e1, e2]; rfl

namespace Props

/-- The NT response of a client at the levels 0 to 2 is made from eight bytes that only the challenge and the nonce determine. -/
theorem v1_block (P : Prims) (ch : Challenge) (client : Bytes 8) : ∃ d : Bytes 8, ∀ (cm : CaseMap) (cfg : Cfg) (ver : UInt32)
    (_ : isV1 ver) (l : Login) (h : List Op) (rnd : AuthRand) (b : List UInt8), rnd.clientChallenge = client →
    Answers P cm cfg ver l h ch rnd b → isDesl P (P.md4 (utf16le l.password)).val d (fieldBytes b 20) := by
  by_cases h19 : bit ch.negotiateFlags 19
  · refine ⟨⟨(P.md5 (ch.serverChallenge.val ++ client.val)).val.take 8, by
      rw [List.length_take, (P.md5 _).property]; decide⟩, ?_⟩
    rintro cm cfg ver hver l h rnd b rfl hb
    obtain ⟨lmHash, nt, lm, sbk, ⟨_, hk⟩, _, hnt, hlm⟩ := C56_v1_responses P cm cfg ver hver l h ch rnd b hb
    rcases hk with ⟨_, ⟨d, hd, hr⟩, _⟩ | ⟨hx, _⟩
    · rw [hnt.1]
      have : d = ⟨(P.md5 (ch.serverChallenge.val ++ rnd.clientChallenge.val)).val.take 8, by
          rw [List.length_take, (P.md5 _).property]; decide⟩ := Subtype.ext hd
      rw [← this]; exact hr
    · exact absurd h19 hx
  · refine ⟨ch.serverChallenge, ?_⟩
    rintro cm cfg ver hver l h rnd b rfl hb
    obtain ⟨lmHash, nt, lm, sbk, ⟨_, hk⟩, _, hnt, hlm⟩ := C56_v1_responses P cm cfg ver hver l h ch rnd b hb
    rcases hk with ⟨hx, _⟩ | ⟨_, hr, _⟩
    · exact absurd hx h19
    · rw [hnt.1]; exact hr

/-! ### C87 -/

/-- C87: each third of the NT response gives away one part of the NT hash: for the same challenge and nonce it is the same in all
    answers of all users whose hashes agree in bytes 0 to 6, 7 to 13 or 14 and 15. -/
theorem C87_thirds (P : Prims) (cm cm' : CaseMap) (cfg cfg' : Cfg) (ver ver' : UInt32) (hver : isV1 ver) (hver' : isV1 ver')
    (l l' : Login) (h h' : List Op) (ch : Challenge) (rnd rnd' : AuthRand) (hr : rnd.clientChallenge = rnd'.clientChallenge)
    (b b' : List UInt8) (hb : Answers P cm cfg ver l h ch rnd b) (hb' : Answers P cm' cfg' ver' l' h' ch rnd' b') :
    let k := (P.md4 (utf16le l.password)).val
    let k' := (P.md4 (utf16le l'.password)).val
    (k.take 7 = k'.take 7 → (fieldBytes b 20).take 8 = (fieldBytes b' 20).take 8) ∧
    ((k.drop 7).take 7 = (k'.drop 7).take 7 → ((fieldBytes b 20).drop 8).take 8 = ((fieldBytes b' 20).drop 8).take 8) ∧
    (k.drop 14 = k'.drop 14 → (fieldBytes b 20).drop 16 = (fieldBytes b' 20).drop 16) := by
  obtain ⟨d, hd⟩ := v1_block P ch rnd'.clientChallenge
  obtain ⟨a1, a2, a3⟩ := isDesl_thirds (hd cm cfg ver hver l h rnd b hr hb)
  obtain ⟨b1, b2, b3⟩ := isDesl_thirds (hd cm' cfg' ver' hver' l' h' rnd' b' rfl hb')
  refine ⟨fun e => ?_, fun e => ?_, fun e => ?_⟩
  · rw [e] at a1; exact isDes_unique a1 b1
  · rw [e] at a2; exact isDes_unique a2 b2
  · rw [e] at a3; exact isDes_unique a3 b3

/-- C87: for a challenge and a nonce there is a list of 65536 blocks, and the last third of the NT response is in it, whoever answers
    and whatever the password. -/
theorem C87_last_third (P : Prims) (ch : Challenge) (client : Bytes 8) :
    ∃ table : List (List UInt8), table.length = 65536 ∧ ∀ (cm : CaseMap) (cfg : Cfg) (ver : UInt32), isV1 ver →
      ∀ (l : Login) (h : List Op) (rnd : AuthRand) (b : List UInt8), rnd.clientChallenge = client →
        Answers P cm cfg ver l h ch rnd b → (fieldBytes b 20).drop 16 ∈ table := by
  obtain ⟨d, hd⟩ := v1_block P ch client
  refine ⟨(List.range 65536).map fun n => (des7 P (key2 n) d).val, by rw [List.length_map, List.length_range], ?_⟩
  intro cm cfg ver hver l h rnd b hr hb
  obtain ⟨_, _, a3⟩ := isDesl_thirds (hd cm cfg ver hver l h rnd b hr hb)
  obtain ⟨n, hn, e⟩ := key2_all (k := (P.md4 (utf16le l.password)).val.drop 14)
    (by rw [List.length_drop, (P.md4 _).property])
  rw [← e] at a3
  exact List.mem_map.mpr ⟨n, List.mem_range.mpr hn, isDes_unique (des7_isDes P (key2 n) d) a3⟩

/-- Two users, two levels. -/
example (P : Prims) (cm : CaseMap) (cfg : Cfg) : ∃ b b', Answers P cm cfg 1 exLogin (exHistory exChallenge) exChallenge exRand b ∧
    Answers P cm cfg 2 exLogin (exHistory exChallenge) exChallenge exRand b' ∧
    (fieldBytes b 20).drop 16 = (fieldBytes b' 20).drop 16 := by
  obtain ⟨b, hb⟩ := exAnswers_v1 P cm cfg 1 (by simp [isV1])
  obtain ⟨b', hb'⟩ := exAnswers_v1 P cm cfg 2 (by simp [isV1])
  exact ⟨b, b', hb, hb', (C87_thirds P cm cm cfg cfg 1 2 (by simp [isV1]) (by simp [isV1]) _ _ _ _ _ _ _ rfl _ _ hb hb').2.2 rfl⟩

/-- The hash the LM response of level 0 is made from. -/
theorem lm_block (P : Prims) (cm : CaseMap) (cfg : Cfg) (l : Login) (ha : ascii l.password) (h : List Op) (ch : Challenge)
    (h19 : ¬ bit ch.negotiateFlags 19) (rnd : AuthRand) (b : List UInt8) (hb : Answers P cm cfg 0 l h ch rnd b) :
    ∃ k : Bytes 16, isLmHash P (lmPassword l.password) k.val ∧ isDesl P k.val ch.serverChallenge (fieldBytes b 12) := by
  have v0 : isV1 0 := by simp [isV1]
  obtain ⟨k, _, _, _, _, hh, _⟩ := C56_v1_responses P cm cfg 0 v0 l h ch rnd b hb
  exact ⟨k, hh ha, (C56_v1_lm P cm cfg 0 v0 l h ch h19 rnd b hb).1 rfl ha k (hh ha)⟩

/-- C87: without extended session security (19) the first third of the LM response of level 0 gives away only the first seven
    characters of the password, the last third only those from the eighth on, and none of it their case or what is behind the
    fourteenth: passwords that agree there have the same third, whoever answers. -/
theorem C87_lm (P : Prims) (cm cm' : CaseMap) (cfg cfg' : Cfg) (l l' : Login) (ha : ascii l.password) (ha' : ascii l'.password)
    (h h' : List Op) (ch : Challenge) (h19 : ¬ bit ch.negotiateFlags 19) (rnd rnd' : AuthRand) (b b' : List UInt8)
    (hb : Answers P cm cfg 0 l h ch rnd b) (hb' : Answers P cm' cfg' 0 l' h' ch rnd' b') :
    let p := lmPassword l.password
    let p' := lmPassword l'.password
    (p.take 7 = p'.take 7 → (fieldBytes b 12).take 8 = (fieldBytes b' 12).take 8) ∧
    (p.drop 7 = p'.drop 7 → (fieldBytes b 12).drop 16 = (fieldBytes b' 12).drop 16) ∧
    (p = p' → fieldBytes b 12 = fieldBytes b' 12) := by
  intro p p'
  obtain ⟨k, ⟨m, c1, c2, hm, h1, h2, hk⟩, hr⟩ := lm_block P cm cfg l ha h ch h19 rnd b hb
  obtain ⟨k', ⟨m', c1', c2', hm', h1', h2', hk'⟩, hr'⟩ := lm_block P cm' cfg' l' ha' h' ch h19 rnd' b' hb'
  obtain rfl : m = m' := Subtype.ext (by rw [hm, hm'])
  obtain ⟨a1, a2, a3⟩ := isDesl_thirds hr
  obtain ⟨b1, b2, b3⟩ := isDesl_thirds hr'
  have l1 := isDes_length h1
  have l1' := isDes_length h1'
  have t (e : p.take 7 = p'.take 7) : c1 = c1' := by
    have h1 : isDes P (p.take 7) m c1 := h1
    rw [e] at h1; exact isDes_unique h1 h1'
  have d (e : p.drop 7 = p'.drop 7) : c2 = c2' := by
    have h2 : isDes P (p.drop 7) m c2 := h2
    rw [e] at h2; exact isDes_unique h2 h2'
  have first (e : p.take 7 = p'.take 7) : (fieldBytes b 12).take 8 = (fieldBytes b' 12).take 8 := by
    rw [hk, List.take_append_of_le_length (by omega), t e] at a1
    rw [hk', List.take_append_of_le_length (by omega)] at b1
    exact isDes_unique a1 b1
  have last (e : p.drop 7 = p'.drop 7) : (fieldBytes b 12).drop 16 = (fieldBytes b' 12).drop 16 := by
    rw [hk, List.drop_append, List.drop_of_length_le (by omega : c1.length ≤ 14), l1, d e] at a3
    rw [hk', List.drop_append, List.drop_of_length_le (by omega : c1'.length ≤ 14), l1'] at b3
    exact isDes_unique a3 b3
  refine ⟨first, last, fun e => ?_⟩
  have ek : k.val = k'.val := by rw [hk, hk', t (by rw [e]), d (by rw [e])]
  rw [ek] at a2
  have e2 := isDes_unique a2 b2
  have e1 := first (by rw [e])
  have e3 := last (by rw [e])
  have split : ∀ r : List UInt8, r = r.take 8 ++ ((r.drop 8).take 8 ++ r.drop 16) := by
    intro r
    have : r.drop 16 = (r.drop 8).drop 8 := by rw [List.drop_drop]
    rw [this, List.take_append_drop, List.take_append_drop]
  rw [split (fieldBytes b 12), split (fieldBytes b' 12), e1, e2, e3]

/-- C87: an answer of level 0 to a plain password of at most seven characters shows that it is so short: there is one block, for a
    challenge, that is the last third of the LM response for every such password of every user. -/
theorem C87_lm_short (P : Prims) (ch : Challenge) (h19 : ¬ bit ch.negotiateFlags 19) : ∃ block : List UInt8, block.length = 8 ∧
    ∀ (cm : CaseMap) (cfg : Cfg) (l : Login), ascii l.password → l.password.length ≤ 7 →
      ∀ (h : List Op) (rnd : AuthRand) (b : List UInt8), Answers P cm cfg 0 l h ch rnd b → (fieldBytes b 12).drop 16 = block := by
  let z : Bytes 7 := Bytes.zero 7
  let c := des7 P z lmMagic
  let k3 : Bytes 7 := ⟨c.val.drop 6 ++ [0, 0, 0, 0, 0], by rw [List.length_append, List.length_drop, c.property]; rfl⟩
  refine ⟨(des7 P k3 ch.serverChallenge).val, (des7 P k3 ch.serverChallenge).property, ?_⟩
  intro cm cfg l ha hl h rnd b hb
  obtain ⟨k, ⟨m, c1, c2, hm, h1, h2, hk⟩, hr⟩ := lm_block P cm cfg l ha h ch h19 rnd b hb
  obtain rfl : m = lmMagic := Subtype.ext (by rw [hm]; decide)
  obtain ⟨_, _, a3⟩ := isDesl_thirds hr
  have l1 := isDes_length h1
  have hz : (lmPassword l.password).drop 7 = z.val := by
    have e : l.password.take 14 = l.password := List.take_of_length_le (by omega)
    rw [lmPassword, e, List.drop_append, List.drop_of_length_le (by rw [asciiUpperBytes, List.length_map]; exact hl),
      asciiUpperBytes, List.length_map, List.nil_append, List.drop_replicate]
    have : 14 - l.password.length - (7 - l.password.length) = 7 := by omega
    rw [this]; rfl
  rw [hz] at h2
  have e2 : c2 = c.val := isDes_unique h2 (des7_isDes P z lmMagic)
  rw [hk, List.drop_append, List.drop_of_length_le (by omega : c1.length ≤ 14), l1, e2] at a3
  exact isDes_unique a3 (des7_isDes P k3 ch.serverChallenge)

/-- A client with another password. -/
theorem exAnswers_password (P : Prims) (cm : CaseMap) (cfg : Cfg) (pw : Str) (hp : ascii pw) (ch : Challenge) (rnd : AuthRand) :
    ∃ b, Answers P cm cfg 0 { exLogin with password := pw } (exHistory ch) ch rnd b := by
  obtain ⟨r, hr, _⟩ := C24_ascii_partial P cm pw hp
  have hc := (created_iff P cm { exLogin with password := pw } _).mpr ⟨r, some "WS".toList, hr, rfl, rfl⟩
  refine ⟨_, (answers_v1 P cm cfg (by simp [isV1]) _ _ _ _ _).mpr
    ⟨exHistory_accepted _, exLogin_negotiable 0 (by decide), _, hc, ?_, rfl⟩⟩
  refine ⟨?_, ?_, ?_, ?_⟩
  · intro x hx; simp [v1Msg] at hx; subst hx; trivial
  all_goals
    intro x hx
    simp [v1Msg, exLogin] at hx
    subst hx
    decide

/-- Two short passwords, and two that differ only in case and from the fifteenth character on. -/
example (P : Prims) (cm : CaseMap) (cfg : Cfg) : ∃ b1 b2 b3 b4,
    Answers P cm cfg 0 { exLogin with password := "secret".toList } (exHistory plainChallenge) plainChallenge exRand b1 ∧
    Answers P cm cfg 0 { exLogin with password := "Summer7".toList } (exHistory plainChallenge) plainChallenge exRand b2 ∧
    Answers P cm cfg 0 { exLogin with password := "correct horse battery".toList } (exHistory plainChallenge) plainChallenge exRand b3 ∧
    Answers P cm cfg 0 { exLogin with password := "CORRECT HORSE SALAD".toList } (exHistory plainChallenge) plainChallenge exRand b4 ∧
    (fieldBytes b1 12).drop 16 = (fieldBytes b2 12).drop 16 ∧ fieldBytes b3 12 = fieldBytes b4 12 := by
  have h19 : ¬ bit plainChallenge.negotiateFlags 19 := by simp only [bit]; decide
  have a1 : ascii "secret".toList := by simp [ascii]
  have a2 : ascii "Summer7".toList := by simp [ascii]
  have a3 : ascii "correct horse battery".toList := by simp [ascii]
  have a4 : ascii "CORRECT HORSE SALAD".toList := by simp [ascii]
  obtain ⟨b1, h1⟩ := exAnswers_password P cm cfg _ a1 plainChallenge exRand
  obtain ⟨b2, h2⟩ := exAnswers_password P cm cfg _ a2 plainChallenge exRand
  obtain ⟨b3, h3⟩ := exAnswers_password P cm cfg _ a3 plainChallenge exRand
  obtain ⟨b4, h4⟩ := exAnswers_password P cm cfg _ a4 plainChallenge exRand
  obtain ⟨block, _, hs⟩ := C87_lm_short P plainChallenge h19
  refine ⟨b1, b2, b3, b4, h1, h2, h3, h4, ?_, ?_⟩
  · rw [hs cm cfg _ a1 (by decide) _ _ _ h1, hs cm cfg _ a2 (by decide) _ _ _ h2]
  · exact (C87_lm P cm cm cfg cfg _ _ a3 a4 _ _ _ h19 _ _ _ _ h3 h4).2.2 (by decide)

end Props

end Ntlm
