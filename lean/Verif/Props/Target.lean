import Verif.Lemmas.Target
import Verif.Prims.Cipher
import Verif.Props.RoundTrip
/-
  C73, C74: the code on machines of another word size or byte order.
-/
namespace Ntlm.Props
open Ntlm.Spec

/-- C73: where pointers have at least 32 bits, with or without overflow checks, a field that ends inside the input reads
    exactly its bytes, and any other panics. -/
theorem C73_slice (t : Target) (h : 32 ≤ t.bits) (f : Field) (input : List UInt8) (hi : input.length < 2 ^ t.bits) :
    t.slice f input =
      if f.offset.toNat + f.len.toNat ≤ input.length then some ((input.drop f.offset.toNat).take f.len.toNat)
      else none := by
  rw [Target.slice_eq t h f input hi, Field.slice]
  split <;> rfl

/-- On a 32-bit machine without overflow checks, an offset at the very end of the address space wraps round to a range
    that ends before it starts: still a panic. -/
example (f : Field) (input : List UInt8) (hi : input.length < 2 ^ 32) (hf : f.offset = 0xfffffff0) (hl : f.len = 0x20) :
    (⟨false, 32, false⟩ : Target).slice f input = none := by
  rw [C73_slice _ (by decide) f input hi, if_neg]
  rw [hf, hl]
  have h1 : (0xfffffff0 : UInt32).toNat = 4294967280 := rfl
  have h2 : (0x20 : UInt16).toNat = 32 := rfl
  omega

/-- On a 16-bit machine it need not be: the high half of the offset is dropped. -/
example : (⟨false, 16, true⟩ : Target).slice ⟨1, 1, 0x10000⟩ [7] = some [7] ∧
    (⟨false, 32, true⟩ : Target).slice ⟨1, 1, 0x10000⟩ [7] = none := by decide

/-- C73: so every field is decoded as in the 64-bit model. -/
theorem C73_fields {α : Type} [Wire α] (t : Target) (h : 32 ≤ t.bits) (cfg : Cfg) (f : Field) (input : List UInt8)
    (hi : input.length < 2 ^ t.bits) (cond : Bool) :
    (t.getDataIf cfg f input cond : Except PErr (Option α)) = f.getDataIf cfg input cond ∧
    (t.getManyIf cfg f input cond : Except PErr (List α)) = f.getManyIf cfg input cond := by
  have e := Target.slice_eq t h f input hi
  constructor
  · simp only [Target.getDataIf, Field.getDataIf, e, Field.slice]
    split
    · split
      · rfl
      · by_cases hb : f.offset.toNat + f.len.toNat ≤ input.length
        · simp only [hb, if_true]; rfl
        · simp only [hb, if_false]; rfl
    · rfl
  · simp only [Target.getManyIf, Field.getManyIf, e, Field.slice]
    split
    · split
      · rfl
      · by_cases hb : f.offset.toNat + f.len.toNat ≤ input.length
        · simp only [hb, if_true]; rfl
        · simp only [hb, if_false]; rfl
    · rfl

/-- The two word sizes in use. -/
example (cfg : Cfg) (f : Field) (input : List UInt8) (hi : input.length < 2 ^ 32) (a b : Bool) :
    ((⟨false, 32, a⟩ : Target).getDataIf cfg f input true : Except PErr (Option UnicodeString)) =
      (⟨false, 64, b⟩ : Target).getDataIf cfg f input true := by
  rw [(C73_fields ⟨false, 32, a⟩ (by show 32 ≤ 32; decide) cfg f input hi true).1,
    (C73_fields ⟨false, 64, b⟩ (by show 32 ≤ 64; decide) cfg f input
      (show input.length < 2 ^ 64 by have : (2 : Nat) ^ 32 < 2 ^ 64 := by decide
                                     omega) true).1]

/-- C74, on a little-endian machine: the AV pairs and the NT hashes are those of the rest of the model. -/
theorem C74_little (t : Target) (h : t.bigEndian = false) (cfg : Cfg) (P : Prims) (cm : CaseMap) :
    (∀ l n, t.pairs cfg l n = serializeVecLoop cfg l n) ∧
    (∀ pw, t.ntowfv1 P pw = P.md4 (utf16le pw)) ∧
    ∀ user hash domain, t.ntowfv2 P cm user hash domain = P.hmacMd5 hash.val (utf16le (cm.upper user ++ domain)) := by
  refine ⟨fun l n => Target.pairs_le t h cfg l n, fun pw => ?_, fun user hash domain => ?_⟩
  · rw [Target.ntowfv1, Target.text_le t h]
  · rw [Target.ntowfv2, Target.text_le t h]

example (cfg : Cfg) : (⟨false, 32, true⟩ : Target).pairs cfg [.nbComputerName ['A'], .eol] 0 [] =
    .ok (10, [1, 0, 2, 0, 65, 0, 0, 0, 0, 0]) := by
  rw [(C74_little ⟨false, 32, true⟩ rfl cfg Prims.std ⟨fun c => [c.toUpper], fun _ _ => rfl⟩).1]
  rfl

/-- C74 is false on a big-endian machine: the computer name "A" is sent as U+4100, and the NT hash of the password "A"
    is not that of the protocol. -/
theorem C74_refuted (cfg : Cfg) (bits : Nat) (checks : Bool) :
    ∃ t : Target, t = ⟨true, bits, checks⟩ ∧
      t.pairs cfg [.nbComputerName ['A']] 0 [] = .ok (6, [1, 0, 2, 0, 0, 65]) ∧
      Wire.serialize cfg [AvPair.nbComputerName ['A']] = .ok [1, 0, 2, 0, 65, 0] ∧
      t.ntowfv1 Prims.std ['A'] ≠ Prims.std.md4 (utf16le ['A']) := by
  have hf : ∀ p ∈ [AvPair.nbComputerName ['A']], avPairFits p := by
    intro p hp
    simp only [List.mem_singleton] at hp
    subst hp
    simp only [avPairFits]
    decide
  refine ⟨_, rfl, ?_, serialize_of_enc (enc_avList cfg _ hf), ?_⟩
  · rw [Target.pairs_be _ rfl cfg _ hf]
    rfl
  · rw [Target.ntowfv1, Target.text_be _ rfl]
    decide +kernel

/-- C74, what a big-endian machine sends: a list of pairs fits under the same conditions, has the same length, and only
    the texts differ, the bytes of each unit swapped. -/
theorem C74_pairs_partial (t : Target) (h : t.bigEndian = true) (cfg : Cfg) (l : List AvPair) :
    ((∀ p ∈ l, avPairFits p) → t.pairs cfg l 0 [] = .ok ((avListBytes l).length, l.flatMap swappedPair)) ∧
    (¬ (∀ p ∈ l, avPairFits p) → t.pairs cfg l 0 [] = .error .stringTooLong) := by
  refine ⟨fun hl => ?_, fun hl => Target.pairs_be_err t h cfg l hl 0 []⟩
  rw [Target.pairs_be t h cfg l hl]
  have e : (l.flatMap swappedPair).length = (avListBytes l).length := by
    clear hl
    induction l with
    | nil => rfl
    | cons p l ih => rw [List.flatMap_cons, List.length_append, ih, avListBytes_cons, List.length_append, Target.length_swapped]
  rw [e]
  simp

example (cfg : Cfg) : (⟨true, 64, false⟩ : Target).pairs cfg [.dnsTreeName ['A', '€'], .flags ⟨false, true, false⟩, .eol] 0 [] =
    .ok (20, [5, 0, 4, 0, 0, 0x41, 0x20, 0xac, 6, 0, 4, 0, 2, 0, 0, 0, 0, 0, 0, 0]) := by
  rw [(C74_pairs_partial _ rfl cfg _).1 (by
    intro p hp
    simp only [List.mem_cons, List.not_mem_nil, or_false] at hp
    rcases hp with rfl | rfl | rfl <;> simp only [avPairFits] <;> decide)]
  rfl

/-- C74: it is what the protocol wants exactly when both bytes of every unit of every text are equal, -/
theorem C74_same_iff (t : Target) (h : t.bigEndian = true) (cfg : Cfg) (l : List AvPair) (hl : ∀ p ∈ l, avPairFits p) :
    t.pairs cfg l 0 [] = .ok ((avListBytes l).length, avListBytes l) ↔
      ∀ p ∈ l, ∀ s, pairText p = some s → symmetricText s := by
  rw [(C74_pairs_partial t h cfg l).1 hl]
  have e : (Except.ok ((avListBytes l).length, l.flatMap swappedPair) : Except Panic (Nat × List UInt8)) =
      .ok ((avListBytes l).length, avListBytes l) ↔ l.flatMap swappedPair = avListBytes l := by
    simp
  rw [e]
  clear h hl e
  induction l with
  | nil => simp [avListBytes]
  | cons p l ih =>
    rw [List.flatMap_cons, avListBytes_cons, List.forall_mem_cons, ← Target.swapped_iff]
    refine Iff.trans ?_ (and_congr_right fun _ => ih)
    constructor
    · intro he
      exact List.append_inj he (Target.length_swapped p)
    · rintro ⟨h1, h2⟩
      rw [h1, h2]

/-- which no ASCII text without NUL is, unless it is empty. -/
theorem C74_ascii (s : Str) (h : ascii s) (hp : plain s) : symmetricText s ↔ s = [] := by
  constructor
  · intro hs
    cases s with
    | nil => rfl
    | cons c s =>
      exfalso
      have h1 : c.toNat < 128 := h c (by simp)
      have h2 := hp c (by simp)
      have h3 := hs c.toNat (by simp [utf16Units, show c.toNat ≤ 0xFFFF by omega])
      simp only [plainChar, Bool.and_eq_true, decide_eq_true_eq] at h2
      apply h2.1
      have : c.toNat = 0 := by omega
      rw [← Char.ofNat_toNat c, this]
  · rintro rfl
    intro u hu
    simp at hu

/-- Any name of a computer, then. -/
example (cfg : Cfg) (bits : Nat) (s : Str) (h : ascii s) (hp : plain s) (hs : s ≠ []) (hf : avPairFits (.nbComputerName s)) :
    (⟨true, bits, true⟩ : Target).pairs cfg [.nbComputerName s, .eol] 0 [] ≠
      .ok ((avListBytes [.nbComputerName s, .eol]).length, avListBytes [.nbComputerName s, .eol]) := by
  intro he
  refine hs ((C74_ascii s h hp).mp ((C74_same_iff _ rfl cfg _ ?_).mp he (.nbComputerName s) (by simp) s rfl))
  intro p hq
  simp only [List.mem_cons, List.not_mem_nil, or_false] at hq
  rcases hq with rfl | rfl
  · exact hf
  · simp only [avPairFits]; decide

example : ascii "WORKSTATION".toList ∧ plain "WORKSTATION".toList ∧
    avPairFits (.nbComputerName "WORKSTATION".toList) := by
  simp only [ascii, plain, avPairFits]
  decide

/-- A text it does send correctly: U+4141 twice. -/
example : symmetricText ['䅁', '䅁'] := by
  intro u hu
  have : u ∈ [0x4141, 0x4141] := hu
  simp only [List.mem_cons, List.not_mem_nil, or_false, or_self] at this
  subst this
  decide

/-- C74: decoding the pair gives not the text that was put in but another one, each of its characters multiplied by 256;
    the message it is in still decodes. -/
theorem C74_read_back (t : Target) (h : t.bigEndian = true) (cfg : Cfg) (p : AvPair) (s : Str) (hs : pairText p = some s)
    (ha : ascii s) (hp : plain s) (hf : avPairFits p) (r : List UInt8) :
    ∃ b, t.pair cfg p [] = .ok (b.length, b) ∧
      (Wire.deserialize cfg : Parser AvPair) (b ++ r) = .ok (withText (misread s) p, r) ∧
      (withText (misread s) p = p ↔ s = []) := by
  refine ⟨swappedPair p, by rw [Target.pair_be t h cfg p hf]; simp, ?_, ?_⟩
  · have hv := Target.misread_plain s ha hp
    have e : swappedPair p = avPairBytes (withText (misread s) p) ∧ avPairFits (withText (misread s) p) ∧
        pairOk cfg (withText (misread s) p) := by
      have e1 := Target.be_misread s ha
      have e2 : (utf16le (misread s)).length = (utf16le s).length := by rw [← e1, Target.length_be]
      cases p <;> simp only [pairText, Option.some.injEq, reduceCtorEq] at hs <;> subst hs <;>
        refine ⟨?_, ?_, hv⟩ <;>
        first
        | (show _ ++ le 2 (utf16le _).length ++ utf16be _ = _ ++ le 2 (utf16le (misread _)).length ++ utf16le (misread _)
           rw [e1, e2]; rfl)
        | (show (utf16le (misread _)).length ≤ 65535; rw [e2]; exact hf)
    rw [e.1]
    exact avPair_decode cfg _ e.2.1 e.2.2 r
  · have key : misread s = s ↔ s = [] := by
      constructor
      · intro he
        cases s with
        | nil => rfl
        | cons c s =>
          exfalso
          have h1 : c.toNat < 128 := ha c (by simp)
          have h2 := hp c (by simp)
          simp only [plainChar, Bool.and_eq_true, decide_eq_true_eq] at h2
          simp only [misread, List.map_cons, List.cons.injEq] at he
          have h3 := congrArg Char.toNat he.1
          rw [Target.misread_toNat c h1] at h3
          apply h2.1
          have : c.toNat = 0 := by omega
          rw [← Char.ofNat_toNat c, this]
      · rintro rfl; rfl
    rw [← key]
    cases p <;> simp only [pairText, Option.some.injEq, reduceCtorEq] at hs <;> subst hs <;>
      simp only [withText, AvPair.nbComputerName.injEq, AvPair.nbDomainName.injEq, AvPair.dnsComputerName.injEq,
        AvPair.dnsDomainName.injEq, AvPair.dnsTreeName.injEq, AvPair.targetName.injEq]

/-- The host name "web" becomes three other characters. -/
example (cfg : Cfg) (r : List UInt8) : ∃ b, (⟨true, 64, true⟩ : Target).pair cfg (.dnsComputerName ['w', 'e', 'b']) [] =
      .ok (b.length, b) ∧
    (Wire.deserialize cfg : Parser AvPair) (b ++ r) = .ok (.dnsComputerName ['眀', '攀', '戀'], r) := by
  obtain ⟨b, h1, h2, _⟩ := C74_read_back ⟨true, 64, true⟩ rfl cfg (.dnsComputerName ['w', 'e', 'b']) _ rfl
    (by simp only [ascii]; decide) (by simp only [plain]; decide) (by simp only [avPairFits]; decide) r
  exact ⟨b, h1, h2⟩

/-- C74: the hashes are of the swapped text, -/
theorem C74_hash (t : Target) (h : t.bigEndian = true) (P : Prims) (cm : CaseMap) :
    (∀ pw, t.ntowfv1 P pw = P.md4 (utf16be pw)) ∧
    ∀ user hash domain, t.ntowfv2 P cm user hash domain = P.hmacMd5 hash.val (utf16be (cm.upper user ++ domain)) := by
  refine ⟨fun pw => ?_, fun user hash domain => ?_⟩
  · rw [Target.ntowfv1, Target.text_be t h]
  · rw [Target.ntowfv2, Target.text_be t h]

example (P : Prims) (cm : CaseMap) : (⟨true, 64, true⟩ : Target).ntowfv2 P cm ['u'] (Bytes.zero 16) ['D'] =
    P.hmacMd5 (List.replicate 16 0) [0, 0x55, 0, 0x44] := by
  rw [(C74_hash ⟨true, 64, true⟩ rfl P cm).2]
  have : cm.upper ['u'] = ['U'] := by simp [CaseMap.upper, cm.ascii 'u' (by decide)]
  rw [this]
  rfl

/-- so that of an ASCII password is the protocol's hash of another password. -/
theorem C74_hash_ascii (t : Target) (h : t.bigEndian = true) (P : Prims) (pw : Str) (ha : ascii pw) :
    t.ntowfv1 P pw = P.md4 (utf16le (misread pw)) := by
  rw [Target.ntowfv1, Target.text_be t h, Target.be_misread pw ha]

example (P : Prims) : (⟨true, 64, true⟩ : Target).ntowfv1 P ['p', 'w'] = P.md4 [0, 112, 0, 119] := by
  rw [C74_hash_ascii _ rfl P _ (by simp only [ascii]; decide)]
  rfl

end Ntlm.Props
