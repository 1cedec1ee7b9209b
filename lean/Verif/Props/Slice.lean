import Verif.Lemmas.AnyWriter
import Verif.Spec.Slice
import Verif.Props.Writer
import Verif.Props.AnyWriter
/-
  C98: encoding into a buffer of fixed size.
-/
namespace Ntlm.Props

open Spec Writer

namespace SliceP

theorem put_append (s : Slice) (a b : List UInt8) : (s.put a).put b = s.put (a ++ b) := by
  obtain ⟨f, r⟩ := s
  simp only [Slice.put, List.length_drop, List.append_assoc, List.drop_drop, List.length_append, Slice.mk.injEq,
    List.append_cancel_left_eq, and_true]
  by_cases h : a.length ≤ r.length
  · rw [List.take_append, List.take_of_length_le h]
  · have h0 : r.length - a.length = 0 := by omega
    rw [h0, List.take_append, h0]

theorem put_nil (s : Slice) : s.put [] = s := by simp [Slice.put]

theorem put_start (memory bytes : List UInt8) : (⟨[], memory⟩ : Slice).put bytes = overwritten memory bytes := by
  simp [Slice.put, overwritten]

theorem free_put (s : Slice) (a : List UInt8) : (s.put a).free.length = s.free.length - a.length := by
  simp [Slice.put]

/-- Once a piece has not found room there is no room left. -/
theorem put_full (s : Slice) (a b : List UInt8) (h : s.free.length < a.length) : s.put a = s.put (a ++ b) := by
  rw [← put_append]
  have h0 : (s.put a).free = [] := List.eq_nil_of_length_eq_zero (by rw [free_put]; omega)
  revert h0
  rcases s.put a with ⟨f, r⟩
  rintro rfl
  simp [Slice.put]

/-- Pieces offered in order. -/
theorem offer_slice (r : Result Unit) (ps : List (List UInt8)) (s : Slice) :
    offer sliceWriter r ps s = (if ps.flatten.length ≤ s.free.length then r else .err (), s.put ps.flatten) := by
  induction ps generalizing s with
  | nil => simp [offer, put_nil]
  | cons p ps ih =>
    simp only [offer, sliceWriter, List.flatten_cons, List.length_append]
    by_cases h : s.free.length < p.length
    · rw [if_pos h, if_neg (by omega)]
      simp only [← put_full s p _ h]
    · rw [if_neg h]
      show offer sliceWriter r ps (s.put p) = _
      rw [ih, put_append, free_put]
      congr 1
      by_cases h2 : p.length + ps.flatten.length ≤ s.free.length
      · rw [if_pos h2, if_pos (by omega)]
      · rw [if_neg h2, if_neg (by omega)]

theorem drive_bind {σ ε : Type} (w : Object σ ε) (x : Prog Nat) (f : Nat → Prog Nat) (s : σ) :
    drive w (x >>= f) s = match drive w x s with
      | (.ok n, s') => drive w (f n) s'
      | (.err e, s') => (.err e, s')
      | (.panic p, s') => (.panic p, s')
      | (.writerPanics, s') => (.writerPanics, s')
      | (.never, s') => (.never, s') := by
  rw [prog_bind_eq]
  induction x generalizing s with
  | done a => rfl
  | panic p => rfl
  | writeAll bs k ih =>
    simp only [Prog.bind, drive]
    rcases w.writeAll s bs with ⟨_ | _ | _ | _, s'⟩
    · exact ih s'
    · rfl
    · rfl
    · rfl
  | write bs k ih =>
    simp only [Prog.bind, drive]
    rcases w.write s bs with ⟨n | _ | _ | _, s'⟩
    · exact ih n s'
    · rfl
    · rfl
    · rfl

/-- An encoder that only calls `write_all`. -/
theorem drive_slice {α : Type} [Wire α] [Encode α] [OnVec α] (cfg : Cfg) (x : α) (b : List UInt8)
    (hx : Enc cfg x b) (hc : Careful (encode cfg x)) (s : Slice) :
    drive sliceWriter (encode cfg x) s = (if b.length ≤ s.free.length then .ok b.length else .err (), s.put b) := by
  have h0 := hx []
  rw [← onVec, toVec_flat] at h0
  have hf : flat (encode cfg x) = (b, .ok b.length) := by
    revert h0
    rcases flat (encode cfg x) with ⟨c, r⟩
    cases r with
    | ok n => intro h0; simp at h0; simp [h0]
    | error e => intro h0; simp at h0
  rw [flat_pieces, Prod.mk.injEq] at hf
  obtain ⟨h1, h2⟩ := hf
  rw [drive_careful _ _ hc s, h2, offer_slice, h1]

/-- One pair. -/
theorem pair_slice (cfg : Cfg) (p : AvPair) (h : avPairFits p) (s : Slice) :
    drive sliceWriter (encode cfg p) s =
      (if (avPairBytes p).length ≤ s.free.length + lastText [p] then .ok (min (avPairBytes p).length s.free.length) else .err (),
       s.put (avPairBytes p)) := by
  cases ht : textOf p with
  | none =>
    have hc : Careful (encode cfg p) := by
      cases p <;> first | (simp [textOf] at ht; done) | trivial
    rw [drive_slice cfg p _ (enc_avPair cfg p h) hc]
    have h0 : lastText [p] = 0 := by simp [lastText, ht]
    rw [h0]
    by_cases hl : (avPairBytes p).length ≤ s.free.length
    · simp only [hl, if_true, Nat.add_zero, Nat.min_eq_left]
    · simp only [hl, if_false, Nat.add_zero]
  | some t =>
    have hv : avValueBytes p = utf16le t := by
      cases p <;> simp [textOf] at ht <;> subst ht <;> rfl
    have hfit : (utf16le t).length ≤ 65535 := by rw [← hv]; exact h
    have hl : (u16sAsBytes (encodeUtf16 t)).length < 65536 := by rw [u16sAsBytes_encodeUtf16]; omega
    have he : (UInt16.ofNat (utf16le t).length).toNat = (utf16le t).length := by simp; omega
    have hb : encodeBody cfg p = Writer.encodeString t := by
      cases p <;> simp [textOf] at ht <;> subst ht <;> rfl
    have h0 : lastText [p] = (utf16le t).length := by simp [lastText, ht]
    show drive sliceWriter (Writer.writeU16 p.getId.toU16 >>= fun a => encodeBody cfg p >>= fun b => pure (a + b)) s = _
    rw [hb, h0]
    simp only [Writer.encodeString, hl, if_true]
    rw [u16sAsBytes_encodeUtf16]
    simp only [Writer.writeU16, Writer.writeLen, Writer.writeAll, Writer.write, prog_bind_eq, Prog.bind, prog_pure_eq, drive, he,
      length_leBytes, sliceWriter]
    rw [avId_toU16 p, ← le_eq, ← le_eq]
    have hlen : (avPairBytes p).length = 4 + (utf16le t).length := by
      simp only [avPairBytes, hv, List.length_append, length_le]
    have hp : avPairBytes p = le 2 (avIdValue p) ++ (le 2 (utf16le t).length ++ utf16le t) := by
      simp only [avPairBytes, hv, List.append_assoc]
    have l1 : (le 2 (avIdValue p)).length = 2 := length_le _ _
    have l2 : (le 2 (utf16le t).length).length = 2 := length_le _ _
    rw [hlen]
    by_cases c1 : s.free.length < 2
    · simp only [c1, if_true]
      rw [if_neg (by omega), hp, ← put_full s _ _ (by rw [l1]; exact c1)]
    · simp only [c1, if_false, free_put, l1]
      by_cases c2 : s.free.length - 2 < 2
      · simp only [c2, if_true]
        rw [if_neg (by omega), hp, ← put_append, ← put_full (s.put _) _ _ (by rw [l2, free_put, l1]; exact c2)]
      · simp only [c2, if_false]
        rw [if_pos (by omega), hp, ← put_append, ← put_append, free_put, free_put, l1, l2]
        congr 2
        omega

theorem lastText_cons (p q : AvPair) (l : List AvPair) : lastText (p :: q :: l) = lastText (q :: l) := by
  simp only [lastText, List.getLast?_cons_cons]

/-- The text of the last pair is part of the encoding, behind at least four other bytes. -/
theorem lastText_le (q : AvPair) (l : List AvPair) : lastText (q :: l) + 4 ≤ (avListBytes (q :: l)).length := by
  induction l generalizing q with
  | nil =>
    simp only [avListBytes, List.flatMap_cons, List.flatMap_nil, List.append_nil, avPairBytes, List.length_append, length_le]
    cases ht : textOf q with
    | none => simp [lastText, ht]
    | some t =>
      have hv : avValueBytes q = utf16le t := by
        cases q <;> simp [textOf] at ht <;> subst ht <;> rfl
      simp [lastText, ht, hv]
      omega
  | cons r l ih =>
    rw [lastText_cons]
    have := ih r
    have e : avListBytes (q :: r :: l) = avPairBytes q ++ avListBytes (r :: l) := rfl
    rw [e, List.length_append]
    omega

/-- The loop over a list of pairs. -/
theorem loop_slice (cfg : Cfg) (l : List AvPair) (h : ∀ p ∈ l, avPairFits p) (n : Nat) (s : Slice) :
    drive sliceWriter (encodeVecLoop cfg l n) s =
      (if (avListBytes l).length ≤ s.free.length + lastText l then .ok (n + min (avListBytes l).length s.free.length) else .err (),
       s.put (avListBytes l)) := by
  induction l generalizing n s with
  | nil => simp [encodeVecLoop, avListBytes, put_nil, prog_pure_eq, drive]
  | cons p l ih =>
    have ih := fun n s => ih (fun q hq => h q (List.mem_cons_of_mem _ hq)) n s
    have e : avListBytes (p :: l) = avPairBytes p ++ avListBytes l := rfl
    simp only [encodeVecLoop, drive_bind, pair_slice cfg p (h p List.mem_cons_self), e, ← put_append, List.length_append]
    have hp : lastText [p] + 4 ≤ (avPairBytes p).length := by
      have := lastText_le p []
      simpa [avListBytes] using this
    by_cases c1 : (avPairBytes p).length ≤ s.free.length + lastText [p]
    · simp only [c1, if_true, ih, free_put]
      cases l with
      | nil =>
        have e0 : avListBytes [] = [] := rfl
        have e1 : lastText [] = 0 := rfl
        simp only [e0, List.length_nil, e1, Nat.add_zero, Nat.zero_le, if_true, Nat.zero_min, c1]
      | cons q l =>
        rw [lastText_cons]
        have := lastText_le q l
        by_cases c2 : (avListBytes (q :: l)).length ≤ s.free.length - (avPairBytes p).length + lastText (q :: l)
        · rw [if_pos c2, if_pos (by omega)]
          congr 2
          omega
        · rw [if_neg c2, if_neg (by omega)]
    · simp only [c1, if_false]
      have hlast : lastText (p :: l) ≤ lastText [p] + (avListBytes l).length := by
        cases l with
        | nil => omega
        | cons q l => rw [lastText_cons]; have := lastText_le q l; omega
      cases l with
      | nil =>
        have e0 : avListBytes [] = [] := rfl
        simp only [e0, List.length_nil, Nat.add_zero, c1, if_false, put_nil]
      | cons q l =>
        rw [lastText_cons]
        have := lastText_le q l
        rw [if_neg (by omega)]
        congr 1
        rw [put_append]
        exact put_full s _ _ (by omega)

/-- A program that puts `b` there, of which the last `loose` bytes may be cut off, and reports how many there are, with `m`
    more. -/
def Puts (b : List UInt8) (loose m : Nat) (p : Prog Nat) : Prop :=
  ∀ s, drive sliceWriter p s =
    (if b.length ≤ s.free.length + loose then .ok (m + min b.length s.free.length) else .err (), s.put b)

theorem puts_bind {x : Prog Nat} {f : Nat → Prog Nat} {bs b : List UInt8} {loose m : Nat}
    (hx : ∀ s, drive sliceWriter x s = (if bs.length ≤ s.free.length then .ok bs.length else .err (), s.put bs))
    (hf : Puts b loose (m + bs.length) (f bs.length)) (hl : loose ≤ b.length) : Puts (bs ++ b) loose m (x >>= f) := by
  intro s
  rw [drive_bind, hx, List.length_append, ← put_append]
  by_cases h : bs.length ≤ s.free.length
  · rw [if_pos h]
    simp only [hf (s.put bs), free_put]
    congr 1
    by_cases h2 : b.length ≤ s.free.length - bs.length + loose
    · rw [if_pos h2, if_pos (by omega)]
      congr 1
      omega
    · rw [if_neg h2, if_neg (by omega)]
  · rw [if_neg h, if_neg (by omega)]
    simp only
    rw [put_append, ← put_full s _ _ (by omega)]

theorem puts_writeLen (bs : List UInt8) (s : Slice) :
    drive sliceWriter (Writer.writeLen bs) s = (if bs.length ≤ s.free.length then .ok bs.length else .err (), s.put bs) := by
  show drive sliceWriter (.writeAll bs (.done bs.length)) s = _
  simp only [drive, sliceWriter]
  by_cases h : s.free.length < bs.length
  · rw [if_pos h, if_neg (by omega)]
  · rw [if_neg h, if_pos (by omega)]

theorem lastText_le' (l : List AvPair) : lastText l ≤ (avListBytes l).length := by
  cases l with
  | nil => exact Nat.zero_le _
  | cons q l => have := lastText_le q l; omega

end SliceP

open SliceP

/-- A NEGOTIATE message whose texts fit, written into any buffer: the length if it has room, an error if not; in both cases
    the buffer holds as much of the message as has room, and the rest of it is as before. -/
theorem C98_negotiate (cfg : Cfg) (m : Negotiate) (h : negotiateFits m) (memory : List UInt8) :
    drive sliceWriter (encode cfg m) ⟨[], memory⟩ =
      (allOrError memory (negotiateBytes m), overwritten memory (negotiateBytes m)) := by
  rw [drive_slice cfg m _ (enc_negotiate cfg m h) (careful_negotiate cfg m), put_start]
  rfl

/-- A CHALLENGE message that fits. -/
theorem C98_challenge (cfg : Cfg) (m : Challenge) (h : challengeFits m) (memory : List UInt8) :
    drive sliceWriter (encode cfg m) ⟨[], memory⟩ =
      (allOrError memory (challengeBytes m), overwritten memory (challengeBytes m)) := by
  rw [drive_slice cfg m _ (enc_challenge cfg m h) (careful_challenge cfg m), put_start]
  rfl

/-- An AUTHENTICATE message that fits. -/
theorem C98_authenticate (cfg : Cfg) (m : Authenticate) (h : authenticateFits m) (memory : List UInt8) :
    drive sliceWriter (encode cfg m) ⟨[], memory⟩ =
      (allOrError memory (authenticateBytes m), overwritten memory (authenticateBytes m)) := by
  rw [drive_slice cfg m _ (enc_authenticate cfg m h) (careful_authenticate cfg m), put_start]
  rfl

/-- A NEGOTIATE message of 47 bytes into 50 bytes: three of them stay as they were. -/
example (cfg : Cfg) : drive sliceWriter (encode cfg exNegotiate) ⟨[], List.replicate 50 0xff⟩ =
    (.ok 47, ⟨negotiateBytes exNegotiate, [0xff, 0xff, 0xff]⟩) := by
  rw [C98_negotiate cfg _ exNegotiate_fits]
  rfl

/-- And into 40 bytes: an error. -/
example (cfg : Cfg) : drive sliceWriter (encode cfg exNegotiate) ⟨[], List.replicate 40 0xff⟩ =
    (.err (), ⟨(negotiateBytes exNegotiate).take 40, []⟩) := by
  rw [C98_negotiate cfg _ exNegotiate_fits]
  rfl

example (cfg : Cfg) (memory : List UInt8) : drive sliceWriter (encode cfg exChallenge) ⟨[], memory⟩ =
      (allOrError memory (challengeBytes exChallenge), overwritten memory (challengeBytes exChallenge)) ∧
    drive sliceWriter (encode cfg exAuthenticate) ⟨[], memory⟩ =
      (allOrError memory (authenticateBytes exAuthenticate), overwritten memory (authenticateBytes exAuthenticate)) :=
  ⟨C98_challenge cfg _ exChallenge_fits memory, C98_authenticate cfg _ exAuthenticate_fits memory⟩

/-- A message that does not fit never succeeds, however large the buffer, and changes at most the bytes of its header. -/
theorem C98_refused (cfg : Cfg) :
    (∀ m : Negotiate, ¬ negotiateFits m → ∀ memory, ∃ bytes, bytes.length ≤ 32 ∧
      ∃ r, (∀ n, r ≠ .ok n) ∧ drive sliceWriter (encode cfg m) ⟨[], memory⟩ = (r, overwritten memory bytes)) ∧
    (∀ m : Challenge, ¬ challengeFits m → ∀ memory, ∃ bytes, bytes.length ≤ 48 ∧
      ∃ r, (∀ n, r ≠ .ok n) ∧ drive sliceWriter (encode cfg m) ⟨[], memory⟩ = (r, overwritten memory bytes)) ∧
    (∀ m : Authenticate, ¬ authenticateFits m → ∀ memory, ∃ bytes, bytes.length ≤ 64 ∧
      ∃ r, (∀ n, r ≠ .ok n) ∧ drive sliceWriter (encode cfg m) ⟨[], memory⟩ = (r, overwritten memory bytes)) := by
  have key : ∀ (memory : List UInt8) (ps : List (List UInt8)) (p : Panic), ∃ r : Result Unit, (∀ n, r ≠ .ok n) ∧
      offer sliceWriter (.panic p) ps ⟨[], memory⟩ = (r, overwritten memory ps.flatten) := by
    intro memory ps p
    refine ⟨if ps.flatten.length ≤ memory.length then .panic p else .err (), ?_, ?_⟩
    · intro n
      split <;> simp
    · rw [offer_slice, put_start]
  obtain ⟨h1, h2, h3⟩ := C96_refused cfg
  refine ⟨fun m h memory => ?_, fun m h memory => ?_, fun m h memory => ?_⟩
  · obtain ⟨ps, p, hl, hd⟩ := h1 m h
    exact ⟨ps.flatten, hl, by rw [hd]; exact key memory ps p⟩
  · obtain ⟨ps, p, hl, hd⟩ := h2 m h
    exact ⟨ps.flatten, hl, by rw [hd]; exact key memory ps p⟩
  · obtain ⟨ps, p, hl, hd⟩ := h3 m h
    exact ⟨ps.flatten, hl, by rw [hd]; exact key memory ps p⟩

/-- A domain of 65536 letters does not fit. -/
example : ¬ negotiateFits { exNegotiate with domainName := some ⟨List.replicate 65536 'a'⟩ } := by
  intro hf
  have h1 := hf.1 (List.replicate 65536 'a') rfl
  rw [utf8_replicate] at h1
  omega

/-- A list of pairs that fit, written directly: success is reported if everything but a part of the text at its very end has
    found room, with the number of bytes that did. -/
theorem C98_pairs (cfg : Cfg) (l : List AvPair) (h : ∀ p ∈ l, avPairFits p) (memory : List UInt8) :
    drive sliceWriter (encode cfg l) ⟨[], memory⟩ =
      (roomOrError (lastText l) memory (avListBytes l), overwritten memory (avListBytes l)) := by
  show drive sliceWriter (encodeVecLoop cfg l 0) ⟨[], memory⟩ = _
  rw [loop_slice cfg l h 0, put_start]
  simp only [roomOrError, Nat.zero_add]

/-- The same for an NTLMv2 response. -/
theorem C98_response (cfg : Cfg) (c : Ntv2Challenge) (h : ∀ p ∈ c.targetInfos, avPairFits p) (memory : List UInt8) :
    drive sliceWriter (encode cfg c) ⟨[], memory⟩ =
      (roomOrError (lastText c.targetInfos) memory (ntv2Bytes c), overwritten memory (ntv2Bytes c)) := by
  have hl := lastText_le' c.targetInfos
  have hend : Puts (avListBytes c.targetInfos) (lastText c.targetInfos) 28
      (if cfg.debug && (28 : Nat) != 28 then .panic .debugAssert
       else encode cfg c.targetInfos >>= fun h => pure (28 + h)) := by
    intro s
    rw [if_neg (by simp), drive_bind]
    have he : drive sliceWriter (encode cfg c.targetInfos) s = drive sliceWriter (encodeVecLoop cfg c.targetInfos 0) s := rfl
    rw [he, loop_slice cfg _ h 0]
    by_cases h2 : (avListBytes c.targetInfos).length ≤ s.free.length + lastText c.targetInfos
    · simp only [h2, if_true, prog_pure_eq, drive, Nat.zero_add]
    · simp only [h2, if_false]
  have hall : Puts (leBytes 1 1 ++ (leBytes 1 1 ++ (leBytes 2 0 ++ (leBytes 4 0 ++ (fileTimeBytes c.timestamp ++
      (c.challengeFromClient.val ++ (leBytes 4 0 ++ avListBytes c.targetInfos))))))) (lastText c.targetInfos) 0
      (encode cfg c) := by
    refine puts_bind (puts_writeLen _) (puts_bind (puts_writeLen _) (puts_bind (puts_writeLen _) (puts_bind (puts_writeLen _)
      (puts_bind (drive_slice cfg _ _ (enc_fileTime cfg _) trivial)
      (puts_bind (drive_slice cfg _ _ (enc_bytes cfg _) trivial) (puts_bind (puts_writeLen _) ?_ ?_) ?_) ?_) ?_) ?_) ?_) ?_
    · have e : 0 + (leBytes 1 1).length + (leBytes 1 1).length + (leBytes 2 0).length + (leBytes 4 0).length +
          (fileTimeBytes c.timestamp).length + c.challengeFromClient.val.length + (leBytes 4 0).length = 28 := by
        simp [fileTimeBytes, c.challengeFromClient.property]
      rw [e]
      rw [Nat.zero_add] at e
      simp only [e]
      exact hend
    all_goals (first | exact hl | (simp only [List.length_append]; omega))
  have hbytes : leBytes 1 1 ++ (leBytes 1 1 ++ (leBytes 2 0 ++ (leBytes 4 0 ++ (fileTimeBytes c.timestamp ++
      (c.challengeFromClient.val ++ (leBytes 4 0 ++ avListBytes c.targetInfos)))))) = ntv2Bytes c := by
    have e : leBytes 1 1 ++ (leBytes 1 1 ++ (leBytes 2 0 ++ leBytes 4 0)) = [1, 1, 0, 0, 0, 0, 0, 0] := by decide
    have e2 : leBytes 4 0 = [0, 0, 0, 0] := by decide
    simp only [ntv2Bytes, ← e, e2, List.append_assoc]
  rw [hbytes] at hall
  rw [hall, put_start]
  simp only [roomOrError, Nat.zero_add]

/-- A response that ends with a text, into a buffer that is three bytes too short: success. -/
example (cfg : Cfg) : (drive sliceWriter (encode cfg (⟨⟨5, 7⟩, Bytes.zero 8, [.eol, .targetName ['D', 'O', 'M']]⟩ : Ntv2Challenge))
    ⟨[], List.replicate 39 0⟩).1 = .ok 39 := by
  rw [C98_response cfg _ (by simp [avPairFits, avValueBytes]; decide)]
  rfl

/-- A list that ends with something else than a text, as every list with a terminator does: success is reported exactly if
    all of it has found room. -/
theorem C98_terminated (cfg : Cfg) (l : List AvPair) (h : ∀ p ∈ l, avPairFits p) (memory : List UInt8) :
    drive sliceWriter (encode cfg (l ++ [AvPair.eol])) ⟨[], memory⟩ =
      (allOrError memory (avListBytes (l ++ [AvPair.eol])), overwritten memory (avListBytes (l ++ [AvPair.eol]))) := by
  rw [C98_pairs cfg _ (by
    intro p hp
    rcases List.mem_append.mp hp with hp | hp
    · exact h p hp
    · rw [List.mem_singleton.mp hp]; simp [avPairFits, avValueBytes])]
  have h0 : lastText (l ++ [AvPair.eol]) = 0 := by simp [lastText, textOf]
  rw [h0]
  simp only [roomOrError, allOrError, Nat.add_zero]
  by_cases hl : (avListBytes (l ++ [AvPair.eol])).length ≤ memory.length
  · simp only [hl, if_true, Nat.min_eq_left]
  · simp only [hl, if_false]

example (cfg : Cfg) : (drive sliceWriter (encode cfg [AvPair.nbDomainName ['D', 'O', 'M'], AvPair.eol]) ⟨[], List.replicate 13 0⟩).1 =
    .err () := by
  have h := C98_terminated cfg [AvPair.nbDomainName ['D', 'O', 'M']] (by simp [avPairFits, avValueBytes]; decide) (List.replicate 13 0)
  exact congrArg Prod.fst h

/-- A pair of ten bytes into a buffer of seven: success with 7 is reported, and half a name is there. -/
example (cfg : Cfg) : drive sliceWriter (encode cfg [AvPair.nbDomainName ['D', 'O', 'M']]) ⟨[], List.replicate 7 0⟩ =
    (.ok 7, ⟨[2, 0, 6, 0, 0x44, 0, 0x4f], []⟩) := by
  rw [C98_pairs cfg _ (by simp [avPairFits, avValueBytes]; decide)]
  rfl

example (cfg : Cfg) : drive sliceWriter (encode cfg exChallenge.targetInfos) ⟨[], List.replicate 25 0⟩ =
    (.err (), ⟨(avListBytes exChallenge.targetInfos).take 25, []⟩) := by
  rw [C98_pairs cfg _ exChallenge_fits.2.1]
  rfl

end Ntlm.Props
