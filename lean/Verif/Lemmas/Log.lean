import Verif.Model.Log
import Verif.Spec.Log
import Verif.Lemmas.Contents
/-
  The logging decoders: same results, and what they log.
-/
namespace Ntlm

namespace Log

open Spec

theorem fst_pure {α : Type} (a : α) : (pure a : L α).1 = .ok a := rfl
theorem snd_pure {α : Type} (a : α) : (pure a : L α).2 = [] := rfl

theorem fst_bind {α β : Type} (x : L α) (f : α → L β) : (x >>= f).1 = (x.1 >>= fun a => (f a).1) := by
  rcases x with ⟨e | a, l⟩ <;> rfl

theorem snd_bind_ok {α β : Type} {x : L α} {a : α} (f : α → L β) (h : x.1 = .ok a) :
    (x >>= f).2 = x.2 ++ (f a).2 := by
  rcases x with ⟨e | b, l⟩
  · simp at h
  · simp only [Except.ok.injEq] at h
    subst h
    rfl

theorem quiet_bind {α β : Type} {x : Except PErr α} {a : α} (f : α → L β) (h : x = .ok a) :
    (quiet x >>= f) = f a := by
  subst h
  show ((f a).1, [] ++ (f a).2) = f a
  rw [List.nil_append]
  rfl

/-! ### Flags -/

theorem go_fst (l : List (Bool × Warn)) : (validateWith.go false l).1 = true := by
  induction l with
  | nil => rfl
  | cons a l ih =>
    obtain ⟨b, w⟩ := a
    cases b <;> simp [validateWith.go, ih]

theorem go_snd (l : List (Bool × Warn)) : (validateWith.go false l).2 = (l.filter (·.1)).map (·.2) := by
  induction l with
  | nil => rfl
  | cons a l ih =>
    obtain ⟨b, w⟩ := a
    cases b <;> simp [validateWith.go, ih]

theorem go_strict (l : List (Bool × Warn)) : (validateWith.go true l).1 = !(l.any (·.1)) := by
  induction l with
  | nil => rfl
  | cons a l ih =>
    obtain ⟨b, w⟩ := a
    cases b <;> simp [validateWith.go, ih]

/-- The result agrees with `validate` of the model, in both settings of the condition. -/
theorem validateWith_fst (strict : Bool) (f : UInt32) : (validateWith strict f).1 = Flags.validateWith strict f := by
  cases strict with
  | false => simp [validateWith, go_fst, Flags.validateWith]
  | true =>
    simp only [validateWith, go_strict, Flags.validateWith, List.any_cons, List.any_nil, Bool.and_true, Bool.or_false]
    generalize Flags.hasFlag ⟨f⟩ Flags.R1 = a1
    generalize Flags.hasFlag ⟨f⟩ Flags.R2 = a2
    generalize Flags.hasFlag ⟨f⟩ Flags.R3 = a3
    generalize Flags.hasFlag ⟨f⟩ Flags.R4 = a4
    generalize Flags.hasFlag ⟨f⟩ Flags.R5 = a5
    generalize Flags.hasFlag ⟨f⟩ Flags.R6 = a6
    generalize Flags.hasFlag ⟨f⟩ Flags.R7 = a7
    generalize Flags.hasFlag ⟨f⟩ Flags.R8 = a8
    generalize Flags.hasFlag ⟨f⟩ Flags.R9 = a9
    generalize Flags.hasFlag ⟨f⟩ Flags.R10 = a10
    generalize (Flags.hasFlag ⟨f⟩ Flags.NTLMSSP_TARGET_TYPE_DOMAIN && Flags.hasFlag ⟨f⟩ Flags.NTLMSSP_TARGET_TYPE_SERVER) = a11
    generalize (!Flags.hasFlag ⟨f⟩ Flags.NTLMSSP_NEGOTIATE_UNICODE && !Flags.hasFlag ⟨f⟩ Flags.NTLM_NEGOTIATE_OEM) = a12
    generalize (Flags.hasFlag ⟨f⟩ Flags.NTLMSSP_NEGOTIATE_EXTENDED_SESSIONSECURITY &&
      Flags.hasFlag ⟨f⟩ Flags.NTLMSSP_NEGOTIATE_LM_KEY) = a13
    cases a1 <;> simp only [Bool.true_or, Bool.false_or, if_true, Bool.not_true, Bool.false_eq_true, if_false]
    cases a2 <;> simp only [Bool.true_or, Bool.false_or, if_true, Bool.not_true, Bool.false_eq_true, if_false]
    cases a3 <;> simp only [Bool.true_or, Bool.false_or, if_true, Bool.not_true, Bool.false_eq_true, if_false]
    cases a4 <;> simp only [Bool.true_or, Bool.false_or, if_true, Bool.not_true, Bool.false_eq_true, if_false]
    cases a5 <;> simp only [Bool.true_or, Bool.false_or, if_true, Bool.not_true, Bool.false_eq_true, if_false]
    cases a6 <;> simp only [Bool.true_or, Bool.false_or, if_true, Bool.not_true, Bool.false_eq_true, if_false]
    cases a7 <;> simp only [Bool.true_or, Bool.false_or, if_true, Bool.not_true, Bool.false_eq_true, if_false]
    cases a8 <;> simp only [Bool.true_or, Bool.false_or, if_true, Bool.not_true, Bool.false_eq_true, if_false]
    cases a9 <;> simp only [Bool.true_or, Bool.false_or, if_true, Bool.not_true, Bool.false_eq_true, if_false]
    cases a10 <;> simp only [Bool.true_or, Bool.false_or, if_true, Bool.not_true, Bool.false_eq_true, if_false]
    cases a11 <;> simp only [Bool.true_or, Bool.false_or, if_true, Bool.not_true, Bool.false_eq_true, if_false]
    cases a12 <;> simp only [Bool.true_or, Bool.false_or, if_true, Bool.not_true, Bool.false_eq_true, if_false]
    cases a13 <;> simp

theorem flags_fst (cfg : Cfg) (i : List UInt8) : (flags cfg i).1 = (Wire.deserialize cfg : Parser Flags) i := by
  show _ = pmap (verify leU32 (Flags.validate cfg)) Flags.mk i
  have e : ∀ f, Flags.validateWith (Flags.cfgFeaturesStrict cfg) f = Flags.validate cfg f := fun _ => rfl
  simp only [flags, pmap, verify]
  rcases leU32 i with e | ⟨f, r⟩
  · rfl
  · simp only [validateWith_fst, e]
    cases Flags.validate cfg f <;> rfl

theorem hasFlag_at (f : UInt32) (k : UInt32) (h : k.toNat < 32) : Flags.hasFlag ⟨f⟩ k = f.toNat.testBit k.toNat :=
  hasFlag_testBit ⟨f⟩ k h

theorem validate_lines (f : UInt32) : (validateWith false f).2.map Warn.text = flagLines f.toNat := by
  simp only [validateWith, go_snd, flagLines, reservedFlags]
  simp only [hasFlag_at _ Flags.R1 (by decide), hasFlag_at _ Flags.R2 (by decide), hasFlag_at _ Flags.R3 (by decide),
    hasFlag_at _ Flags.R4 (by decide), hasFlag_at _ Flags.R5 (by decide), hasFlag_at _ Flags.R6 (by decide),
    hasFlag_at _ Flags.R7 (by decide), hasFlag_at _ Flags.R8 (by decide), hasFlag_at _ Flags.R9 (by decide),
    hasFlag_at _ Flags.R10 (by decide), hasFlag_at _ Flags.NTLMSSP_TARGET_TYPE_DOMAIN (by decide),
    hasFlag_at _ Flags.NTLMSSP_TARGET_TYPE_SERVER (by decide), hasFlag_at _ Flags.NTLMSSP_NEGOTIATE_UNICODE (by decide),
    hasFlag_at _ Flags.NTLM_NEGOTIATE_OEM (by decide),
    hasFlag_at _ Flags.NTLMSSP_NEGOTIATE_EXTENDED_SESSIONSECURITY (by decide),
    hasFlag_at _ Flags.NTLMSSP_NEGOTIATE_LM_KEY (by decide)]
  show _ = List.map _ (List.filter _ _) ++ _ ++ _ ++ _
  have cons : ∀ (b : Bool) (w : Warn) (l : List (Bool × Warn)),
      (((b, w) :: l).filter (·.1)).map (·.2) = (if b then [w] else []) ++ (l.filter (·.1)).map (·.2) := by
    intro b w l; cases b <;> simp
  have cons' : ∀ (s : String) (k : Nat) (l : List (String × Nat)),
      ((((s, k) :: l).filter fun g => f.toNat.testBit g.2).map fun g => "flags.has_flag(" ++ g.1 ++ ")") =
        (if f.toNat.testBit k then ["flags.has_flag(" ++ s ++ ")"] else []) ++
          ((l.filter fun g => f.toNat.testBit g.2).map fun g => "flags.has_flag(" ++ g.1 ++ ")") := by
    intro s k l
    cases h : f.toNat.testBit k <;> simp [h]
  have mp : ∀ (b : Bool) (w : Warn), (if b then [w] else []).map Warn.text = if b then [w.text] else [] := by
    intro b w; cases b <;> rfl
  simp only [cons, cons', List.map_append, mp, List.filter_nil, List.map_nil, List.append_nil, List.append_assoc]
  rfl

theorem flags_at (cfg : Cfg) (i : List UInt8) (k : Nat) (h : k + 4 ≤ i.length) :
    (flags cfg (i.drop k)).1 = .ok (flagsAt i k, i.drop (k + 4)) ∧
    (flags cfg (i.drop k)).2.map Warn.text = flagLines (u32At i k) := by
  refine ⟨by rw [flags_fst]; exact Ntlm.flags_at cfg i k h, ?_⟩
  simp only [flags, leU32_at i k h, Flags.cfgFeaturesStrict]
  rw [validate_lines, ← flagsAt_bits]
  simp

/-! ### Fields -/

theorem getDataIf_fst {α : Type} [Wire α] (cfg : Cfg) (f : Field) (name : String) (i : List UInt8) (c : Bool) :
    (getDataIf cfg f name i c : L (Option α)).1 = f.getDataIf cfg i c := by
  simp only [getDataIf, Field.getDataIf]
  cases c with
  | false => rfl
  | true =>
    simp only [if_true]
    by_cases h : f.len = 0
    · simp only [h, if_true]; rfl
    · simp only [h, if_false]
      rcases f.slice i with e | d
      · rfl
      · rw [quiet_bind _ rfl]
        rcases h : (Wire.deserialize cfg : Parser α) d with e | ⟨v, r⟩
        · simp only [h]; rfl
        · rw [quiet_bind _ rfl]
          simp only [h]
          cases r <;> rfl

theorem getManyIf_fst {α : Type} [Wire α] (cfg : Cfg) (f : Field) (name : String) (i : List UInt8) (c : Bool) :
    (getManyIf cfg f name i c : L (List α)).1 = f.getManyIf cfg i c := by
  simp only [getManyIf, Field.getManyIf]
  cases c with
  | false => rfl
  | true =>
    simp only [if_true]
    by_cases h : f.len = 0
    · simp only [h, if_true]; rfl
    · simp only [h, if_false]
      rcases f.slice i with e | d
      · rfl
      · rw [quiet_bind _ rfl]
        rcases h : many0 (Wire.deserialize cfg : Parser α) d with e | ⟨v, r⟩
        · simp only [h]; rfl
        · rw [quiet_bind _ rfl]
          simp only [h]
          cases r <;> rfl

theorem lmResponse_fst (cfg : Cfg) (h : Authenticate.Header) (i : List UInt8) :
    (lmResponse cfg h.flags h.lm i).1 = Authenticate.lmResponse cfg h i := by
  simp only [lmResponse, Authenticate.lmResponse]
  split
  · simp only [okFlatten, getDataIf_fst]
    generalize Authenticate.okFlatten (h.lm.getDataIf cfg i true : Except PErr (Option Lmv1Challenge)) = x
    rcases x with _ | _ <;> rfl
  · simp only [okFlatten, getDataIf_fst]
    generalize Authenticate.okFlatten (h.lm.getDataIf cfg i true : Except PErr (Option Lmv2Challenge)) = x
    rcases x with _ | _ <;> rfl

/-! ### Messages -/

theorem ok_bind {α β : Type} (a : α) (f : α → Except PErr β) : ((.ok a : Except PErr α) >>= f) = f a := rfl
theorem error_bind {α β : Type} (e : PErr) (f : α → Except PErr β) :
    ((.error e : Except PErr α) >>= f) = .error e := rfl
theorem quiet_fst {α : Type} (x : Except PErr α) : (quiet x).1 = x := rfl

theorem negotiate_fst (cfg : Cfg) (i : List UInt8) :
    (negotiate cfg i).1 = (Wire.deserialize cfg : Parser Negotiate) i := by
  show _ = Negotiate.deserialize cfg i
  simp only [negotiate, fst_bind, quiet_fst, flags_fst, getDataIf_fst, fst_pure, Negotiate.deserialize, Negotiate.header,
    Parser.bind_apply]
  rcases tag signature i with e | ⟨_, r⟩
  · rfl
  simp only [ok_bind]
  rcases verify leU32 (fun mt => mt == 0x00000001) r with e | ⟨_, r⟩
  · rfl
  simp only [ok_bind]
  rcases (Wire.deserialize cfg : Parser Flags) r with e | ⟨f, r⟩
  · rfl
  simp only [ok_bind]
  rcases (Wire.deserialize cfg : Parser Field) r with e | ⟨d, r⟩
  · rfl
  simp only [ok_bind]
  rcases (Wire.deserialize cfg : Parser Field) r with e | ⟨w, r⟩
  · rfl
  simp only [ok_bind, Parser.pure_apply]
  rcases cond (f.hasFlag Flags.NTLMSSP_NEGOTIATE_VERSION) (Wire.deserialize cfg : Parser Version) r with e | ⟨v, r⟩
  · rfl
  simp only [ok_bind]
  rcases (d.getDataIf cfg i (f.hasFlag Flags.NTLMSSP_NEGOTIATE_OEM_DOMAIN_SUPPLIED || true) : Except PErr (Option OEMString))
    with e | x
  · rfl
  simp only [ok_bind]
  rcases (w.getDataIf cfg i (f.hasFlag Flags.NTLMSSP_NEGOTIATE_OEM_WORKSTATION_SUPPLIED || true) : Except PErr (Option OEMString))
    with e | y
  · rfl
  · rfl

theorem challenge_fst (cfg : Cfg) (i : List UInt8) :
    (challenge cfg i).1 = (Wire.deserialize cfg : Parser Challenge) i := by
  show _ = Challenge.deserialize cfg i
  simp only [challenge, fst_bind, quiet_fst, flags_fst, getDataIf_fst, getManyIf_fst, Challenge.deserialize,
    Challenge.header, Parser.bind_apply]
  rcases tag signature i with e | ⟨_, r⟩
  · rfl
  simp only [ok_bind]
  rcases verify leU32 (fun mt => mt == 0x00000002) r with e | ⟨_, r⟩
  · rfl
  simp only [ok_bind]
  rcases (Wire.deserialize cfg : Parser Field) r with e | ⟨t, r⟩
  · rfl
  simp only [ok_bind]
  rcases (Wire.deserialize cfg : Parser Flags) r with e | ⟨f, r⟩
  · rfl
  simp only [ok_bind]
  rcases (Wire.deserialize cfg : Parser (Bytes 8)) r with e | ⟨c, r⟩
  · rfl
  simp only [ok_bind]
  rcases Challenge.parseReserved cfg r with e | ⟨_, r⟩
  · rfl
  simp only [ok_bind]
  rcases (Wire.deserialize cfg : Parser Field) r with e | ⟨l, r⟩
  · rfl
  simp only [ok_bind, Parser.pure_apply]
  rcases cond (f.hasFlag Flags.NTLMSSP_NEGOTIATE_VERSION) (Wire.deserialize cfg : Parser Version) r with e | ⟨v, r⟩
  · rfl
  simp only [ok_bind]
  rcases (t.getDataIf cfg i (f.hasFlag Flags.NTLMSSP_REQUEST_TARGET || true) : Except PErr (Option UnicodeString))
    with e | x
  · rfl
  simp only [ok_bind]
  rcases (l.getManyIf cfg i true : Except PErr (List AvPair)) with e | y
  · rfl
  simp only [ok_bind]
  cases Challenge.lastIsEol y <;> rfl

theorem authenticate_fst (cfg : Cfg) (i : List UInt8) :
    (authenticate cfg i).1 = (Wire.deserialize cfg : Parser Authenticate) i := by
  show _ = Authenticate.deserialize cfg i
  simp only [authenticate, fst_bind, quiet_fst, flags_fst, getDataIf_fst, fst_pure, Authenticate.deserialize,
    Authenticate.header, Parser.bind_apply]
  rcases tag signature i with e | ⟨_, r⟩
  · rfl
  simp only [ok_bind]
  rcases verify leU32 (fun mt => mt == 0x00000003) r with e | ⟨_, r⟩
  · rfl
  simp only [ok_bind]
  rcases (Wire.deserialize cfg : Parser Field) r with e | ⟨f1, r⟩
  · rfl
  simp only [ok_bind]
  rcases (Wire.deserialize cfg : Parser Field) r with e | ⟨f2, r⟩
  · rfl
  simp only [ok_bind]
  rcases (Wire.deserialize cfg : Parser Field) r with e | ⟨f3, r⟩
  · rfl
  simp only [ok_bind]
  rcases (Wire.deserialize cfg : Parser Field) r with e | ⟨f4, r⟩
  · rfl
  simp only [ok_bind]
  rcases (Wire.deserialize cfg : Parser Field) r with e | ⟨f5, r⟩
  · rfl
  simp only [ok_bind]
  rcases (Wire.deserialize cfg : Parser Field) r with e | ⟨f6, r⟩
  · rfl
  simp only [ok_bind]
  rcases (Wire.deserialize cfg : Parser Flags) r with e | ⟨f, r⟩
  · rfl
  simp only [ok_bind, Parser.pure_apply]
  rcases cond (f.hasFlag Flags.NTLMSSP_NEGOTIATE_VERSION) (Wire.deserialize cfg : Parser Version) r with e | ⟨v, r⟩
  · rfl
  simp only [ok_bind]
  rcases (Wire.deserialize cfg : Parser (Bytes 16)) r with e | ⟨mic, r⟩
  · rfl
  simp only [ok_bind, Authenticate.body]
  have hl := lmResponse_fst cfg ⟨f1, f2, f3, f4, f5, f6, f⟩ i
  simp only at hl
  rw [hl]
  rcases Authenticate.lmResponse cfg ⟨f1, f2, f3, f4, f5, f6, f⟩ i with e | lm
  · rfl
  simp only [ok_bind]
  rcases (f2.getDataIf cfg i true : Except PErr (Option NtChallenge)) with e | nt
  · rfl
  simp only [ok_bind]
  rcases (f3.getDataIf cfg i true : Except PErr (Option UnicodeString)) with e | d
  · rfl
  simp only [ok_bind]
  rcases (f4.getDataIf cfg i true : Except PErr (Option UnicodeString)) with e | u
  · rfl
  simp only [ok_bind]
  rcases (f5.getDataIf cfg i true : Except PErr (Option UnicodeString)) with e | w
  · rfl
  simp only [ok_bind]
  rcases (f6.getDataIf cfg i (f.hasFlag Flags.NTLMSSP_NEGOTIATE_KEY_EXCH) : Except PErr (Option (Bytes 16))) with e | k
  · rfl
  · rfl

/-! ### What is logged for an accepted message -/

/-- The line for a field, given what its value leaves. -/
theorem data_lines {α : Type} [Wire α] (cfg : Cfg) (i : List UInt8) (p : Nat) (name : String) {x : Option α} {n : Nat}
    (hx : (getDataIf cfg (fieldAt i p) name i true : L (Option α)).1 = .ok x)
    (hn : ∀ v r, u16At i p ≠ 0 → ¬ outOfRange i p → x = some v →
      (Wire.deserialize cfg : Parser α) (fieldBytes i p) = .ok (v, r) → r.length = n) :
    (getDataIf cfg (fieldAt i p) name i true : L (Option α)).2.map Warn.text = fieldLines name (u16At i p) n := by
  rw [getDataIf_fst] at hx
  by_cases h0 : u16At i p = 0
  · simp only [getDataIf, if_true, fieldAt_len_zero, h0, fieldLines]
    rfl
  by_cases ho : outOfRange i p
  · rw [getDataIf_out cfg i p ho] at hx
    simp at hx
  rw [getDataIf_in cfg i p h0 ho] at hx
  rcases hd : (Wire.deserialize cfg : Parser α) (fieldBytes i p) with e | ⟨v, r⟩
  · simp [hd] at hx
  · simp only [hd, Except.ok.injEq] at hx
    have hr := hn v r h0 ho hx.symm hd
    simp only [getDataIf, if_true, fieldAt_len_zero, h0, if_false, fieldLines]
    rw [quiet_bind _ ((slice_at i p h0).2 ho), quiet_bind _ hd]
    simp only []
    cases r with
    | nil => subst hr; rfl
    | cons a r => subst hr; simp only [List.length_cons, Nat.succ_ne_zero, if_false]; rfl

theorem many_lines (cfg : Cfg) (i : List UInt8) (p : Nat) (name : String) {x : List AvPair}
    (hx : (getManyIf cfg (fieldAt i p) name i true : L (List AvPair)).1 = .ok x) :
    ∃ n, (u16At i p ≠ 0 → walkUnused cfg (fieldBytes i p) x n) ∧
    (getManyIf cfg (fieldAt i p) name i true : L (List AvPair)).2.map Warn.text = fieldLines name (u16At i p) n := by
  rw [getManyIf_fst] at hx
  by_cases h0 : u16At i p = 0
  · refine ⟨0, fun h => absurd h0 h, ?_⟩
    simp only [getManyIf, if_true, fieldAt_len_zero, h0, fieldLines]
    rfl
  by_cases ho : outOfRange i p
  · rw [getManyIf_out cfg i p ho] at hx
    simp at hx
  rw [getManyIf_in cfg i p h0 ho] at hx
  rcases hd : many0 (Wire.deserialize cfg : Parser AvPair) (fieldBytes i p) with e | ⟨v, r⟩
  · simp [hd] at hx
  · simp only [hd, Except.ok.injEq] at hx
    subst hx
    refine ⟨r.length, fun _ => ⟨r, (many0_walk ..).mp hd, rfl⟩, ?_⟩
    simp only [getManyIf, if_true, fieldAt_len_zero, h0, if_false, fieldLines]
    rw [quiet_bind _ ((slice_at i p h0).2 ho), quiet_bind _ hd]
    simp only []
    cases r with
    | nil => rfl
    | cons a r => simp only [List.length_cons, Nat.succ_ne_zero, if_false]; rfl

theorem fieldBytes_length (i : List UInt8) (p : Nat) (_ : u16At i p ≠ 0) (ho : ¬ outOfRange i p) :
    (fieldBytes i p).length = u16At i p := by
  simp only [outOfRange] at ho
  simp only [fieldBytes, bytesAt, List.length_take, List.length_drop]
  omega

theorem oem_lines (cfg : Cfg) (i : List UInt8) (p : Nat) (name : String) {x : Option OEMString}
    (hx : (getDataIf cfg (fieldAt i p) name i true : L (Option OEMString)).1 = .ok x) :
    (getDataIf cfg (fieldAt i p) name i true : L (Option OEMString)).2.map Warn.text =
      fieldLines name (u16At i p) 0 := by
  refine data_lines cfg i p name hx fun v r _ _ _ h => ?_
  obtain ⟨a, h1, rfl⟩ := pmap_inv h
  obtain ⟨c, h2, h3⟩ := mapOpt_inv h1
  simp only [rest, Except.ok.injEq, Prod.mk.injEq] at h2
  rw [← h2.2]
  rfl

theorem text_lines (cfg : Cfg) (i : List UInt8) (p : Nat) (name : String) {x : Option UnicodeString}
    (hx : (getDataIf cfg (fieldAt i p) name i true : L (Option UnicodeString)).1 = .ok x) :
    (getDataIf cfg (fieldAt i p) name i true : L (Option UnicodeString)).2.map Warn.text =
      fieldLines name (u16At i p) (textUnused i p x) := by
  refine data_lines cfg i p name hx fun v r h0 ho hv h => ?_
  obtain ⟨s, t, h1, _, h3, _⟩ := unicode_total cfg (fieldBytes i p)
  rw [h1] at h
  simp only [Except.ok.injEq, Prod.mk.injEq] at h
  have hl := congrArg List.length h3
  rw [fieldBytes_length i p h0 ho, List.length_append] at hl
  rw [hv, ← h.1, ← h.2]
  simp only [textUnused]
  omega

theorem key_lines (cfg : Cfg) (i : List UInt8) (p : Nat) (name : String) {x : Option (Bytes 16)}
    (hx : (getDataIf cfg (fieldAt i p) name i true : L (Option (Bytes 16))).1 = .ok x) :
    (getDataIf cfg (fieldAt i p) name i true : L (Option (Bytes 16))).2.map Warn.text =
      fieldLines name (u16At i p) (u16At i p - 16) := by
  refine data_lines cfg i p name hx fun v r h0 ho hv h => ?_
  have hl := congrArg List.length (takeBytes_canon h)
  rw [fieldBytes_length i p h0 ho, List.length_append, v.property] at hl
  omega

theorem nt_rest (cfg : Cfg) (b : List UInt8) (x : NtChallenge) (r : List UInt8)
    (h : (Wire.deserialize cfg : Parser NtChallenge) b = .ok (x, r)) : ntUnused cfg b (some x) r.length := by
  change alt _ _ b = .ok (x, r) at h
  by_cases hf : ntv2Fixed cfg b
  · simp only [alt, pmap] at h
    rw [ntv2_at cfg b hf (by have := hf.1; omega)] at h
    rcases hx : many0 (Wire.deserialize cfg : Parser AvPair) (b.drop 28) with e | ⟨l, t⟩
    · rcases many0_avError cfg _ _ (Nat.le_refl _) e hx with rfl | ⟨rfl, _⟩ <;> simp [hx] at h
    · simp only [hx, Except.ok.injEq, Prod.mk.injEq] at h
      rw [← h.1, ← h.2]
      exact ⟨t, (many0_walk ..).mp hx, rfl⟩
  · simp only [alt, pmap] at h
    rw [ntv2_no cfg b hf] at h
    simp only [] at h
    rcases hx : (Wire.deserialize cfg : Parser Ntv1Challenge) b with e | ⟨c, t⟩
    · simp [hx] at h
    · simp only [hx, Except.ok.injEq, Prod.mk.injEq] at h
      have hc := canon_ntv1 cfg _ _ _ hx
      have hl := congrArg List.length hc
      change _ = (c.response.val ++ t).length at hl
      rw [List.length_append, c.response.property] at hl
      rw [← h.1, ← h.2]
      show t.length = b.length - 24
      omega

theorem nt_lines (cfg : Cfg) (i : List UInt8) (p : Nat) (name : String) {x : Option NtChallenge}
    (hx : (getDataIf cfg (fieldAt i p) name i true : L (Option NtChallenge)).1 = .ok x) :
    ∃ n, (u16At i p ≠ 0 → ntUnused cfg (fieldBytes i p) x n) ∧
    (getDataIf cfg (fieldAt i p) name i true : L (Option NtChallenge)).2.map Warn.text =
      fieldLines name (u16At i p) n := by
  by_cases h0 : u16At i p = 0
  · exact ⟨0, fun h => absurd h0 h, data_lines cfg i p name hx fun v r h _ _ _ => absurd h0 h⟩
  have hx' := hx
  rw [getDataIf_fst, getDataIf_eq_ok] at hx'
  rcases hx' with ⟨h, _⟩ | ⟨_, ho, v, rfl, r, hr⟩
  · exact absurd h h0
  · refine ⟨r.length, fun _ => nt_rest cfg _ v r hr, data_lines cfg i p name hx fun w s _ _ _ hs => ?_⟩
    rw [hr] at hs
    simp only [Except.ok.injEq, Prod.mk.injEq] at hs
    rw [hs.2]

theorem negotiate_lines (cfg : Cfg) (i : List UInt8) (m : Negotiate) (r : List UInt8)
    (h : (Wire.deserialize cfg : Parser Negotiate) i = .ok (m, r)) :
    (negotiate cfg i).2.map Warn.text = flagLines (u32At i 12) ++ fieldLines "domain" (u16At i 16) 0 ++
      fieldLines "workstation" (u16At i 24) 0 := by
  have hh : hasHeader i 1 32 ∧ versionBlockOk i 12 32 := Classical.byContradiction fun hc => by
    rw [negotiate_no cfg i hc] at h; simp at h
  obtain ⟨hh, hv⟩ := hh
  have h1 := hh.1
  rw [negotiate_at cfg i hh hv] at h
  obtain ⟨d, hd, h⟩ := (bind_eq_ok _ _ _).mp h
  obtain ⟨w, hw, h⟩ := (bind_eq_ok _ _ _).mp h
  rw [← getDataIf_fst cfg _ "domain"] at hd
  rw [← getDataIf_fst cfg _ "workstation"] at hw
  have hf := flags_at cfg i 12 (by omega)
  unfold negotiate
  rw [quiet_bind _ (tag_at i hh.2.1)]
  simp only []
  rw [quiet_bind _ (type_at i 1 (by omega) hh.2.2)]
  simp only []
  rw [snd_bind_ok _ hf.1]
  simp only []
  rw [quiet_bind _ (field_at cfg i 16 (by omega))]
  simp only []
  rw [quiet_bind _ (field_at cfg i 24 (by omega))]
  simp only []
  rw [quiet_bind _ (version_at cfg i 12 32 hv)]
  simp only [Bool.or_true]
  rw [snd_bind_ok _ hd]
  rw [snd_bind_ok _ hw]
  simp only [snd_pure, List.append_nil, List.map_append, hf.2, oem_lines cfg i 16 _ hd, oem_lines cfg i 24 _ hw,
    List.append_assoc]

theorem challenge_lines (cfg : Cfg) (i : List UInt8) (m : Challenge) (r : List UInt8)
    (h : (Wire.deserialize cfg : Parser Challenge) i = .ok (m, r)) :
    ∃ n, (u16At i 40 ≠ 0 → walkUnused cfg (fieldBytes i 40) m.targetInfos n) ∧
    (challenge cfg i).2.map Warn.text = flagLines (u32At i 20) ++
      fieldLines "target_name" (u16At i 12) (textUnused i 12 m.targetName) ++
      fieldLines "target_infos" (u16At i 40) n := by
  have hh : challengeHeader cfg i ∧ versionBlockOk i 20 48 := Classical.byContradiction fun hc => by
    rw [challenge_no cfg i hc] at h; simp at h
  obtain ⟨hh, hv⟩ := hh
  have h1 := hh.1.1
  rw [challenge_at cfg i hh (by omega) hv] at h
  obtain ⟨t, ht, h⟩ := (bind_eq_ok _ _ _).mp h
  obtain ⟨l, hl, h⟩ := (bind_eq_ok _ _ _).mp h
  by_cases he : Challenge.lastIsEol l = true
  · simp only [he, if_true, pure, Except.pure, Except.ok.injEq, Prod.mk.injEq] at h
    obtain ⟨rfl, _⟩ := h
    rw [← getDataIf_fst cfg _ "target_name"] at ht
    rw [← getManyIf_fst cfg _ "target_infos"] at hl
    have hf := flags_at cfg i 20 (by omega)
    obtain ⟨_, hres⟩ := reserved_at cfg i (by omega) hh.2
    obtain ⟨n, hn, hlines⟩ := many_lines cfg i 40 _ hl
    refine ⟨n, hn, ?_⟩
    unfold challenge
    rw [quiet_bind _ (tag_at i hh.1.2.1)]
    simp only []
    rw [quiet_bind _ (type_at i 2 (by omega) hh.1.2.2)]
    simp only []
    rw [quiet_bind _ (field_at cfg i 12 (by omega))]
    simp only []
    rw [snd_bind_ok _ hf.1]
    simp only []
    have h8 : (Wire.deserialize cfg : Parser (Bytes 8)) (i.drop 24) = .ok _ := takeBytes_at (n := 8) i 24 (by omega)
    rw [quiet_bind _ h8]
    simp only []
    rw [quiet_bind _ hres]
    simp only []
    rw [quiet_bind _ (field_at cfg i 40 (by omega))]
    simp only []
    rw [quiet_bind _ (version_at cfg i 20 48 hv)]
    simp only [Bool.or_true]
    rw [snd_bind_ok _ ht]
    rw [snd_bind_ok _ hl]
    simp only [he, if_true, snd_pure, List.append_nil, List.map_append, hf.2, text_lines cfg i 12 _ ht, hlines,
      List.append_assoc]
  · simp [he] at h

/-- The lines about the LM response. -/
theorem lm_lines (cfg : Cfg) (i : List UInt8) {x : Option LmChallenge}
    (hx : (lmResponse cfg (flagsAt i 60) (fieldAt i 12) i).1 = .ok x) :
    (lmResponse cfg (flagsAt i 60) (fieldAt i 12) i).2.map Warn.text = lmLines i := by
  have e : (flagsAt i 60).hasFlag Flags.NTLMSSP_NEGOTIATE_NTLM = (u32At i 60).testBit 9 := by
    rw [hasFlag_testBit _ _ (by decide), flagsAt_bits]; rfl
  have key : ∀ (α : Type) [Wire α] (name : String) (f : Option α → L (Option LmChallenge)),
      (∀ a, (f a).2 = []) →
      (∀ b, b.length < 24 → (Wire.deserialize cfg : Parser α) b = .error .error) →
      (∀ b, ¬ b.length < 24 → ∃ v : α, (Wire.deserialize cfg : Parser α) b = .ok (v, b.drop 24)) →
      ∀ y, (okFlatten (getDataIf cfg (fieldAt i 12) name i true : L (Option α)) >>= f).1 = .ok y →
      (okFlatten (getDataIf cfg (fieldAt i 12) name i true : L (Option α)) >>= f).2.map Warn.text =
        if 0 < u16At i 12 ∧ u16At i 12 < 24 then [] else fieldLines name (u16At i 12) (u16At i 12 - 24) := by
    intro α _ name f hf hs hlong y hy
    rw [fst_bind] at hy
    obtain ⟨a, ha, _⟩ := (bind_eq_ok _ _ _).mp hy
    rw [snd_bind_ok _ ha, hf, List.append_nil]
    show (getDataIf cfg (fieldAt i 12) name i true : L (Option α)).2.map Warn.text = _
    by_cases h0 : u16At i 12 = 0
    · rw [if_neg (by omega)]
      refine data_lines (x := none) cfg i 12 name ?_ fun v r h _ _ _ => absurd h0 h
      rw [getDataIf_fst, getDataIf_empty cfg i 12 true (.inr h0)]
    by_cases ho : outOfRange i 12
    · change Authenticate.okFlatten (getDataIf cfg (fieldAt i 12) name i true : L (Option α)).1 = _ at ha
      rw [getDataIf_fst, getDataIf_out cfg i 12 ho] at ha
      simp [Authenticate.okFlatten] at ha
    have hl := fieldBytes_length i 12 h0 ho
    by_cases h24 : u16At i 12 < 24
    · rw [if_pos ⟨by omega, h24⟩]
      simp only [getDataIf, if_true, fieldAt_len_zero, h0, if_false]
      rw [quiet_bind _ ((slice_at i 12 h0).2 ho), hs _ (by omega)]
      rfl
    · rw [if_neg (by omega)]
      obtain ⟨v, hv⟩ := hlong (fieldBytes i 12) (by omega)
      refine data_lines (x := some v) cfg i 12 name ?_ fun w r _ _ _ hr => ?_
      · rw [getDataIf_fst, getDataIf_in cfg i 12 h0 ho, hv]
      · rw [hv] at hr
        simp only [Except.ok.injEq, Prod.mk.injEq] at hr
        rw [← hr.2, List.length_drop, hl]
  unfold lmLines
  unfold lmResponse at hx ⊢
  rw [e] at hx ⊢
  cases hb : (u32At i 60).testBit 9 with
  | true =>
    simp only [hb, if_true] at hx ⊢
    exact key Lmv1Challenge _ _ (fun _ => rfl) (fun b h => (fixed_lmv1 cfg).short b h)
      (fun b h => by
        let c : Lmv1Challenge := ⟨⟨b.take 24, by simp only [List.length_take]; omega⟩⟩
        have hd := dec_lmv1 cfg c (b.drop 24)
        rw [show c.response.val ++ b.drop 24 = b from List.take_append_drop 24 b] at hd
        exact ⟨c, hd⟩) _ hx
  | false =>
    simp only [hb, Bool.false_eq_true, if_false] at hx ⊢
    exact key Lmv2Challenge _ _ (fun _ => rfl) (fun b h => (fixed_lmv2 cfg).short b h)
      (fun b h => by
        let c : Lmv2Challenge := ⟨⟨b.take 16, by simp only [List.length_take]; omega⟩,
          ⟨(b.drop 16).take 8, by simp only [List.length_take, List.length_drop]; omega⟩⟩
        have hs : c.response.val ++ c.challengeFromClient.val = b.take 24 := by
          show b.take 16 ++ (b.drop 16).take 8 = b.take 24
          rw [show 24 = 16 + 8 from rfl, List.take_add]
        have hd := dec_lmv2 cfg c (b.drop 24)
        rw [hs, List.take_append_drop 24 b] at hd
        exact ⟨c, hd⟩) _ hx

theorem authenticate_lines (cfg : Cfg) (i : List UInt8) (m : Authenticate) (r : List UInt8)
    (h : (Wire.deserialize cfg : Parser Authenticate) i = .ok (m, r)) :
    ∃ n, (u16At i 20 ≠ 0 → ntUnused cfg (fieldBytes i 20) m.ntChallengeResponse n) ∧
    (authenticate cfg i).2.map Warn.text = flagLines (u32At i 60) ++ lmLines i ++
      fieldLines "nt_challenge_response" (u16At i 20) n ++
      fieldLines "domain" (u16At i 28) (textUnused i 28 m.domain) ++
      fieldLines "user" (u16At i 36) (textUnused i 36 m.user) ++
      fieldLines "workstation" (u16At i 44) (textUnused i 44 m.workstation) ++ keyLines i := by
  have hh : hasHeader i 3 64 ∧ versionBlockOk i 60 64 ∧ 64 + versionSize i 60 + 16 ≤ i.length :=
    Classical.byContradiction fun hc => by rw [authenticate_no cfg i hc] at h; simp at h
  obtain ⟨hh, hv, hm⟩ := hh
  have h1 := hh.1
  rw [authenticate_at cfg i hh hv hm] at h
  obtain ⟨m', hb, h⟩ := (bind_eq_ok _ _ _).mp h
  simp only [pure, Except.pure, Except.ok.injEq, Prod.mk.injEq] at h
  obtain ⟨rfl, _⟩ := h
  unfold Authenticate.body at hb
  obtain ⟨lm, hlm, hb⟩ := (bind_eq_ok _ _ _).mp hb
  obtain ⟨nt, hnt, hb⟩ := (bind_eq_ok _ _ _).mp hb
  obtain ⟨d, hd, hb⟩ := (bind_eq_ok _ _ _).mp hb
  obtain ⟨u, hu, hb⟩ := (bind_eq_ok _ _ _).mp hb
  obtain ⟨w, hw, hb⟩ := (bind_eq_ok _ _ _).mp hb
  obtain ⟨k, hk, hb⟩ := (bind_eq_ok _ _ _).mp hb
  simp only [pure, Except.pure, Except.ok.injEq] at hb
  subst hb
  rw [← lmResponse_fst] at hlm
  rw [← getDataIf_fst cfg _ "nt_challenge_response"] at hnt
  rw [← getDataIf_fst cfg _ "domain"] at hd
  rw [← getDataIf_fst cfg _ "user"] at hu
  rw [← getDataIf_fst cfg _ "workstation"] at hw
  rw [← getDataIf_fst cfg _ "encrypted_random_session_key"] at hk
  simp only [authHeaderAt] at hlm hnt hd hu hw hk
  have hf := flags_at cfg i 60 (by omega)
  obtain ⟨n, hn, hlines⟩ := nt_lines cfg i 20 _ hnt
  have hkl : (getDataIf cfg (fieldAt i 52) "encrypted_random_session_key" i
      ((flagsAt i 60).hasFlag Flags.NTLMSSP_NEGOTIATE_KEY_EXCH) : L (Option (Bytes 16))).2.map Warn.text =
        keyLines i := by
    have e : (flagsAt i 60).hasFlag Flags.NTLMSSP_NEGOTIATE_KEY_EXCH = (u32At i 60).testBit 30 := by
      rw [hasFlag_testBit _ _ (by decide), flagsAt_bits]; rfl
    rw [e] at hk ⊢
    unfold keyLines
    cases hb : (u32At i 60).testBit 30 with
    | false => rfl
    | true =>
      rw [hb] at hk
      exact key_lines cfg i 52 _ hk
  refine ⟨n, hn, ?_⟩
  unfold authenticate
  rw [quiet_bind _ (tag_at i hh.2.1)]
  simp only []
  rw [quiet_bind _ (type_at i 3 (by omega) hh.2.2)]
  simp only []
  rw [quiet_bind _ (field_at cfg i 12 (by omega))]
  simp only []
  rw [quiet_bind _ (field_at cfg i 20 (by omega))]
  simp only []
  rw [quiet_bind _ (field_at cfg i 28 (by omega))]
  simp only []
  rw [quiet_bind _ (field_at cfg i 36 (by omega))]
  simp only []
  rw [quiet_bind _ (field_at cfg i 44 (by omega))]
  simp only []
  rw [quiet_bind _ (field_at cfg i 52 (by omega))]
  simp only []
  rw [snd_bind_ok _ hf.1]
  simp only []
  rw [quiet_bind _ (version_at cfg i 60 64 hv)]
  simp only []
  have h16 : (Wire.deserialize cfg : Parser (Bytes 16)) (i.drop (64 + versionSize i 60)) = .ok _ :=
    takeBytes_at (n := 16) i (64 + versionSize i 60) (by omega)
  rw [quiet_bind _ h16]
  simp only []
  rw [snd_bind_ok _ hlm, snd_bind_ok _ hnt, snd_bind_ok _ hd, snd_bind_ok _ hu, snd_bind_ok _ hw, snd_bind_ok _ hk]
  simp only [snd_pure, List.append_nil, List.map_append, hf.2, lm_lines cfg i hlm, hlines, text_lines cfg i 28 _ hd,
    text_lines cfg i 36 _ hu, text_lines cfg i 44 _ hw, hkl, List.append_assoc]

/-! ### What can be logged at all -/

/-- Every warning logged satisfies `P`. -/
def All {α : Type} (P : Warn → Prop) (x : L α) : Prop := ∀ w ∈ x.2, P w

theorem all_quiet {α : Type} {P : Warn → Prop} (x : Except PErr α) : All P (quiet x) := by
  intro w hw; cases hw

theorem all_pure {α : Type} {P : Warn → Prop} (a : α) : All P (pure a : L α) := by
  intro w hw; cases hw

theorem all_bind {α β : Type} {P : Warn → Prop} {x : L α} {f : α → L β} (hx : All P x) (hf : ∀ a, All P (f a)) :
    All P (x >>= f) := by
  rcases x with ⟨e | a, l⟩
  · exact hx
  · intro w hw
    rcases List.mem_append.mp hw with h | h
    · exact hx w h
    · exact hf a w h

/-- A warning about flags. -/
def FlagWarn (w : Warn) : Prop :=
  (∃ k, 1 ≤ k ∧ k ≤ 10 ∧ w = .reserved k) ∨ w = .targetTypes ∨ w = .noCharset ∨ w = .lmKey

/-- A warning about flags, or about a field with its number of unused bytes. -/
def PlainWarn (w : Warn) : Prop :=
  FlagWarn w ∨ ∃ name ∈ fieldNames, w = .empty name ∨ ∃ n, 0 < n ∧ n ≤ 65535 ∧ w = .notConsumed name n

theorem go_mem (strict : Bool) (l : List (Bool × Warn)) (w : Warn) (h : w ∈ (validateWith.go strict l).2) :
    ∃ b, (b, w) ∈ l := by
  induction l with
  | nil => cases h
  | cons a l ih =>
    obtain ⟨b, v⟩ := a
    cases b with
    | false =>
      obtain ⟨c, hc⟩ := ih (by simpa [validateWith.go] using h)
      exact ⟨c, List.mem_cons_of_mem _ hc⟩
    | true =>
      cases strict with
      | true =>
        simp only [validateWith.go, if_true, List.mem_singleton] at h
        exact ⟨true, by rw [h]; exact List.mem_cons_self⟩
      | false =>
        simp only [validateWith.go, if_true, Bool.false_eq_true, if_false, List.mem_cons] at h
        rcases h with h | h
        · exact ⟨true, by rw [h]; exact List.mem_cons_self⟩
        · obtain ⟨c, hc⟩ := ih h
          exact ⟨c, List.mem_cons_of_mem _ hc⟩

theorem flags_all (cfg : Cfg) (i : List UInt8) : All PlainWarn (flags cfg i) := by
  intro w hw
  simp only [flags] at hw
  rcases hx : leU32 i with e | ⟨f, r⟩
  · rw [hx] at hw; cases hw
  · rw [hx] at hw
    obtain ⟨b, hb⟩ := go_mem _ _ _ hw
    refine .inl ?_
    simp only [List.mem_cons, Prod.mk.injEq, List.not_mem_nil, or_false] at hb
    unfold FlagWarn
    rcases hb with h | h | h | h | h | h | h | h | h | h | h | h | h
    · exact .inl ⟨1, by omega, by omega, h.2⟩
    · exact .inl ⟨2, by omega, by omega, h.2⟩
    · exact .inl ⟨3, by omega, by omega, h.2⟩
    · exact .inl ⟨4, by omega, by omega, h.2⟩
    · exact .inl ⟨5, by omega, by omega, h.2⟩
    · exact .inl ⟨6, by omega, by omega, h.2⟩
    · exact .inl ⟨7, by omega, by omega, h.2⟩
    · exact .inl ⟨8, by omega, by omega, h.2⟩
    · exact .inl ⟨9, by omega, by omega, h.2⟩
    · exact .inl ⟨10, by omega, by omega, h.2⟩
    · exact .inr (.inl h.2)
    · exact .inr (.inr (.inl h.2))
    · exact .inr (.inr (.inr h.2))

/-- What a parser leaves is no longer than what it got. -/
def Shrinks {α : Type} (p : Parser α) : Prop := ∀ b v r, p b = .ok (v, r) → r.length ≤ b.length

theorem slice_len {f : Field} {i d : List UInt8} (h : f.slice i = .ok d) : d.length ≤ 65535 := by
  simp only [Field.slice] at h
  split at h
  · simp only [Except.ok.injEq] at h
    rw [← h]
    have := f.len.toNat_lt
    simp only [List.length_take]
    omega
  · simp at h

theorem rest_all {α : Type} (name : String) (hm : name ∈ fieldNames) (v : α) (r : List UInt8) (hr : r.length ≤ 65535) :
    All PlainWarn (if !r.isEmpty then warn (.notConsumed name r.length) >>= fun _ => pure v else pure v : L α) := by
  cases r with
  | nil => exact all_pure v
  | cons a r =>
    intro w hw
    have : w = .notConsumed name (a :: r).length := by
      rcases List.mem_append.mp hw with h | h
      · exact List.mem_singleton.mp h
      · cases h
    exact .inr ⟨name, hm, .inr ⟨(a :: r).length, by simp, hr, this⟩⟩

theorem getDataIf_all {α : Type} [Wire α] (cfg : Cfg) (f : Field) (name : String) (i : List UInt8) (c : Bool)
    (hm : name ∈ fieldNames) (hs : Shrinks (Wire.deserialize cfg : Parser α)) :
    All PlainWarn (getDataIf cfg f name i c : L (Option α)) := by
  unfold getDataIf
  split
  · split
    · refine all_bind ?_ fun _ => all_pure _
      intro w hw
      exact .inr ⟨name, hm, .inl (List.mem_singleton.mp hw)⟩
    · rcases hd : f.slice i with e | d
      · exact all_quiet _
      · rw [quiet_bind _ rfl]
        rcases hx : (Wire.deserialize cfg : Parser α) d with e | ⟨v, r⟩
        · exact all_quiet _
        · rw [quiet_bind _ rfl]
          exact rest_all name hm (some v) r (Nat.le_trans (hs _ _ _ hx) (slice_len hd))
  · exact all_pure _

theorem walk_len {cfg : Cfg} {i r : List UInt8} {l : List AvPair} (h : AvWalk cfg i l r) : r.length ≤ i.length := by
  induction h with
  | stop _ => exact Nat.le_refl _
  | step _ _ _ ih => simp only [List.length_drop] at ih; omega

theorem getManyIf_all (cfg : Cfg) (f : Field) (name : String) (i : List UInt8) (c : Bool) (hm : name ∈ fieldNames) :
    All PlainWarn (getManyIf cfg f name i c : L (List AvPair)) := by
  unfold getManyIf
  split
  · split
    · refine all_bind ?_ fun _ => all_pure _
      intro w hw
      exact .inr ⟨name, hm, .inl (List.mem_singleton.mp hw)⟩
    · rcases hd : f.slice i with e | d
      · exact all_quiet _
      · rw [quiet_bind _ rfl]
        rcases hx : many0 (Wire.deserialize cfg : Parser AvPair) d with e | ⟨v, r⟩
        · exact all_quiet _
        · rw [quiet_bind _ rfl]
          exact rest_all name hm v r (Nat.le_trans (walk_len ((many0_walk ..).mp hx)) (slice_len hd))
  · exact all_pure _

theorem shrinks_oem (cfg : Cfg) : Shrinks (Wire.deserialize cfg : Parser OEMString) := by
  intro b v r h
  obtain ⟨a, h1, rfl⟩ := pmap_inv h
  obtain ⟨c, h2, h3⟩ := mapOpt_inv h1
  simp only [rest, Except.ok.injEq, Prod.mk.injEq] at h2
  rw [← h2.2]
  simp

theorem shrinks_text (cfg : Cfg) : Shrinks (Wire.deserialize cfg : Parser UnicodeString) := by
  intro b v r h
  obtain ⟨s, t, h1, _, h3, _⟩ := unicode_total cfg b
  rw [h1] at h
  simp only [Except.ok.injEq, Prod.mk.injEq] at h
  have hl := congrArg List.length h3
  rw [List.length_append] at hl
  rw [← h.2]
  omega

theorem shrinks_bytes (cfg : Cfg) (n : Nat) : Shrinks (Wire.deserialize cfg : Parser (Bytes n)) := by
  intro b v r h
  have hl := congrArg List.length (takeBytes_canon h)
  rw [List.length_append] at hl
  omega

theorem shrinks_nt (cfg : Cfg) : Shrinks (Wire.deserialize cfg : Parser NtChallenge) := by
  intro b v r h
  have hn := nt_rest cfg b v r h
  cases v with
  | v1 c => change r.length = _ at hn; omega
  | v2 c =>
    obtain ⟨t, ht, he⟩ := hn
    have := walk_len ht
    rw [List.length_drop] at this
    omega

theorem shrinks_lmv1 (cfg : Cfg) : Shrinks (Wire.deserialize cfg : Parser Lmv1Challenge) := by
  intro b v r h
  obtain ⟨_, h1, _⟩ := pmap_inv h
  have hl := congrArg List.length (takeBytes_canon h1)
  rw [List.length_append] at hl
  omega

theorem shrinks_lmv2 (cfg : Cfg) : Shrinks (Wire.deserialize cfg : Parser Lmv2Challenge) := by
  intro b v r h
  by_cases hl : b.length < 24
  · rw [(fixed_lmv2 cfg).short b hl] at h
    simp at h
  · let c : Lmv2Challenge := ⟨⟨b.take 16, by simp only [List.length_take]; omega⟩,
      ⟨(b.drop 16).take 8, by simp only [List.length_take, List.length_drop]; omega⟩⟩
    have hs : c.response.val ++ c.challengeFromClient.val = b.take 24 := by
      show b.take 16 ++ (b.drop 16).take 8 = b.take 24
      rw [show 24 = 16 + 8 from rfl, List.take_add]
    have hd := dec_lmv2 cfg c (b.drop 24)
    rw [hs, List.take_append_drop 24 b, h] at hd
    simp only [Except.ok.injEq, Prod.mk.injEq] at hd
    rw [hd.2, List.length_drop]
    omega

theorem okFlatten_all {α : Type} {P : Warn → Prop} {x : L (Option α)} (h : All P x) : All P (okFlatten x) := h

theorem negotiate_all (cfg : Cfg) (i : List UInt8) : All PlainWarn (negotiate cfg i) :=
  all_bind (all_quiet _) fun _ => all_bind (all_quiet _) fun _ => all_bind (flags_all _ _) fun _ =>
  all_bind (all_quiet _) fun _ => all_bind (all_quiet _) fun _ => all_bind (all_quiet _) fun _ =>
  all_bind (getDataIf_all _ _ _ _ _ (by decide) (shrinks_oem cfg)) fun _ =>
  all_bind (getDataIf_all _ _ _ _ _ (by decide) (shrinks_oem cfg)) fun _ => all_pure _

theorem challenge_all (cfg : Cfg) (i : List UInt8) : All PlainWarn (challenge cfg i) :=
  all_bind (all_quiet _) fun _ => all_bind (all_quiet _) fun _ => all_bind (all_quiet _) fun _ =>
  all_bind (flags_all _ _) fun _ => all_bind (all_quiet _) fun _ => all_bind (all_quiet _) fun _ =>
  all_bind (all_quiet _) fun _ => all_bind (all_quiet _) fun _ =>
  all_bind (getDataIf_all _ _ _ _ _ (by decide) (shrinks_text cfg)) fun _ =>
  all_bind (getManyIf_all _ _ _ _ _ (by decide)) fun l => by
    by_cases h : Challenge.lastIsEol l = true
    · rw [if_pos h]; exact all_pure _
    · rw [if_neg h]; exact all_quiet _

theorem lmResponse_all (cfg : Cfg) (f : Flags) (d : Field) (i : List UInt8) : All PlainWarn (lmResponse cfg f d i) := by
  unfold lmResponse
  split
  · exact all_bind (okFlatten_all (getDataIf_all _ _ _ _ _ (by decide) (shrinks_lmv1 cfg))) fun _ => all_pure _
  · exact all_bind (okFlatten_all (getDataIf_all _ _ _ _ _ (by decide) (shrinks_lmv2 cfg))) fun _ => all_pure _

theorem authenticate_all (cfg : Cfg) (i : List UInt8) : All PlainWarn (authenticate cfg i) :=
  all_bind (all_quiet _) fun _ => all_bind (all_quiet _) fun _ => all_bind (all_quiet _) fun _ =>
  all_bind (all_quiet _) fun _ => all_bind (all_quiet _) fun _ => all_bind (all_quiet _) fun _ =>
  all_bind (all_quiet _) fun _ => all_bind (all_quiet _) fun _ => all_bind (flags_all _ _) fun _ =>
  all_bind (all_quiet _) fun _ => all_bind (all_quiet _) fun _ => all_bind (lmResponse_all _ _ _ _) fun _ =>
  all_bind (getDataIf_all _ _ _ _ _ (by decide) (shrinks_nt cfg)) fun _ =>
  all_bind (getDataIf_all _ _ _ _ _ (by decide) (shrinks_text cfg)) fun _ =>
  all_bind (getDataIf_all _ _ _ _ _ (by decide) (shrinks_text cfg)) fun _ =>
  all_bind (getDataIf_all _ _ _ _ _ (by decide) (shrinks_text cfg)) fun _ =>
  all_bind (getDataIf_all _ _ _ _ _ (by decide) (shrinks_bytes cfg 16)) fun _ => all_pure _

theorem plain_text {w : Warn} (h : PlainWarn w) : plainLine w.text := by
  rcases h with h | ⟨name, hm, rfl | ⟨n, h0, h1, rfl⟩⟩
  · rcases h with ⟨k, h1, h2, rfl⟩ | rfl | rfl | rfl
    · refine .inl ?_
      have : k = 1 ∨ k = 2 ∨ k = 3 ∨ k = 4 ∨ k = 5 ∨ k = 6 ∨ k = 7 ∨ k = 8 ∨ k = 9 ∨ k = 10 := by omega
      rcases this with rfl | rfl | rfl | rfl | rfl | rfl | rfl | rfl | rfl | rfl <;> decide
    · exact .inl (by decide)
    · exact .inr (.inl (by decide))
    · exact .inl (by decide)
  · exact .inr (.inr (.inl ⟨name, hm, rfl⟩))
  · exact .inr (.inr (.inr ⟨name, hm, n, h0, h1, rfl⟩))

/-! ### The lines differ -/

theorem head_append (a b : String) (c : Char) (h : a.toList.head? = some c) : (a ++ b).toList.head? = some c := by
  rw [String.toList_append, List.head?_append, h]; rfl

theorem head_unused (n : String) (k : Nat) : (unusedLine n k).toList.head? = some 'N' := by
  unfold unusedLine
  exact head_append _ _ 'N' (head_append _ _ 'N' (head_append _ _ 'N' (head_append _ _ 'N' (by decide))))

theorem head_empty (n : String) : (emptyLine n).toList.head? = some 'F' := by
  unfold emptyLine
  exact head_append _ _ 'F' (head_append _ _ 'F' (by decide))

theorem emptyLine_inj {a b : String} (h : emptyLine a = emptyLine b) : a = b := by
  have h1 := congrArg String.toList h
  simp only [emptyLine, String.toList_append] at h1
  exact String.toList_inj.mp (List.append_cancel_left (List.append_cancel_right h1))

theorem empty_not_flag (name : String) (w : Nat) : emptyLine name ∉ flagLines w := by
  intro h
  have key : ∀ s ∈ flagLines w, s.toList.head? ≠ some 'F' := by
    intro s hs
    simp only [flagLines, List.mem_append, List.mem_map, List.mem_filter] at hs
    rcases hs with ((⟨f, ⟨hf, _⟩, rfl⟩ | hs) | hs) | hs
    · rw [head_append _ _ 'f' (head_append _ _ 'f' (by decide))]
      decide
    · split at hs
      · rw [List.mem_singleton.mp hs]; decide
      · cases hs
    · split at hs
      · rw [List.mem_singleton.mp hs]; decide
      · cases hs
    · split at hs
      · rw [List.mem_singleton.mp hs]; decide
      · cases hs
  exact key _ h (head_empty name)

theorem empty_mem_field (a b : String) (len n : Nat) : emptyLine a ∈ fieldLines b len n ↔ a = b ∧ len = 0 := by
  unfold fieldLines
  split
  · rename_i h
    rw [List.mem_singleton]
    exact ⟨fun he => ⟨emptyLine_inj he, h⟩, fun he => by rw [he.1]⟩
  · rename_i h
    split
    · simp [h]
    · rw [List.mem_singleton]
      constructor
      · intro he
        have h1 := head_unused b n
        rw [← he, head_empty] at h1
        exact absurd h1 (by decide)
      · intro he; exact absurd he.2 h

end Log

end Ntlm
