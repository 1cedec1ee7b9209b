import Verif.Model.Writer
import Verif.Lemmas.Basic
import Verif.Spec.Writer
/-
  Programs over an unknown writer: what they do on a `Vec`, and what they do with any answers.
-/
namespace Ntlm

namespace Writer

theorem prog_bind_eq {α β : Type} (x : Prog α) (f : α → Prog β) : (x >>= f) = x.bind f := rfl
theorem prog_pure_eq {α : Type} (a : α) : (pure a : Prog α) = .done a := rfl

theorem toVec_bind {α β : Type} (x : Prog α) (f : α → Prog β) :
    toVec (x >>= f) = (toVec x >>= fun a => toVec (f a) : W β) := by
  rw [prog_bind_eq]
  induction x with
  | done a => rfl
  | panic p => rfl
  | writeAll bs k ih =>
    funext w
    simp only [Prog.bind, toVec, ih]
    rfl
  | write bs k ih =>
    funext w
    simp only [Prog.bind, toVec, ih]
    rfl

@[simp] theorem toVec_pure {α : Type} (a : α) : toVec (pure a : Prog α) = pure a := rfl
@[simp] theorem toVec_panic {α : Type} (p : Panic) : toVec (.panic p : Prog α) = W.panic p := rfl
@[simp] theorem toVec_writeAll (bs : List UInt8) : toVec (writeAll bs) = Ntlm.writeAll bs := rfl
@[simp] theorem toVec_writeLen (bs : List UInt8) : toVec (writeLen bs) = Ntlm.writeLen bs := rfl
@[simp] theorem toVec_write (bs : List UInt8) : toVec (write bs) = Ntlm.writeLen bs := rfl
@[simp] theorem toVec_writeU8 (n : UInt8) : toVec (writeU8 n) = Ntlm.writeU8 n := rfl
@[simp] theorem toVec_writeU16 (n : UInt16) : toVec (writeU16 n) = Ntlm.writeU16 n := rfl
@[simp] theorem toVec_writeU32 (n : UInt32) : toVec (writeU32 n) = Ntlm.writeU32 n := rfl
@[simp] theorem toVec_writeU64 (n : UInt64) : toVec (writeU64 n) = Ntlm.writeU64 n := rfl

/-- On a `Vec` the program is the encoder of `Model/Basic.lean` ff. -/
class OnVec (α : Type) [Wire α] [Encode α] : Prop where
  onVec : ∀ (cfg : Cfg) (x : α), toVec (encode cfg x) = Wire.serializeInto cfg x

export OnVec (onVec)

instance {n : Nat} : OnVec (Bytes n) := ⟨fun _ _ => rfl⟩
instance : OnVec Version := ⟨fun _ _ => rfl⟩
instance : OnVec FileTime := ⟨fun _ _ => rfl⟩
instance : OnVec SingleHostData := ⟨fun _ _ => rfl⟩
instance : OnVec MessageSignature := ⟨fun _ _ => rfl⟩
instance : OnVec Flags := ⟨fun _ _ => rfl⟩
instance : OnVec OEMString := ⟨fun _ _ => rfl⟩

theorem toVec_writeUnits (us : List UInt16) (n : Nat) : toVec (writeUnits us n) = Ntlm.writeUnits us n := by
  induction us generalizing n with
  | nil => rfl
  | cons u us ih =>
    simp only [writeUnits, Ntlm.writeUnits, toVec_bind, toVec_writeU16, ih]

instance : OnVec UnicodeString := ⟨fun _ _ => toVec_writeUnits _ 0⟩
instance : OnVec AvId := ⟨fun _ _ => rfl⟩
instance : OnVec MsvAvFlags := ⟨fun _ _ => rfl⟩

theorem toVec_encodeString (s : Str) : toVec (encodeString s) = Ntlm.encodeString s := by
  simp only [encodeString, Ntlm.encodeString]
  split
  · rfl
  · rfl

theorem toVec_encodeBody (cfg : Cfg) (x : AvPair) : toVec (encodeBody cfg x) = x.serializeBody cfg := by
  cases x <;> first | rfl | exact toVec_encodeString _

instance : OnVec AvPair := ⟨fun cfg x => by
  show toVec (encode cfg x.getId >>= fun a => encodeBody cfg x >>= fun b => pure (a + b)) = _
  simp only [toVec_bind, toVec_encodeBody, onVec, toVec_pure]
  rfl⟩

theorem toVec_vecLoop {α : Type} [Wire α] [Encode α] [OnVec α] (cfg : Cfg) (l : List α) (n : Nat) :
    toVec (encodeVecLoop cfg l n) = serializeVecLoop cfg l n := by
  induction l generalizing n with
  | nil => rfl
  | cons x l ih => simp only [encodeVecLoop, serializeVecLoop, toVec_bind, onVec, ih]

instance {α : Type} [Wire α] [Encode α] [OnVec α] : OnVec (List α) := ⟨fun cfg l => toVec_vecLoop cfg l 0⟩

instance : OnVec Lmv1Challenge := ⟨fun _ _ => rfl⟩
instance : OnVec Lmv2Challenge := ⟨fun _ _ => rfl⟩
instance : OnVec LmChallenge := ⟨fun _ x => by cases x <;> rfl⟩
instance : OnVec Ntv1Challenge := ⟨fun _ _ => rfl⟩

instance : OnVec Ntv2Challenge := ⟨fun cfg x => by
  show toVec (writeU8 1 >>= fun a => writeU8 1 >>= fun b => writeU16 0 >>= fun c => writeU32 0 >>= fun d =>
    encode cfg x.timestamp >>= fun e => encode cfg x.challengeFromClient >>= fun f => writeU32 0 >>= fun g =>
    if cfg.debug && a + b + c + d + e + f + g != 28 then .panic .debugAssert
    else encode cfg x.targetInfos >>= fun h => pure (a + b + c + d + e + f + g + h)) = _
  simp only [toVec_bind, onVec, toVec_writeU8, toVec_writeU16, toVec_writeU32]
  refine congrArg _ (funext fun a => congrArg _ (funext fun b => congrArg _ (funext fun c => congrArg _ (funext fun d =>
    congrArg _ (funext fun e => congrArg _ (funext fun f => congrArg _ (funext fun g => ?_)))))))
  by_cases h : (cfg.debug && a + b + c + d + e + f + g != 28) = true
  · simp only [h, if_true, toVec_panic]
  · simp only [h, if_false, toVec_bind, onVec, toVec_pure, Bool.false_eq_true]⟩

instance : OnVec NtChallenge := ⟨fun cfg x => by
  cases x with
  | v1 c => exact onVec cfg c
  | v2 c => exact onVec cfg c⟩

instance : OnVec Field := ⟨fun _ _ => rfl⟩

theorem toVec_append {α : Type} [Wire α] (cfg : Cfg) (v : Option α) (data : List UInt8) :
    toVec (append cfg v data) = Field.append cfg v data := by
  cases v with
  | none => rfl
  | some v =>
    simp only [append, Field.append]
    cases Field.place cfg v data with
    | ok r => rfl
    | error e => rfl

theorem toVec_appendMany {α : Type} [Wire α] (cfg : Cfg) (v : List α) (data : List UInt8) :
    toVec (appendMany cfg v data) = Field.appendMany cfg v data := by
  cases v with
  | nil => rfl
  | cons v vs =>
    simp only [appendMany, Field.appendMany]
    cases Field.place cfg (v :: vs) data with
    | ok r => rfl
    | error e => rfl

theorem toVec_pushVersion (cfg : Cfg) (v : Option Version) (data : List UInt8) :
    toVec (pushVersion cfg v data) = W.ofExcept (Ntlm.pushVersion cfg v data) := by
  simp only [pushVersion]
  cases Ntlm.pushVersion cfg v data with
  | ok r => rfl
  | error e => rfl

instance : OnVec Negotiate := ⟨fun cfg m => by
  simp only [Encode.encode, Wire.serializeInto, Negotiate.serializeInto, toVec_bind, toVec_pushVersion, toVec_append,
    toVec_writeAll, toVec_writeU32]
  congr; funext p; congr; funext _; congr; funext a; congr; funext b; congr; funext c; congr; funext d
  split
  · rfl
  · rfl⟩

instance : OnVec Challenge := ⟨fun cfg m => by
  simp only [Encode.encode, Wire.serializeInto, Challenge.serializeInto, toVec_bind, toVec_pushVersion, toVec_append,
    toVec_appendMany, toVec_writeAll, toVec_writeU32, toVec_writeU64]
  congr; funext p; congr; funext _; congr; funext a; congr; funext b; congr; funext c; congr; funext d
  congr; funext e; congr; funext f
  split
  · rfl
  · rfl⟩

instance : OnVec Authenticate := ⟨fun cfg m => by
  simp only [Encode.encode, Wire.serializeInto, Authenticate.serializeInto, toVec_bind, toVec_pushVersion, toVec_append,
    toVec_writeAll, toVec_writeU32]
  congr; funext p; congr; funext _; congr; funext a; congr; funext b; congr; funext c; congr; funext d
  congr; funext e; congr; funext f; congr; funext g; congr; funext h
  split
  · rfl
  · rfl⟩

/-! ### All answers -/

/-- What a program has to say: the bytes, and how it ends. -/
def flat {α : Type} : Prog α → List UInt8 × Except Panic α
  | .done a => ([], .ok a)
  | .panic p => ([], .error p)
  | .writeAll bs k => (bs ++ (flat k).1, (flat k).2)
  | .write bs k => (bs ++ (flat (k bs.length)).1, (flat (k bs.length)).2)

theorem toVec_flat {α : Type} (p : Prog α) (w : List UInt8) :
    toVec p w = match (flat p).2 with
      | .ok a => .ok (a, w ++ (flat p).1)
      | .error e => .error e := by
  induction p generalizing w with
  | done a => simp [toVec, flat, W.pure_apply]
  | panic p => rfl
  | writeAll bs k ih => simp only [toVec, flat, ih, List.append_assoc]
  | write bs k ih => simp only [toVec, flat, ih, List.append_assoc]

theorem flat_bind {α β : Type} (x : Prog α) (f : α → Prog β) :
    flat (x >>= f) = match (flat x).2 with
      | .ok a => ((flat x).1 ++ (flat (f a)).1, (flat (f a)).2)
      | .error e => ((flat x).1, .error e) := by
  rw [prog_bind_eq]
  induction x with
  | done a => simp [Prog.bind, flat]
  | panic p => rfl
  | writeAll bs k ih =>
    simp only [Prog.bind, flat, ih]
    cases (flat k).2 <;> simp
  | write bs k ih =>
    simp only [Prog.bind, flat, ih]
    cases (flat (k bs.length)).2 <;> simp

/-- No call of `write`, only of `write_all`. -/
def Careful {α : Type} : Prog α → Prop
  | .done _ => True
  | .panic _ => True
  | .writeAll _ k => Careful k
  | .write _ _ => False

theorem careful_bind {α β : Type} {x : Prog α} {f : α → Prog β} (hx : Careful x) (hf : ∀ a, Careful (f a)) :
    Careful (x >>= f) := by
  rw [prog_bind_eq]
  induction x with
  | done a => exact hf a
  | panic p => trivial
  | writeAll bs k ih => exact ih hx
  | write bs k ih => exact hx.elim

/-- Every buffer given to `write` is shorter than 64 KiB. -/
def SmallWrites {α : Type} : Prog α → Prop
  | .done _ => True
  | .panic _ => True
  | .writeAll _ k => SmallWrites k
  | .write bs k => bs.length < 65536 ∧ SmallWrites (k bs.length)

theorem small_bind {α β : Type} {x : Prog α} {f : α → Prog β} (hx : SmallWrites x) (hf : ∀ a, SmallWrites (f a)) :
    SmallWrites (x >>= f) := by
  rw [prog_bind_eq]
  induction x with
  | done a => exact hf a
  | panic p => trivial
  | writeAll bs k ih => exact ih hx
  | write bs k ih => exact ⟨hx.1, ih _ hx.2⟩

theorem small_of_careful {α : Type} {x : Prog α} (h : Careful x) : SmallWrites x := by
  induction x with
  | done a => trivial
  | panic p => trivial
  | writeAll bs k ih => exact ih h
  | write bs k ih => exact h.elim

open Spec in
theorem loop_spec (bs : List UInt8) (as : List Answer) (got : List UInt8) :
    ∃ pre, (writeAllLoop bs as got).2.2 = got ++ pre ∧
      (∀ a ∈ (writeAllLoop bs as got).2.1, a ∈ as) ∧
      match (writeAllLoop bs as got).1 with
      | .ok _ => pre = bs ∧ useful as ≤ useful (writeAllLoop bs as got).2.1 + bs.length
      | .ioError => (∃ a ∈ as, stops a) ∧ ∃ m, m ≠ [] ∧ pre ++ m = bs
      | .waiting => useful as < bs.length ∧ ∃ m, m ≠ [] ∧ pre ++ m = bs
      | .panic _ => False := by
  induction as generalizing bs got with
  | nil =>
    cases bs with
    | nil => exact ⟨[], by simp [writeAllLoop, useful]⟩
    | cons b bs => exact ⟨[], by simp [writeAllLoop, useful]⟩
  | cons a as ih =>
    cases bs with
    | nil => exact ⟨[], by simp [writeAllLoop]⟩
    | cons b bs =>
      cases a with
      | interrupted =>
        obtain ⟨pre, h1, h2, h3⟩ := ih (b :: bs) got
        refine ⟨pre, h1, fun a ha => List.mem_cons_of_mem _ (h2 a ha), ?_⟩
        have hu : useful (.interrupted :: as) = useful as := by simp [useful]
        simp only [writeAllLoop, hu]
        revert h3
        cases (writeAllLoop (b :: bs) as got).1 with
        | ioError => exact fun ⟨⟨a, ha, hs⟩, h⟩ => ⟨⟨a, List.mem_cons_of_mem _ ha, hs⟩, h⟩
        | _ => exact id
      | fails =>
        refine ⟨[], by simp [writeAllLoop], fun a ha => ?_, ?_⟩
        · exact List.mem_cons_of_mem _ ha
        · exact ⟨⟨.fails, by simp, trivial⟩, b :: bs, by simp, rfl⟩
      | takes n =>
        cases n with
        | zero =>
          refine ⟨[], by simp [writeAllLoop], fun a ha => ?_, ?_⟩
          · exact List.mem_cons_of_mem _ ha
          · exact ⟨⟨.takes 0, by simp, rfl⟩, b :: bs, by simp, rfl⟩
        | succ n =>
          obtain ⟨pre, h1, h2, h3⟩ := ih ((b :: bs).drop (n + 1)) (got ++ (b :: bs).take (n + 1))
          refine ⟨(b :: bs).take (n + 1) ++ pre, by rw [writeAllLoop, h1, List.append_assoc],
            fun a ha => List.mem_cons_of_mem _ (h2 a ha), ?_⟩
          have hu : useful (.takes (n + 1) :: as) = useful as + 1 := by simp [useful]
          have hl : ((b :: bs).drop (n + 1)).length + 1 ≤ (b :: bs).length := by simp
          simp only [writeAllLoop, hu]
          revert h3
          generalize (writeAllLoop ((b :: bs).drop (n + 1)) as (got ++ (b :: bs).take (n + 1))) = r
          cases r.1 with
          | ok u =>
            intro ⟨h, hle⟩
            refine ⟨by rw [h, List.take_append_drop], by omega⟩
          | ioError =>
            intro ⟨⟨a, ha, hs⟩, m, hm, hp⟩
            exact ⟨⟨a, List.mem_cons_of_mem _ ha, hs⟩, m, hm, by rw [List.append_assoc, hp, List.take_append_drop]⟩
          | waiting =>
            intro ⟨hle, m, hm, hp⟩
            exact ⟨by omega, m, hm, by rw [List.append_assoc, hp, List.take_append_drop]⟩
          | panic p => exact id

open Spec in
theorem run_careful {α : Type} (p : Prog α) (hp : Careful p) (as : List Answer) (got : List UInt8) :
    ∃ pre, (run p as got).2 = got ++ pre ∧
      match (run p as got).1 with
      | .ok a => flat p = (pre, .ok a)
      | .panic e => flat p = (pre, .error e)
      | .ioError => (∃ a ∈ as, stops a) ∧ ∃ m, m ≠ [] ∧ pre ++ m = (flat p).1
      | .waiting => useful as < (flat p).1.length ∧ ∃ m, m ≠ [] ∧ pre ++ m = (flat p).1 := by
  induction p generalizing as got with
  | done a => exact ⟨[], by simp [run, flat]⟩
  | panic p => exact ⟨[], by simp [run, flat]⟩
  | write bs k ih => exact hp.elim
  | writeAll bs k ih =>
    obtain ⟨pre, h1, h2, h3⟩ := loop_spec bs as got
    have hk := ih hp
    simp only [run]
    revert h1 h2 h3
    rcases writeAllLoop bs as got with ⟨o, as', got'⟩
    cases o with
    | ok u =>
      intro h1 h2 ⟨h3, h4⟩
      simp only at h1 h2 h3 h4 ⊢
      subst h3
      obtain ⟨pre', k1, k2⟩ := hk as' got'
      refine ⟨pre ++ pre', by rw [k1, h1, List.append_assoc], ?_⟩
      revert k2
      simp only [flat]
      cases (run k as' got').1 with
      | ok a => intro k2; simp [k2]
      | panic e => intro k2; simp [k2]
      | ioError =>
        intro ⟨⟨a, ha, hs⟩, m, hm, hp⟩
        exact ⟨⟨a, h2 a ha, hs⟩, m, hm, by rw [List.append_assoc, hp]⟩
      | waiting =>
        intro ⟨hl, m, hm, hp⟩
        exact ⟨by simp only [List.length_append]; omega, m, hm, by rw [List.append_assoc, hp]⟩
    | ioError =>
      intro h1 h2 ⟨h3, m, hm, hp⟩
      simp only at h1 h2 h3 ⊢
      exact ⟨pre, h1, h3, m ++ (flat k).1, by simp [hm], by rw [← List.append_assoc, hp]; rfl⟩
    | waiting =>
      intro h1 h2 ⟨h3, m, hm, hp⟩
      simp only at h1 h2 h3 ⊢
      exact ⟨pre, h1, by simp only [flat, List.length_append]; omega,
        m ++ (flat k).1, by simp [hm], by rw [← List.append_assoc, hp]; rfl⟩
    | panic e => intro _ _ h; exact h.elim

theorem run_small {α : Type} (p : Prog α) (hp : SmallWrites p) (as : List Answer)
    (hfull : ∀ n, .takes n ∈ as → 65536 ≤ n) (got : List UInt8) :
    ∃ pre, (run p as got).2 = got ++ pre ∧
      match (run p as got).1 with
      | .ok a => flat p = (pre, .ok a)
      | .panic e => flat p = (pre, .error e)
      | .ioError => pre <+: (flat p).1
      | .waiting => pre <+: (flat p).1 := by
  induction p generalizing as got with
  | done a => exact ⟨[], by simp [run, flat]⟩
  | panic p => exact ⟨[], by simp [run, flat]⟩
  | write bs k ih =>
    cases as with
    | nil => exact ⟨[], by simp [run]⟩
    | cons a as =>
      cases a with
      | interrupted => exact ⟨[], by simp [run]⟩
      | fails => exact ⟨[], by simp [run]⟩
      | takes n =>
        have hn := hfull n (by simp)
        have hb := hp.1
        have e1 : min n bs.length = bs.length := by omega
        have e2 : bs.take n = bs := List.take_of_length_le (by omega)
        obtain ⟨pre, k1, k2⟩ := ih bs.length hp.2 as (fun n hn => hfull n (by simp [hn])) (got ++ bs)
        simp only [run, e1, e2, flat]
        refine ⟨bs ++ pre, by rw [k1, List.append_assoc], ?_⟩
        revert k2
        cases (run (k bs.length) as (got ++ bs)).1 with
        | ok a => intro k2; simp [k2]
        | panic e => intro k2; simp [k2]
        | ioError => exact fun ⟨t, ht⟩ => ⟨t, by rw [List.append_assoc, ht]⟩
        | waiting => exact fun ⟨t, ht⟩ => ⟨t, by rw [List.append_assoc, ht]⟩
  | writeAll bs k ih =>
    obtain ⟨pre, h1, h2, h3⟩ := loop_spec bs as got
    have hk := ih hp
    simp only [run]
    revert h1 h2 h3
    rcases writeAllLoop bs as got with ⟨o, as', got'⟩
    cases o with
    | ok u =>
      intro h1 h2 ⟨h3, h4⟩
      simp only at h1 h2 h3 h4 ⊢
      subst h3
      obtain ⟨pre', k1, k2⟩ := hk as' (fun n hn => hfull n (h2 _ hn)) got'
      refine ⟨pre ++ pre', by rw [k1, h1, List.append_assoc], ?_⟩
      revert k2
      simp only [flat]
      cases (run k as' got').1 with
      | ok a => intro k2; simp [k2]
      | panic e => intro k2; simp [k2]
      | ioError => exact fun ⟨t, ht⟩ => ⟨t, by rw [List.append_assoc, ht]⟩
      | waiting => exact fun ⟨t, ht⟩ => ⟨t, by rw [List.append_assoc, ht]⟩
    | ioError =>
      intro h1 h2 ⟨h3, m, hm, hp⟩
      simp only at h1 h2 h3 ⊢
      exact ⟨pre, h1, m ++ (flat k).1, by rw [← List.append_assoc, hp]; rfl⟩
    | waiting =>
      intro h1 h2 ⟨h3, m, hm, hp⟩
      simp only at h1 h2 h3 ⊢
      exact ⟨pre, h1, m ++ (flat k).1, by rw [← List.append_assoc, hp]; rfl⟩
    | panic e => intro _ _ h; exact h.elim

/-! ### Which encoders call `write` -/

theorem careful_pure {α : Type} (a : α) : Careful (pure a : Prog α) := trivial
theorem careful_panic {α : Type} (p : Panic) : Careful (.panic p : Prog α) := trivial
theorem careful_writeAll (bs : List UInt8) : Careful (writeAll bs) := trivial
theorem careful_writeLen (bs : List UInt8) : Careful (writeLen bs) := trivial
theorem careful_writeU8 (n : UInt8) : Careful (writeU8 n) := trivial
theorem careful_writeU16 (n : UInt16) : Careful (writeU16 n) := trivial
theorem careful_writeU32 (n : UInt32) : Careful (writeU32 n) := trivial
theorem careful_writeU64 (n : UInt64) : Careful (writeU64 n) := trivial
theorem careful_bytes (cfg : Cfg) {n : Nat} (b : Bytes n) : Careful (encode cfg b) := trivial
theorem careful_field (cfg : Cfg) (f : Field) : Careful (encode cfg f) := trivial
theorem careful_flags (cfg : Cfg) (f : Flags) : Careful (encode cfg f) := trivial

theorem careful_append {α : Type} [Wire α] (cfg : Cfg) (v : Option α) (data : List UInt8) :
    Careful (append cfg v data) := by
  cases v with
  | none => trivial
  | some v =>
    simp only [append]
    cases Field.place cfg v data with
    | ok r => trivial
    | error e => trivial

theorem careful_appendMany {α : Type} [Wire α] (cfg : Cfg) (v : List α) (data : List UInt8) :
    Careful (appendMany cfg v data) := by
  cases v with
  | nil => trivial
  | cons v vs =>
    simp only [appendMany]
    cases Field.place cfg (v :: vs) data with
    | ok r => trivial
    | error e => trivial

theorem careful_pushVersion (cfg : Cfg) (v : Option Version) (data : List UInt8) :
    Careful (pushVersion cfg v data) := by
  simp only [pushVersion]
  cases Ntlm.pushVersion cfg v data with
  | ok r => trivial
  | error e => trivial

theorem careful_end (c : Prop) [Decidable c] (p : Panic) (bs : List UInt8) (n : Nat) :
    Careful (if c then .panic p else (do writeAll bs; return n) : Prog Nat) := by
  split <;> trivial

theorem careful_negotiate (cfg : Cfg) (m : Negotiate) : Careful (encode cfg m) := by
  refine careful_bind (careful_pushVersion ..) fun p => careful_bind trivial fun _ => careful_bind trivial fun _ =>
    careful_bind trivial fun _ => careful_bind (careful_append ..) fun _ => careful_bind (careful_append ..) fun _ =>
    careful_end ..

theorem careful_challenge (cfg : Cfg) (m : Challenge) : Careful (encode cfg m) := by
  refine careful_bind (careful_pushVersion ..) fun p => careful_bind trivial fun _ => careful_bind trivial fun _ =>
    careful_bind (careful_append ..) fun _ => careful_bind trivial fun _ => careful_bind trivial fun _ =>
    careful_bind trivial fun _ => careful_bind (careful_appendMany ..) fun _ => careful_end ..

theorem careful_authenticate (cfg : Cfg) (m : Authenticate) : Careful (encode cfg m) := by
  refine careful_bind (careful_pushVersion ..) fun p => careful_bind trivial fun _ => careful_bind trivial fun _ =>
    careful_bind (careful_append ..) fun _ => careful_bind (careful_append ..) fun _ =>
    careful_bind (careful_append ..) fun _ => careful_bind (careful_append ..) fun _ =>
    careful_bind (careful_append ..) fun _ => careful_bind (careful_append ..) fun _ =>
    careful_bind trivial fun _ => careful_end ..

theorem small_encodeString (s : Str) : SmallWrites (encodeString s) := by
  simp only [encodeString]
  split
  · rename_i h
    exact ⟨h, trivial⟩
  · trivial

theorem small_avPair (cfg : Cfg) (x : AvPair) : SmallWrites (encode cfg x) := by
  refine small_bind (small_of_careful (careful_writeU16 _)) fun _ => small_bind ?_ fun _ => trivial
  cases x <;> first | exact small_encodeString _ | trivial

theorem small_vecLoop {α : Type} [Encode α] (cfg : Cfg) (h : ∀ x : α, SmallWrites (encode cfg x)) (l : List α) (n : Nat) :
    SmallWrites (encodeVecLoop cfg l n) := by
  induction l generalizing n with
  | nil => trivial
  | cons x l ih => exact small_bind (h x) fun _ => ih _

/-! ### How far a panicking encoder gets -/

/-- A panic comes after at most `k` bytes. -/
def PanicBy {α : Type} (k : Nat) (p : Prog α) : Prop := ∀ e, (flat p).2 = .error e → (flat p).1.length ≤ k

/-- Success comes after exactly `n` bytes. -/
def Says {α : Type} (n : Nat) (p : Prog α) : Prop := ∀ a, (flat p).2 = .ok a → (flat p).1.length = n

theorem panicBy_bind {α β : Type} {x : Prog α} {f : α → Prog β} {n k : Nat} (hx : PanicBy 0 x) (hs : Says n x)
    (hf : ∀ a, PanicBy k (f a)) : PanicBy (n + k) (x >>= f) := by
  intro e he
  rw [flat_bind] at he ⊢
  cases h : (flat x).2 with
  | error e' =>
    have := hx e' h
    simp only
    omega
  | ok a =>
    have h1 := hs a h
    rw [h] at he
    have h2 := hf a e he
    simp only [List.length_append]
    omega

theorem panicBy_mono {α : Type} {p : Prog α} {k l : Nat} (h : PanicBy k p) (hl : k ≤ l) : PanicBy l p :=
  fun e he => Nat.le_trans (h e he) hl

theorem says_writeLen (bs : List UInt8) : Says bs.length (writeLen bs) := by
  intro a _; simp [writeLen, writeAll, prog_bind_eq, Prog.bind, flat, prog_pure_eq]

theorem panicBy_writeLen (bs : List UInt8) : PanicBy 0 (writeLen bs) := by
  intro e he; simp [writeLen, writeAll, prog_bind_eq, Prog.bind, flat, prog_pure_eq] at he

theorem says_field (cfg : Cfg) (f : Field) : Says 8 (encode cfg f) := by
  intro a _
  simp [encode, writeU16, writeU32, writeLen, writeAll, prog_bind_eq, Prog.bind, flat, prog_pure_eq]

theorem append_eq {α : Type} [Wire α] (cfg : Cfg) (v : Option α) (data : List UInt8) :
    PanicBy 0 (append cfg v data) ∧ Says 8 (append cfg v data) := by
  have hf : ∀ (f : Field) (d : List UInt8),
      PanicBy 0 (encode cfg f >>= fun n => pure (n, d) : Prog (Nat × List UInt8)) ∧
      Says 8 (encode cfg f >>= fun n => pure (n, d) : Prog (Nat × List UInt8)) := by
    intro f d
    constructor
    · intro e he
      simp [encode, writeU16, writeU32, writeLen, writeAll, prog_bind_eq, Prog.bind, flat, prog_pure_eq] at he
    · intro a _
      simp [encode, writeU16, writeU32, writeLen, writeAll, prog_bind_eq, Prog.bind, flat, prog_pure_eq]
  cases v with
  | none => exact hf _ _
  | some v =>
    simp only [append]
    cases Field.place cfg v data with
    | ok r => exact hf _ _
    | error e => exact ⟨fun _ _ => by simp [flat], fun a ha => by simp [flat] at ha⟩

theorem appendMany_eq {α : Type} [Wire α] (cfg : Cfg) (v : List α) (data : List UInt8) :
    PanicBy 0 (appendMany cfg v data) ∧ Says 8 (appendMany cfg v data) := by
  cases v with
  | nil => exact append_eq (α := α) cfg none data
  | cons v vs => exact append_eq cfg (some (v :: vs)) data

theorem pushVersion_eq (cfg : Cfg) (v : Option Version) (data : List UInt8) :
    PanicBy 0 (pushVersion cfg v data) ∧ Says 0 (pushVersion cfg v data) := by
  simp only [pushVersion]
  cases Ntlm.pushVersion cfg v data with
  | ok r => exact ⟨fun _ he => by simp [flat] at he, fun a ha => by simp [flat]⟩
  | error e => exact ⟨fun _ _ => by simp [flat], fun a ha => by simp [flat] at ha⟩

theorem panicBy_end (c : Prop) [Decidable c] (p : Panic) (bs : List UInt8) (n : Nat) :
    PanicBy 0 (if c then .panic p else (do writeAll bs; return n) : Prog Nat) := by
  split
  · intro e _; simp [flat]
  · intro e he; simp [writeAll, prog_bind_eq, Prog.bind, flat, prog_pure_eq] at he

theorem panicBy_u32 (n : UInt32) : PanicBy 0 (writeU32 n) ∧ Says 4 (writeU32 n) :=
  ⟨panicBy_writeLen _, by have h := says_writeLen (leBytes 4 n.toNat); rw [length_leBytes] at h; exact h⟩
theorem panicBy_u64 (n : UInt64) : PanicBy 0 (writeU64 n) ∧ Says 8 (writeU64 n) :=
  ⟨panicBy_writeLen _, by have h := says_writeLen (leBytes 8 n.toNat); rw [length_leBytes] at h; exact h⟩
theorem panicBy_sig : PanicBy 0 (writeAll signature) ∧ Says 8 (writeAll signature) :=
  ⟨fun e he => by simp [writeAll, flat] at he, fun a _ => by simp [writeAll, flat, signature]⟩
theorem panicBy_bytes (cfg : Cfg) {n : Nat} (b : Bytes n) : PanicBy 0 (encode cfg b) ∧ Says n (encode cfg b) :=
  ⟨fun e he => by simp [encode, writeAll, prog_bind_eq, Prog.bind, flat, prog_pure_eq] at he,
   fun a _ => by simp [encode, writeAll, prog_bind_eq, Prog.bind, flat, prog_pure_eq, b.property]⟩

theorem panicBy_step {α β : Type} {x : Prog α} {f : α → Prog β} {n k : Nat} (hx : PanicBy 0 x ∧ Says n x)
    (hf : ∀ a, PanicBy k (f a)) : PanicBy (n + k) (x >>= f) := panicBy_bind hx.1 hx.2 hf

theorem panicBy_negotiate (cfg : Cfg) (m : Negotiate) : PanicBy 32 (encode cfg m) :=
  panicBy_step (pushVersion_eq ..) fun _ => panicBy_step panicBy_sig fun _ => panicBy_step (panicBy_u32 _) fun _ =>
    panicBy_step (panicBy_u32 _) fun _ => panicBy_step (append_eq ..) fun _ => panicBy_step (append_eq ..) fun _ =>
    panicBy_end _ _ _ _

theorem panicBy_challenge (cfg : Cfg) (m : Challenge) : PanicBy 48 (encode cfg m) :=
  panicBy_step (pushVersion_eq ..) fun _ => panicBy_step panicBy_sig fun _ => panicBy_step (panicBy_u32 _) fun _ =>
    panicBy_step (append_eq ..) fun _ => panicBy_step (panicBy_u32 _) fun _ => panicBy_step (panicBy_bytes ..) fun _ =>
    panicBy_step (panicBy_u64 _) fun _ => panicBy_step (appendMany_eq ..) fun _ => panicBy_end _ _ _ _

theorem panicBy_authenticate (cfg : Cfg) (m : Authenticate) : PanicBy 64 (encode cfg m) :=
  panicBy_step (pushVersion_eq ..) fun _ => panicBy_step panicBy_sig fun _ => panicBy_step (panicBy_u32 _) fun _ =>
    panicBy_step (append_eq ..) fun _ => panicBy_step (append_eq ..) fun _ => panicBy_step (append_eq ..) fun _ =>
    panicBy_step (append_eq ..) fun _ => panicBy_step (append_eq ..) fun _ => panicBy_step (append_eq ..) fun _ =>
    panicBy_step (panicBy_u32 _) fun _ => panicBy_end _ _ _ _

end Writer

end Ntlm
