import Verif.Lemmas.Writer
import Verif.Spec.AnyWriter
import Verif.Lemmas.Encode
/-
  The pieces an encoder gives to `write_all`.
-/
namespace Ntlm

namespace Writer

/-- The buffers a program gives to the writer, if every call takes all, and how it ends. -/
def pieces {α : Type} : Prog α → List (List UInt8) × Except Panic α
  | .done a => ([], .ok a)
  | .panic p => ([], .error p)
  | .writeAll bs k => (bs :: (pieces k).1, (pieces k).2)
  | .write bs k => (bs :: (pieces (k bs.length)).1, (pieces (k bs.length)).2)

theorem flat_pieces {α : Type} (p : Prog α) : flat p = ((pieces p).1.flatten, (pieces p).2) := by
  induction p with
  | done a => rfl
  | panic p => rfl
  | writeAll bs k ih => simp only [flat, pieces, ih, List.flatten_cons]
  | write bs k ih => simp only [flat, pieces, ih, List.flatten_cons]

theorem pieces_bind {α β : Type} (x : Prog α) (f : α → Prog β) :
    pieces (x >>= f) = match (pieces x).2 with
      | .ok a => ((pieces x).1 ++ (pieces (f a)).1, (pieces (f a)).2)
      | .error e => ((pieces x).1, .error e) := by
  rw [prog_bind_eq]
  induction x with
  | done a => simp [Prog.bind, pieces]
  | panic p => rfl
  | writeAll bs k ih =>
    simp only [Prog.bind, pieces, ih]
    cases (pieces k).2 <;> simp
  | write bs k ih =>
    simp only [Prog.bind, pieces, ih]
    cases (pieces (k bs.length)).2 <;> simp

open Spec in
/-- A program that only calls `write_all` offers its pieces. -/
theorem drive_careful {σ ε : Type} (w : Object σ ε) (p : Prog Nat) (hp : Careful p) (s : σ) :
    drive w p s = offer w (match (pieces p).2 with
      | .ok n => .ok n
      | .error e => .panic e) (pieces p).1 s := by
  induction p generalizing s with
  | done a => rfl
  | panic p => rfl
  | writeAll bs k ih =>
    simp only [drive, pieces, offer]
    rcases w.writeAll s bs with ⟨_ | _ | _ | _, s'⟩
    · exact ih hp s'
    · rfl
    · rfl
    · rfl
  | write bs k ih => exact hp.elim

/-! ### Sizes -/

/-- On success the pieces have these sizes. -/
def Sizes {α : Type} (ns : List Nat) (p : Prog α) : Prop := ∀ a, (pieces p).2 = .ok a → (pieces p).1.map List.length = ns

/-- On success the pieces have these sizes, and there is one more. -/
def SizesEnd {α : Type} (ns : List Nat) (p : Prog α) : Prop :=
  ∀ a, (pieces p).2 = .ok a → ∃ k, (pieces p).1.map List.length = ns ++ [k]

theorem sizes_bind {α β : Type} {x : Prog α} {f : α → Prog β} {ns ms : List Nat} (hx : Sizes ns x) (hf : ∀ a, Sizes ms (f a)) :
    Sizes (ns ++ ms) (x >>= f) := by
  intro b hb
  rw [pieces_bind] at hb ⊢
  cases h : (pieces x).2 with
  | error e => rw [h] at hb; cases hb
  | ok a =>
    rw [h] at hb
    simp only [List.map_append, hx a h, hf a b hb]

theorem sizesEnd_bind {α β : Type} {x : Prog α} {f : α → Prog β} {ns ms : List Nat} (hx : Sizes ns x)
    (hf : ∀ a, SizesEnd ms (f a)) : SizesEnd (ns ++ ms) (x >>= f) := by
  intro b hb
  rw [pieces_bind] at hb ⊢
  cases h : (pieces x).2 with
  | error e => rw [h] at hb; cases hb
  | ok a =>
    rw [h] at hb
    obtain ⟨k, hk⟩ := hf a b hb
    exact ⟨k, by simp only [List.map_append, hx a h, hk, List.append_assoc]⟩

theorem sizes_pure {α : Type} (a : α) : Sizes [] (pure a : Prog α) := fun _ _ => rfl

theorem sizes_writeLen (bs : List UInt8) : Sizes [bs.length] (writeLen bs) := fun _ _ => rfl

theorem sizes_u16 (n : UInt16) : Sizes [2] (writeU16 n) := fun _ _ => rfl
theorem sizes_u32 (n : UInt32) : Sizes [4] (writeU32 n) := fun _ _ => rfl
theorem sizes_u64 (n : UInt64) : Sizes [8] (writeU64 n) := fun _ _ => rfl
theorem sizes_sig : Sizes [8] (writeAll signature) := fun _ _ => rfl
theorem sizes_flags (cfg : Cfg) (f : Flags) : Sizes [4] (encode cfg f) := fun _ _ => rfl

theorem sizes_bytes (cfg : Cfg) {n : Nat} (b : Bytes n) : Sizes [n] (encode cfg b) := by
  intro _ _
  show [b.val.length] = [n]
  rw [b.property]

theorem sizes_field (cfg : Cfg) (f : Field) : Sizes [2, 2, 4] (encode cfg f) := fun _ _ => rfl

theorem sizes_append {α : Type} [Wire α] (cfg : Cfg) (v : Option α) (data : List UInt8) :
    Sizes Spec.descriptorSizes (append cfg v data) := by
  cases v with
  | none => exact fun _ _ => rfl
  | some v =>
    simp only [append]
    cases Field.place cfg v data with
    | ok r => exact fun _ _ => rfl
    | error e => intro a ha; cases ha

theorem sizes_appendMany {α : Type} [Wire α] (cfg : Cfg) (v : List α) (data : List UInt8) :
    Sizes Spec.descriptorSizes (appendMany cfg v data) := by
  cases v with
  | nil => exact fun _ _ => rfl
  | cons v vs =>
    simp only [appendMany]
    cases Field.place cfg (v :: vs) data with
    | ok r => exact fun _ _ => rfl
    | error e => intro a ha; cases ha

theorem sizes_pushVersion (cfg : Cfg) (v : Option Version) (data : List UInt8) : Sizes [] (pushVersion cfg v data) := by
  simp only [pushVersion]
  cases Ntlm.pushVersion cfg v data with
  | ok r => exact fun _ _ => rfl
  | error e => exact fun _ _ => rfl

theorem sizesEnd_end (c : Prop) [Decidable c] (p : Panic) (bs : List UInt8) (n : Nat) :
    SizesEnd [] (if c then .panic p else (do writeAll bs; return n) : Prog Nat) := by
  split
  · intro a ha; cases ha
  · exact fun _ _ => ⟨bs.length, rfl⟩

theorem sizesEnd_negotiate (cfg : Cfg) (m : Negotiate) : SizesEnd Spec.negotiateSizes (encode cfg m) :=
  have h : SizesEnd ([] ++ ([8] ++ ([4] ++ ([4] ++ (Spec.descriptorSizes ++ (Spec.descriptorSizes ++ [])))))) (encode cfg m) :=
    sizesEnd_bind (sizes_pushVersion _ _ _) fun _ => sizesEnd_bind sizes_sig fun _ => sizesEnd_bind (sizes_u32 _) fun _ =>
    sizesEnd_bind (sizes_flags _ _) fun _ => sizesEnd_bind (sizes_append _ _ _) fun _ => sizesEnd_bind (sizes_append _ _ _) fun _ =>
    sizesEnd_end _ _ _ _
  h

theorem sizesEnd_challenge (cfg : Cfg) (m : Challenge) : SizesEnd Spec.challengeSizes (encode cfg m) :=
  have h : SizesEnd ([] ++ ([8] ++ ([4] ++ (Spec.descriptorSizes ++ ([4] ++ ([8] ++ ([8] ++ (Spec.descriptorSizes ++ [])))))))) (encode cfg m) :=
    sizesEnd_bind (sizes_pushVersion _ _ _) fun _ => sizesEnd_bind sizes_sig fun _ => sizesEnd_bind (sizes_u32 _) fun _ =>
    sizesEnd_bind (sizes_append _ _ _) fun _ => sizesEnd_bind (sizes_flags _ _) fun _ => sizesEnd_bind (sizes_bytes _ _) fun _ =>
    sizesEnd_bind (sizes_u64 _) fun _ => sizesEnd_bind (sizes_appendMany _ _ _) fun _ => sizesEnd_end _ _ _ _
  h

theorem sizesEnd_authenticate (cfg : Cfg) (m : Authenticate) : SizesEnd Spec.authenticateSizes (encode cfg m) :=
  have h : SizesEnd ([] ++ ([8] ++ ([4] ++ (Spec.descriptorSizes ++ (Spec.descriptorSizes ++ (Spec.descriptorSizes ++ (Spec.descriptorSizes ++ (Spec.descriptorSizes ++ (Spec.descriptorSizes ++ ([4] ++ [])))))))))) (encode cfg m) :=
    sizesEnd_bind (sizes_pushVersion _ _ _) fun _ => sizesEnd_bind sizes_sig fun _ => sizesEnd_bind (sizes_u32 _) fun _ =>
    sizesEnd_bind (sizes_append _ _ _) fun _ => sizesEnd_bind (sizes_append _ _ _) fun _ => sizesEnd_bind (sizes_append _ _ _) fun _ =>
    sizesEnd_bind (sizes_append _ _ _) fun _ => sizesEnd_bind (sizes_append _ _ _) fun _ => sizesEnd_bind (sizes_append _ _ _) fun _ =>
    sizesEnd_bind (sizes_flags _ _) fun _ => sizesEnd_end _ _ _ _
  h

theorem cut_of_sizes {ns : List Nat} {k : Nat} {ps : List (List UInt8)} (h : ps.map List.length = ns ++ [k]) :
    Spec.cut ns ps.flatten = ps := by
  induction ns generalizing ps with
  | nil =>
    match ps, h with
    | [p], _ => simp [Spec.cut]
  | cons n ns ih =>
    match ps, h with
    | p :: ps, h =>
      simp only [List.map_cons, List.cons_append, List.cons.injEq] at h
      obtain ⟨h1, h2⟩ := h
      subst h1
      simp only [List.flatten_cons, Spec.cut, List.take_left', List.drop_left', ih h2]

open Spec in
theorem drive_of {α : Type} [Wire α] [Encode α] [OnVec α] (cfg : Cfg) (x : α) (b : List UInt8) (ns : List Nat)
    (hx : Enc cfg x b) (hc : Careful (encode cfg x)) (hs : SizesEnd ns (encode cfg x)) {σ ε : Type} (w : Object σ ε) (s : σ) :
    drive w (encode cfg x) s = offer w (.ok b.length) (cut ns b) s := by
  have h0 := hx []
  rw [← onVec, toVec_flat] at h0
  have hf : flat (encode cfg x) = (b, .ok b.length) := by
    revert h0
    rcases flat (encode cfg x) with ⟨c, r⟩
    cases r with
    | ok n => intro h0; simp at h0; simp [h0]
    | error e => intro h0; simp at h0
  rw [flat_pieces, Prod.mk.injEq] at hf
  obtain ⟨h1, h2⟩ := hf
  obtain ⟨k, hk⟩ := hs _ h2
  rw [drive_careful w _ hc s, h2, ← h1, cut_of_sizes hk]

open Spec in
theorem drive_refuses {α : Type} [Wire α] [Encode α] [OnVec α] (cfg : Cfg) (x : α) (k : Nat)
    (hx : ∃ p, Wire.serializeInto cfg x [] = .error p) (hc : Careful (encode cfg x)) (hk : PanicBy k (encode cfg x)) :
    ∃ ps p, ps.flatten.length ≤ k ∧ ∀ {σ ε : Type} (w : Object σ ε) (s : σ),
      drive w (encode cfg x) s = offer w (.panic p) ps s := by
  obtain ⟨p, h0⟩ := hx
  rw [← onVec, toVec_flat] at h0
  have hf : (flat (encode cfg x)).2 = .error p := by
    revert h0
    rcases flat (encode cfg x) with ⟨c, r⟩
    cases r with
    | ok n => intro h0; simp at h0
    | error e => intro h0; simp at h0; simp [h0]
  have hl := hk p hf
  rw [flat_pieces] at hf hl
  refine ⟨(pieces (encode cfg x)).1, p, hl, fun w s => ?_⟩
  simp only at hf
  rw [drive_careful w _ hc s, hf]

end Writer

end Ntlm
