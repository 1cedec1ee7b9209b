import Verif.Lemmas.EncodeMsg
/-
  Writers never look at what is already in the buffer.
-/
namespace Ntlm

/-- `x` behaves on every buffer as on the empty one. -/
def Framed {α : Type} (x : W α) : Prop :=
  ∀ w, x w = match x [] with
    | .ok (a, e) => .ok (a, w ++ e)
    | .error p => .error p

theorem Framed.pure {α : Type} (a : α) : Framed (Pure.pure a : W α) := by intro w; simp

theorem Framed.panic {α : Type} (p : Panic) : Framed (W.panic p : W α) := by intro w; simp

theorem Framed.bind {α β : Type} {x : W α} {f : α → W β} (hx : Framed x) (hf : ∀ a, Framed (f a)) :
    Framed (x >>= f) := by
  intro w
  simp only [W.bind_apply]
  rw [hx w]
  cases x [] with
  | error p => rfl
  | ok v =>
    obtain ⟨a, e⟩ := v
    simp only
    rw [hf a (w ++ e), hf a e]
    cases f a [] with
    | error p => rfl
    | ok v => simp

theorem Framed.ite {α : Type} {c : Prop} [Decidable c] {x y : W α} (hx : Framed x) (hy : Framed y) :
    Framed (if c then x else y) := by
  split <;> assumption

theorem framed_writeAll (b : List UInt8) : Framed (writeAll b) := by intro w; simp

theorem framed_ofExcept {α : Type} (x : Except Panic α) : Framed (W.ofExcept x) := by
  intro w; cases x <;> simp [W.ofExcept]

theorem framed_enc {α : Type} [Wire α] {cfg : Cfg} {x : α} {b : List UInt8} (h : Enc cfg x b) :
    Framed (Wire.serializeInto cfg x) := by
  intro w; rw [h w, h []]; simp

theorem framed_writeU32 (n : UInt32) : Framed (writeU32 n) := by intro w; simp [writeU32]
theorem framed_writeU64 (n : UInt64) : Framed (writeU64 n) := by intro w; simp [writeU64]

theorem framed_append {α : Type} [Wire α] (cfg : Cfg) (v : Option α) (data : List UInt8) :
    Framed (Field.append cfg v data) := by
  unfold Field.append
  split
  · split
    · exact Framed.bind (framed_enc (enc_field _ _)) fun _ => Framed.pure _
    · exact Framed.panic _
  · exact Framed.bind (framed_enc (enc_field _ _)) fun _ => Framed.pure _

theorem framed_appendMany {α : Type} [Wire α] (cfg : Cfg) (v : List α) (data : List UInt8) :
    Framed (Field.appendMany cfg v data) := by
  unfold Field.appendMany
  split
  · exact Framed.bind (framed_enc (enc_field _ _)) fun _ => Framed.pure _
  · split
    · exact Framed.bind (framed_enc (enc_field _ _)) fun _ => Framed.pure _
    · exact Framed.panic _

theorem framed_challenge (cfg : Cfg) (m : Challenge) : Framed (Wire.serializeInto cfg m) := by
  show Framed (Challenge.serializeInto cfg m)
  unfold Challenge.serializeInto
  refine (framed_ofExcept _).bind fun _ => (framed_writeAll _).bind fun _ => (framed_writeU32 _).bind fun _ =>
    (framed_append _ _ _).bind fun _ => (framed_enc (enc_flags _ _)).bind fun _ => (framed_enc (enc_bytes _ _)).bind fun _ =>
    (framed_writeU64 _).bind fun _ => (framed_appendMany _ _ _).bind fun _ => Framed.ite (Framed.panic _)
    ((framed_writeAll _).bind fun _ => Framed.pure _)

theorem framed_authenticate (cfg : Cfg) (m : Authenticate) : Framed (Wire.serializeInto cfg m) := by
  show Framed (Authenticate.serializeInto cfg m)
  unfold Authenticate.serializeInto
  refine (framed_ofExcept _).bind fun _ => (framed_writeAll _).bind fun _ => (framed_writeU32 _).bind fun _ =>
    (framed_append _ _ _).bind fun _ => (framed_append _ _ _).bind fun _ => (framed_append _ _ _).bind fun _ =>
    (framed_append _ _ _).bind fun _ => (framed_append _ _ _).bind fun _ => (framed_append _ _ _).bind fun _ =>
    (framed_enc (enc_flags _ _)).bind fun _ => Framed.ite (Framed.panic _)
    ((framed_writeAll _).bind fun _ => Framed.pure _)

theorem framed_error {α : Type} [Wire α] {cfg : Cfg} {x : α} (h : Framed (Wire.serializeInto cfg x)) {p : Panic}
    (hp : Wire.serializeInto cfg x [] = .error p) (w : List UInt8) : Wire.serializeInto cfg x w = .error p := by
  rw [h w, hp]

theorem serialize_of_enc {α : Type} [Wire α] {cfg : Cfg} {x : α} {b : List UInt8} (h : Enc cfg x b) :
    Wire.serialize cfg x = .ok b := by
  simp [Wire.serialize, h []]

theorem serialize_of_error {α : Type} [Wire α] {cfg : Cfg} {x : α} {p : Panic}
    (h : Wire.serializeInto cfg x [] = .error p) : Wire.serialize cfg x = .error p := by
  simp [Wire.serialize, h]

/-- Encoding is all-or-nothing: the bytes are those of the layout, and they exist exactly when everything fits. -/
theorem serialize_iff {α : Type} [Wire α] {cfg : Cfg} {x : α} {fits : Prop} {bytes : List UInt8}
    (hok : fits → Enc cfg x bytes) (herr : ¬ fits → ∃ p, Wire.serializeInto cfg x [] = .error p) (b : List UInt8) :
    Wire.serialize cfg x = .ok b ↔ fits ∧ b = bytes := by
  by_cases h : fits
  · rw [serialize_of_enc (hok h)]
    simp [h, eq_comm]
  · obtain ⟨p, hp⟩ := herr h
    rw [serialize_of_error hp]
    simp [h]

theorem serialize_negotiate (cfg : Cfg) (m : Negotiate) (b : List UInt8) :
    Wire.serialize cfg m = .ok b ↔ Spec.negotiateFits m ∧ b = Spec.negotiateBytes m :=
  serialize_iff (enc_negotiate cfg m) (fun h => ⟨_, negotiate_err cfg m h []⟩) b

theorem serialize_challenge (cfg : Cfg) (m : Challenge) (b : List UInt8) :
    Wire.serialize cfg m = .ok b ↔ Spec.challengeFits m ∧ b = Spec.challengeBytes m :=
  serialize_iff (enc_challenge cfg m) (fun h => (challenge_err cfg m h []).imp fun _ hp => hp.1) b

theorem serialize_authenticate (cfg : Cfg) (m : Authenticate) (b : List UInt8) :
    Wire.serialize cfg m = .ok b ↔ Spec.authenticateFits m ∧ b = Spec.authenticateBytes m :=
  serialize_iff (enc_authenticate cfg m) (fun h => (authenticate_err cfg m h []).imp fun _ hp => hp.1) b

end Ntlm
