import Verif.Model.Trace
/-
  The decoders with an error type do what the decoders without do, and only hand slices of the input to the
  error type.
-/
set_option linter.unusedSectionVars false

namespace Ntlm

namespace Trace

/-- A slice of the caller's buffer. -/
def Within (input : List UInt8) (s : Slice) : Prop :=
  s.off + s.data.length ≤ input.length ∧ s.data = (input.drop s.off).take s.data.length

theorem within_self (input : List UInt8) : Within input ⟨0, input⟩ := by
  constructor <;> simp

theorem within_empty (input : List UInt8) : Within input ⟨0, []⟩ := by
  constructor <;> simp

theorem within_drop {input : List UInt8} {s : Slice} (h : Within input s) {n : Nat} (hn : n ≤ s.data.length) :
    Within input (s.drop n) := by
  obtain ⟨h1, h2⟩ := h
  constructor
  · simp only [Slice.drop, List.length_drop]; omega
  · simp only [Slice.drop, List.length_drop]
    conv => lhs; rw [h2]
    rw [List.drop_take, List.drop_drop]

theorem within_take {input : List UInt8} {s : Slice} (h : Within input s) (n : Nat) :
    Within input (s.take n) := by
  obtain ⟨h1, h2⟩ := h
  constructor
  · simp only [Slice.take, List.length_take]; omega
  · simp only [Slice.take, List.length_take]
    conv => lhs; rw [h2]
    rw [List.take_take]

variable {E : Type} [NomError E]

/-- A property of error values that every step of the parsers keeps, if it is given slices of `input` only. -/
structure Closed (input : List UInt8) (P : E → Prop) : Prop where
  fromKind : ∀ s k, Within input s → P (NomError.fromKind s k)
  append : ∀ s k e, Within input s → P e → P (NomError.append s k e)
  or : ∀ e e', P e → P e' → P (NomError.or e e')
  addContext : ∀ s n e, Within input s → P e → P (NomError.addContext s n e)

/-- The result of a decoder with an error type beside that of the decoder without. -/
inductive Rel (input : List UInt8) (P : E → Prop) {α : Type} :
    Except (TErr E) (α × Slice) → Except PErr (α × List UInt8) → Prop where
  | ok {a : α} {s : Slice} : Within input s → Rel input P (.ok (a, s)) (.ok (a, s.data))
  | error {e : E} : P e → Rel input P (.error (.error e)) (.error .error)
  | incomplete : Rel input P (.error .incomplete) (.error .incomplete)
  | panic {p : Panic} {m : Msg} : Rel input P (.error (.panic p m)) (.error (.panic p))

/-- The same for computations that return no rest. -/
inductive RelA (P : E → Prop) {α : Type} : Except (TErr E) α → Except PErr α → Prop where
  | ok {a : α} : RelA P (.ok a) (.ok a)
  | error {e : E} : P e → RelA P (.error (.error e)) (.error .error)
  | incomplete : RelA P (.error .incomplete) (.error .incomplete)
  | panic {p : Panic} {m : Msg} : RelA P (.error (.panic p m)) (.error (.panic p))

/-- `p` is `q` with an error type. -/
def Sim (input : List UInt8) (P : E → Prop) {α : Type} (p : TP E α) (q : Parser α) : Prop :=
  ∀ s, Within input s → Rel input P (p s) (q s.data)

variable {input : List UInt8} {P : E → Prop} {α β : Type}

theorem sim_pure (a : α) : Sim input P (pure a : TP E α) (pure a) := fun _ hs => .ok hs

theorem sim_bind {p : TP E α} {q : Parser α} {f : α → TP E β} {g : α → Parser β} (h : Sim input P p q)
    (hf : ∀ a, Sim input P (f a) (g a)) : Sim input P (p >>= f) (q >>= g) := by
  intro s hs
  have := h s hs
  simp only [bind]
  generalize p s = x at this
  generalize q s.data = y at this
  cases this with
  | ok h => exact hf _ _ h
  | error h => exact .error h
  | incomplete => exact .incomplete
  | panic => exact .panic

theorem sim_take (c : Closed input P) (n : Nat) (s : Slice) (hs : Within input s) :
    (∃ e, P e ∧ (take n : TP E Slice) s = .error (.error e) ∧ Ntlm.take n s.data = .error .error) ∨
    ((take n : TP E Slice) s = .ok (s.take n, s.drop n) ∧ Ntlm.take n s.data = .ok (s.data.take n, s.data.drop n) ∧
      Within input (s.drop n)) := by
  unfold take Ntlm.take
  by_cases h : s.data.length < n
  · left
    rw [if_pos h, if_pos h]
    exact ⟨_, c.fromKind _ _ hs, rfl, rfl⟩
  · right
    rw [if_neg h, if_neg h]
    exact ⟨rfl, rfl, within_drop hs (by omega)⟩

theorem sim_takeBytes (c : Closed input P) (n : Nat) :
    Sim input P (takeBytes n : TP E (Bytes n)) (Ntlm.takeBytes n) := by
  intro s hs
  unfold takeBytes Ntlm.takeBytes
  by_cases h : s.data.length < n
  · rw [dif_pos h, dif_pos h]; exact .error (c.fromKind _ _ hs)
  · rw [dif_neg h, dif_neg h]; exact .ok (within_drop hs (by omega))

theorem sim_tag (c : Closed input P) (t : List UInt8) :
    Sim input P (tag t : TP E Unit) (Ntlm.tag t) := by
  intro s hs
  unfold tag Ntlm.tag
  by_cases h : s.data.take t.length = t
  · rw [if_pos h, if_pos h]
    refine .ok (within_drop hs ?_)
    have := congrArg List.length h
    rw [List.length_take] at this
    omega
  · rw [if_neg h, if_neg h]; exact .error (c.fromKind _ _ hs)

theorem sim_leNat (c : Closed input P) (k : Nat) :
    Sim input P (leNat k : TP E Nat) (Ntlm.leNat k) := by
  intro s hs
  simp only [leNat, Ntlm.leNat, bind]
  rcases sim_take c k s hs with ⟨e, he, h1, h2⟩ | ⟨h1, h2, h3⟩
  · rw [h1, h2]; exact .error he
  · rw [h1, h2]; exact .ok h3

theorem sim_leU8 (c : Closed input P) : Sim input P (leU8 : TP E UInt8) Ntlm.leU8 :=
  sim_bind (sim_leNat c 1) fun _ => sim_pure _
theorem sim_leU16 (c : Closed input P) : Sim input P (leU16 : TP E UInt16) Ntlm.leU16 :=
  sim_bind (sim_leNat c 2) fun _ => sim_pure _
theorem sim_leU24 (c : Closed input P) : Sim input P (leU24 : TP E UInt32) Ntlm.leU24 :=
  sim_bind (sim_leNat c 3) fun _ => sim_pure _
theorem sim_leU32 (c : Closed input P) : Sim input P (leU32 : TP E UInt32) Ntlm.leU32 :=
  sim_bind (sim_leNat c 4) fun _ => sim_pure _
theorem sim_leU64 (c : Closed input P) : Sim input P (leU64 : TP E UInt64) Ntlm.leU64 :=
  sim_bind (sim_leNat c 8) fun _ => sim_pure _

theorem sim_verify (c : Closed input P) {p : TP E α} {q : Parser α} (h : Sim input P p q) (f : α → Bool) :
    Sim input P (verify p f) (Ntlm.verify q f) := by
  intro s hs
  have := h s hs
  unfold verify Ntlm.verify
  generalize p s = x at this
  generalize q s.data = y at this
  cases this with
  | @ok a r h =>
    show Rel input P (if f a then .ok (a, r) else .error (.error (NomError.fromKind s .verify)))
      (if f a then .ok (a, r.data) else .error .error)
    cases f a
    · exact .error (c.fromKind _ _ hs)
    · exact .ok h
  | error h => exact .error h
  | incomplete => exact .incomplete
  | panic => exact .panic

theorem sim_mapOpt (c : Closed input P) {p : TP E α} {q : Parser α} (h : Sim input P p q) (f : α → Option β) :
    Sim input P (mapOpt p f) (Ntlm.mapOpt q f) := by
  intro s hs
  have := h s hs
  unfold mapOpt Ntlm.mapOpt
  generalize p s = x at this
  generalize q s.data = y at this
  cases this with
  | @ok a r h =>
    simp only
    cases f a with
    | none => exact .error (c.fromKind _ _ hs)
    | some b => exact .ok h
  | error h => exact .error h
  | incomplete => exact .incomplete
  | panic => exact .panic

theorem sim_pmap {p : TP E α} {q : Parser α} (h : Sim input P p q) (f : α → β) :
    Sim input P (pmap p f) (Ntlm.pmap q f) := by
  intro s hs
  have := h s hs
  unfold pmap Ntlm.pmap
  generalize p s = x at this
  generalize q s.data = y at this
  cases this with
  | ok h => exact .ok h
  | error h => exact .error h
  | incomplete => exact .incomplete
  | panic => exact .panic

theorem sim_cond {p : TP E α} {q : Parser α} (h : Sim input P p q) (b : Bool) :
    Sim input P (cond b p) (Ntlm.cond b q) := by
  unfold cond Ntlm.cond
  cases b
  · exact sim_pure _
  · exact sim_pmap h _

theorem sim_rest : Sim input P (rest : TP E (List UInt8)) Ntlm.rest := by
  intro s hs
  unfold rest Ntlm.rest
  have := Rel.ok (E := E) (P := P) (a := s.data) (within_drop hs (Nat.le_refl _))
  simpa only [Slice.drop, List.drop_length] using this

theorem sim_alt (c : Closed input P) {p p' : TP E α} {q q' : Parser α} (h : Sim input P p q)
    (h' : Sim input P p' q') : Sim input P (alt p p') (Ntlm.alt q q') := by
  intro s hs
  have i := h s hs
  have i' := h' s hs
  unfold alt Ntlm.alt
  generalize p s = x at i
  generalize q s.data = y at i
  generalize p' s = x' at i'
  generalize q' s.data = y' at i'
  cases i with
  | ok h => exact .ok h
  | incomplete => exact .incomplete
  | panic => exact .panic
  | error h =>
    cases i' with
    | ok h => exact .ok h
    | incomplete => exact .incomplete
    | panic => exact .panic
    | error h' => exact .error (c.append _ _ _ hs (c.or _ _ h h'))

theorem sim_many0Aux (c : Closed input P) {p : TP E α} {q : Parser α} (h : Sim input P p q) (fuel : Nat) :
    Sim input P (many0Aux p fuel) (Ntlm.many0Aux q fuel) := by
  induction fuel with
  | zero => intro s hs; exact .error (c.fromKind _ _ hs)
  | succ fuel ih =>
    intro s hs
    have i := h s hs
    unfold many0Aux Ntlm.many0Aux
    generalize p s = x at i
    generalize q s.data = y at i
    cases i with
    | error h => exact .ok hs
    | incomplete => exact .incomplete
    | panic => exact .panic
    | @ok a r h =>
      simp only
      by_cases hl : r.data.length < s.data.length
      · rw [if_pos hl, if_pos hl]
        have i := ih r h
        generalize many0Aux p fuel r = x at i
        generalize Ntlm.many0Aux q fuel r.data = y at i
        cases i with
        | ok h => exact .ok h
        | error h => exact .error h
        | incomplete => exact .incomplete
        | panic => exact .panic
      · rw [if_neg hl, if_neg hl]
        exact .error (c.fromKind _ _ hs)

theorem sim_many0 (c : Closed input P) {p : TP E α} {q : Parser α} (h : Sim input P p q) :
    Sim input P (many0 p) (Ntlm.many0 q) :=
  fun s hs => sim_many0Aux c h _ s hs

theorem sim_context (c : Closed input P) (n : String) {p : TP E α} {q : Parser α} (h : Sim input P p q) :
    Sim input P (context n p) q := by
  intro s hs
  have i := h s hs
  unfold context
  generalize p s = x at i
  generalize q s.data = y at i
  cases i with
  | ok h => exact .ok h
  | error h => exact .error (c.addContext _ _ _ hs h)
  | incomplete => exact .incomplete
  | panic => exact .panic

/-! ### Structures -/

theorem sim_bytes (c : Closed input P) (cfg : Cfg) (name : String) (n : Nat) :
    Sim input P (bytes name n : TP E (Bytes n)) (Wire.deserialize cfg : Parser (Bytes n)) :=
  sim_context c _ (sim_takeBytes c n)

theorem sim_flags (c : Closed input P) (cfg : Cfg) :
    Sim input P (flags cfg : TP E Flags) (Wire.deserialize cfg : Parser Flags) :=
  sim_context c _ (sim_pmap (sim_verify c (sim_leU32 c) _) _)

theorem sim_oemString (c : Closed input P) (cfg : Cfg) :
    Sim input P (oemString : TP E OEMString) (Wire.deserialize cfg : Parser OEMString) :=
  sim_context c _ (sim_pmap (sim_mapOpt c sim_rest _) _)

theorem sim_unicodeString (c : Closed input P) (cfg : Cfg) :
    Sim input P (unicodeString : TP E UnicodeString) (Wire.deserialize cfg : Parser UnicodeString) :=
  sim_context c _ (sim_pmap (sim_many0 c (sim_mapOpt c (sim_leU16 c) _)) _)

theorem sim_version (c : Closed input P) (cfg : Cfg) :
    Sim input P (version : TP E Version) (Wire.deserialize cfg : Parser Version) :=
  sim_context c _ <|
    sim_bind (sim_context c _ (sim_leU8 c)) fun _ =>
    sim_bind (sim_context c _ (sim_leU8 c)) fun _ =>
    sim_bind (sim_context c _ (sim_leU16 c)) fun _ =>
    sim_bind (sim_context c _ (sim_verify c (sim_leU24 c) _)) fun _ =>
    sim_bind (sim_context c _ (sim_verify c (sim_leU8 c) _)) fun _ => sim_pure _

theorem sim_fileTime (c : Closed input P) (cfg : Cfg) :
    Sim input P (fileTime cfg : TP E FileTime) (Wire.deserialize cfg : Parser FileTime) := by
  intro s hs
  have i := (sim_context c "FileTime" <|
    sim_bind (sim_leU32 c) fun low => sim_bind (sim_leU32 c) fun high =>
      sim_pure (FileTime.mk low high)) s hs
  show Rel input P (fileTime cfg s) ((Wire.deserialize cfg : Parser FileTime) s.data)
  unfold fileTime
  simp only [Wire.deserialize]
  revert i
  generalize (context "FileTime" (do let low ← leU32; let high ← leU32; pure (FileTime.mk low high)) :
    TP E FileTime) s = x
  generalize (do let low ← Ntlm.leU32; let high ← Ntlm.leU32; pure (FileTime.mk low high) :
    Parser FileTime) s.data = y
  intro i
  cases i with
  | @ok a r h =>
    simp only
    cases (a.toSystemTime cfg).isNone
    · exact .ok h
    · exact .error (c.fromKind _ _ hs)
  | error h => exact .error h
  | incomplete => exact .incomplete
  | panic => exact .panic

theorem sim_singleHostData (c : Closed input P) (cfg : Cfg) :
    Sim input P (singleHostData : TP E SingleHostData) (Wire.deserialize cfg : Parser SingleHostData) :=
  sim_context c _ <|
    sim_bind (sim_leU32 c) fun _ =>
    sim_bind (sim_verify c (sim_leU32 c) _) fun _ =>
    sim_bind (sim_takeBytes c 8) fun _ =>
    sim_bind (sim_takeBytes c 32) fun _ => sim_pure _

theorem sim_messageSignature (c : Closed input P) (cfg : Cfg) :
    Sim input P (messageSignature : TP E MessageSignature) (Wire.deserialize cfg : Parser MessageSignature) :=
  sim_context c _ <|
    sim_bind (sim_context c _ (sim_verify c (sim_leU32 c) _)) fun _ =>
    sim_bind (sim_bytes c cfg _ 4) fun _ =>
    sim_bind (sim_context c _ (sim_leU32 c)) fun _ =>
    sim_bind (sim_context c _ (sim_leU32 c)) fun _ => sim_pure _

theorem sim_avId (c : Closed input P) (cfg : Cfg) :
    Sim input P (avId : TP E AvId) (Wire.deserialize cfg : Parser AvId) :=
  sim_context c _ (sim_mapOpt c (sim_leU16 c) _)

theorem sim_msvAvFlags (c : Closed input P) (cfg : Cfg) :
    Sim input P (msvAvFlags : TP E MsvAvFlags) (Wire.deserialize cfg : Parser MsvAvFlags) :=
  sim_bind (sim_context c _ (sim_verify c (sim_leU32 c) _)) fun _ => sim_pure _

theorem rel_avValue {p : TP E α} {q : Parser α} (h : Sim input P p q) (cfg : Cfg) (mk : α → AvPair)
    {data after : Slice} (hd : Within input data) (ha : Within input after) :
    Rel input P (avValue cfg p mk data after) (Ntlm.avValue cfg q mk data.data after.data) := by
  have i := h data hd
  unfold avValue Ntlm.avValue
  generalize p data = x at i
  generalize q data.data = y at i
  cases i with
  | @ok a r h =>
    simp only
    cases cfg.debug && r.data.length != 0
    · exact .ok ha
    · exact .panic
  | error h => exact .error h
  | incomplete => exact .incomplete
  | panic => exact .panic

theorem rel_avPairValue (c : Closed input P) (cfg : Cfg) (id : AvId)
    {data after : Slice} (hd : Within input data) (ha : Within input after) :
    Rel input P (avPairValue cfg id data after : Except (TErr E) _)
      (AvPair.deserializeValue cfg id data.data after.data) := by
  cases id with
  | eol =>
    simp only [avPairValue, AvPair.deserializeValue]
    cases data.data.isEmpty
    · exact .error (c.fromKind _ _ hd)
    · exact .ok ha
  | nbComputerName => exact rel_avValue (sim_unicodeString c cfg) cfg _ hd ha
  | nbDomainName => exact rel_avValue (sim_unicodeString c cfg) cfg _ hd ha
  | dnsComputerName => exact rel_avValue (sim_unicodeString c cfg) cfg _ hd ha
  | dnsDomainName => exact rel_avValue (sim_unicodeString c cfg) cfg _ hd ha
  | dnsTreeName => exact rel_avValue (sim_unicodeString c cfg) cfg _ hd ha
  | flags => exact rel_avValue (sim_msvAvFlags c cfg) cfg _ hd ha
  | timestamp => exact rel_avValue (sim_fileTime c cfg) cfg _ hd ha
  | singleHost => exact rel_avValue (sim_singleHostData c cfg) cfg _ hd ha
  | targetName => exact rel_avValue (sim_unicodeString c cfg) cfg _ hd ha
  | channelBindings => exact rel_avValue (sim_takeBytes c 16) cfg _ hd ha

theorem sim_avPair (c : Closed input P) (cfg : Cfg) :
    Sim input P (avPair cfg : TP E AvPair) (Wire.deserialize cfg : Parser AvPair) := by
  intro s hs
  have i := sim_avId c cfg s hs
  simp only [avPair, Wire.deserialize, bind, context, pure] at i ⊢
  generalize (avId : TP E AvId) s = x at i
  generalize Ntlm.mapOpt Ntlm.leU16 AvId.ofU16 s.data = y at i
  cases i with
  | error h => exact .error (c.addContext _ _ _ hs h)
  | incomplete => exact .incomplete
  | panic => exact .panic
  | @ok id r h =>
    have i := sim_leU16 c r h
    simp only [lengthData, Ntlm.lengthData]
    generalize (leU16 : TP E UInt16) r = x at i
    generalize Ntlm.leU16 r.data = y at i
    cases i with
    | error h => exact .error (c.addContext _ _ _ hs h)
    | incomplete => exact .incomplete
    | panic => exact .panic
    | @ok n t h =>
      simp only
      by_cases hl : t.data.length < n.toNat
      · rw [if_pos hl, if_pos hl]; exact .incomplete
      · rw [if_neg hl, if_neg hl]
        exact rel_avPairValue c cfg id (within_take h _) (within_drop h (by omega))

theorem sim_lmv1 (c : Closed input P) (cfg : Cfg) :
    Sim input P (lmv1 : TP E Lmv1Challenge) (Wire.deserialize cfg : Parser Lmv1Challenge) :=
  sim_bind (sim_context c _ (sim_bytes c cfg _ 24)) fun _ => sim_pure _

theorem sim_lmv2 (c : Closed input P) (cfg : Cfg) :
    Sim input P (lmv2 : TP E Lmv2Challenge) (Wire.deserialize cfg : Parser Lmv2Challenge) :=
  sim_context c _ <|
    sim_bind (sim_bytes c cfg _ 16) fun _ => sim_bind (sim_bytes c cfg _ 8) fun _ => sim_pure _

theorem sim_ntv1 (c : Closed input P) (cfg : Cfg) :
    Sim input P (ntv1 : TP E Ntv1Challenge) (Wire.deserialize cfg : Parser Ntv1Challenge) :=
  sim_bind (sim_context c _ (sim_bytes c cfg _ 24)) fun _ => sim_pure _

theorem sim_ntv2 (c : Closed input P) (cfg : Cfg) :
    Sim input P (ntv2 cfg : TP E Ntv2Challenge) (Wire.deserialize cfg : Parser Ntv2Challenge) :=
  sim_context c _ <|
    sim_bind (sim_context c _ (sim_verify c (sim_leU8 c) _)) fun _ =>
    sim_bind (sim_context c _ (sim_verify c (sim_leU8 c) _)) fun _ =>
    sim_bind (sim_context c _ (sim_verify c (sim_leU16 c) _)) fun _ =>
    sim_bind (sim_context c _ (sim_verify c (sim_leU32 c) _)) fun _ =>
    sim_bind (sim_fileTime c cfg) fun _ =>
    sim_bind (sim_bytes c cfg _ 8) fun _ =>
    sim_bind (sim_verify c (sim_leU32 c) _) fun _ =>
    sim_bind (sim_many0 c (sim_avPair c cfg)) fun _ => sim_pure _

theorem sim_ntChallenge (c : Closed input P) (cfg : Cfg) :
    Sim input P (ntChallenge cfg : TP E NtChallenge) (Wire.deserialize cfg : Parser NtChallenge) :=
  sim_alt c (sim_pmap (sim_ntv2 c cfg) _) (sim_pmap (sim_ntv1 c cfg) _)

theorem sim_lmChallenge (c : Closed input P) (cfg : Cfg) :
    Sim input P (lmChallenge : TP E LmChallenge) (Wire.deserialize cfg : Parser LmChallenge) :=
  sim_alt c (sim_pmap (sim_lmv2 c cfg) _) (sim_pmap (sim_lmv1 c cfg) _)

/-! ### Fields -/

theorem sim_field (c : Closed input P) (cfg : Cfg) :
    Sim input P (field : TP E Field) (Wire.deserialize cfg : Parser Field) :=
  sim_context c _ <|
    sim_bind (sim_leU16 c) fun _ => sim_bind (sim_leU16 c) fun _ => sim_bind (sim_leU32 c) fun _ => sim_pure _

theorem sim_slice (f : Field) {s : Slice} (hs : Within input s) :
    ((slice f s : Except (TErr E) Slice) = .error (.panic .sliceIndex
        (.outOfRange f.offset.toNat (f.offset.toNat + f.len.toNat) s.data.length)) ∧
      f.slice s.data = .error (.panic .sliceIndex)) ∨
    (∃ d, (slice f s : Except (TErr E) Slice) = .ok d ∧ f.slice s.data = .ok d.data ∧ Within input d) := by
  unfold slice Field.slice
  by_cases h : f.offset.toNat + f.len.toNat ≤ s.data.length
  · right
    rw [if_pos h, if_pos h]
    exact ⟨_, rfl, rfl, within_take (within_drop hs (by omega)) _⟩
  · left
    rw [if_neg h, if_neg h]
    exact ⟨rfl, rfl⟩

theorem rel_getDataIf (c : Closed input P) [Wire α] (cfg : Cfg) {p : TP E α}
    (h : Sim input P p (Wire.deserialize cfg : Parser α)) (n : String) (f : Field) {s : Slice} (hs : Within input s)
    (b : Bool) : RelA P (getDataIf p n f s b) (f.getDataIf cfg s.data b) := by
  unfold getDataIf Field.getDataIf
  cases b
  · exact .ok
  by_cases hl : f.len = 0
  · rw [if_pos rfl, if_pos rfl, if_pos hl, if_pos hl]; exact .ok
  rw [if_pos rfl, if_pos rfl, if_neg hl, if_neg hl]
  rcases sim_slice (E := E) f hs with ⟨h1, h2⟩ | ⟨d, h1, h2, hd⟩
  · rw [h1, h2]; exact .panic
  · rw [h1, h2]
    have i := sim_context c n (sim_context c "Field::get_data" h) d hd
    simp only
    generalize context n (context "Field::get_data" p) d = x at i
    generalize (Wire.deserialize cfg : Parser α) d.data = y at i
    cases i with
    | ok h => exact .ok
    | error h => exact .error h
    | incomplete => exact .incomplete
    | panic => exact .panic

theorem rel_getManyIf (c : Closed input P) [Wire α] (cfg : Cfg) {p : TP E α}
    (h : Sim input P p (Wire.deserialize cfg : Parser α)) (f : Field) {s : Slice} (hs : Within input s)
    (b : Bool) : RelA P (getManyIf p f s b) (f.getManyIf cfg s.data b) := by
  unfold getManyIf Field.getManyIf
  cases b
  · exact .ok
  by_cases hl : f.len = 0
  · rw [if_pos rfl, if_pos rfl, if_pos hl, if_pos hl]; exact .ok
  rw [if_pos rfl, if_pos rfl, if_neg hl, if_neg hl]
  rcases sim_slice (E := E) f hs with ⟨h1, h2⟩ | ⟨d, h1, h2, hd⟩
  · rw [h1, h2]; exact .panic
  · rw [h1, h2]
    have i := sim_context c "Field::get_data" (sim_many0 c h) d hd
    simp only
    generalize context "Field::get_data" (many0 p) d = x at i
    generalize Ntlm.many0 (Wire.deserialize cfg : Parser α) d.data = y at i
    cases i with
    | ok h => exact .ok
    | error h => exact .error h
    | incomplete => exact .incomplete
    | panic => exact .panic

theorem relA_bind {x : Except (TErr E) α} {y : Except PErr α} {f : α → Except (TErr E) β} {g : α → Except PErr β}
    (h : RelA P x y) (hf : ∀ a, RelA P (f a) (g a)) : RelA P (x >>= f) (y >>= g) := by
  cases h with
  | ok => exact hf _
  | error h => exact .error h
  | incomplete => exact .incomplete
  | panic => exact .panic

/-! ### Messages -/

theorem sim_negotiateHeader (c : Closed input P) (cfg : Cfg) :
    Sim input P (negotiateHeader cfg : TP E _) (Negotiate.header cfg) :=
  sim_context c _ <|
    sim_bind (sim_tag c _) fun _ =>
    sim_bind (sim_verify c (sim_leU32 c) _) fun _ =>
    sim_bind (sim_flags c cfg) fun _ =>
    sim_bind (sim_context c _ (sim_field c cfg)) fun _ =>
    sim_bind (sim_context c _ (sim_field c cfg)) fun _ => sim_pure _

theorem sim_negotiate (c : Closed input P) (cfg : Cfg) :
    Sim input P (negotiate cfg : TP E Negotiate) (Wire.deserialize cfg : Parser Negotiate) := by
  intro s hs
  have i := sim_negotiateHeader c cfg s hs
  show Rel input P (negotiate cfg s) (Negotiate.deserialize cfg s.data)
  unfold negotiate Negotiate.deserialize
  generalize (negotiateHeader cfg : TP E _) s = x at i
  generalize Negotiate.header cfg s.data = y at i
  cases i with
  | error h => exact .error h
  | incomplete => exact .incomplete
  | panic => exact .panic
  | @ok a r hr =>
    obtain ⟨fl, d, w⟩ := a
    have i := sim_cond (sim_context c "Negotiate/version" (sim_version c cfg))
      (fl.hasFlag Flags.NTLMSSP_NEGOTIATE_VERSION) r hr
    simp only
    generalize (cond (fl.hasFlag Flags.NTLMSSP_NEGOTIATE_VERSION)
      (context "Negotiate/version" version) : TP E _) r = x at i
    generalize Ntlm.cond (fl.hasFlag Flags.NTLMSSP_NEGOTIATE_VERSION)
      (Wire.deserialize cfg : Parser Version) r.data = y at i
    cases i with
    | error h => exact .error h
    | incomplete => exact .incomplete
    | panic => exact .panic
    | ok =>
      simp only
      have i := rel_getDataIf c cfg (sim_oemString c cfg) "domain" d hs
        (fl.hasFlag Flags.NTLMSSP_NEGOTIATE_OEM_DOMAIN_SUPPLIED || true)
      generalize getDataIf (E := E) oemString "domain" d s _ = x at i
      generalize (d.getDataIf cfg s.data _ : Except PErr (Option OEMString)) = y at i
      cases i with
      | error h => exact .error h
      | incomplete => exact .incomplete
      | panic => exact .panic
      | ok =>
        simp only
        have i := rel_getDataIf c cfg (sim_oemString c cfg) "workstation" w hs
          (fl.hasFlag Flags.NTLMSSP_NEGOTIATE_OEM_WORKSTATION_SUPPLIED || true)
        generalize getDataIf (E := E) oemString "workstation" w s _ = x at i
        generalize (w.getDataIf cfg s.data _ : Except PErr (Option OEMString)) = y at i
        cases i with
        | error h => exact .error h
        | incomplete => exact .incomplete
        | panic => exact .panic
        | ok => exact .ok (within_empty _)

theorem sim_parseReserved (c : Closed input P) (cfg : Cfg) :
    Sim input P (parseReserved cfg : TP E UInt64) (Challenge.parseReserved cfg) := by
  unfold parseReserved Challenge.parseReserved
  cases cfg.strict
  · exact sim_leU64 c
  · exact sim_verify c (sim_leU64 c) _

theorem sim_challengeHeader (c : Closed input P) (cfg : Cfg) :
    Sim input P (challengeHeader cfg : TP E _) (Challenge.header cfg) :=
  sim_context c _ <|
    sim_bind (sim_tag c _) fun _ =>
    sim_bind (sim_verify c (sim_leU32 c) _) fun _ =>
    sim_bind (sim_context c _ (sim_field c cfg)) fun _ =>
    sim_bind (sim_context c _ (sim_flags c cfg)) fun _ =>
    sim_bind (sim_bytes c cfg _ 8) fun _ =>
    sim_bind (sim_context c _ (sim_parseReserved c cfg)) fun _ =>
    sim_bind (sim_context c _ (sim_field c cfg)) fun _ => sim_pure _

theorem getManyIf_in_range {p : TP E α} {f : Field} {s : Slice} {l : List α}
    (h : getManyIf p f s true = .ok l) (hl : l ≠ []) : f.offset.toNat + f.len.toNat ≤ s.data.length := by
  unfold getManyIf at h
  rw [if_pos rfl] at h
  by_cases h0 : f.len = 0
  · rw [if_pos h0] at h
    cases h
    exact absurd rfl hl
  · rw [if_neg h0] at h
    unfold slice at h
    by_cases hr : f.offset.toNat + f.len.toNat ≤ s.data.length
    · exact hr
    · rw [if_neg hr] at h
      cases h

theorem sim_challenge (c : Closed input P) (cfg : Cfg) :
    Sim input P (challenge cfg : TP E Challenge) (Wire.deserialize cfg : Parser Challenge) := by
  intro s hs
  have i := sim_challengeHeader c cfg s hs
  show Rel input P (challenge cfg s) (Challenge.deserialize cfg s.data)
  unfold challenge Challenge.deserialize
  generalize (challengeHeader cfg : TP E _) s = x at i
  generalize Challenge.header cfg s.data = y at i
  cases i with
  | error h => exact .error h
  | incomplete => exact .incomplete
  | panic => exact .panic
  | @ok a r hr =>
    obtain ⟨tn, fl, sc, ti⟩ := a
    have i := sim_cond (sim_context c "version" (sim_version c cfg))
      (fl.hasFlag Flags.NTLMSSP_NEGOTIATE_VERSION) r hr
    simp only
    generalize (cond (fl.hasFlag Flags.NTLMSSP_NEGOTIATE_VERSION)
      (context "version" version) : TP E _) r = x at i
    generalize Ntlm.cond (fl.hasFlag Flags.NTLMSSP_NEGOTIATE_VERSION)
      (Wire.deserialize cfg : Parser Version) r.data = y at i
    cases i with
    | error h => exact .error h
    | incomplete => exact .incomplete
    | panic => exact .panic
    | ok =>
      simp only
      have i := rel_getDataIf c cfg (sim_unicodeString c cfg) "target_name" tn hs
        (fl.hasFlag Flags.NTLMSSP_REQUEST_TARGET || true)
      generalize getDataIf (E := E) unicodeString "target_name" tn s _ = x at i
      generalize (tn.getDataIf cfg s.data _ : Except PErr (Option UnicodeString)) = y at i
      cases i with
      | error h => exact .error h
      | incomplete => exact .incomplete
      | panic => exact .panic
      | ok =>
        simp only
        have i := rel_getManyIf c cfg (sim_avPair c cfg) ti hs true
        have range := fun l => getManyIf_in_range (p := (avPair cfg : TP E AvPair)) (f := ti) (s := s) (l := l)
        generalize getManyIf (E := E) (avPair cfg) ti s true = x at i range
        generalize (ti.getManyIf cfg s.data true : Except PErr (List AvPair)) = y at i
        cases i with
        | error h => exact .error h
        | incomplete => exact .incomplete
        | panic => exact .panic
        | @ok l =>
          simp only
          by_cases hl : Challenge.lastIsEol l
          · rw [if_pos hl, if_pos hl]; exact .ok (within_empty _)
          · rw [if_neg hl, if_neg hl]
            have hne : l ≠ [] := by rintro rfl; exact hl rfl
            rcases sim_slice (E := E) ti hs with ⟨h1, _⟩ | ⟨d, h1, _, hd⟩
            · have := range l rfl hne
              rw [slice, if_pos this] at h1
              cases h1
            · rw [h1]
              exact .error (c.addContext _ _ _ hd (c.fromKind _ _ hd))

theorem sim_authenticateHeader (c : Closed input P) (cfg : Cfg) :
    Sim input P (authenticateHeader cfg : TP E _) (Authenticate.header cfg) :=
  sim_context c _ <|
    sim_bind (sim_tag c _) fun _ =>
    sim_bind (sim_verify c (sim_leU32 c) _) fun _ =>
    sim_bind (sim_context c _ (sim_field c cfg)) fun _ =>
    sim_bind (sim_context c _ (sim_field c cfg)) fun _ =>
    sim_bind (sim_context c _ (sim_field c cfg)) fun _ =>
    sim_bind (sim_context c _ (sim_field c cfg)) fun _ =>
    sim_bind (sim_context c _ (sim_field c cfg)) fun _ =>
    sim_bind (sim_context c _ (sim_field c cfg)) fun _ =>
    sim_bind (sim_flags c cfg) fun _ => sim_pure _

theorem rel_okFlatten {x : Except (TErr E) (Option α)} {y : Except PErr (Option α)} (h : RelA P x y) :
    RelA P (okFlatten x) (Authenticate.okFlatten y) := by
  cases h with
  | ok => exact .ok
  | error h => exact .ok
  | incomplete => exact .ok
  | panic => exact .panic

theorem rel_lmResponse (c : Closed input P) (cfg : Cfg) (h : Authenticate.Header) {s : Slice}
    (hs : Within input s) :
    RelA P (lmResponse h s : Except (TErr E) _) (Authenticate.lmResponse cfg h s.data) := by
  unfold lmResponse Authenticate.lmResponse
  cases h.flags.hasFlag Flags.NTLMSSP_NEGOTIATE_NTLM
  · have i := rel_okFlatten (rel_getDataIf c cfg (sim_lmv2 c cfg) "lmv2_challenge_response" h.lm hs true)
    simp only [Bool.false_eq_true, if_false]
    generalize okFlatten (getDataIf (E := E) lmv2 "lmv2_challenge_response" h.lm s true) = x at i
    generalize Authenticate.okFlatten (h.lm.getDataIf cfg s.data true : Except PErr (Option Lmv2Challenge)) = y at i
    cases i with
    | ok => exact .ok
    | error h => exact .error h
    | incomplete => exact .incomplete
    | panic => exact .panic
  · have i := rel_okFlatten (rel_getDataIf c cfg (sim_lmv1 c cfg) "lmv1_challenge_response" h.lm hs true)
    simp only [if_true]
    generalize okFlatten (getDataIf (E := E) lmv1 "lmv1_challenge_response" h.lm s true) = x at i
    generalize Authenticate.okFlatten (h.lm.getDataIf cfg s.data true : Except PErr (Option Lmv1Challenge)) = y at i
    cases i with
    | ok => exact .ok
    | error h => exact .error h
    | incomplete => exact .incomplete
    | panic => exact .panic

theorem rel_authenticateBody (c : Closed input P) (cfg : Cfg) (h : Authenticate.Header) (v : Option Version)
    (mic : Bytes 16) {s : Slice} (hs : Within input s) :
    RelA P (authenticateBody cfg h v mic s : Except (TErr E) _) (Authenticate.body cfg h v mic s.data) :=
  relA_bind (rel_lmResponse c cfg h hs) fun _ =>
  relA_bind (rel_getDataIf c cfg (sim_ntChallenge c cfg) _ _ hs _) fun _ =>
  relA_bind (rel_getDataIf c cfg (sim_unicodeString c cfg) _ _ hs _) fun _ =>
  relA_bind (rel_getDataIf c cfg (sim_unicodeString c cfg) _ _ hs _) fun _ =>
  relA_bind (rel_getDataIf c cfg (sim_unicodeString c cfg) _ _ hs _) fun _ =>
  relA_bind (rel_getDataIf c cfg (sim_bytes c cfg _ 16) _ _ hs _) fun _ => .ok

theorem sim_authenticate (c : Closed input P) (cfg : Cfg) :
    Sim input P (authenticate cfg : TP E Authenticate) (Wire.deserialize cfg : Parser Authenticate) := by
  intro s hs
  have i := sim_authenticateHeader c cfg s hs
  show Rel input P (authenticate cfg s) (Authenticate.deserialize cfg s.data)
  unfold authenticate Authenticate.deserialize
  generalize (authenticateHeader cfg : TP E _) s = x at i
  generalize Authenticate.header cfg s.data = y at i
  cases i with
  | error h => exact .error h
  | incomplete => exact .incomplete
  | panic => exact .panic
  | @ok a r hr =>
    have i := sim_cond (sim_context c "Authenticate/version" (sim_version c cfg))
      (a.flags.hasFlag Flags.NTLMSSP_NEGOTIATE_VERSION) r hr
    simp only
    generalize (cond (a.flags.hasFlag Flags.NTLMSSP_NEGOTIATE_VERSION)
      (context "Authenticate/version" version) : TP E _) r = x at i
    generalize Ntlm.cond (a.flags.hasFlag Flags.NTLMSSP_NEGOTIATE_VERSION)
      (Wire.deserialize cfg : Parser Version) r.data = y at i
    cases i with
    | error h => exact .error h
    | incomplete => exact .incomplete
    | panic => exact .panic
    | @ok v r' hr' =>
      simp only
      have i := sim_context c "Authenticate/mic" (sim_bytes c cfg "mic" 16) r' hr'
      generalize (context "Authenticate/mic" (bytes "mic" 16) : TP E _) r' = x at i
      generalize (Wire.deserialize cfg : Parser (Bytes 16)) r'.data = y at i
      cases i with
      | error h => exact .error h
      | incomplete => exact .incomplete
      | panic => exact .panic
      | @ok mic r'' hr'' =>
        simp only
        have i := rel_authenticateBody c cfg a v mic hs
        generalize (authenticateBody cfg a v mic s : Except (TErr E) _) = x at i
        generalize Authenticate.body cfg a v mic s.data = y at i
        cases i with
        | ok => exact .ok (within_empty _)
        | error h => exact .error h
        | incomplete => exact .incomplete
        | panic => exact .panic

theorem closed_true (input : List UInt8) : Closed input (fun _ : E => True) :=
  ⟨fun _ _ _ => trivial, fun _ _ _ _ _ => trivial, fun _ _ _ _ => trivial, fun _ _ _ _ _ => trivial⟩

end Trace

end Ntlm
