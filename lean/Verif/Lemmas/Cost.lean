import Verif.Model.Cost
/-
  The decoders with their work do what the decoders without do, and bounds for the work of each.
-/
namespace Ntlm

namespace Cost

variable {α β : Type}

/-- `p` decodes what `q` does. -/
def Same (p : CP α) (q : Parser α) : Prop := ∀ i, (p i).2 = q i

theorem same_pure (a : α) : Same (pure a : CP α) (pure a) := fun _ => rfl

theorem same_bind {p : CP α} {q : Parser α} {f : α → CP β} {g : α → Parser β} (h : Same p q) (hf : ∀ a, Same (f a) (g a)) :
    Same (p >>= f) (q >>= g) := by
  intro i
  have := h i
  simp only [bind]
  rw [← this]
  rcases p i with ⟨n, ⟨e⟩ | ⟨a, r⟩⟩
  · rfl
  · exact hf a r

theorem same_takeBytes (n : Nat) : Same (takeBytes n) (Ntlm.takeBytes n) := by
  intro i
  unfold takeBytes Ntlm.takeBytes
  by_cases h : i.length < n
  · rw [dif_pos h, dif_pos h]
  · rw [dif_neg h, dif_neg h]

theorem same_tag (t : List UInt8) : Same (tag t) (Ntlm.tag t) := by
  intro i
  unfold tag Ntlm.tag
  by_cases h : i.take t.length = t
  · rw [if_pos h, if_pos h]
  · rw [if_neg h, if_neg h]

theorem same_leNat (k : Nat) : Same (leNat k) (Ntlm.leNat k) := by
  intro i
  simp only [leNat, Ntlm.leNat, Ntlm.take, bind]
  by_cases h : i.length < k
  · rw [if_pos h, if_pos h]
  · rw [if_neg h, if_neg h]
    rfl

theorem same_leU8 : Same leU8 Ntlm.leU8 := same_bind (same_leNat 1) fun _ => same_pure _
theorem same_leU16 : Same leU16 Ntlm.leU16 := same_bind (same_leNat 2) fun _ => same_pure _
theorem same_leU24 : Same leU24 Ntlm.leU24 := same_bind (same_leNat 3) fun _ => same_pure _
theorem same_leU32 : Same leU32 Ntlm.leU32 := same_bind (same_leNat 4) fun _ => same_pure _
theorem same_leU64 : Same leU64 Ntlm.leU64 := same_bind (same_leNat 8) fun _ => same_pure _

theorem same_verify {p : CP α} {q : Parser α} (h : Same p q) (ok : α → Bool) : Same (verify p ok) (Ntlm.verify q ok) := by
  intro i
  unfold verify Ntlm.verify
  rw [← h i]
  rcases p i with ⟨n, ⟨e⟩ | ⟨a, r⟩⟩
  · rfl
  · simp only
    cases ok a <;> rfl

theorem same_mapOpt {p : CP α} {q : Parser α} (h : Same p q) (f : α → Option β) (w : α → Nat) :
    Same (mapOpt p f w) (Ntlm.mapOpt q f) := by
  intro i
  unfold mapOpt Ntlm.mapOpt
  rw [← h i]
  rcases p i with ⟨n, ⟨e⟩ | ⟨a, r⟩⟩
  · rfl
  · simp only
    cases f a <;> rfl

theorem same_pmap {p : CP α} {q : Parser α} (h : Same p q) (f : α → β) : Same (pmap p f) (Ntlm.pmap q f) := by
  intro i
  unfold pmap Ntlm.pmap
  rw [← h i]
  rcases p i with ⟨n, ⟨e⟩ | ⟨a, r⟩⟩ <;> rfl

theorem same_cond {p : CP α} {q : Parser α} (h : Same p q) (b : Bool) : Same (cond b p) (Ntlm.cond b q) := by
  unfold cond Ntlm.cond
  cases b
  · exact same_pure _
  · exact same_pmap h _

theorem same_rest : Same rest Ntlm.rest := fun _ => rfl

theorem same_alt {p p' : CP α} {q q' : Parser α} (h : Same p q) (h' : Same p' q') : Same (alt p p') (Ntlm.alt q q') := by
  intro i
  unfold alt Ntlm.alt
  rw [← h i, ← h' i]
  rcases p i with ⟨n, ⟨e⟩ | ⟨a, r⟩⟩
  · cases e <;> rfl
  · rfl

theorem same_lengthData {p : CP UInt16} {q : Parser UInt16} (h : Same p q) : Same (lengthData p) (Ntlm.lengthData q) := by
  intro i
  unfold lengthData Ntlm.lengthData
  rw [← h i]
  rcases p i with ⟨n, ⟨e⟩ | ⟨a, r⟩⟩
  · rfl
  · simp only
    by_cases hl : r.length < a.toNat
    · rw [if_pos hl, if_pos hl]
    · rw [if_neg hl, if_neg hl]

theorem same_many0Aux {p : CP α} {q : Parser α} (h : Same p q) (fuel : Nat) :
    Same (many0Aux p fuel) (Ntlm.many0Aux q fuel) := by
  induction fuel with
  | zero => intro i; rfl
  | succ fuel ih =>
    intro i
    unfold many0Aux Ntlm.many0Aux
    rw [← h i]
    rcases p i with ⟨n, ⟨e⟩ | ⟨a, r⟩⟩
    · cases e <;> rfl
    · simp only
      by_cases hl : r.length < i.length
      · rw [if_pos hl, if_pos hl, ← ih r]
        rcases many0Aux p fuel r with ⟨m, ⟨e⟩ | ⟨as, r'⟩⟩ <;> rfl
      · rw [if_neg hl, if_neg hl]

theorem same_many0 {p : CP α} {q : Parser α} (h : Same p q) : Same (many0 p) (Ntlm.many0 q) :=
  fun i => same_many0Aux h _ i

theorem same_flags (cfg : Cfg) : Same (flags cfg) (Wire.deserialize cfg : Parser Flags) :=
  same_pmap (same_verify same_leU32 _) _

theorem same_oemString (cfg : Cfg) : Same oemString (Wire.deserialize cfg : Parser OEMString) :=
  same_pmap (same_mapOpt same_rest _ _) _

theorem same_unicodeString (cfg : Cfg) : Same unicodeString (Wire.deserialize cfg : Parser UnicodeString) :=
  same_pmap (same_many0 (same_mapOpt same_leU16 _ _)) _

theorem same_version (cfg : Cfg) : Same version (Wire.deserialize cfg : Parser Version) :=
  same_bind same_leU8 fun _ => same_bind same_leU8 fun _ => same_bind same_leU16 fun _ =>
    same_bind (same_verify same_leU24 _) fun _ => same_bind (same_verify same_leU8 _) fun _ => same_pure _

theorem same_fileTime (cfg : Cfg) : Same (fileTime cfg) (Wire.deserialize cfg : Parser FileTime) := by
  intro i
  have h : Same (do let low ← leU32; let high ← leU32; return ({ low, high } : FileTime) : CP FileTime)
      (do let low ← Ntlm.leU32; let high ← Ntlm.leU32; return ({ low, high } : FileTime) : Parser FileTime) :=
    same_bind same_leU32 fun _ => same_bind same_leU32 fun _ => same_pure _
  have h := h i
  simp only [fileTime, Wire.deserialize]
  rw [← h]
  generalize (do let low ← leU32; let high ← leU32; return ({ low, high } : FileTime) : CP FileTime) i = x
  rcases x with ⟨n, ⟨e⟩ | ⟨a, r⟩⟩
  · rfl
  · simp only
    by_cases ht : (a.toSystemTime cfg).isNone = true
    · rw [if_pos ht, if_pos ht]
    · rw [if_neg ht, if_neg ht]

theorem same_singleHostData (cfg : Cfg) : Same singleHostData (Wire.deserialize cfg : Parser SingleHostData) :=
  same_bind same_leU32 fun _ => same_bind (same_verify same_leU32 _) fun _ => same_bind (same_takeBytes 8) fun _ =>
    same_bind (same_takeBytes 32) fun _ => same_pure _

theorem same_messageSignature (cfg : Cfg) : Same messageSignature (Wire.deserialize cfg : Parser MessageSignature) :=
  same_bind (same_verify same_leU32 _) fun _ => same_bind (same_takeBytes 4) fun _ => same_bind same_leU32 fun _ =>
    same_bind same_leU32 fun _ => same_pure _

theorem same_avId (cfg : Cfg) : Same avId (Wire.deserialize cfg : Parser AvId) := same_mapOpt same_leU16 _ _

theorem same_msvAvFlags (cfg : Cfg) : Same msvAvFlags (Wire.deserialize cfg : Parser MsvAvFlags) :=
  same_bind (same_verify same_leU32 _) fun _ => same_pure _

theorem same_avValue (cfg : Cfg) {p : CP α} {q : Parser α} (h : Same p q) (mk : α → AvPair) (data after : List UInt8) :
    (avValue cfg p mk data after).2 = Ntlm.avValue cfg q mk data after := by
  unfold avValue Ntlm.avValue
  rw [← h data]
  rcases p data with ⟨n, ⟨e⟩ | ⟨a, r⟩⟩
  · rfl
  · simp only
    cases hd : (cfg.debug && r.length != 0) <;> simp

theorem same_avPairValue (cfg : Cfg) (id : AvId) (data after : List UInt8) :
    (avPairValue cfg id data after).2 = AvPair.deserializeValue cfg id data after := by
  cases id <;> simp only [avPairValue, AvPair.deserializeValue]
  · cases data <;> rfl
  · exact same_avValue cfg (same_unicodeString cfg) _ _ _
  · exact same_avValue cfg (same_unicodeString cfg) _ _ _
  · exact same_avValue cfg (same_unicodeString cfg) _ _ _
  · exact same_avValue cfg (same_unicodeString cfg) _ _ _
  · exact same_avValue cfg (same_unicodeString cfg) _ _ _
  · exact same_avValue cfg (same_msvAvFlags cfg) _ _ _
  · exact same_avValue cfg (same_fileTime cfg) _ _ _
  · exact same_avValue cfg (same_singleHostData cfg) _ _ _
  · exact same_avValue cfg (same_unicodeString cfg) _ _ _
  · exact same_avValue cfg (same_takeBytes 16) _ _ _

theorem same_avPair (cfg : Cfg) : Same (avPair cfg) (Wire.deserialize cfg : Parser AvPair) :=
  same_bind (same_avId cfg) fun id => same_bind (same_lengthData same_leU16) fun data after => same_avPairValue cfg id data after

theorem same_lmv1 (cfg : Cfg) : Same lmv1 (Wire.deserialize cfg : Parser Lmv1Challenge) :=
  same_bind (same_takeBytes 24) fun _ => same_pure _

theorem same_lmv2 (cfg : Cfg) : Same lmv2 (Wire.deserialize cfg : Parser Lmv2Challenge) :=
  same_bind (same_takeBytes 16) fun _ => same_bind (same_takeBytes 8) fun _ => same_pure _

theorem same_ntv1 (cfg : Cfg) : Same ntv1 (Wire.deserialize cfg : Parser Ntv1Challenge) :=
  same_bind (same_takeBytes 24) fun _ => same_pure _

theorem same_ntv2 (cfg : Cfg) : Same (ntv2 cfg) (Wire.deserialize cfg : Parser Ntv2Challenge) :=
  same_bind (same_verify same_leU8 _) fun _ => same_bind (same_verify same_leU8 _) fun _ =>
    same_bind (same_verify same_leU16 _) fun _ => same_bind (same_verify same_leU32 _) fun _ =>
      same_bind (same_fileTime cfg) fun _ => same_bind (same_takeBytes 8) fun _ => same_bind (same_verify same_leU32 _) fun _ =>
        same_bind (same_many0 (same_avPair cfg)) fun _ => same_pure _

theorem same_ntChallenge (cfg : Cfg) : Same (ntChallenge cfg) (Wire.deserialize cfg : Parser NtChallenge) :=
  same_alt (same_pmap (same_ntv2 cfg) _) (same_pmap (same_ntv1 cfg) _)

theorem same_field (cfg : Cfg) : Same field (Wire.deserialize cfg : Parser Field) :=
  same_bind same_leU16 fun _ => same_bind same_leU16 fun _ => same_bind same_leU32 fun _ => same_pure _

theorem same_getDataIf [Wire α] (cfg : Cfg) {p : CP α} (h : Same p (Wire.deserialize cfg)) (f : Field) (input : List UInt8)
    (c : Bool) : (getDataIf p f input c).2 = f.getDataIf cfg input c := by
  unfold getDataIf Field.getDataIf
  cases c
  · rfl
  · by_cases hl : f.len = 0
    · simp only [if_pos hl, if_true]
    · simp only [if_neg hl, if_true]
      cases f.slice input with
      | error e => rfl
      | ok data =>
        simp only
        rw [← h data]
        rcases p data with ⟨n, ⟨e⟩ | ⟨a, r⟩⟩ <;> rfl

theorem same_getManyIf [Wire α] (cfg : Cfg) {p : CP α} (h : Same p (Wire.deserialize cfg)) (f : Field) (input : List UInt8)
    (c : Bool) : (getManyIf p f input c).2 = f.getManyIf cfg input c := by
  unfold getManyIf Field.getManyIf
  cases c
  · rfl
  · by_cases hl : f.len = 0
    · simp only [if_pos hl, if_true]
    · simp only [if_neg hl, if_true]
      cases f.slice input with
      | error e => rfl
      | ok data =>
        simp only
        rw [← same_many0 h data]
        rcases many0 p data with ⟨n, ⟨e⟩ | ⟨a, r⟩⟩ <;> rfl

theorem same_negotiateHeader (cfg : Cfg) : Same (negotiateHeader cfg) (Negotiate.header cfg) :=
  same_bind (same_tag _) fun _ => same_bind (same_verify same_leU32 _) fun _ => same_bind (same_flags cfg) fun _ =>
    same_bind (same_field cfg) fun _ => same_bind (same_field cfg) fun _ => same_pure _

theorem same_negotiate (cfg : Cfg) : Same (negotiate cfg) (Wire.deserialize cfg : Parser Negotiate) := by
  intro i
  simp only [Wire.deserialize]
  unfold negotiate Negotiate.deserialize
  rw [← same_negotiateHeader cfg i]
  rcases negotiateHeader cfg i with ⟨n, ⟨e⟩ | ⟨⟨f, d, w⟩, r⟩⟩
  · rfl
  simp only
  rw [← same_cond (same_version cfg) _ r]
  rcases cond (f.hasFlag Flags.NTLMSSP_NEGOTIATE_VERSION) version r with ⟨v, ⟨e⟩ | ⟨ve, r'⟩⟩
  · rfl
  simp only
  rw [← same_getDataIf cfg (same_oemString cfg) d i]
  rcases getDataIf oemString d i _ with ⟨m, ⟨e⟩ | x⟩
  · rfl
  simp only
  rw [← same_getDataIf cfg (same_oemString cfg) w i]
  rcases getDataIf oemString w i _ with ⟨m, ⟨e⟩ | x⟩ <;> rfl

theorem same_parseReserved (cfg : Cfg) : Same (parseReserved cfg) (Challenge.parseReserved cfg) := by
  unfold parseReserved Challenge.parseReserved
  cases cfg.strict
  · exact same_leU64
  · exact same_verify same_leU64 _

theorem same_challengeHeader (cfg : Cfg) : Same (challengeHeader cfg) (Challenge.header cfg) :=
  same_bind (same_tag _) fun _ => same_bind (same_verify same_leU32 _) fun _ => same_bind (same_field cfg) fun _ =>
    same_bind (same_flags cfg) fun _ => same_bind (same_takeBytes 8) fun _ => same_bind (same_parseReserved cfg) fun _ =>
      same_bind (same_field cfg) fun _ => same_pure _

theorem same_challenge (cfg : Cfg) : Same (challenge cfg) (Wire.deserialize cfg : Parser Challenge) := by
  intro i
  simp only [Wire.deserialize]
  unfold challenge Challenge.deserialize
  rw [← same_challengeHeader cfg i]
  rcases challengeHeader cfg i with ⟨n, ⟨e⟩ | ⟨⟨t, f, s, ti⟩, r⟩⟩
  · rfl
  simp only
  rw [← same_cond (same_version cfg) _ r]
  rcases cond (f.hasFlag Flags.NTLMSSP_NEGOTIATE_VERSION) version r with ⟨v, ⟨e⟩ | ⟨ve, r'⟩⟩
  · rfl
  simp only
  rw [← same_getDataIf cfg (same_unicodeString cfg) t i]
  rcases getDataIf unicodeString t i _ with ⟨m, ⟨e⟩ | x⟩
  · rfl
  simp only
  rw [← same_getManyIf cfg (same_avPair cfg) ti i]
  rcases getManyIf (avPair cfg) ti i _ with ⟨m, ⟨e⟩ | x⟩
  · rfl
  simp only
  by_cases hl : Challenge.lastIsEol x = true
  · rw [if_pos hl, if_pos hl]
  · rw [if_neg hl, if_neg hl]

theorem same_authenticateHeader (cfg : Cfg) : Same (authenticateHeader cfg) (Authenticate.header cfg) :=
  same_bind (same_tag _) fun _ => same_bind (same_verify same_leU32 _) fun _ => same_bind (same_field cfg) fun _ =>
    same_bind (same_field cfg) fun _ => same_bind (same_field cfg) fun _ => same_bind (same_field cfg) fun _ =>
      same_bind (same_field cfg) fun _ => same_bind (same_field cfg) fun _ => same_bind (same_flags cfg) fun _ => same_pure _

theorem same_lmResponse (cfg : Cfg) (h : Authenticate.Header) (i : List UInt8) :
    (lmResponse h i).2 = Authenticate.lmResponse cfg h i := by
  unfold lmResponse Authenticate.lmResponse
  by_cases hf : h.flags.hasFlag Flags.NTLMSSP_NEGOTIATE_NTLM = true
  · rw [if_pos hf, if_pos hf, ← same_getDataIf cfg (same_lmv1 cfg) h.lm i]
    rcases getDataIf lmv1 h.lm i true with ⟨n, r⟩
    simp only
    cases Authenticate.okFlatten r <;> rfl
  · rw [if_neg hf, if_neg hf, ← same_getDataIf cfg (same_lmv2 cfg) h.lm i]
    rcases getDataIf lmv2 h.lm i true with ⟨n, r⟩
    simp only
    cases Authenticate.okFlatten r <;> rfl

theorem same_authenticateBody (cfg : Cfg) (h : Authenticate.Header) (v : Option Version) (mic : Bytes 16) (i : List UInt8) :
    (authenticateBody cfg h v mic i).2 = Authenticate.body cfg h v mic i := by
  unfold authenticateBody Authenticate.body
  rw [← same_lmResponse cfg h i]
  rcases lmResponse h i with ⟨l, ⟨e⟩ | x⟩
  · rfl
  simp only [bind, Except.bind]
  rw [← same_getDataIf cfg (same_ntChallenge cfg) h.nt i]
  rcases getDataIf (ntChallenge cfg) h.nt i true with ⟨l, ⟨e⟩ | x⟩
  · rfl
  simp only
  rw [← same_getDataIf cfg (same_unicodeString cfg) h.domain i]
  rcases getDataIf unicodeString h.domain i true with ⟨l, ⟨e⟩ | x⟩
  · rfl
  simp only
  rw [← same_getDataIf cfg (same_unicodeString cfg) h.user i]
  rcases getDataIf unicodeString h.user i true with ⟨l, ⟨e⟩ | x⟩
  · rfl
  simp only
  rw [← same_getDataIf cfg (same_unicodeString cfg) h.workstation i]
  rcases getDataIf unicodeString h.workstation i true with ⟨l, ⟨e⟩ | x⟩
  · rfl
  simp only
  rw [← same_getDataIf cfg (show Same (takeBytes 16) (Wire.deserialize cfg) from same_takeBytes 16) h.ersk i]
  rcases getDataIf (takeBytes 16) h.ersk i _ with ⟨l, ⟨e⟩ | x⟩ <;> rfl

theorem same_authenticate (cfg : Cfg) : Same (authenticate cfg) (Wire.deserialize cfg : Parser Authenticate) := by
  intro i
  simp only [Wire.deserialize]
  unfold authenticate Authenticate.deserialize
  rw [← same_authenticateHeader cfg i]
  rcases authenticateHeader cfg i with ⟨n, ⟨e⟩ | ⟨h, r⟩⟩
  · rfl
  simp only
  rw [← same_cond (same_version cfg) _ r]
  rcases cond (h.flags.hasFlag Flags.NTLMSSP_NEGOTIATE_VERSION) version r with ⟨v, ⟨e⟩ | ⟨ve, r'⟩⟩
  · rfl
  simp only
  rw [show (Wire.deserialize cfg : Parser (Bytes 16)) r' = _ from (same_takeBytes 16 r').symm]
  rcases takeBytes 16 r' with ⟨v, ⟨e⟩ | ⟨mic, _⟩⟩
  · rfl
  simp only
  rw [← same_authenticateBody cfg h ve mic i]
  rcases authenticateBody cfg h ve mic i with ⟨b, ⟨e⟩ | a⟩ <;> rfl

/-! ### Bounds

`Const p k`: `p` never does more work than `k`.  `Lin p a b`: what `p` does is at most `a` and `b` for each byte, where on
success only the bytes it has consumed count. -/

/-- Never more work than `k`. -/
def Const (p : CP α) (k : Nat) : Prop := ∀ i, (p i).1 ≤ k

/-- At most `a` and `b` for each byte of the input; the bytes handed back on success do not count. -/
def Lin (p : CP α) (a b : Nat) : Prop :=
  ∀ i, match p i with
    | (n, .ok (_, r)) => n + b * r.length ≤ a + b * i.length
    | (n, .error _) => n ≤ a + b * i.length

theorem const_mono {p : CP α} {k l : Nat} (h : Const p k) (hl : k ≤ l) : Const p l := fun i => Nat.le_trans (h i) hl

theorem const_pure (a : α) : Const (pure a : CP α) 0 := fun _ => Nat.le_refl 0

theorem const_bind {p : CP α} {f : α → CP β} {k l : Nat} (h : Const p k) (hf : ∀ a, Const (f a) l) : Const (p >>= f) (k + l) := by
  intro i
  have h := h i
  simp only [bind]
  revert h
  rcases p i with ⟨n, ⟨e⟩ | ⟨a, r⟩⟩ <;> intro h
  · simp only at h ⊢; omega
  · have := hf a r
    simp only at h ⊢; omega

theorem const_takeBytes (n : Nat) : Const (takeBytes n) (1 + n) := by
  intro i
  unfold takeBytes
  by_cases h : i.length < n
  · rw [dif_pos h]; simp only; omega
  · rw [dif_neg h]; exact Nat.le_refl _

theorem const_tag (t : List UInt8) : Const (tag t) (1 + t.length) := by
  intro i
  unfold tag
  by_cases h : i.take t.length = t
  · rw [if_pos h]; exact Nat.le_refl _
  · rw [if_neg h]; exact Nat.le_refl _

theorem const_leNat (k : Nat) : Const (leNat k) (1 + k) := by
  intro i
  unfold leNat
  by_cases h : i.length < k
  · rw [if_pos h]; simp only; omega
  · rw [if_neg h]; exact Nat.le_refl _

theorem const_leU8 : Const leU8 2 := const_bind (const_leNat 1) fun _ => const_pure _
theorem const_leU16 : Const leU16 3 := const_bind (const_leNat 2) fun _ => const_pure _
theorem const_leU24 : Const leU24 4 := const_bind (const_leNat 3) fun _ => const_pure _
theorem const_leU32 : Const leU32 5 := const_bind (const_leNat 4) fun _ => const_pure _
theorem const_leU64 : Const leU64 9 := const_bind (const_leNat 8) fun _ => const_pure _

theorem const_verify {p : CP α} {k : Nat} (h : Const p k) (ok : α → Bool) : Const (verify p ok) (k + 1) := by
  intro i
  have h := h i
  unfold verify
  revert h
  rcases p i with ⟨n, ⟨e⟩ | ⟨a, r⟩⟩ <;> intro h
  · simp only at h ⊢; omega
  · simp only at h ⊢
    cases ok a <;> simp <;> omega

theorem const_pmap {p : CP α} {k : Nat} (h : Const p k) (f : α → β) : Const (pmap p f) (k + 1) := by
  intro i
  have h := h i
  unfold pmap
  revert h
  rcases p i with ⟨n, ⟨e⟩ | ⟨a, r⟩⟩ <;> intro h <;> simp only at h ⊢ <;> omega

theorem const_cond {p : CP α} {k : Nat} (h : Const p k) (b : Bool) : Const (cond b p) (k + 1) := by
  unfold cond
  cases b
  · exact const_mono (const_pure _) (Nat.zero_le _)
  · exact const_pmap h _

theorem const_flags (cfg : Cfg) : Const (flags cfg) 20 := by
  intro i
  have := const_pmap (const_verify const_leU32 (Flags.validate cfg)) Flags.mk i
  unfold flags
  simp only
  omega

theorem const_field : Const field 11 :=
  const_bind const_leU16 fun _ => const_bind const_leU16 fun _ => const_bind const_leU32 fun _ => const_pure _

theorem const_version : Const version 15 :=
  const_bind const_leU8 fun _ => const_bind const_leU8 fun _ => const_bind const_leU16 fun _ =>
    const_bind (const_verify const_leU24 _) fun _ => const_bind (const_verify const_leU8 _) fun _ => const_pure _

theorem const_messageSignature : Const messageSignature 21 :=
  const_bind (const_verify const_leU32 _) fun _ => const_bind (const_takeBytes 4) fun _ => const_bind const_leU32 fun _ =>
    const_bind const_leU32 fun _ => const_pure _

theorem const_lmv1 : Const lmv1 25 := const_bind (const_takeBytes 24) fun _ => const_pure _

theorem const_lmv2 : Const lmv2 26 :=
  const_bind (const_takeBytes 16) fun _ => const_bind (const_takeBytes 8) fun _ => const_pure _

theorem lin_pure (a : α) (b : Nat) : Lin (pure a : CP α) 0 b := fun _ => Nat.le_refl _

theorem lin_bind {p : CP α} {f : α → CP β} {a a' b : Nat} (h : Lin p a b) (hf : ∀ x, Lin (f x) a' b) :
    Lin (p >>= f) (a + a') b := by
  intro i
  have h := h i
  simp only [bind]
  revert h
  rcases p i with ⟨n, ⟨e⟩ | ⟨x, r⟩⟩ <;> intro h
  · simp only at h ⊢; omega
  · have hf := hf x r
    simp only at h ⊢
    revert hf
    rcases f x r with ⟨m, ⟨e⟩ | ⟨y, r'⟩⟩ <;> intro hf <;> simp only at hf ⊢ <;> omega

theorem lin_takeBytes (n b : Nat) (hb : 1 ≤ b) : Lin (takeBytes n) 1 b := by
  intro i
  unfold takeBytes
  by_cases h : i.length < n
  · rw [dif_pos h]; simp only; omega
  · rw [dif_neg h]
    simp only [List.length_drop]
    obtain ⟨d, hd⟩ := Nat.exists_eq_add_of_le (Nat.le_of_not_lt h)
    rw [hd, Nat.add_sub_cancel_left, Nat.mul_add]
    have := Nat.mul_le_mul_right n hb
    omega

theorem lin_leNat (k b : Nat) (hb : 1 ≤ b) : Lin (leNat k) 1 b := by
  intro i
  unfold leNat
  by_cases h : i.length < k
  · rw [if_pos h]; simp only; omega
  · rw [if_neg h]
    simp only [List.length_drop]
    obtain ⟨d, hd⟩ := Nat.exists_eq_add_of_le (Nat.le_of_not_lt h)
    rw [hd, Nat.add_sub_cancel_left, Nat.mul_add]
    have := Nat.mul_le_mul_right k hb
    omega

theorem lin_leU8 (b : Nat) (hb : 1 ≤ b) : Lin leU8 1 b := lin_bind (lin_leNat 1 b hb) fun _ => lin_pure _ b
theorem lin_leU16 (b : Nat) (hb : 1 ≤ b) : Lin leU16 1 b := lin_bind (lin_leNat 2 b hb) fun _ => lin_pure _ b
theorem lin_leU32 (b : Nat) (hb : 1 ≤ b) : Lin leU32 1 b := lin_bind (lin_leNat 4 b hb) fun _ => lin_pure _ b

theorem lin_verify {p : CP α} {a b : Nat} (h : Lin p a b) (ok : α → Bool) : Lin (verify p ok) (a + 1) b := by
  intro i
  have h := h i
  unfold verify
  revert h
  rcases p i with ⟨n, ⟨e⟩ | ⟨x, r⟩⟩ <;> intro h
  · simp only at h ⊢; omega
  · simp only at h ⊢
    cases ok x <;> simp <;> omega

theorem lin_pmap {p : CP α} {a b : Nat} (h : Lin p a b) (f : α → β) : Lin (pmap p f) (a + 1) b := by
  intro i
  have h := h i
  unfold pmap
  revert h
  rcases p i with ⟨n, ⟨e⟩ | ⟨x, r⟩⟩ <;> intro h <;> simp only at h ⊢ <;> omega

/-- `map_opt` with a function of constant work. -/
theorem lin_mapOpt {p : CP α} {a b w : Nat} (h : Lin p a b) (f : α → Option β) : Lin (mapOpt p f fun _ => w) (a + 1 + w) b := by
  intro i
  have h := h i
  unfold mapOpt
  revert h
  rcases p i with ⟨n, ⟨e⟩ | ⟨x, r⟩⟩ <;> intro h
  · simp only at h ⊢; omega
  · simp only at h ⊢
    cases f x <;> simp only <;> omega

/-- `p` does at most `a` and `b` for each byte of the input. -/
def Work (p : CP α) (a b : Nat) : Prop := ∀ i, (p i).1 ≤ a + b * i.length

theorem work_of_lin {p : CP α} {a b : Nat} (h : Lin p a b) : Work p a b := by
  intro i
  have h := h i
  revert h
  rcases p i with ⟨n, ⟨e⟩ | ⟨x, r⟩⟩ <;> intro h <;> simp only at h ⊢ <;> omega

theorem work_of_const {p : CP α} {k : Nat} (h : Const p k) : Work p k 0 := by
  intro i
  have := h i
  omega

theorem work_bind {p : CP α} {f : α → CP β} {a a' b : Nat} (h : Lin p a b) (hf : ∀ x, Work (f x) a' b) :
    Work (p >>= f) (a + a') b := by
  intro i
  have h := h i
  simp only [bind]
  revert h
  rcases p i with ⟨n, ⟨e⟩ | ⟨x, r⟩⟩ <;> intro h
  · simp only at h ⊢; omega
  · have hf := hf x r
    simp only at h ⊢
    omega

theorem work_pmap {p : CP α} {a b : Nat} (h : Work p a b) (f : α → β) : Work (pmap p f) (a + 1) b := by
  intro i
  have h := h i
  unfold pmap
  revert h
  rcases p i with ⟨n, ⟨e⟩ | ⟨x, r⟩⟩ <;> intro h <;> simp only at h ⊢ <;> omega

/-- A parser all of whose successes consume at least `m` bytes, and that is paid for with `a` and `b` for each byte, can be
    repeated for `c` more for each byte, if that covers `a` and the round.  (The last round fails and hands its bytes back, so
    this is not `Lin`: a repetition of repetitions could be quadratic.) -/
theorem work_many0 {p : CP α} {a b c m : Nat} (h : Lin p a b) (hm : ∀ i x r n, p i = (n, .ok (x, r)) → r.length + m ≤ i.length)
    (hc : a + 1 ≤ c * m) : Work (many0 p) (a + 1) (b + c) := by
  have key : ∀ fuel, Work (many0Aux p fuel) (a + 1) (b + c) := by
    intro fuel
    induction fuel with
    | zero => intro i; exact Nat.zero_le _
    | succ fuel ih =>
      intro i
      unfold many0Aux
      have h := h i
      have hm := hm i
      revert h hm
      rcases p i with ⟨n, ⟨e⟩ | ⟨x, r⟩⟩ <;> intro h hm
      · have e1 : (b + c) * i.length = b * i.length + c * i.length := Nat.add_mul b c i.length
        cases e with
        | error => simp only at h ⊢; omega
        | incomplete => simp only at h ⊢; omega
        | panic s => simp only at h ⊢; omega
      · simp only at h ⊢
        have hr := hm x r n rfl
        have e1 : (b + c) * i.length = b * i.length + c * i.length := Nat.add_mul b c i.length
        have e2 : (b + c) * r.length = b * r.length + c * r.length := Nat.add_mul b c r.length
        have e3 : c * (r.length + m) ≤ c * i.length := Nat.mul_le_mul_left c hr
        rw [Nat.mul_add] at e3
        by_cases hl : r.length < i.length
        · rw [if_pos hl]
          have ih := ih r
          revert ih
          rcases many0Aux p fuel r with ⟨k, ⟨e⟩ | ⟨as, r'⟩⟩ <;> intro ih <;> simp only at ih ⊢ <;> omega
        · rw [if_neg hl]
          simp only
          omega
  exact fun i => key _ i

theorem leU16_length : ∀ i x r n, leU16 i = (n, .ok (x, r)) → r.length + 2 ≤ i.length := by
  intro i x r n h
  simp only [leU16, leNat, bind, pure] at h
  by_cases hl : i.length < 2
  · rw [if_pos hl] at h; cases h
  · rw [if_neg hl] at h
    cases h
    simp only [List.length_drop]
    omega

theorem mapOpt_length {p : CP α} {m : Nat} {w : α → Nat} (h : ∀ i x r n, p i = (n, .ok (x, r)) → r.length + m ≤ i.length)
    (f : α → Option β) : ∀ i x r n, mapOpt p f w i = (n, .ok (x, r)) → r.length + m ≤ i.length := by
  intro i x r n hp
  have h := h i
  unfold mapOpt at hp
  revert h hp
  rcases p i with ⟨k, ⟨e⟩ | ⟨y, r'⟩⟩ <;> intro hp h
  · cases hp
  · simp only at hp
    cases hf : f y with
    | none => rw [hf] at hp; cases hp
    | some z =>
      rw [hf] at hp
      cases hp
      exact h y r k rfl

theorem work_unicodeString : Work unicodeString 7 4 :=
  work_pmap (work_many0 (m := 2) (c := 3) (lin_mapOpt (lin_leU16 1 (Nat.le_refl 1)) _) (mapOpt_length leU16_length _)
    (by decide)) _

theorem lin_fileTime (cfg : Cfg) (b : Nat) (hb : 1 ≤ b) : Lin (fileTime cfg) 3 b := by
  intro i
  have h : Lin (do let low ← leU32; let high ← leU32; return ({ low, high } : FileTime) : CP FileTime) 2 b :=
    lin_bind (lin_leU32 b hb) fun _ => lin_bind (lin_leU32 b hb) fun _ => lin_pure _ b
  have h := h i
  unfold fileTime
  revert h
  generalize (do let low ← leU32; let high ← leU32; return ({ low, high } : FileTime) : CP FileTime) i = x
  rcases x with ⟨n, ⟨e⟩ | ⟨a, r⟩⟩ <;> intro h
  · simp only at h ⊢; omega
  · simp only at h ⊢
    cases (a.toSystemTime cfg).isNone <;> simp <;> omega

theorem lin_msvAvFlags (b : Nat) (hb : 1 ≤ b) : Lin msvAvFlags 2 b :=
  lin_bind (lin_verify (lin_leU32 b hb) _) fun _ => lin_pure _ b

theorem lin_singleHostData (b : Nat) (hb : 1 ≤ b) : Lin singleHostData 5 b :=
  lin_bind (lin_leU32 b hb) fun _ => lin_bind (lin_verify (lin_leU32 b hb) _) fun _ => lin_bind (lin_takeBytes 8 b hb) fun _ =>
    lin_bind (lin_takeBytes 32 b hb) fun _ => lin_pure _ b

theorem work_avValue (cfg : Cfg) {p : CP α} {a b : Nat} (h : Work p a b) (mk : α → AvPair) (data after : List UInt8) :
    (avValue cfg p mk data after).1 ≤ a + 1 + b * data.length := by
  have h := h data
  unfold avValue
  revert h
  rcases p data with ⟨n, ⟨e⟩ | ⟨x, r⟩⟩ <;> intro h
  · simp only at h ⊢; omega
  · simp only at h ⊢
    cases (cfg.debug && r.length != 0) <;> simp <;> omega

/-- The value of a pair costs at most 8 and 4 for each of its bytes. -/
theorem work_avPairValue (cfg : Cfg) (id : AvId) (data after : List UInt8) :
    (avPairValue cfg id data after).1 ≤ 8 + 4 * data.length := by
  have hu := fun mk : UnicodeString → AvPair => work_avValue cfg work_unicodeString mk data after
  cases id <;> simp only [avPairValue]
  · cases data.isEmpty <;> simp <;> omega
  · exact hu _
  · exact hu _
  · exact hu _
  · exact hu _
  · exact hu _
  · have := work_avValue cfg (work_of_lin (lin_msvAvFlags 4 (by decide))) .flags data after; omega
  · have := work_avValue cfg (work_of_lin (lin_fileTime cfg 4 (by decide))) .timestamp data after; omega
  · have := work_avValue cfg (work_of_lin (lin_singleHostData 4 (by decide))) .singleHost data after; omega
  · exact hu _
  · have := work_avValue cfg (work_of_lin (lin_takeBytes 16 4 (by decide))) .channelBindings data after; omega

theorem avPairValue_after (cfg : Cfg) (id : AvId) (data after : List UInt8) {n : Nat} {x : AvPair} {r : List UInt8}
    (h : avPairValue cfg id data after = (n, .ok (x, r))) : r = after := by
  have hv : ∀ {α : Type} (p : CP α) (mk : α → AvPair), avValue cfg p mk data after = (n, .ok (x, r)) → r = after := by
    intro α p mk h
    unfold avValue at h
    revert h
    rcases p data with ⟨n, ⟨e⟩ | ⟨y, r'⟩⟩ <;> intro h
    · cases h
    · simp only at h
      cases hd : (cfg.debug && r'.length != 0)
      · rw [hd] at h; cases h; rfl
      · rw [hd] at h; cases h
  cases id <;> simp only [avPairValue] at h
  · cases hd : data.isEmpty
    · rw [hd] at h; cases h
    · rw [hd] at h; cases h; rfl
  all_goals exact hv _ _ h

/-- Identifier, length and value of a pair. -/
theorem avPair_cases (cfg : Cfg) (i : List UInt8) :
    (∃ n e, avPair cfg i = (n, .error e) ∧ n ≤ 23 + 4 * i.length) ∨
    ∃ n x r, avPair cfg i = (n, .ok (x, r)) ∧ r.length + 4 ≤ i.length ∧ n + 4 * r.length ≤ 23 + 4 * i.length := by
  have hid : Lin avId 13 1 := lin_mapOpt (lin_leU16 1 (Nat.le_refl 1)) _
  have hidl : ∀ i x r n, avId i = (n, .ok (x, r)) → r.length + 2 ≤ i.length := mapOpt_length leU16_length _
  have h1 := hid i
  have h1l := hidl i
  simp only [avPair, bind]
  revert h1 h1l
  rcases avId i with ⟨n, ⟨e⟩ | ⟨id, r⟩⟩ <;> intro h1 h1l
  · left
    simp only at h1 ⊢
    exact ⟨n, e, rfl, by omega⟩
  have h1l := h1l id r n rfl
  simp only at h1 ⊢
  have h2 := lin_leU16 1 (Nat.le_refl 1) r
  have h2l := leU16_length r
  unfold lengthData
  revert h2 h2l
  rcases leU16 r with ⟨m, ⟨e⟩ | ⟨k, r'⟩⟩ <;> intro h2 h2l
  · left
    simp only at h2 ⊢
    exact ⟨_, e, rfl, by omega⟩
  have h2l := h2l k r' m rfl
  simp only at h2 ⊢
  by_cases hl : r'.length < k.toNat
  · left
    rw [if_pos hl]
    exact ⟨m + 1 + n, .incomplete, by simp only [Nat.add_comm], by omega⟩
  rw [if_neg hl]
  simp only
  have hw := work_avPairValue cfg id (r'.take k.toNat) (r'.drop k.toNat)
  have ha := fun n x s => avPairValue_after cfg id (r'.take k.toNat) (r'.drop k.toNat) (n := n) (x := x) (r := s)
  have ht : (r'.take k.toNat).length = k.toNat := by rw [List.length_take]; omega
  have hd : (r'.drop k.toNat).length = r'.length - k.toNat := List.length_drop
  rw [ht] at hw
  revert hw ha
  rcases avPairValue cfg id (r'.take k.toNat) (r'.drop k.toNat) with ⟨w, ⟨e⟩ | ⟨x, s⟩⟩ <;> intro hw ha
  · left
    simp only at hw ⊢
    exact ⟨_, e, rfl, by omega⟩
  · right
    simp only at hw ⊢
    have hs := ha w x s rfl
    subst hs
    exact ⟨_, x, _, rfl, by omega, by omega⟩

theorem lin_avPair (cfg : Cfg) : Lin (avPair cfg) 23 4 := by
  intro i
  rcases avPair_cases cfg i with ⟨n, e, h, hn⟩ | ⟨n, x, r, h, _, hn⟩
  · rw [h]; exact hn
  · rw [h]; exact hn

/-- A list of pairs costs at most 24 and 10 for each byte. -/
theorem work_avPairs (cfg : Cfg) : Work (many0 (avPair cfg)) 24 10 := by
  refine work_many0 (m := 4) (c := 6) (lin_avPair cfg) ?_ (by decide)
  intro i x r n h
  rcases avPair_cases cfg i with ⟨n', e, h', _⟩ | ⟨n', x', r', h', hr, _⟩
  · rw [h'] at h; cases h
  · rw [h'] at h; cases h; exact hr

theorem work_ntv2 (cfg : Cfg) : Work (ntv2 cfg) 38 10 := by
  have hb : 1 ≤ 10 := by decide
  refine work_bind (lin_verify (lin_leU8 10 hb) _) fun _ => work_bind (lin_verify (lin_leU8 10 hb) _) fun _ =>
    work_bind (lin_verify (lin_leU16 10 hb) _) fun _ => work_bind (lin_verify (lin_leU32 10 hb) _) fun _ =>
      work_bind (lin_fileTime cfg 10 hb) fun _ => work_bind (lin_takeBytes 8 10 hb) fun _ =>
        work_bind (a' := 24) (lin_verify (lin_leU32 10 hb) _) fun _ => ?_
  intro i
  have h := work_avPairs cfg i
  simp only [bind, pure]
  revert h
  rcases many0 (avPair cfg) i with ⟨n, ⟨e⟩ | ⟨x, r⟩⟩ <;> exact id

theorem work_ntChallenge (cfg : Cfg) (i : List UInt8) : (ntChallenge cfg i).1 ≤ 66 + 10 * i.length := by
  have h1 := work_pmap (work_ntv2 cfg) NtChallenge.v2 i
  have h2 := const_pmap (const_bind (const_takeBytes 24) (l := 0) fun r => const_pure (⟨r⟩ : Ntv1Challenge)) NtChallenge.v1 i
  unfold ntChallenge alt
  change (pmap ntv1 NtChallenge.v1 i).1 ≤ 26 at h2
  revert h1
  rcases pmap (ntv2 cfg) NtChallenge.v2 i with ⟨n, ⟨e⟩ | ⟨x, r⟩⟩ <;> intro h1
  · cases e <;> simp only at h1 ⊢ <;> omega
  · simp only at h1 ⊢; omega

theorem work_oemString (i : List UInt8) : (oemString i).1 ≤ 3 + 2 * i.length := by
  unfold oemString pmap mapOpt rest
  simp only
  cases fromUtf8 i <;> simp only <;> omega

/-! ### Fields -/

theorem slice_length {f : Field} {input data : List UInt8} (h : f.slice input = .ok data) :
    data.length = f.len.toNat ∧ data.length ≤ input.length := by
  unfold Field.slice at h
  by_cases hl : f.offset.toNat + f.len.toNat ≤ input.length
  · rw [if_pos hl] at h
    cases h
    simp only [List.length_take, List.length_drop]
    omega
  · rw [if_neg hl] at h; cases h

/-- A field costs what its data does, which is no longer than the message and no longer than 65535. -/
theorem work_getDataIf {p : CP α} {a b : Nat} (h : Work p a b) (f : Field) (input : List UInt8) (c : Bool) :
    (getDataIf p f input c).1 ≤ a + 1 + b * min input.length 65535 := by
  unfold getDataIf
  cases c
  · simp; omega
  · by_cases hl : f.len = 0
    · simp only [if_pos hl, if_true]; omega
    · simp only [if_neg hl, if_true]
      cases hs : f.slice input with
      | error e => simp only; omega
      | ok data =>
        have h := h data
        have ⟨h1, h2⟩ := slice_length hs
        have h3 : data.length ≤ min input.length 65535 := by have := f.len.toNat_lt; omega
        have h4 := Nat.mul_le_mul_left b h3
        simp only
        revert h
        rcases p data with ⟨n, ⟨e⟩ | ⟨x, r⟩⟩ <;> intro h <;> simp only at h ⊢ <;> omega

theorem work_getManyIf {p : CP α} {a b : Nat} (h : Work (many0 p) a b) (f : Field) (input : List UInt8)
    (c : Bool) : (getManyIf p f input c).1 ≤ a + 1 + b * min input.length 65535 := by
  unfold getManyIf
  cases c
  · simp; omega
  · by_cases hl : f.len = 0
    · simp only [if_pos hl, if_true]; omega
    · simp only [if_neg hl, if_true]
      cases hs : f.slice input with
      | error e => simp only; omega
      | ok data =>
        have h := h data
        have ⟨h1, h2⟩ := slice_length hs
        have h3 : data.length ≤ min input.length 65535 := by have := f.len.toNat_lt; omega
        have h4 := Nat.mul_le_mul_left b h3
        simp only
        revert h
        rcases many0 p data with ⟨n, ⟨e⟩ | ⟨x, r⟩⟩ <;> intro h <;> simp only at h ⊢ <;> omega

/-! ### Messages -/

theorem const_negotiateHeader (cfg : Cfg) : Const (negotiateHeader cfg) 57 :=
  const_bind (const_tag _) fun _ => const_bind (const_verify const_leU32 _) fun _ => const_bind (const_flags cfg) fun _ =>
    const_bind const_field fun _ => const_bind const_field fun _ => const_pure _

theorem work_negotiate (cfg : Cfg) (i : List UInt8) : (negotiate cfg i).1 ≤ 81 + 4 * min i.length 65535 := by
  have h1 := const_negotiateHeader cfg i
  unfold negotiate
  revert h1
  rcases negotiateHeader cfg i with ⟨n, ⟨e⟩ | ⟨⟨f, d, w⟩, r⟩⟩ <;> intro h1
  · simp only at h1 ⊢; omega
  simp only at h1 ⊢
  have h2 := const_cond const_version (f.hasFlag Flags.NTLMSSP_NEGOTIATE_VERSION) r
  revert h2
  rcases cond (f.hasFlag Flags.NTLMSSP_NEGOTIATE_VERSION) version r with ⟨v, ⟨e⟩ | ⟨ve, r'⟩⟩ <;> intro h2
  · simp only at h2 ⊢; omega
  simp only at h2 ⊢
  have h3 := work_getDataIf work_oemString d i (f.hasFlag Flags.NTLMSSP_NEGOTIATE_OEM_DOMAIN_SUPPLIED || true)
  revert h3
  rcases getDataIf oemString d i _ with ⟨m, ⟨e⟩ | x⟩ <;> intro h3
  · simp only at h3 ⊢; omega
  simp only at h3 ⊢
  have h4 := work_getDataIf work_oemString w i (f.hasFlag Flags.NTLMSSP_NEGOTIATE_OEM_WORKSTATION_SUPPLIED || true)
  revert h4
  rcases getDataIf oemString w i _ with ⟨m, ⟨e⟩ | x⟩ <;> intro h4 <;> simp only at h4 ⊢ <;> omega

theorem const_parseReserved (cfg : Cfg) : Const (parseReserved cfg) 10 := by
  unfold parseReserved
  cases cfg.strict
  · exact const_mono const_leU64 (by decide)
  · exact const_verify const_leU64 _

theorem const_challengeHeader (cfg : Cfg) : Const (challengeHeader cfg) 76 :=
  const_bind (const_tag _) fun _ => const_bind (const_verify const_leU32 _) fun _ => const_bind const_field fun _ =>
    const_bind (const_flags cfg) fun _ => const_bind (const_takeBytes 8) fun _ => const_bind (const_parseReserved cfg) fun _ =>
      const_bind const_field fun _ => const_pure _

theorem work_challenge (cfg : Cfg) (i : List UInt8) : (challenge cfg i).1 ≤ 126 + 14 * min i.length 65535 := by
  have h1 := const_challengeHeader cfg i
  unfold challenge
  revert h1
  rcases challengeHeader cfg i with ⟨n, ⟨e⟩ | ⟨⟨t, f, s, ti⟩, r⟩⟩ <;> intro h1
  · simp only at h1 ⊢; omega
  simp only at h1 ⊢
  have h2 := const_cond const_version (f.hasFlag Flags.NTLMSSP_NEGOTIATE_VERSION) r
  revert h2
  rcases cond (f.hasFlag Flags.NTLMSSP_NEGOTIATE_VERSION) version r with ⟨v, ⟨e⟩ | ⟨ve, r'⟩⟩ <;> intro h2
  · simp only at h2 ⊢; omega
  simp only at h2 ⊢
  have h3 := work_getDataIf work_unicodeString t i (f.hasFlag Flags.NTLMSSP_REQUEST_TARGET || true)
  revert h3
  rcases getDataIf unicodeString t i _ with ⟨m, ⟨e⟩ | x⟩ <;> intro h3
  · simp only at h3 ⊢; omega
  simp only at h3 ⊢
  have h4 := work_getManyIf (work_avPairs cfg) ti i true
  revert h4
  rcases getManyIf (avPair cfg) ti i _ with ⟨m, ⟨e⟩ | x⟩ <;> intro h4
  · simp only at h4 ⊢; omega
  simp only at h4 ⊢
  cases Challenge.lastIsEol x <;> simp <;> omega

theorem const_authenticateHeader (cfg : Cfg) : Const (authenticateHeader cfg) 101 :=
  const_bind (const_tag _) fun _ => const_bind (const_verify const_leU32 _) fun _ => const_bind const_field fun _ =>
    const_bind const_field fun _ => const_bind const_field fun _ => const_bind const_field fun _ =>
      const_bind const_field fun _ => const_bind const_field fun _ => const_bind (const_flags cfg) fun _ => const_pure _

theorem work_lmResponse (h : Authenticate.Header) (i : List UInt8) : (lmResponse h i).1 ≤ 27 := by
  have h1 := work_getDataIf (work_of_const const_lmv1) h.lm i true
  have h2 := work_getDataIf (work_of_const const_lmv2) h.lm i true
  unfold lmResponse
  by_cases hf : h.flags.hasFlag Flags.NTLMSSP_NEGOTIATE_NTLM = true
  · rw [if_pos hf]
    revert h1
    rcases getDataIf lmv1 h.lm i true with ⟨n, r⟩
    intro h1
    simp only at h1 ⊢
    cases Authenticate.okFlatten r <;> simp only <;> omega
  · rw [if_neg hf]
    revert h2
    rcases getDataIf lmv2 h.lm i true with ⟨n, r⟩
    intro h2
    simp only at h2 ⊢
    cases Authenticate.okFlatten r <;> simp only <;> omega

theorem work_authenticateBody (cfg : Cfg) (h : Authenticate.Header) (v : Option Version) (mic : Bytes 16) (i : List UInt8) :
    (authenticateBody cfg h v mic i).1 ≤ 136 + 22 * min i.length 65535 := by
  unfold authenticateBody
  have h1 := work_lmResponse h i
  revert h1
  rcases lmResponse h i with ⟨l, ⟨e⟩ | x⟩ <;> intro h1
  · simp only at h1 ⊢; omega
  simp only at h1 ⊢
  have h2 := work_getDataIf (work_ntChallenge cfg) h.nt i true
  revert h2
  rcases getDataIf (ntChallenge cfg) h.nt i true with ⟨l, ⟨e⟩ | x⟩ <;> intro h2
  · simp only at h2 ⊢; omega
  simp only at h2 ⊢
  have h3 := work_getDataIf work_unicodeString h.domain i true
  revert h3
  rcases getDataIf unicodeString h.domain i true with ⟨l, ⟨e⟩ | x⟩ <;> intro h3
  · simp only at h3 ⊢; omega
  simp only at h3 ⊢
  have h4 := work_getDataIf work_unicodeString h.user i true
  revert h4
  rcases getDataIf unicodeString h.user i true with ⟨l, ⟨e⟩ | x⟩ <;> intro h4
  · simp only at h4 ⊢; omega
  simp only at h4 ⊢
  have h5 := work_getDataIf work_unicodeString h.workstation i true
  revert h5
  rcases getDataIf unicodeString h.workstation i true with ⟨l, ⟨e⟩ | x⟩ <;> intro h5
  · simp only at h5 ⊢; omega
  simp only at h5 ⊢
  have h6 := work_getDataIf (work_of_const (const_takeBytes 16)) h.ersk i (h.flags.hasFlag Flags.NTLMSSP_NEGOTIATE_KEY_EXCH)
  revert h6
  rcases getDataIf (takeBytes 16) h.ersk i _ with ⟨l, ⟨e⟩ | x⟩ <;> intro h6 <;> simp only at h6 ⊢ <;> omega

theorem work_authenticate (cfg : Cfg) (i : List UInt8) : (authenticate cfg i).1 ≤ 270 + 22 * min i.length 65535 := by
  unfold authenticate
  have h1 := const_authenticateHeader cfg i
  revert h1
  rcases authenticateHeader cfg i with ⟨n, ⟨e⟩ | ⟨h, r⟩⟩ <;> intro h1
  · simp only at h1 ⊢; omega
  simp only at h1 ⊢
  have h2 := const_cond const_version (h.flags.hasFlag Flags.NTLMSSP_NEGOTIATE_VERSION) r
  revert h2
  rcases cond (h.flags.hasFlag Flags.NTLMSSP_NEGOTIATE_VERSION) version r with ⟨v, ⟨e⟩ | ⟨ve, r'⟩⟩ <;> intro h2
  · simp only at h2 ⊢; omega
  simp only at h2 ⊢
  have h3 := const_takeBytes 16 r'
  revert h3
  rcases takeBytes 16 r' with ⟨m, ⟨e⟩ | ⟨mic, _⟩⟩ <;> intro h3
  · simp only at h3 ⊢; omega
  simp only at h3 ⊢
  have h4 := work_authenticateBody cfg h ve mic i
  revert h4
  rcases authenticateBody cfg h ve mic i with ⟨b, ⟨e⟩ | a⟩ <;> intro h4 <;> simp only at h4 ⊢ <;> omega

/-! ### The work is at least the size of what is built -/

theorem length_many0 {p : CP α} {i r : List UInt8} {n : Nat} {as : List α} (h : many0 p i = (n, .ok (as, r))) :
    as.length ≤ n := by
  have key : ∀ fuel i n as r, many0Aux p fuel i = (n, .ok (as, r)) → as.length ≤ n := by
    intro fuel
    induction fuel with
    | zero => intro i n as r h; cases h
    | succ fuel ih =>
      intro i n as r h
      unfold many0Aux at h
      revert h
      rcases p i with ⟨k, ⟨e⟩ | ⟨x, r1⟩⟩ <;> intro h
      · cases e with
        | error => cases h; exact Nat.zero_le _
        | incomplete => cases h
        | panic s => cases h
      · simp only at h
        by_cases hl : r1.length < i.length
        · rw [if_pos hl] at h
          have ih := ih r1
          revert h ih
          rcases many0Aux p fuel r1 with ⟨m, ⟨e⟩ | ⟨as', r'⟩⟩ <;> intro h ih
          · cases h
          · cases h
            have := ih m as' r rfl
            simp only [List.length_cons]
            omega
        · rw [if_neg hl] at h; cases h
  exact key _ _ _ _ _ h

theorem length_unicodeString {i r : List UInt8} {n : Nat} {u : UnicodeString} (h : unicodeString i = (n, .ok (u, r))) :
    u.s.length ≤ n := by
  unfold unicodeString pmap at h
  have hl := fun n as r => length_many0 (p := mapOpt leU16 decodeUnit fun _ => 3) (i := i) (n := n) (as := as) (r := r)
  revert h hl
  rcases many0 (mapOpt leU16 decodeUnit fun _ => 3) i with ⟨m, ⟨e⟩ | ⟨x, s⟩⟩ <;> intro h hl
  · cases h
  · cases h
    have := hl m x r rfl
    simp only
    omega

theorem length_getDataIf {f : Field} {i : List UInt8} {c : Bool} {n : Nat} {u : UnicodeString}
    (h : getDataIf unicodeString f i c = (n, .ok (some u))) : u.s.length ≤ n := by
  unfold getDataIf at h
  cases c
  · cases h
  · by_cases hl : f.len = 0
    · simp only [if_pos hl, if_true] at h; cases h
    · simp only [if_neg hl, if_true] at h
      cases hs : f.slice i with
      | error e => rw [hs] at h; cases h
      | ok data =>
        rw [hs] at h
        have hu := fun n u r => length_unicodeString (i := data) (n := n) (u := u) (r := r)
        simp only at h
        revert h hu
        rcases unicodeString data with ⟨m, ⟨e⟩ | ⟨x, s⟩⟩ <;> intro h hu
        · cases h
        · cases h
          have := hu m u s rfl
          omega

theorem length_getManyIf {p : CP α} {f : Field} {i : List UInt8} {c : Bool} {n : Nat} {as : List α}
    (h : getManyIf p f i c = (n, .ok as)) : as.length ≤ n := by
  unfold getManyIf at h
  cases c
  · cases h; exact Nat.zero_le _
  · by_cases hl : f.len = 0
    · simp only [if_pos hl, if_true] at h; cases h; exact Nat.zero_le _
    · simp only [if_neg hl, if_true] at h
      cases hs : f.slice i with
      | error e => rw [hs] at h; cases h
      | ok data =>
        rw [hs] at h
        have hu := fun n as r => length_many0 (p := p) (i := data) (n := n) (as := as) (r := r)
        simp only at h
        revert h hu
        rcases many0 p data with ⟨m, ⟨e⟩ | ⟨x, s⟩⟩ <;> intro h hu
        · cases h
        · cases h
          have := hu m as s rfl
          omega

theorem length_challenge {cfg : Cfg} {i r : List UInt8} {n : Nat} {m : Challenge} (h : challenge cfg i = (n, .ok (m, r))) :
    ((m.targetName.map (·.s.length)).getD 0) + m.targetInfos.length ≤ n := by
  unfold challenge at h
  revert h
  rcases challengeHeader cfg i with ⟨a, ⟨e⟩ | ⟨⟨t, f, s, ti⟩, r1⟩⟩ <;> intro h
  · cases h
  simp only at h
  revert h
  rcases cond (f.hasFlag Flags.NTLMSSP_NEGOTIATE_VERSION) version r1 with ⟨v, ⟨e⟩ | ⟨ve, r'⟩⟩ <;> intro h
  · cases h
  simp only at h
  have h3 := fun n u => length_getDataIf (f := t) (i := i) (c := (f.hasFlag Flags.NTLMSSP_REQUEST_TARGET || true)) (n := n) (u := u)
  revert h h3
  rcases getDataIf unicodeString t i _ with ⟨b, ⟨e⟩ | x⟩ <;> intro h h3
  · cases h
  simp only at h
  have h4 := fun n as => length_getManyIf (p := avPair cfg) (f := ti) (i := i) (c := true) (n := n) (as := as)
  revert h h4
  rcases getManyIf (avPair cfg) ti i _ with ⟨d, ⟨e⟩ | y⟩ <;> intro h h4
  · cases h
  simp only at h
  have h4 := h4 d y rfl
  by_cases hl : Challenge.lastIsEol y = true
  · rw [if_pos hl] at h
    cases h
    cases x with
    | none => simp; omega
    | some u =>
      have h3 := h3 b u rfl
      simp; omega
  · rw [if_neg hl] at h; cases h

end Cost

end Ntlm
