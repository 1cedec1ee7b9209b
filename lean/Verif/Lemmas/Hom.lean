import Verif.Spec.ErrorMap
/-
  The decoders use the error type only through its four operations: a map that respects them carries the error values
  of one error type to those of another.
-/
namespace Ntlm

namespace Trace

open Spec

variable {E E' : Type} [NomError E] [NomError E'] {f : E → E'} {α β : Type}

/-- `q` is `p` with its errors mapped. -/
def Via (f : E → E') (p : TP E α) (q : TP E' α) : Prop := ∀ s, q s = mapErr f (p s)

set_option linter.unusedSectionVars false

theorem via_pure (a : α) : Via f (pure a) (pure a) := fun _ => rfl

theorem via_bind {p : TP E α} {q : TP E' α} {g : α → TP E β} {h : α → TP E' β} (hp : Via f p q)
    (hg : ∀ a, Via f (g a) (h a)) : Via f (p >>= g) (q >>= h) := by
  intro s
  simp only [bind]
  rw [hp s]
  rcases p s with (_ | _ | _) | ⟨a, r⟩
  · rfl
  · rfl
  · rfl
  · exact hg a r

theorem via_take (c : IsHom f) (n : Nat) : Via f (take n) (take n) := by
  intro s
  unfold take
  split
  · simp only [mapErr, c.fromKind]
  · rfl

theorem via_takeBytes (c : IsHom f) (n : Nat) : Via f (takeBytes n) (takeBytes n) := by
  intro s
  unfold takeBytes
  split
  · simp only [mapErr, c.fromKind]
  · rfl

theorem via_tag (c : IsHom f) (t : List UInt8) : Via f (tag t) (tag t) := by
  intro s
  unfold tag
  split
  · rfl
  · simp only [mapErr, c.fromKind]

theorem via_leNat (c : IsHom f) (k : Nat) : Via f (leNat k) (leNat k) := via_bind (via_take c k) fun _ => via_pure _
theorem via_leU8 (c : IsHom f) : Via f leU8 leU8 := via_bind (via_leNat c 1) fun _ => via_pure _
theorem via_leU16 (c : IsHom f) : Via f leU16 leU16 := via_bind (via_leNat c 2) fun _ => via_pure _
theorem via_leU24 (c : IsHom f) : Via f leU24 leU24 := via_bind (via_leNat c 3) fun _ => via_pure _
theorem via_leU32 (c : IsHom f) : Via f leU32 leU32 := via_bind (via_leNat c 4) fun _ => via_pure _
theorem via_leU64 (c : IsHom f) : Via f leU64 leU64 := via_bind (via_leNat c 8) fun _ => via_pure _

theorem via_verify (c : IsHom f) {p : TP E α} {q : TP E' α} (h : Via f p q) (ok : α → Bool) :
    Via f (verify p ok) (verify q ok) := by
  intro s
  unfold verify
  rw [h s]
  rcases p s with (_ | _ | _) | ⟨a, r⟩
  · rfl
  · rfl
  · rfl
  · simp only [mapErr]
    cases ok a
    · simp [c.fromKind]
    · rfl

theorem via_mapOpt (c : IsHom f) {p : TP E α} {q : TP E' α} (h : Via f p q) (g : α → Option β) :
    Via f (mapOpt p g) (mapOpt q g) := by
  intro s
  unfold mapOpt
  rw [h s]
  rcases p s with (_ | _ | _) | ⟨a, r⟩
  · rfl
  · rfl
  · rfl
  · simp only [mapErr]
    cases g a
    · simp [c.fromKind]
    · rfl

theorem via_pmap {p : TP E α} {q : TP E' α} (h : Via f p q) (g : α → β) : Via f (pmap p g) (pmap q g) := by
  intro s
  unfold pmap
  rw [h s]
  rcases p s with (_ | _ | _) | ⟨a, r⟩ <;> rfl

theorem via_cond {p : TP E α} {q : TP E' α} (h : Via f p q) (b : Bool) : Via f (cond b p) (cond b q) := by
  unfold cond
  cases b
  · exact via_pure none
  · exact via_pmap h some

theorem via_rest : Via f rest rest := fun _ => rfl

theorem via_alt (c : IsHom f) {p p' : TP E α} {q q' : TP E' α} (h : Via f p q) (h' : Via f p' q') :
    Via f (alt p p') (alt q q') := by
  intro s
  unfold alt
  rw [h s]
  rcases p s with (e | _ | _) | ⟨a, r⟩
  · simp only [mapErr]
    rw [h' s]
    rcases p' s with (_ | _ | _) | ⟨a, r⟩
    · simp [mapErr, c.append, c.or]
    · rfl
    · rfl
    · rfl
  · rfl
  · rfl
  · rfl

theorem via_lengthData {p : TP E UInt16} {q : TP E' UInt16} (h : Via f p q) : Via f (lengthData p) (lengthData q) := by
  intro s
  unfold lengthData
  rw [h s]
  rcases p s with (_ | _ | _) | ⟨a, r⟩
  · rfl
  · rfl
  · rfl
  · simp only [mapErr]
    split <;> rfl

theorem via_many0Aux (c : IsHom f) {p : TP E α} {q : TP E' α} (h : Via f p q) (fuel : Nat) :
    Via f (many0Aux p fuel) (many0Aux q fuel) := by
  induction fuel with
  | zero =>
    intro s
    simp only [many0Aux, mapErr, c.fromKind]
  | succ n ih =>
    intro s
    simp only [many0Aux]
    rw [h s]
    rcases p s with (_ | _ | _) | ⟨a, r⟩
    · rfl
    · rfl
    · rfl
    · simp only [mapErr]
      by_cases hl : r.data.length < s.data.length
      · simp only [hl, if_true]
        rw [ih r]
        rcases many0Aux p n r with (_ | _ | _) | ⟨a, r⟩ <;> rfl
      · simp only [hl, if_false, c.fromKind]

theorem via_many0 (c : IsHom f) {p : TP E α} {q : TP E' α} (h : Via f p q) : Via f (many0 p) (many0 q) :=
  fun s => via_many0Aux c h _ s

theorem via_context (c : IsHom f) (n : String) {p : TP E α} {q : TP E' α} (h : Via f p q) :
    Via f (context n p) (context n q) := by
  intro s
  unfold context
  rw [h s]
  rcases p s with (_ | _ | _) | ⟨a, r⟩
  · simp only [mapErr, c.addContext]
  · rfl
  · rfl
  · rfl

/-! ### Structures -/

theorem via_bytes (c : IsHom f) (name : String) (n : Nat) : Via f (bytes name n) (bytes name n) :=
  via_context c _ (via_takeBytes c n)

theorem via_flags (c : IsHom f) (cfg : Cfg) : Via f (flags cfg) (flags cfg) :=
  via_context c _ (via_pmap (via_verify c (via_leU32 c) _) _)

theorem via_oemString (c : IsHom f) : Via f oemString oemString :=
  via_context c _ (via_pmap (via_mapOpt c via_rest _) _)

theorem via_unicodeString (c : IsHom f) : Via f unicodeString unicodeString :=
  via_context c _ (via_pmap (via_many0 c (via_mapOpt c (via_leU16 c) _)) _)

theorem via_version (c : IsHom f) : Via f version version :=
  via_context c _ <|
    via_bind (via_context c _ (via_leU8 c)) fun _ =>
    via_bind (via_context c _ (via_leU8 c)) fun _ =>
    via_bind (via_context c _ (via_leU16 c)) fun _ =>
    via_bind (via_context c _ (via_verify c (via_leU24 c) _)) fun _ =>
    via_bind (via_context c _ (via_verify c (via_leU8 c) _)) fun _ => via_pure _

theorem via_fileTime (c : IsHom f) (cfg : Cfg) : Via f (fileTime cfg) (fileTime cfg) := by
  intro s
  have h := via_context c "FileTime" (via_bind (via_leU32 c) fun low =>
    via_bind (via_leU32 c) fun high => via_pure (f := f) ({ low, high } : FileTime))
  unfold fileTime
  rw [h s]
  generalize (context "FileTime" _ : TP E FileTime) s = x
  rcases x with (_ | _ | _) | ⟨a, r⟩
  · rfl
  · rfl
  · rfl
  · simp only [mapErr]
    cases (a.toSystemTime cfg).isNone
    · rfl
    · simp [c.fromKind]

theorem via_singleHostData (c : IsHom f) : Via f singleHostData singleHostData :=
  via_context c _ <|
    via_bind (via_leU32 c) fun _ =>
    via_bind (via_verify c (via_leU32 c) _) fun _ =>
    via_bind (via_takeBytes c 8) fun _ =>
    via_bind (via_takeBytes c 32) fun _ => via_pure _

theorem via_messageSignature (c : IsHom f) : Via f messageSignature messageSignature :=
  via_context c _ <|
    via_bind (via_context c _ (via_verify c (via_leU32 c) _)) fun _ =>
    via_bind (via_bytes c _ 4) fun _ =>
    via_bind (via_context c _ (via_leU32 c)) fun _ =>
    via_bind (via_context c _ (via_leU32 c)) fun _ => via_pure _

theorem via_avId (c : IsHom f) : Via f avId avId := via_context c _ (via_mapOpt c (via_leU16 c) _)

theorem via_msvAvFlags (c : IsHom f) : Via f msvAvFlags msvAvFlags :=
  via_bind (via_context c _ (via_verify c (via_leU32 c) _)) fun _ => via_pure _

theorem via_avValue {p : TP E α} {q : TP E' α} (h : Via f p q) (cfg : Cfg) (mk : α → AvPair) (data after : Slice) :
    avValue cfg q mk data after = mapErr f (avValue cfg p mk data after) := by
  unfold avValue
  rw [h data]
  rcases p data with (_ | _ | _) | ⟨a, r⟩
  · rfl
  · rfl
  · rfl
  · simp only [mapErr]
    split <;> rfl

theorem via_avPairValue (c : IsHom f) (cfg : Cfg) (id : AvId) (data after : Slice) :
    (avPairValue cfg id data after : Except (TErr E') _) = mapErr f (avPairValue cfg id data after) := by
  cases id <;> simp only [avPairValue]
  · split
    · simp [mapErr, c.fromKind]
    · rfl
  all_goals first
    | exact via_avValue (via_unicodeString c) cfg _ data after
    | exact via_avValue (via_msvAvFlags c) cfg _ data after
    | exact via_avValue (via_fileTime c cfg) cfg _ data after
    | exact via_avValue (via_singleHostData c) cfg _ data after
    | exact via_avValue (via_takeBytes c 16) cfg _ data after

theorem via_avPair (c : IsHom f) (cfg : Cfg) : Via f (avPair cfg) (avPair cfg) :=
  via_bind (via_context c _ (via_bind (via_avId c) fun _ =>
    via_bind (via_lengthData (via_leU16 c)) fun _ => via_pure _)) fun x s => via_avPairValue c cfg x.1 x.2 s

theorem via_lmv1 (c : IsHom f) : Via f lmv1 lmv1 := via_bind (via_context c _ (via_bytes c _ 24)) fun _ => via_pure _

theorem via_lmv2 (c : IsHom f) : Via f lmv2 lmv2 :=
  via_context c _ (via_bind (via_bytes c _ 16) fun _ => via_bind (via_bytes c _ 8) fun _ => via_pure _)

theorem via_ntv1 (c : IsHom f) : Via f ntv1 ntv1 := via_bind (via_context c _ (via_bytes c _ 24)) fun _ => via_pure _

theorem via_ntv2 (c : IsHom f) (cfg : Cfg) : Via f (ntv2 cfg) (ntv2 cfg) :=
  via_context c _ <|
    via_bind (via_context c _ (via_verify c (via_leU8 c) _)) fun _ =>
    via_bind (via_context c _ (via_verify c (via_leU8 c) _)) fun _ =>
    via_bind (via_context c _ (via_verify c (via_leU16 c) _)) fun _ =>
    via_bind (via_context c _ (via_verify c (via_leU32 c) _)) fun _ =>
    via_bind (via_fileTime c cfg) fun _ =>
    via_bind (via_bytes c _ 8) fun _ =>
    via_bind (via_verify c (via_leU32 c) _) fun _ =>
    via_bind (via_many0 c (via_avPair c cfg)) fun _ => via_pure _

theorem via_ntChallenge (c : IsHom f) (cfg : Cfg) : Via f (ntChallenge cfg) (ntChallenge cfg) :=
  via_alt c (via_pmap (via_ntv2 c cfg) _) (via_pmap (via_ntv1 c) _)

theorem via_lmChallenge (c : IsHom f) : Via f lmChallenge lmChallenge :=
  via_alt c (via_pmap (via_lmv2 c) _) (via_pmap (via_lmv1 c) _)

/-! ### Fields -/

theorem via_field (c : IsHom f) : Via f field field :=
  via_context c _ (via_bind (via_leU16 c) fun _ => via_bind (via_leU16 c) fun _ =>
    via_bind (via_leU32 c) fun _ => via_pure _)

theorem via_slice (f : E → E') (d : Field) (s : Slice) :
    (slice d s : Except (TErr E') _) = mapErr f (slice d s : Except (TErr E) _) := by
  unfold slice
  split <;> rfl

theorem via_getDataIf (c : IsHom f) {p : TP E α} {q : TP E' α} (h : Via f p q) (n : String) (d : Field) (s : Slice)
    (b : Bool) : getDataIf q n d s b = mapErr f (getDataIf p n d s b) := by
  unfold getDataIf
  cases b
  · rfl
  · simp only [if_true]
    split
    · rfl
    · rw [via_slice f]
      rcases (slice d s : Except (TErr E) _) with (_ | _ | _) | data
      · rfl
      · rfl
      · rfl
      · simp only [mapErr]
        rw [via_context c n (via_context c "Field::get_data" h) data]
        rcases context n (context "Field::get_data" p) data with (_ | _ | _) | ⟨a, r⟩ <;> rfl

theorem via_getManyIf (c : IsHom f) {p : TP E α} {q : TP E' α} (h : Via f p q) (d : Field) (s : Slice)
    (b : Bool) : getManyIf q d s b = mapErr f (getManyIf p d s b) := by
  unfold getManyIf
  cases b
  · rfl
  · simp only [if_true]
    split
    · rfl
    · rw [via_slice f]
      rcases (slice d s : Except (TErr E) _) with (_ | _ | _) | data
      · rfl
      · rfl
      · rfl
      · simp only [mapErr]
        rw [via_context c "Field::get_data" (via_many0 c h) data]
        rcases context "Field::get_data" (many0 p) data with (_ | _ | _) | ⟨a, r⟩ <;> rfl

theorem via_except {x : Except (TErr E) α} {y : Except (TErr E') α} {g : α → Except (TErr E) β}
    {h : α → Except (TErr E') β} (hx : y = mapErr f x) (hg : ∀ a, h a = mapErr f (g a)) :
    (y >>= h) = mapErr f (x >>= g) := by
  subst hx
  rcases x with (_ | _ | _) | a
  · rfl
  · rfl
  · rfl
  · exact hg a

/-! ### Messages -/

theorem via_negotiateHeader (c : IsHom f) (cfg : Cfg) : Via f (negotiateHeader cfg) (negotiateHeader cfg) :=
  via_context c _ <|
    via_bind (via_tag c _) fun _ =>
    via_bind (via_verify c (via_leU32 c) _) fun _ =>
    via_bind (via_flags c cfg) fun _ =>
    via_bind (via_context c _ (via_field c)) fun _ =>
    via_bind (via_context c _ (via_field c)) fun _ => via_pure _

theorem via_negotiate (c : IsHom f) (cfg : Cfg) : Via f (negotiate cfg) (negotiate cfg) := by
  intro s
  unfold negotiate
  rw [via_negotiateHeader c cfg s]
  rcases (negotiateHeader cfg : TP E _) s with (_ | _ | _) | ⟨⟨x, y, z⟩, r⟩
  · rfl
  · rfl
  · rfl
  · simp only [mapErr, Bool.or_true]
    rw [via_cond (via_context c "Negotiate/version" (via_version c)) _ r]
    rcases (cond (x.hasFlag Flags.NTLMSSP_NEGOTIATE_VERSION) (context "Negotiate/version" version) : TP E _) r with
      (_ | _ | _) | ⟨v, r⟩
    · rfl
    · rfl
    · rfl
    · simp only [mapErr]
      rw [via_getDataIf c (via_oemString c)]
      rcases (getDataIf oemString "domain" y s true : Except (TErr E) _) with (_ | _ | _) | d
      · rfl
      · rfl
      · rfl
      · simp only [mapErr]
        rw [via_getDataIf c (via_oemString c)]
        rcases (getDataIf oemString "workstation" z s true : Except (TErr E) _) with (_ | _ | _) | w <;> rfl

theorem via_parseReserved (c : IsHom f) (cfg : Cfg) : Via f (parseReserved cfg) (parseReserved cfg) := by
  unfold parseReserved
  cases cfg.strict
  · exact via_leU64 c
  · exact via_verify c (via_leU64 c) _

theorem via_challengeHeader (c : IsHom f) (cfg : Cfg) : Via f (challengeHeader cfg) (challengeHeader cfg) :=
  via_context c _ <|
    via_bind (via_tag c _) fun _ =>
    via_bind (via_verify c (via_leU32 c) _) fun _ =>
    via_bind (via_context c _ (via_field c)) fun _ =>
    via_bind (via_context c _ (via_flags c cfg)) fun _ =>
    via_bind (via_bytes c _ 8) fun _ =>
    via_bind (via_context c _ (via_parseReserved c cfg)) fun _ =>
    via_bind (via_context c _ (via_field c)) fun _ => via_pure _

theorem via_challenge (c : IsHom f) (cfg : Cfg) : Via f (challenge cfg) (challenge cfg) := by
  intro s
  unfold challenge
  rw [via_challengeHeader c cfg s]
  rcases (challengeHeader cfg : TP E _) s with (_ | _ | _) | ⟨⟨x, y, z, w⟩, r⟩
  · rfl
  · rfl
  · rfl
  · simp only [mapErr, Bool.or_true]
    rw [via_cond (via_context c "version" (via_version c)) _ r]
    rcases (cond (y.hasFlag Flags.NTLMSSP_NEGOTIATE_VERSION) (context "version" version) : TP E _) r with
      (_ | _ | _) | ⟨v, r⟩
    · rfl
    · rfl
    · rfl
    · simp only [mapErr]
      rw [via_getDataIf c (via_unicodeString c)]
      rcases (getDataIf unicodeString "target_name" x s true : Except (TErr E) _) with (_ | _ | _) | d
      · rfl
      · rfl
      · rfl
      · simp only [mapErr]
        rw [via_getManyIf c (via_avPair c cfg)]
        rcases (getManyIf (avPair cfg) w s true : Except (TErr E) _) with (_ | _ | _) | l
        · rfl
        · rfl
        · rfl
        · simp only [mapErr]
          cases Challenge.lastIsEol l
          · simp only [Bool.false_eq_true, if_false]
            rw [via_slice f]
            rcases (slice w s : Except (TErr E) _) with (_ | _ | _) | d
            · rfl
            · rfl
            · rfl
            · simp only [mapErr, c.addContext, c.fromKind]
          · rfl

theorem via_authenticateHeader (c : IsHom f) (cfg : Cfg) : Via f (authenticateHeader cfg) (authenticateHeader cfg) :=
  via_context c _ <|
    via_bind (via_tag c _) fun _ =>
    via_bind (via_verify c (via_leU32 c) _) fun _ =>
    via_bind (via_context c _ (via_field c)) fun _ =>
    via_bind (via_context c _ (via_field c)) fun _ =>
    via_bind (via_context c _ (via_field c)) fun _ =>
    via_bind (via_context c _ (via_field c)) fun _ =>
    via_bind (via_context c _ (via_field c)) fun _ =>
    via_bind (via_context c _ (via_field c)) fun _ =>
    via_bind (via_flags c cfg) fun _ => via_pure _

theorem via_okFlatten (f : E → E') (x : Except (TErr E) (Option α)) :
    okFlatten (mapErr f x) = mapErr f (okFlatten x) := by
  rcases x with (_ | _ | _) | _ <;> rfl

theorem via_lmResponse (c : IsHom f) (h : Authenticate.Header) (s : Slice) :
    (lmResponse h s : Except (TErr E') _) = mapErr f (lmResponse h s) := by
  unfold lmResponse
  split
  · rw [via_getDataIf c (via_lmv1 c), via_okFlatten]
    rcases okFlatten (getDataIf lmv1 "lmv1_challenge_response" h.lm s true : Except (TErr E) _) with (_ | _ | _) | _ <;> rfl
  · rw [via_getDataIf c (via_lmv2 c), via_okFlatten]
    rcases okFlatten (getDataIf lmv2 "lmv2_challenge_response" h.lm s true : Except (TErr E) _) with (_ | _ | _) | _ <;> rfl

theorem via_authenticateBody (c : IsHom f) (cfg : Cfg) (h : Authenticate.Header) (v : Option Version) (mic : Bytes 16)
    (s : Slice) : (authenticateBody cfg h v mic s : Except (TErr E') _) = mapErr f (authenticateBody cfg h v mic s) :=
  via_except (via_lmResponse c h s) fun _ =>
  via_except (via_getDataIf c (via_ntChallenge c cfg) _ _ _ _) fun _ =>
  via_except (via_getDataIf c (via_unicodeString c) _ _ _ _) fun _ =>
  via_except (via_getDataIf c (via_unicodeString c) _ _ _ _) fun _ =>
  via_except (via_getDataIf c (via_unicodeString c) _ _ _ _) fun _ =>
  via_except (via_getDataIf c (via_bytes c _ 16) _ _ _ _) fun _ => rfl

theorem via_authenticate (c : IsHom f) (cfg : Cfg) : Via f (authenticate cfg) (authenticate cfg) := by
  intro s
  unfold authenticate
  rw [via_authenticateHeader c cfg s]
  rcases (authenticateHeader cfg : TP E _) s with (_ | _ | _) | ⟨h, r⟩
  · rfl
  · rfl
  · rfl
  · simp only [mapErr]
    rw [via_cond (via_context c "Authenticate/version" (via_version c)) _ r]
    rcases (cond (h.flags.hasFlag Flags.NTLMSSP_NEGOTIATE_VERSION) (context "Authenticate/version" version) : TP E _) r
      with (_ | _ | _) | ⟨v, r⟩
    · rfl
    · rfl
    · rfl
    · simp only [mapErr]
      rw [via_context c "Authenticate/mic" (via_bytes c "mic" 16) r]
      rcases (context "Authenticate/mic" (bytes "mic" 16) : TP E _) r with (_ | _ | _) | ⟨m, r⟩
      · rfl
      · rfl
      · rfl
      · simp only [mapErr]
        rw [via_authenticateBody c cfg h v m s]
        rcases (authenticateBody cfg h v m s : Except (TErr E) _) with (_ | _ | _) | _ <;> rfl

theorem replay_hom (E : Type) [NomError E] : IsHom (Calls.replay E) :=
  ⟨fun _ _ => rfl, fun _ _ _ => rfl, fun _ _ => rfl, fun _ _ _ => rfl⟩

theorem replay_first (e : Calls) : ∃ l, e.replay Verbose = ((e.replay Plain).input, .nom (e.replay Plain).code) :: l := by
  induction e with
  | fromKind s k => exact ⟨[], rfl⟩
  | append s k e ih =>
    obtain ⟨l, hl⟩ := ih
    refine ⟨l ++ [(s, .nom k)], ?_⟩
    show e.replay Verbose ++ _ = _
    rw [hl]; rfl
  | or e e' _ ih => exact ih
  | addContext s n e ih =>
    obtain ⟨l, hl⟩ := ih
    refine ⟨l ++ [(s, .context n)], ?_⟩
    show e.replay Verbose ++ _ = _
    rw [hl]; rfl

end Trace

end Ntlm
