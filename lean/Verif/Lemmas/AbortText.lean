import Verif.Lemmas.Report
import Verif.Spec.AbortText
/-
  Where a panic of a decoder comes from, and with which message.
-/
set_option linter.unusedSectionVars false

namespace Ntlm

open Spec

namespace Trace

variable {E : Type} [NomError E] {α β : Type} {i : List UInt8}

/-- What `p` gives when it follows `q`. -/
theorem sim_ok_of {p : TP E α} {q : Parser α} (h : Sim i (fun _ => True) p q) {s : Slice} (hs : Within i s) {a : α}
    {t : Slice} (hp : p s = .ok (a, t)) : q s.data = .ok (a, t.data) ∧ Within i t := by
  have := h s hs
  rw [hp] at this
  generalize q s.data = y at this
  cases this with
  | ok h => exact ⟨rfl, h⟩

theorem sim_panic_of {p : TP E α} {q : Parser α} (h : Sim i (fun _ => True) p q) {s : Slice} (hs : Within i s)
    {pp : Panic} {m : Msg} (hp : p s = .error (.panic pp m)) : q s.data = .error (.panic pp) := by
  have := h s hs
  rw [hp] at this
  generalize q s.data = y at this
  cases this
  rfl

theorem relA_ok_of {x : Except (TErr E) α} {y : Except PErr α} (h : RelA (fun _ => True) x y) {a : α} (hx : x = .ok a) :
    y = .ok a := by
  subst hx
  cases h
  rfl

theorem relA_panic_of {x : Except (TErr E) α} {y : Except PErr α} (h : RelA (fun _ => True) x y) {pp : Panic} {m : Msg}
    (hx : x = .error (.panic pp m)) : y = .error (.panic pp) := by
  subst hx
  cases h
  rfl

theorem context_panic {p : TP E α} {n : String} {s : Slice} {pp : Panic} {m : Msg} :
    context n p s = .error (.panic pp m) ↔ p s = .error (.panic pp m) := by
  unfold context
  rcases p s with (e | _ | _) | _ <;> simp

theorem pmap_panic {p : TP E α} {f : α → β} {s : Slice} {pp : Panic} {m : Msg} :
    pmap p f s = .error (.panic pp m) ↔ p s = .error (.panic pp m) := by
  unfold pmap
  rcases p s with (e | _ | _) | _ <;> simp

theorem bind_panic {p : TP E α} {f : α → TP E β} {s : Slice} {pp : Panic} {m : Msg}
    (h : (p >>= f) s = .error (.panic pp m)) :
    p s = .error (.panic pp m) ∨ ∃ a t, p s = .ok (a, t) ∧ f a t = .error (.panic pp m) := by
  simp only [bind] at h
  rcases hp : p s with e | ⟨a, t⟩
  · rw [hp] at h
    simp only [Except.error.injEq] at h
    exact .inl (by rw [h])
  · rw [hp] at h; exact .inr ⟨a, t, rfl, h⟩

theorem exbind_panic {x : Except (TErr E) α} {f : α → Except (TErr E) β} {pp : Panic} {m : Msg}
    (h : (x >>= f) = .error (.panic pp m)) :
    x = .error (.panic pp m) ∨ ∃ a, x = .ok a ∧ f a = .error (.panic pp m) := by
  rcases x with e | a
  · simp only [bind, Except.bind, Except.error.injEq] at h
    exact .inl (by rw [h])
  · exact .inr ⟨a, rfl, h⟩

/-! ### AV pairs -/

theorem avValue_says {p : TP E α} {q : Parser α} (h : Sim i (fun _ => True) p q) {cfg : Cfg} {id : AvId} {mk : α → AvPair}
    (hr : Reads q cfg id mk) {data after : Slice} (hd : Within i data) {pp : Panic} {m : Msg}
    (hx : avValue cfg p mk data after = .error (.panic pp m)) :
    cfg.debug = true ∧ ∃ x rest, x.getId = id ∧ data.data = avValueBytes x ++ rest ∧ pairOk cfg x ∧ leftover x rest ∧
      rest ≠ [] ∧ m = .leftOver rest.length := by
  unfold avValue at hx
  rcases hp : p data with e | ⟨a, r⟩
  · rw [hp] at hx
    simp only [Except.error.injEq] at hx
    subst hx
    have := hr.noPanic _ _ (sim_panic_of h hd hp)
    cases this
  · rw [hp] at hx
    simp only at hx
    split at hx
    · rename_i hc
      simp only [Except.error.injEq, TErr.panic.injEq] at hx
      obtain ⟨h1, h2, h3⟩ := (hr.ok _ _ _).mp (sim_ok_of h hd hp).1
      simp only [Bool.and_eq_true, bne_iff_ne, ne_eq] at hc
      exact ⟨hc.1, mk a, r.data, hr.getId a, h1, h2, h3, fun h0 => hc.2 (by rw [h0]; rfl), hx.2.symm⟩
    · cases hx

theorem avPairValue_says {cfg : Cfg} {id : AvId} {data after : Slice} (hd : Within i data) {pp : Panic} {m : Msg}
    (hx : (avPairValue cfg id data after : Except (TErr E) _) = .error (.panic pp m)) :
    cfg.debug = true ∧ ∃ x rest, x.getId = id ∧ data.data = avValueBytes x ++ rest ∧ pairOk cfg x ∧ leftover x rest ∧
      rest ≠ [] ∧ m = .leftOver rest.length := by
  have c := closed_true (E := E) i
  cases id with
  | eol =>
    simp only [avPairValue] at hx
    split at hx <;> cases hx
  | nbComputerName => exact avValue_says (sim_unicodeString c cfg) (readsAv_nbComputerName cfg) hd hx
  | nbDomainName => exact avValue_says (sim_unicodeString c cfg) (readsAv_nbDomainName cfg) hd hx
  | dnsComputerName => exact avValue_says (sim_unicodeString c cfg) (readsAv_dnsComputerName cfg) hd hx
  | dnsDomainName => exact avValue_says (sim_unicodeString c cfg) (readsAv_dnsDomainName cfg) hd hx
  | dnsTreeName => exact avValue_says (sim_unicodeString c cfg) (readsAv_dnsTreeName cfg) hd hx
  | flags => exact avValue_says (sim_msvAvFlags c cfg) (readsAv_flags cfg) hd hx
  | timestamp => exact avValue_says (sim_fileTime c cfg) (readsAv_timestamp cfg) hd hx
  | singleHost => exact avValue_says (sim_singleHostData c cfg) (readsAv_singleHost cfg) hd hx
  | targetName => exact avValue_says (sim_unicodeString c cfg) (readsAv_targetName cfg) hd hx
  | channelBindings => exact avValue_says (sim_takeBytes c 16) (readsAv_channelBindings cfg) hd hx

theorem avId_sees (s r : List UInt8) (id : AvId) (cfg : Cfg)
    (h : (Wire.deserialize cfg : Parser AvId) s = .ok (id, r)) :
    2 ≤ s.length ∧ id.toU16.toNat = u16At s 0 ∧ r = s.drop 2 := by
  simp only [Wire.deserialize, Ntlm.mapOpt, leU16_eq, leVal_take2] at h
  by_cases hl : s.length < 2
  · rw [if_pos hl] at h; cases h
  · rw [if_neg hl] at h
    simp only at h
    rcases avId_ofNat (u16At s 0) (u16At_lt s 0) with ⟨_, h2⟩ | ⟨_, id', h2, h3⟩
    · rw [h2] at h; cases h
    · rw [h2] at h
      simp only [Except.ok.injEq, Prod.mk.injEq] at h
      exact ⟨by omega, by rw [← h.1]; exact h3, h.2.symm⟩

theorem avPair_says {cfg : Cfg} {s : Slice} (hs : Within i s) {pp : Panic} {m : Msg}
    (hx : (avPair cfg : TP E AvPair) s = .error (.panic pp m)) :
    cfg.debug = true ∧ ∃ x, pairAt cfg s.data x ∧ (avValueBytes x).length < u16At s.data 2 ∧
      m = .leftOver (u16At s.data 2 - (avValueBytes x).length) := by
  have c := closed_true (E := E) i
  rcases bind_panic hx with hx | ⟨⟨id, data⟩, after, hok, hx⟩
  · rw [context_panic] at hx
    rcases bind_panic hx with hx | ⟨id, t, h1, hx⟩
    · have := sim_panic_of (sim_avId c cfg) hs hx
      simp only [Wire.deserialize, Ntlm.mapOpt, leU16_eq] at this
      by_cases hl : s.data.length < 2
      · rw [if_pos hl] at this; cases this
      · rw [if_neg hl] at this
        simp only at this
        split at this <;> cases this
    · have ht := (sim_ok_of (sim_avId c cfg) hs h1).2
      rcases bind_panic hx with hx | ⟨d, t', h2, hx⟩
      · unfold lengthData at hx
        rcases h3 : (leU16 : TP E UInt16) t with e | ⟨n, u⟩
        · rw [h3] at hx
          simp only [Except.error.injEq] at hx
          subst hx
          have := sim_panic_of (sim_leU16 c) ht h3
          rw [leU16_eq] at this
          split at this <;> cases this
        · rw [h3] at hx
          simp only at hx
          split at hx <;> cases hx
      · cases hx
  · have hok' : (do let id ← avId; let data ← lengthData leU16; return (id, data) : TP E (AvId × Slice)) s =
        .ok ((id, data), after) := by
      unfold context at hok
      split at hok
      · cases hok
      · exact hok
    simp only [bind] at hok'
    rcases h1 : (avId : TP E AvId) s with e | ⟨id', t⟩
    · rw [h1] at hok'; cases hok'
    rw [h1] at hok'
    simp only [lengthData] at hok'
    obtain ⟨hb, ht⟩ := sim_ok_of (sim_avId c cfg) hs h1
    obtain ⟨g1, g2, g3⟩ := avId_sees _ _ _ cfg hb
    rcases h2 : (leU16 : TP E UInt16) t with e | ⟨n, u⟩
    · rw [h2] at hok'; cases hok'
    rw [h2] at hok'
    simp only at hok'
    obtain ⟨hb2, hu⟩ := sim_ok_of (sim_leU16 c) ht h2
    rw [leU16_eq, leVal_take2, g3, u16At_drop] at hb2
    split at hb2
    · cases hb2
    rename_i g4
    simp only [Except.ok.injEq, Prod.mk.injEq, List.drop_drop, Nat.add_zero] at hb2
    have hn : n.toNat = u16At s.data 2 := by
      rw [← hb2.1]
      have := u16At_lt s.data 2
      simp only [UInt16.toNat_ofNat']; omega
    simp only [List.length_drop] at g4
    by_cases g5 : u.data.length < n.toNat
    · rw [if_pos g5] at hok'; cases hok'
    rw [if_neg g5] at hok'
    simp only [pure, Except.ok.injEq, Prod.mk.injEq] at hok'
    obtain ⟨⟨rfl, rfl⟩, rfl⟩ := hok'
    rw [← hb2.2, List.length_drop, hn] at g5
    obtain ⟨hd, x, rest, k1, k2, k3, k4, k5, k6⟩ := avPairValue_says (within_take hu n.toNat) hx
    have hv : bytesAt s.data 4 (u16At s.data 2) = avValueBytes x ++ rest := by
      rw [← k2, Slice.take, ← hb2.2, hn]
      rfl
    have hlen : u16At s.data 2 = (avValueBytes x).length + rest.length := by
      have := congrArg List.length hv
      simp only [bytesAt, List.length_take, List.length_drop, List.length_append] at this
      omega
    have hpos : 0 < rest.length := List.length_pos_iff.mpr k5
    refine ⟨hd, x, ⟨by omega, ?_, by omega, ⟨rest, hv, k3, k4⟩⟩, by omega, ?_⟩
    · rw [← avId_toU16, k1, g2]
    · rw [k6, hlen]
      congr 1
      omega

theorem many0Aux_says {cfg : Cfg} (fuel : Nat) {s : Slice} (hs : Within i s) {pp : Panic} {m : Msg}
    (hx : (many0Aux (avPair cfg) fuel : TP E _) s = .error (.panic pp m)) :
    cfg.debug = true ∧ ∃ n, AvLeft cfg s.data n ∧ m = .leftOver n := by
  have c := closed_true (E := E) i
  induction fuel generalizing s with
  | zero => cases hx
  | succ fuel ih =>
    simp only [many0Aux] at hx
    rcases hp : (avPair cfg : TP E AvPair) s with (e | _ | ⟨p', m'⟩) | ⟨a, r⟩
    · rw [hp] at hx; cases hx
    · rw [hp] at hx; cases hx
    · rw [hp] at hx
      simp only [Except.error.injEq, TErr.panic.injEq] at hx
      obtain ⟨rfl, rfl⟩ := hx
      obtain ⟨hd, x, k1, k2, k3⟩ := avPair_says hs hp
      exact ⟨hd, _, .here k1 k2, k3⟩
    · rw [hp] at hx
      simp only at hx
      split at hx
      · obtain ⟨h1, h2⟩ := sim_ok_of (sim_avPair c cfg) hs hp
        rcases hq : (many0Aux (avPair cfg) fuel : TP E _) r with e | ⟨as, r'⟩
        · rw [hq] at hx
          simp only [Except.error.injEq] at hx
          subst hx
          obtain ⟨hd, n, k1, k2⟩ := ih h2 hq
          obtain ⟨g1, g2, g3⟩ := (avPair_ok_iff cfg _ _ _).mp h1
          rw [g3] at k1
          refine ⟨hd, n, .later g1 ?_ k1, k2⟩
          rw [← g2 hd]
          have := g1.2.2.1
          simp only [bytesAt, List.length_take, List.length_drop]
          omega
        · rw [hq] at hx; cases hx
      · cases hx

theorem many0_says {cfg : Cfg} {s : Slice} (hs : Within i s) {pp : Panic} {m : Msg}
    (hx : (many0 (avPair cfg) : TP E _) s = .error (.panic pp m)) :
    cfg.debug = true ∧ ∃ n, AvLeft cfg s.data n ∧ m = .leftOver n := many0Aux_says _ hs hx

/-! ### NT responses -/

theorem silent {p : TP E α} {q : Parser α} (h : Sim i (fun _ => True) p q) {s : Slice} (hs : Within i s)
    (hq : ¬ panics (q s.data)) {pp : Panic} {m : Msg} : p s ≠ .error (.panic pp m) :=
  fun hp => hq ⟨pp, sim_panic_of h hs hp⟩

theorem fixed_step {p : TP E α} {q : Parser α} (h : Sim i (fun _ => True) p q) {n : Nat} (hf : Fixed q n)
    {f : α → TP E β} {s : Slice} (hs : Within i s) {pp : Panic} {m : Msg} (hx : (p >>= f) s = .error (.panic pp m)) :
    ∃ a t, Within i t ∧ t.data = s.data.drop n ∧ f a t = .error (.panic pp m) := by
  rcases bind_panic hx with hx | ⟨a, t, h1, hx⟩
  · exact absurd hx (silent h hs (hf.noPanic _))
  · obtain ⟨h2, h3⟩ := sim_ok_of h hs h1
    exact ⟨a, t, h3, (hf.rest h2).1, hx⟩

theorem ntv2_says {cfg : Cfg} {s : Slice} (hs : Within i s) {pp : Panic} {m : Msg}
    (hx : (ntv2 cfg : TP E _) s = .error (.panic pp m)) :
    cfg.debug = true ∧ ntv2Fixed cfg s.data ∧ ∃ n, AvLeft cfg (s.data.drop 28) n ∧ m = .leftOver n := by
  have c := closed_true (E := E) i
  have hfix := ((ntv2_panics cfg s.data).mp ⟨pp, sim_panic_of (sim_ntv2 c cfg) hs hx⟩).2.1
  unfold ntv2 at hx
  rw [context_panic] at hx
  obtain ⟨_, t1, w1, d1, hx⟩ := fixed_step (sim_context c _ (sim_verify c (sim_leU8 c) _)) (fixed_verify fixed_leU8 _) hs hx
  obtain ⟨_, t2, w2, d2, hx⟩ := fixed_step (sim_context c _ (sim_verify c (sim_leU8 c) _)) (fixed_verify fixed_leU8 _) w1 hx
  obtain ⟨_, t3, w3, d3, hx⟩ := fixed_step (sim_context c _ (sim_verify c (sim_leU16 c) _)) (fixed_verify fixed_leU16 _) w2 hx
  obtain ⟨_, t4, w4, d4, hx⟩ := fixed_step (sim_context c _ (sim_verify c (sim_leU32 c) _)) (fixed_verify fixed_leU32 _) w3 hx
  obtain ⟨_, t5, w5, d5, hx⟩ := fixed_step (sim_fileTime c cfg) (fixed_fileTime cfg) w4 hx
  obtain ⟨_, t6, w6, d6, hx⟩ := fixed_step (sim_bytes c cfg _ 8) (fixed_bytes cfg 8) w5 hx
  obtain ⟨_, t7, w7, d7, hx⟩ := fixed_step (sim_verify c (sim_leU32 c) _) (fixed_verify fixed_leU32 _) w6 hx
  have hd : t7.data = s.data.drop 28 := by
    rw [d7, d6, d5, d4, d3, d2, d1]
    simp only [List.drop_drop]
  rcases bind_panic hx with hx | ⟨a, t, h1, hx⟩
  · obtain ⟨h1, n, h2, h3⟩ := many0_says w7 hx
    exact ⟨h1, hfix, n, hd ▸ h2, h3⟩
  · cases hx

theorem nt_says {cfg : Cfg} {s : Slice} (hs : Within i s) {pp : Panic} {m : Msg}
    (hx : (ntChallenge cfg : TP E _) s = .error (.panic pp m)) :
    cfg.debug = true ∧ ntv2Fixed cfg s.data ∧ ∃ n, AvLeft cfg (s.data.drop 28) n ∧ m = .leftOver n := by
  have c := closed_true (E := E) i
  unfold ntChallenge alt at hx
  rcases h1 : (pmap (ntv2 cfg) NtChallenge.v2 : TP E _) s with (e | _ | ⟨p', m'⟩) | ⟨a, r⟩
  · rw [h1] at hx
    simp only at hx
    rcases h2 : (pmap ntv1 NtChallenge.v1 : TP E _) s with (e | _ | ⟨p', m'⟩) | ⟨a, r⟩
    · rw [h2] at hx; cases hx
    · rw [h2] at hx; cases hx
    · exact absurd (pmap_panic.mp h2) (silent (sim_ntv1 c cfg) hs ((fixed_ntv1 cfg).noPanic _))
    · rw [h2] at hx; cases hx
  · rw [h1] at hx; cases hx
  · rw [h1] at hx
    simp only [Except.error.injEq, TErr.panic.injEq] at hx
    obtain ⟨rfl, rfl⟩ := hx
    exact ntv2_says hs (pmap_panic.mp h1)
  · rw [h1] at hx; cases hx

/-! ### Fields -/

theorem slice_says (pos : Nat) :
    (slice (fieldAt i pos) ⟨0, i⟩ : Except (TErr E) Slice) =
      if u32At i (pos + 4) + u16At i pos ≤ i.length then .ok (rangeOf i pos)
      else .error (.panic .sliceIndex (rangeMsg i pos)) := by
  unfold slice
  rw [fieldAt_len, fieldAt_offset]
  simp only [Slice.drop, Slice.take, Nat.zero_add]
  rfl

theorem getDataIf_says {p : TP E α} {n : String} {pos : Nat} {pp : Panic} {m : Msg}
    (hx : getDataIf p n (fieldAt i pos) ⟨0, i⟩ true = .error (.panic pp m)) :
    (outOfRange i pos ∧ m = rangeMsg i pos) ∨
    (¬ emptyField i pos ∧ ¬ outOfRange i pos ∧ p (rangeOf i pos) = .error (.panic pp m)) := by
  unfold getDataIf at hx
  rw [if_pos rfl] at hx
  by_cases h0 : u16At i pos = 0
  · rw [if_pos ((fieldAt_len_zero i pos).mpr h0)] at hx; cases hx
  rw [if_neg (fun h => h0 ((fieldAt_len_zero i pos).mp h)), slice_says pos] at hx
  by_cases hl : u32At i (pos + 4) + u16At i pos ≤ i.length
  · rw [if_pos hl] at hx
    simp only at hx
    refine .inr ⟨h0, fun ho => by have := ho.2; omega, ?_⟩
    rcases hc : context n (context "Field::get_data" p) (rangeOf i pos) with e | ⟨a, r⟩
    · rw [hc] at hx
      simp only [Except.error.injEq] at hx
      subst hx
      exact context_panic.mp (context_panic.mp hc)
    · rw [hc] at hx; cases hx
  · rw [if_neg hl] at hx
    simp only [Except.error.injEq, TErr.panic.injEq] at hx
    exact .inl ⟨⟨h0, by omega⟩, hx.2.symm⟩

theorem getManyIf_says {p : TP E α} {pos : Nat} {pp : Panic} {m : Msg}
    (hx : getManyIf p (fieldAt i pos) ⟨0, i⟩ true = .error (.panic pp m)) :
    (outOfRange i pos ∧ m = rangeMsg i pos) ∨
    (¬ emptyField i pos ∧ ¬ outOfRange i pos ∧ many0 p (rangeOf i pos) = .error (.panic pp m)) := by
  unfold getManyIf at hx
  rw [if_pos rfl] at hx
  by_cases h0 : u16At i pos = 0
  · rw [if_pos ((fieldAt_len_zero i pos).mpr h0)] at hx; cases hx
  rw [if_neg (fun h => h0 ((fieldAt_len_zero i pos).mp h)), slice_says pos] at hx
  by_cases hl : u32At i (pos + 4) + u16At i pos ≤ i.length
  · rw [if_pos hl] at hx
    simp only at hx
    refine .inr ⟨h0, fun ho => by have := ho.2; omega, ?_⟩
    rcases hc : context "Field::get_data" (many0 p) (rangeOf i pos) with e | ⟨a, r⟩
    · rw [hc] at hx
      simp only [Except.error.injEq] at hx
      subst hx
      exact context_panic.mp hc
    · rw [hc] at hx; cases hx
  · rw [if_neg hl] at hx
    simp only [Except.error.injEq, TErr.panic.injEq] at hx
    exact .inl ⟨⟨h0, by omega⟩, hx.2.symm⟩

/-- A field whose content cannot abort. -/
theorem getDataIf_range {p : TP E α} {q : Parser α} (h : Sim i (fun _ => True) p q) (hq : ∀ b, ¬ panics (q b)) {n : String}
    {pos : Nat} {pp : Panic} {m : Msg} (hx : getDataIf p n (fieldAt i pos) ⟨0, i⟩ true = .error (.panic pp m)) :
    outOfRange i pos ∧ m = rangeMsg i pos := by
  rcases getDataIf_says hx with hx | ⟨h0, ho, hx⟩
  · exact hx
  · exact absurd hx (silent h (within_rangeOf pos ho h0) (hq _))

/-- A field that is read lies inside the input. -/
theorem getDataIf_inside {p : TP E α} {n : String} {pos : Nat} {x : Option α}
    (hx : getDataIf p n (fieldAt i pos) ⟨0, i⟩ true = .ok x) : ¬ outOfRange i pos := by
  intro ho
  unfold getDataIf at hx
  rw [if_pos rfl, if_neg (fun h => ho.1 ((fieldAt_len_zero i pos).mp h)), slice_says pos, if_neg (by have := ho.2; omega)] at hx
  cases hx

theorem trace_of_ok {p : TP E α} {q : Parser α} (h : Sim i (fun _ => True) p q) {s : Slice} (hs : Within i s) {a : α}
    {r : List UInt8} (hq : q s.data = .ok (a, r)) : ∃ t, p s = .ok (a, t) ∧ t.data = r ∧ Within i t := by
  have := h s hs
  rw [hq] at this
  generalize p s = y at this
  cases this with
  | ok h => exact ⟨_, rfl, rfl, h⟩

/-! ### Messages -/

theorem negotiate_says {cfg : Cfg} {pp : Panic} {m : Msg}
    (hx : run (negotiate cfg : TP E Negotiate) i = .error (.panic pp m)) : negotiateSays i m := by
  have c := closed_true (E := E) i
  have hab := (negotiate_panics cfg i).mp ⟨pp, sim_panic_of (sim_negotiate c cfg) (within_self i) hx⟩
  obtain ⟨hh, hv, _⟩ := hab
  refine ⟨hh, hv, ?_⟩
  unfold run negotiate at hx
  obtain ⟨t, e1, e2, w⟩ := trace_of_ok (sim_negotiateHeader c cfg) (within_self i) (negotiate_header_at cfg i hh)
  rw [e1] at hx
  simp only at hx
  have hv' := version_at cfg i 12 32 hv
  rw [← e2] at hv'
  obtain ⟨u, e3, _, _⟩ := trace_of_ok (sim_cond (sim_context c "Negotiate/version" (sim_version c cfg)) _) w hv'
  rw [e3] at hx
  simp only [Bool.or_true] at hx
  rcases h1 : (getDataIf oemString "domain" (fieldAt i 16) ⟨0, i⟩ true : Except (TErr E) _) with e | d
  · rw [h1] at hx
    simp only [Except.error.injEq] at hx
    subst hx
    exact .inl (.inl (getDataIf_range (sim_oemString c cfg) (oem_noPanic cfg) h1))
  · rw [h1] at hx
    simp only at hx
    have ho := getDataIf_inside h1
    have hb := relA_ok_of (rel_getDataIf c cfg (sim_oemString c cfg) "domain" (fieldAt i 16) (within_self i) true) h1
    refine .inr ⟨ho, ?_, ?_⟩
    · rcases (getDataIf_ok cfg i 16).mp ⟨_, hb⟩ with h | ⟨_, h⟩
      · exact .inl h
      · exact .inr ((oem_ok cfg _).mp h)
    · rcases h2 : (getDataIf oemString "workstation" (fieldAt i 24) ⟨0, i⟩ true : Except (TErr E) _) with e | d
      · rw [h2] at hx
        simp only [Except.error.injEq] at hx
        subst hx
        exact .inl (getDataIf_range (sim_oemString c cfg) (oem_noPanic cfg) h2)
      · rw [h2] at hx; cases hx

theorem challenge_says {cfg : Cfg} {pp : Panic} {m : Msg}
    (hx : run (challenge cfg : TP E Challenge) i = .error (.panic pp m)) : challengeSays cfg i m := by
  have c := closed_true (E := E) i
  have hab := (challenge_panics cfg i).mp ⟨pp, sim_panic_of (sim_challenge c cfg) (within_self i) hx⟩
  obtain ⟨hh, hv, hwhy⟩ := hab
  refine ⟨hh, hv, ?_⟩
  have h24 : 24 + 8 ≤ i.length := by have := hh.1.1; omega
  unfold run challenge at hx
  obtain ⟨t, e1, e2, w⟩ := trace_of_ok (sim_challengeHeader c cfg) (within_self i) (challenge_header_at cfg i hh h24)
  rw [e1] at hx
  simp only at hx
  have hv' := version_at cfg i 20 48 hv
  rw [← e2] at hv'
  obtain ⟨u, e3, _, _⟩ := trace_of_ok (sim_cond (sim_context c "version" (sim_version c cfg)) _) w hv'
  rw [e3] at hx
  simp only [Bool.or_true] at hx
  rcases h1 : (getDataIf unicodeString "target_name" (fieldAt i 12) ⟨0, i⟩ true : Except (TErr E) _) with e | d
  · rw [h1] at hx
    simp only [Except.error.injEq] at hx
    subst hx
    exact .inl (.inl (getDataIf_range (sim_unicodeString c cfg) (unicode_noPanic cfg) h1))
  · rw [h1] at hx
    simp only at hx
    have ho := getDataIf_inside h1
    rcases h2 : (getManyIf (avPair cfg) (fieldAt i 40) ⟨0, i⟩ true : Except (TErr E) _) with e | l
    · rw [h2] at hx
      simp only [Except.error.injEq] at hx
      subst hx
      rcases getManyIf_says h2 with ⟨g1, g2⟩ | ⟨g0, g1, g2⟩
      · exact .inl (.inr ⟨ho, .inl ⟨g1, g2⟩⟩)
      · obtain ⟨hd, n, k1, k2⟩ := many0_says (within_rangeOf 40 g1 g0) g2
        exact .inr ⟨ho, g1, hd, g0, n, k1, k2⟩
    · exfalso
      have hb := relA_ok_of (rel_getManyIf c cfg (sim_avPair c cfg) (fieldAt i 40) (within_self i) true) h2
      have hn : ¬ panics ((fieldAt i 40).getManyIf cfg i true : Except PErr (List AvPair)) := by
        rw [show ((fieldAt i 40).getManyIf cfg i true : Except PErr (List AvPair)) = .ok l from hb]
        exact panics_ok _
      rw [getManyIf_panics] at hn
      rcases hwhy with h | h | ⟨hd, h0, hr⟩
      · exact ho h
      · exact hn (.inl h)
      · exact hn (.inr ⟨hd, h0, fun h => hn (.inl h), hr⟩)

theorem okFlatten_panic {x : Except (TErr E) (Option α)} {pp : Panic} {m : Msg}
    (hx : okFlatten x = .error (.panic pp m)) : x = .error (.panic pp m) := by
  rcases x with (e | _ | _) | _
  · cases hx
  · cases hx
  · exact hx
  · cases hx

theorem lm_says (cfg : Cfg) {pp : Panic} {m : Msg}
    (hx : (lmResponse (authHeaderAt i) ⟨0, i⟩ : Except (TErr E) _) = .error (.panic pp m)) :
    outOfRange i 12 ∧ m = rangeMsg i 12 := by
  have c := closed_true (E := E) i
  unfold lmResponse at hx
  split at hx
  · rcases h1 : okFlatten (getDataIf lmv1 "lmv1_challenge_response" (authHeaderAt i).lm ⟨0, i⟩ true :
        Except (TErr E) _) with e | x
    · rw [h1] at hx
      simp only [Except.error.injEq] at hx
      subst hx
      exact getDataIf_range (sim_lmv1 c cfg) (fixed_lmv1 cfg).noPanic (okFlatten_panic h1)
    · rw [h1] at hx; cases hx
  · rcases h1 : okFlatten (getDataIf lmv2 "lmv2_challenge_response" (authHeaderAt i).lm ⟨0, i⟩ true :
        Except (TErr E) _) with e | x
    · rw [h1] at hx
      simp only [Except.error.injEq] at hx
      subst hx
      exact getDataIf_range (sim_lmv2 c cfg) (fixed_lmv2 cfg).noPanic (okFlatten_panic h1)
    · rw [h1] at hx; cases hx

theorem lm_inside (cfg : Cfg) {x : Option LmChallenge}
    (hx : (lmResponse (authHeaderAt i) ⟨0, i⟩ : Except (TErr E) _) = .ok x) : ¬ outOfRange i 12 := by
  have hb := relA_ok_of (rel_lmResponse (closed_true (E := E) i) cfg (authHeaderAt i) (within_self i)) hx
  rw [← lmResponse_panics cfg i, show Authenticate.lmResponse cfg (authHeaderAt i) i = .ok x from hb]
  exact panics_ok _

theorem body_says {cfg : Cfg} {v : Option Version} {mic : Bytes 16} {pp : Panic} {m : Msg}
    (hx : (authenticateBody cfg (authHeaderAt i) v mic ⟨0, i⟩ : Except (TErr E) _) = .error (.panic pp m)) :
    firstOut i [12, 20] m ∨
      (¬ outOfRange i 12 ∧ ¬ outOfRange i 20 ∧ cfg.debug = true ∧ ¬ emptyField i 20 ∧ ntv2Fixed cfg (fieldBytes i 20) ∧
        ∃ n, AvLeft cfg ((fieldBytes i 20).drop 28) n ∧ m = .leftOver n) ∨
      (¬ outOfRange i 12 ∧ ¬ outOfRange i 20 ∧ (emptyField i 20 ∨ ntDecodes cfg (fieldBytes i 20)) ∧
        (firstOut i [28, 36, 44] m ∨
          (¬ outOfRange i 28 ∧ ¬ outOfRange i 36 ∧ ¬ outOfRange i 44 ∧ flagAt i 60 30 ∧ firstOut i [52] m))) := by
  have c := closed_true (E := E) i
  unfold authenticateBody at hx
  rcases exbind_panic hx with hx | ⟨lm, h12, hx⟩
  · exact .inl (.inl (lm_says cfg hx))
  have o12 := lm_inside cfg h12
  rcases exbind_panic hx with hx | ⟨nt, h20, hx⟩
  · rcases getDataIf_says (pos := 20) hx with ⟨g1, g2⟩ | ⟨g0, g1, g2⟩
    · exact .inl (.inr ⟨o12, .inl ⟨g1, g2⟩⟩)
    · obtain ⟨k1, k2, k3⟩ := nt_says (within_rangeOf 20 g1 g0) g2
      exact .inr (.inl ⟨o12, g1, k1, g0, k2, k3⟩)
  have o20 := getDataIf_inside (pos := 20) h20
  have hb := relA_ok_of (rel_getDataIf c cfg (sim_ntChallenge c cfg) "nt_challenge_response" (fieldAt i 20)
    (within_self i) true) h20
  have hnt : emptyField i 20 ∨ ntDecodes cfg (fieldBytes i 20) := by
    rcases (getDataIf_ok cfg i 20).mp ⟨_, hb⟩ with h | ⟨_, h⟩
    · exact .inl h
    · exact .inr ((nt_ok cfg _).mp h)
  refine .inr (.inr ⟨o12, o20, hnt, ?_⟩)
  rcases exbind_panic hx with hx | ⟨d, h28, hx⟩
  · exact .inl (.inl (getDataIf_range (pos := 28) (sim_unicodeString c cfg) (unicode_noPanic cfg) hx))
  have o28 := getDataIf_inside (pos := 28) h28
  rcases exbind_panic hx with hx | ⟨u, h36, hx⟩
  · exact .inl (.inr ⟨o28, .inl (getDataIf_range (pos := 36) (sim_unicodeString c cfg) (unicode_noPanic cfg) hx)⟩)
  have o36 := getDataIf_inside (pos := 36) h36
  rcases exbind_panic hx with hx | ⟨w, h44, hx⟩
  · exact .inl (.inr ⟨o28, .inr ⟨o36, .inl
      (getDataIf_range (pos := 44) (sim_unicodeString c cfg) (unicode_noPanic cfg) hx)⟩⟩)
  have o44 := getDataIf_inside (pos := 44) h44
  rcases exbind_panic hx with hx | ⟨k, h52, hx⟩
  · have e : (authHeaderAt i).flags.hasFlag Flags.NTLMSSP_NEGOTIATE_KEY_EXCH = (u32At i 60).testBit 30 := by
      show (flagsAt i 60).hasFlag _ = _
      rw [hasFlag_testBit _ _ (by decide), flagsAt_bits]; rfl
    rw [e] at hx
    cases hf : (u32At i 60).testBit 30 with
    | false => rw [hf] at hx; cases hx
    | true =>
      rw [hf] at hx
      exact .inr ⟨o28, o36, o44, hf, .inl
        (getDataIf_range (pos := 52) (sim_bytes c cfg _ 16) (fixed_bytes cfg 16).noPanic hx)⟩
  · cases hx

theorem authenticate_says {cfg : Cfg} {pp : Panic} {m : Msg}
    (hx : run (authenticate cfg : TP E Authenticate) i = .error (.panic pp m)) : authenticateSays cfg i m := by
  have c := closed_true (E := E) i
  have hab := (authenticate_panics cfg i).mp ⟨pp, sim_panic_of (sim_authenticate c cfg) (within_self i) hx⟩
  obtain ⟨hh, hv, hm, _⟩ := hab
  refine ⟨hh, hv, hm, ?_⟩
  unfold run authenticate at hx
  obtain ⟨t, e1, e2, w⟩ := trace_of_ok (sim_authenticateHeader c cfg) (within_self i) (authenticate_header_at cfg i hh)
  rw [e1] at hx
  simp only at hx
  have hv' := version_at cfg i 60 64 hv
  rw [← e2] at hv'
  obtain ⟨u, e3, e4, w'⟩ := trace_of_ok (sim_cond (sim_context c "Authenticate/version" (sim_version c cfg)) _) w hv'
  rw [e3] at hx
  simp only at hx
  have hmic : (Wire.deserialize cfg : Parser (Bytes 16)) (i.drop (64 + versionSize i 60)) = _ :=
    takeBytes_at (n := 16) i _ hm
  obtain ⟨z, e5, _, _⟩ := trace_of_ok (sim_context c "Authenticate/mic" (sim_bytes c cfg "mic" 16)) w'
    ((congrArg _ e4).trans hmic)
  rw [e5] at hx
  simp only at hx
  generalize hb : (authenticateBody cfg _ _ _ ⟨0, i⟩ : Except (TErr E) Authenticate) = x at hx
  rcases x with e | x
  · simp only [Except.error.injEq] at hx
    subst hx
    exact body_says hb
  · cases hx

/-! ### Which message: at most one -/

theorem pairAt_unique {cfg : Cfg} {b : List UInt8} {x y : AvPair} (hx : pairAt cfg b x) (hy : pairAt cfg b y) : x = y := by
  have h1 := (avPair_ok_iff { cfg with debug := false } b _ x).mpr ⟨hx, fun h => absurd h (by simp), rfl⟩
  have h2 := (avPair_ok_iff { cfg with debug := false } b _ y).mpr ⟨hy, fun h => absurd h (by simp), rfl⟩
  rw [h1] at h2
  simp only [Except.ok.injEq, Prod.mk.injEq] at h2
  exact h2.1

theorem avLeft_unique {cfg : Cfg} {b : List UInt8} {n k : Nat} (h : AvLeft cfg b n) (h' : AvLeft cfg b k) : n = k := by
  induction h with
  | here hp hl =>
    cases h' with
    | here hp' hl' => rw [pairAt_unique hp hp']
    | later hp' hl' _ => rw [pairAt_unique hp hp'] at hl; omega
  | later hp hl _ ih =>
    cases h' with
    | here hp' hl' => rw [pairAt_unique hp hp'] at hl; omega
    | later hp' hl' h' => exact ih h'

theorem avLeft_residue {cfg : Cfg} {b : List UInt8} {n : Nat} (h : AvLeft cfg b n) : AvResidue cfg b := by
  induction h with
  | @here b p hp hl =>
    have hv : (bytesAt b 4 (u16At b 2)).length = u16At b 2 := by
      have := hp.2.2.1
      simp only [bytesAt, List.length_take, List.length_drop]; omega
    have hpan : panics ((Wire.deserialize { cfg with debug := true } : Parser AvPair) b) := by
      rcases hd : (Wire.deserialize { cfg with debug := true } : Parser AvPair) b with (_ | _ | q) | ⟨y, r⟩
      · exfalso
        have h1 := (avPair_error_iff { cfg with debug := true } b).mp hd
        have h2 := (avPair_ok_iff { cfg with debug := false } b _ p).mpr ⟨hp, fun h => absurd h (by simp), rfl⟩
        have h3 := (avPair_error_iff { cfg with debug := false } b).mpr h1
        rw [h2] at h3
        cases h3
      · exfalso
        rcases avPair_cases { cfg with debug := true } b with h | ⟨_, h⟩ | ⟨h, _⟩ | ⟨y, h, _⟩
        · rw [hd] at h; cases h
        · have := hp.2.2.1; omega
        · rw [hd] at h; cases h
        · rw [hd] at h; cases h
      · exact panics_panic _
      · exfalso
        obtain ⟨h1, h2, _⟩ := (avPair_ok_iff { cfg with debug := true } b r y).mp hd
        have h3 : pairAt cfg b y := h1
        have h4 := h2 rfl
        rw [pairAt_unique (cfg := cfg) h3 hp] at h4
        rw [h4] at hv
        omega
    have hr := (avPair_panics { cfg with debug := true } b).mp hpan
    exact .here hr.2.1 hr.2.2.1 hr.2.2.2
  | later hp hl _ ih => exact .later hp ih

end Trace

end Ntlm
