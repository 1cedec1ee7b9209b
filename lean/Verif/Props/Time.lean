import Verif.Props.Peer
import Verif.Spec.Time
/-
  C50: file times.
-/
namespace Ntlm.Props

open Spec Client

theorem tryFrom_value {t : SystemTime} {f : FileTime} (h : FileTime.tryFrom t = .ok f) :
    0 ≤ t.secs ∧ t.secs * 1000000 < 2 ^ 64 ∧ (fileTimeValue f : Int) = t.secs * 1000000 := by
  have h0 : 0 ≤ t.secs := by
    apply Classical.byContradiction
    intro hc
    rw [(C18_tryFrom t).1 (by omega)] at h
    cases h
  have h1 : t.secs * 1000000 < 2 ^ 64 := by
    apply Classical.byContradiction
    intro hc
    rw [(C18_tryFrom t).2.1 h0 (by omega)] at h
    cases h
  obtain ⟨f', h2, h3⟩ := (C18_tryFrom t).2.2 h0 h1
  rw [h] at h2
  cases h2
  exact ⟨h0, h1, h3⟩

/-- C50 is false: no file time this crate builds is the FILETIME of the time it was built from. -/
theorem C50_refuted (t : SystemTime) (f : FileTime) (h : FileTime.tryFrom t = .ok f) : (fileTimeValue f : Int) ≠ ticks t := by
  obtain ⟨h0, _, h1⟩ := tryFrom_value h
  simp only [ticks]
  omega

/-- The first second of 2020. -/
example : ∃ f, FileTime.tryFrom ⟨1577836800, 5⟩ = .ok f ∧ (fileTimeValue f : Int) ≠ ticks ⟨1577836800, 5⟩ :=
  ⟨_, rfl, C50_refuted _ _ rfl⟩

/-- C50 is false of reading too: whoever sends the FILETIME of a time from 1970 on is understood to mean a different second. -/
theorem C50_reading_refuted (cfg : Cfg) (t : SystemTime) (h0 : 0 ≤ t.secs) (hn : t.nanos < 1000000000) (f : FileTime)
    (h : (fileTimeValue f : Int) = ticks t) (u : SystemTime) (hu : f.toSystemTime cfg = some u) : u.secs ≠ t.secs := by
  simp only [FileTime.toSystemTime, fileTime_asU64, NANO_TO_MILLI] at hu
  split at hu
  · simp only [Option.some.injEq] at hu
    subst hu
    simp only [ticks, fileTimeValue] at h ⊢
    omega
  · cases hu

example (cfg : Cfg) (u : SystemTime) (h : (⟨1761935360, 30785590⟩ : FileTime).toSystemTime cfg = some u) : u.secs ≠ 1577836800 :=
  C50_reading_refuted cfg ⟨1577836800, 0⟩ (by decide) (by decide) ⟨1761935360, 30785590⟩ (by decide) u h

/-- C50: what a peer makes of a file time built here: it takes the seconds since 1970 for tenths of seconds since 1601. -/
theorem C50_peer_reads (t : SystemTime) (f : FileTime) (h : FileTime.tryFrom t = .ok f) (u : SystemTime)
    (hu : (fileTimeValue f : Int) = ticks u) (hn : u.nanos < 1000000000) :
    u.secs = t.secs / 10 - 11644473600 ∧ (u.nanos / 100000000 : Int) = t.secs % 10 := by
  obtain ⟨h0, _, h1⟩ := tryFrom_value h
  rw [h1] at hu
  simp only [ticks] at hu
  omega

/-- The first second of 2020 is read as a day in the year 1606. -/
example : ∃ f, FileTime.tryFrom ⟨1577836800, 5⟩ = .ok f ∧ (fileTimeValue f : Int) = ticks ⟨157783680 - 11644473600, 0⟩ :=
  ⟨_, rfl, by decide⟩

/-- C50, the part that holds: within this crate file times keep the chronological order, and tell different seconds apart. -/
theorem C50_order_partial (t u : SystemTime) (f g : FileTime) (hf : FileTime.tryFrom t = .ok f) (hg : FileTime.tryFrom u = .ok g) :
    (notAfter t u → fileTimeValue f ≤ fileTimeValue g) ∧ (f = g ↔ t.secs = u.secs) := by
  obtain ⟨_, _, h1⟩ := tryFrom_value hf
  obtain ⟨_, _, h2⟩ := tryFrom_value hg
  refine ⟨fun h => ?_, fun h => ?_, fun h => ?_⟩
  · simp only [notAfter] at h
    omega
  · subst h
    omega
  · have e : fileTimeValue f = fileTimeValue g := by omega
    exact (C18_value f g).2 (UInt64.toNat_inj.mp (by rw [fileTime_asU64, fileTime_asU64]; exact e))

example : ∃ f g, FileTime.tryFrom ⟨1577836800, 5⟩ = .ok f ∧ FileTime.tryFrom ⟨1577836801, 0⟩ = .ok g ∧ f ≠ g ∧
    fileTimeValue f ≤ fileTimeValue g := ⟨_, _, rfl, rfl, by decide, by decide⟩

theorem u32At_le (p : List UInt8) (k : Nat) (hk : p.length = k) (n : UInt32) (r : List UInt8) :
    u32At (p ++ (le 4 n.toNat ++ r)) k = n.toNat := by
  have : u32At (p ++ (le 4 n.toNat ++ r)) (k + 0) = u32At (le 4 n.toNat ++ r) 0 := by
    rw [← u32At_drop, List.drop_left' hk]
  rw [Nat.add_zero] at this
  rw [this, ← leVal_take4, List.take_left' (length_le 4 _), leVal_le]
  exact Nat.mod_eq_of_lt n.toNat_lt

/-- C50 at the client: in answer to a challenge without time, the NT response carries, at the place of the FILETIME, a number
    that is not the FILETIME of the clock. -/
theorem C50_client_refuted (P : Prims) (cm : CaseMap) (cfg : Cfg) (ver : UInt32) (hver : isV2 ver) (l : Login) (h : List Op)
    (ch : Challenge) (hno : ∀ x, AvPair.timestamp x ∉ ch.targetInfos) (rnd : AuthRand) (b : List UInt8)
    (hb : Answers P cm cfg ver l h ch rnd b) :
    let value : Nat := u32At (fieldBytes b 20) 8 + 2 ^ 32 * u32At (fieldBytes b 20) 12
    (value : Int) = rnd.clock.secs * 1000000 ∧ (value : Int) ≠ ticks rnd.clock := by
  obtain ⟨t, ht, hb, _⟩ := C42_blob P cm cfg ver hver l h ch rnd b hb
  rcases ht with ⟨x, y, hxy, _⟩ | ⟨_, h0, hv⟩
  · exact absurd (by rw [hxy]; simp) (hno t)
  · rw [hb]
    have e : ([1, 1, 0, 0, 0, 0, 0, 0] ++ fileTimeBytes t ++ rnd.clientChallenge.val ++ [0, 0, 0, 0] ++ avListBytes ch.targetInfos) =
        [1, 1, 0, 0, 0, 0, 0, 0] ++ (le 4 t.low.toNat ++ (le 4 t.high.toNat ++ (rnd.clientChallenge.val ++ ([0, 0, 0, 0] ++
          avListBytes ch.targetInfos)))) := by
      simp only [fileTimeBytes, List.append_assoc]
    have e1 := u32At_le [1, 1, 0, 0, 0, 0, 0, 0] 8 rfl t.low (le 4 t.high.toNat ++ (rnd.clientChallenge.val ++ ([0, 0, 0, 0] ++
          avListBytes ch.targetInfos)))
    have e2 := u32At_le ([1, 1, 0, 0, 0, 0, 0, 0] ++ le 4 t.low.toNat) 12 (by simp) t.high (rnd.clientChallenge.val ++
      ([0, 0, 0, 0] ++ avListBytes ch.targetInfos))
    rw [List.append_assoc] at e2
    rw [e]
    simp only [e1, e2]
    simp only [fileTimeValue] at hv
    constructor
    · omega
    · simp only [ticks]; omega

/-- The hypotheses are met, e.g. by the first second of 2020, and by a challenge without target info. -/
example : ∃ f, FileTime.tryFrom ⟨1577836800, 5⟩ = .ok f ∧ (fileTimeValue f : Int) = 1577836800000000 ∧
    ticks ⟨1577836800, 5⟩ = 132223104000000000 := ⟨_, rfl, by decide, by decide⟩
example : ∃ (f : FileTime) (cfg : Cfg) (u : SystemTime), (fileTimeValue f : Int) = ticks ⟨1577836800, 0⟩ ∧
    f.toSystemTime cfg = some u := ⟨⟨1761935360, 30785590⟩, ⟨false, false, .windows⟩, ⟨132223104000, 0⟩, by decide, by decide⟩
example (P : Prims) (cm : CaseMap) (cfg : Cfg) :
    ∃ ch b, (∀ x, AvPair.timestamp x ∉ ch.targetInfos) ∧ Answers P cm cfg 3 exLogin (exHistory ch) ch exRand b := by
  obtain ⟨t, ht⟩ := clockTime_exists exRand.clock (by decide) (by decide)
  obtain ⟨b, hb⟩ := (C46_answers_iff P cm cfg 3 exLogin (exHistory { exChallenge with targetInfos := [] })
    { exChallenge with targetInfos := [] } (exHistory_accepted _) exRand).mpr ⟨exLogin_created P cm, exLogin_names cm,
      .inr ⟨by simp [isV2], ⟨t, .inr ⟨by simp, ht⟩⟩, ⟨exChallenge_fits.1, by simp [avListFits, avListBytes]⟩, by simp [avListBytes]⟩⟩
  exact ⟨_, b, by simp, hb⟩

end Ntlm.Props
