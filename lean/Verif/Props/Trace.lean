import Verif.Lemmas.Report
import Verif.Lemmas.Hom
/-
  C78: the error type a caller chooses has no influence on the outcome, and reports only point into the input.
  C79: the exact report of every rejected message.
-/
namespace Ntlm.Props

open Spec Trace

theorem outcome_of_sim {E α : Type} [NomError E] {P : E → Prop} {p : TP E α} {q : Parser α} {i : List UInt8}
    (h : Sim i P p q) : outcome (run p i) = outcome0 (q i) := by
  have := h ⟨0, i⟩ (within_self i)
  simp only [run] at this ⊢
  generalize p ⟨0, i⟩ = x at this ⊢
  generalize q i = y at this ⊢
  cases this <;> rfl

/-- C78: with whatever error type, decoding gives what the decoders of `Model/Messages.lean` give. -/
theorem C78_outcome {E : Type} [NomError E] (cfg : Cfg) (i : List UInt8) :
    outcome (run (negotiate cfg : TP E Negotiate) i) = outcome0 ((Wire.deserialize cfg : Parser Negotiate) i) ∧
    outcome (run (challenge cfg : TP E Challenge) i) = outcome0 ((Wire.deserialize cfg : Parser Challenge) i) ∧
    outcome (run (authenticate cfg : TP E Authenticate) i) = outcome0 ((Wire.deserialize cfg : Parser Authenticate) i) ∧
    outcome (run (messageSignature : TP E MessageSignature) i) =
      outcome0 ((Wire.deserialize cfg : Parser MessageSignature) i) :=
  ⟨outcome_of_sim (sim_negotiate (closed_true i) cfg), outcome_of_sim (sim_challenge (closed_true i) cfg),
    outcome_of_sim (sim_authenticate (closed_true i) cfg), outcome_of_sim (sim_messageSignature (closed_true i) cfg)⟩

/-- Both sides can be a value: a message signature of sixteen bytes, with one byte left. -/
example : outcome (run (messageSignature : TP Plain MessageSignature) ([1, 0, 0, 0] ++ List.replicate 13 7)) =
    .value ⟨⟨List.replicate 4 7, by decide⟩, 0x07070707, 0x07070707⟩ [7] := rfl

/-- C78: two error types lead to the same outcome. -/
theorem C78_same {E E' : Type} [NomError E] [NomError E'] (cfg : Cfg) (i : List UInt8) :
    outcome (run (negotiate cfg : TP E Negotiate) i) = outcome (run (negotiate cfg : TP E' Negotiate) i) ∧
    outcome (run (challenge cfg : TP E Challenge) i) = outcome (run (challenge cfg : TP E' Challenge) i) ∧
    outcome (run (authenticate cfg : TP E Authenticate) i) = outcome (run (authenticate cfg : TP E' Authenticate) i) ∧
    outcome (run (messageSignature : TP E MessageSignature) i) =
      outcome (run (messageSignature : TP E' MessageSignature) i) := by
  have h := C78_outcome (E := E) cfg i
  have h' := C78_outcome (E := E') cfg i
  exact ⟨h.1.trans h'.1.symm, h.2.1.trans h'.2.1.symm, h.2.2.1.trans h'.2.2.1.symm, h.2.2.2.trans h'.2.2.2.symm⟩

/-- All three kinds of outcome occur, and error values do differ between error types. -/
example : outcome (run (negotiate ⟨false, false, .unix⟩ : TP Verbose Negotiate) [1]) = .rejected ∧
    run (negotiate ⟨false, false, .unix⟩ : TP Verbose Negotiate) [1] =
      .error (.error [(⟨0, [1]⟩, .nom .tag), (⟨0, [1]⟩, .context "Negotiate")]) ∧
    run (negotiate ⟨false, false, .unix⟩ : TP Plain Negotiate) [1] = .error (.error ⟨⟨0, [1]⟩, .tag⟩) ∧
    run (negotiate ⟨false, false, .unix⟩ : TP Unit Negotiate) [1] = .error (.error ()) :=
  ⟨rfl, rfl, rfl, rfl⟩

theorem rangeIn_of_within {i : List UInt8} {s : Slice} (h : Within i s) : rangeIn i s := by
  obtain ⟨h1, h2⟩ := h
  refine ⟨i.take s.off, i.drop (s.off + s.data.length), ?_, by simp only [List.length_take]; omega⟩
  rw [List.append_assoc]
  conv => lhs; rw [← List.take_append_drop s.off i]
  congr 1
  conv => lhs; rw [← List.take_append_drop s.data.length (i.drop s.off)]
  rw [← h2, List.drop_drop]

theorem closed_verbose (i : List UInt8) :
    Closed i (fun r : Verbose => (∃ s k l, r = (s, What.nom k) :: l) ∧ ∀ e ∈ r, Within i e.1) := by
  refine ⟨?_, ?_, ?_, ?_⟩
  · intro s k hs
    exact ⟨⟨s, k, [], rfl⟩, by simpa [NomError.fromKind] using hs⟩
  · rintro s k e hs ⟨⟨s', k', l, rfl⟩, h2⟩
    refine ⟨⟨s', k', l ++ [(s, .nom k)], rfl⟩, fun x hx => ?_⟩
    simp only [NomError.append, List.mem_append, List.mem_singleton] at hx
    rcases hx with hx | rfl
    · exact h2 x hx
    · exact hs
  · rintro e e' _ h
    exact h
  · rintro s n e hs ⟨⟨s', k', l, rfl⟩, h2⟩
    refine ⟨⟨s', k', l ++ [(s, .context n)], rfl⟩, fun x hx => ?_⟩
    simp only [NomError.addContext, List.mem_append, List.mem_singleton] at hx
    rcases hx with hx | rfl
    · exact h2 x hx
    · exact hs

theorem closed_plain (i : List UInt8) : Closed i (fun e : Plain => Within i e.input) :=
  ⟨fun _ _ h => h, fun _ _ _ _ h => h, fun _ _ _ h => h, fun _ _ _ _ h => h⟩

theorem error_of_sim {E α : Type} [NomError E] {P : E → Prop} {p : TP E α} {q : Parser α} {i : List UInt8}
    (h : Sim i P p q) {e : E} (hp : run p i = .error (.error e)) : P e := by
  have := h ⟨0, i⟩ (within_self i)
  rw [show p ⟨0, i⟩ = _ from hp] at this
  generalize q i = y at this
  cases this
  assumption

/-- C78: a report starts with an error of `nom`, and all its entries are ranges of the input. -/
theorem C78_ranges (cfg : Cfg) (i : List UInt8) (r : Verbose)
    (h : run (negotiate cfg) i = .error (.error r) ∨ run (challenge cfg) i = .error (.error r) ∨
      run (authenticate cfg) i = .error (.error r) ∨ run messageSignature i = .error (.error r)) :
    (∃ s k l, r = (s, What.nom k) :: l) ∧ ∀ e ∈ r, rangeIn i e.1 := by
  have key : (∃ s k l, r = (s, What.nom k) :: l) ∧ ∀ e ∈ r, Within i e.1 := by
    rcases h with h | h | h | h
    · exact error_of_sim (sim_negotiate (closed_verbose i) cfg) h
    · exact error_of_sim (sim_challenge (closed_verbose i) cfg) h
    · exact error_of_sim (sim_authenticate (closed_verbose i) cfg) h
    · exact error_of_sim (sim_messageSignature (closed_verbose i) cfg) h
  exact ⟨key.1, fun e he => rangeIn_of_within (key.2 e he)⟩

/-- A report with two entries, of which the first starts at byte 8. -/
example : rangeIn [78, 84, 76, 77, 83, 83, 80, 0, 9] ⟨8, [9]⟩ ∧
    run (negotiate ⟨false, false, .unix⟩ : TP Verbose _) [78, 84, 76, 77, 83, 83, 80, 0, 9] =
    .error (.error [(⟨8, [9]⟩, .nom .eof), (⟨0, [78, 84, 76, 77, 83, 83, 80, 0, 9]⟩, .context "Negotiate")]) :=
  ⟨⟨[78, 84, 76, 77, 83, 83, 80, 0], [], rfl, rfl⟩, rfl⟩

/-- C78: the same for `nom`'s default error type. -/
theorem C78_plain (cfg : Cfg) (i : List UInt8) (e : Plain)
    (h : run (negotiate cfg) i = .error (.error e) ∨ run (challenge cfg) i = .error (.error e) ∨
      run (authenticate cfg) i = .error (.error e) ∨ run messageSignature i = .error (.error e)) :
    rangeIn i e.input := by
  apply rangeIn_of_within
  rcases h with h | h | h | h
  · exact error_of_sim (sim_negotiate (closed_plain i) cfg) h
  · exact error_of_sim (sim_challenge (closed_plain i) cfg) h
  · exact error_of_sim (sim_authenticate (closed_plain i) cfg) h
  · exact error_of_sim (sim_messageSignature (closed_plain i) cfg) h

/-- A message signature with a bad version number: the error is at the start. -/
example : run (messageSignature : TP Plain MessageSignature) [2, 0, 0, 0, 1] =
    .error (.error ⟨⟨0, [2, 0, 0, 0, 1]⟩, .verify⟩) := rfl
/-- One that stops after five bytes: the error is at the fifth. -/
example : run (messageSignature : TP Plain MessageSignature) [1, 0, 0, 0, 1] =
    .error (.error ⟨⟨4, [1]⟩, .eof⟩) := rfl

/-- C78: the decoders use an error type only through its operations.  A map between two error types that respects them
    carries the outcome for the one to the outcome for the other. -/
theorem C78_map {E E' : Type} [NomError E] [NomError E'] {f : E → E'} (hf : IsHom f) (cfg : Cfg) (i : List UInt8) :
    run (negotiate cfg : TP E' Negotiate) i = mapErr f (run (negotiate cfg : TP E Negotiate) i) ∧
    run (challenge cfg : TP E' Challenge) i = mapErr f (run (challenge cfg : TP E Challenge) i) ∧
    run (authenticate cfg : TP E' Authenticate) i = mapErr f (run (authenticate cfg : TP E Authenticate) i) ∧
    run (messageSignature : TP E' MessageSignature) i = mapErr f (run (messageSignature : TP E MessageSignature) i) :=
  ⟨via_negotiate hf cfg _, via_challenge hf cfg _, via_authenticate hf cfg _, via_messageSignature hf _⟩

/-- Forgetting the error value is such a map. -/
example : IsHom (fun _ : Verbose => ()) := ⟨fun _ _ => rfl, fun _ _ _ => rfl, fun _ _ => rfl, fun _ _ _ => rfl⟩

/-- C78: the calls made to build the error value are the same for every error type. -/
theorem C78_calls {E : Type} [NomError E] (cfg : Cfg) (i : List UInt8) :
    run (negotiate cfg : TP E Negotiate) i = mapErr (Calls.replay E) (run (negotiate cfg : TP Calls Negotiate) i) ∧
    run (challenge cfg : TP E Challenge) i = mapErr (Calls.replay E) (run (challenge cfg : TP Calls Challenge) i) ∧
    run (authenticate cfg : TP E Authenticate) i =
      mapErr (Calls.replay E) (run (authenticate cfg : TP Calls Authenticate) i) ∧
    run (messageSignature : TP E MessageSignature) i =
      mapErr (Calls.replay E) (run (messageSignature : TP Calls MessageSignature) i) :=
  C78_map (replay_hom E) cfg i

/-- The calls for a NEGOTIATE message of one byte. -/
example : run (negotiate ⟨false, false, .unix⟩ : TP Calls Negotiate) [1] =
    .error (.error (.addContext ⟨0, [1]⟩ "Negotiate" (.fromKind ⟨0, [1]⟩ .tag))) := rfl

theorem plain_first {α : Type} {p : TP Plain α} {v : TP Verbose α} {c : TP Calls α} {i : List UInt8}
    (hp : run p i = mapErr (Calls.replay Plain) (run c i)) (hv : run v i = mapErr (Calls.replay Verbose) (run c i))
    (e : Plain) : run p i = .error (.error e) ↔ ∃ l, run v i = .error (.error ((e.input, .nom e.code) :: l)) := by
  rw [hp, hv]
  rcases run c i with (x | _ | _) | ⟨a, r⟩
  · obtain ⟨l, hl⟩ := replay_first x
    simp only [mapErr, Except.error.injEq, TErr.error.injEq]
    constructor
    · rintro rfl
      exact ⟨l, hl⟩
    · rintro ⟨l', hl'⟩
      rw [hl] at hl'
      simp only [List.cons.injEq, Prod.mk.injEq, What.nom.injEq] at hl'
      rcases h : x.replay Plain with ⟨a, b⟩
      rw [h] at hl'
      rcases e with ⟨a', b'⟩
      simp only at hl'
      rw [hl'.1.1, hl'.1.2]
  all_goals simp [mapErr]

/-- C78: `nom`'s default error is the first entry of the verbose report. -/
theorem C78_plainFirst (cfg : Cfg) (i : List UInt8) (e : Plain) :
    (run (negotiate cfg) i = .error (.error e) ↔
      ∃ l, run (negotiate cfg : TP Verbose Negotiate) i = .error (.error ((e.input, .nom e.code) :: l))) ∧
    (run (challenge cfg) i = .error (.error e) ↔
      ∃ l, run (challenge cfg : TP Verbose Challenge) i = .error (.error ((e.input, .nom e.code) :: l))) ∧
    (run (authenticate cfg) i = .error (.error e) ↔
      ∃ l, run (authenticate cfg : TP Verbose Authenticate) i = .error (.error ((e.input, .nom e.code) :: l))) ∧
    (run messageSignature i = .error (.error e) ↔
      ∃ l, run (messageSignature : TP Verbose MessageSignature) i = .error (.error ((e.input, .nom e.code) :: l))) := by
  have p := C78_calls (E := Plain) cfg i
  have v := C78_calls (E := Verbose) cfg i
  exact ⟨plain_first p.1 v.1 e, plain_first p.2.1 v.2.1 e, plain_first p.2.2.1 v.2.2.1 e,
    plain_first p.2.2.2 v.2.2.2 e⟩

/-- A CHALLENGE message that stops after the type. -/
example : run (challenge ⟨false, false, .unix⟩ : TP Plain _) [78, 84, 76, 77, 83, 83, 80, 0, 2, 0, 0, 0, 4] =
      .error (.error ⟨⟨12, [4]⟩, .eof⟩) ∧
    run (challenge ⟨false, false, .unix⟩ : TP Verbose _) [78, 84, 76, 77, 83, 83, 80, 0, 2, 0, 0, 0, 4] =
      .error (.error [(⟨12, [4]⟩, .nom .eof), (⟨12, [4]⟩, .context "Field"),
        (⟨12, [4]⟩, .context "target_name_field"),
        (⟨0, [78, 84, 76, 77, 83, 83, 80, 0, 2, 0, 0, 0, 4]⟩, .context "Challenge")]) := ⟨rfl, rfl⟩

/-- C79: decoding a NEGOTIATE message succeeds exactly if all checks of the table hold, and otherwise the report is
    the one of the first check that does not. -/
theorem C79_negotiate (cfg : Cfg) (i : List UInt8) :
    ((∃ v, run (negotiate cfg : TP Verbose Negotiate) i = .ok v) ↔ allHold (negotiateChecks i)) ∧
    ∀ r, run (negotiate cfg) i = .error (.error r) ↔ firstFailed (negotiateChecks i) (some r) :=
  (negotiate_gives cfg i).iff

/-- A header of 32 bytes with empty fields passes all checks; the type alone does not. -/
example : allHold (negotiateChecks ([78, 84, 76, 77, 83, 83, 80, 0, 1, 0, 0, 0] ++ List.replicate 20 0)) ∧
    firstFailed (negotiateChecks [78, 84, 76, 77, 83, 83, 80, 0, 1, 0, 0, 0])
      (some [(⟨12, []⟩, .nom .eof), (⟨12, []⟩, .context "Flags"),
        (⟨0, [78, 84, 76, 77, 83, 83, 80, 0, 1, 0, 0, 0]⟩, .context "Negotiate")]) :=
  ⟨(C79_negotiate ⟨false, false, .unix⟩ _).1.mp ⟨_, rfl⟩, ((C79_negotiate ⟨false, false, .unix⟩ _).2 _).mp rfl⟩

/-- C79: the same for CHALLENGE messages. -/
theorem C79_challenge (cfg : Cfg) (i : List UInt8) :
    ((∃ v, run (challenge cfg : TP Verbose Challenge) i = .ok v) ↔ allHold (challengeChecks cfg i)) ∧
    ∀ r, run (challenge cfg) i = .error (.error r) ↔ firstFailed (challengeChecks cfg i) (some r) :=
  (challenge_gives cfg i).iff

/-- A CHALLENGE message whose target infos are an empty computer name without an end marker. -/
def noEol : List UInt8 :=
  [78, 84, 76, 77, 83, 83, 80, 0, 2, 0, 0, 0, 0, 0, 0, 0, 0, 0, 0, 0, 0, 0, 0, 0, 1, 2, 3, 4, 5, 6, 7, 8,
   0, 0, 0, 0, 0, 0, 0, 0, 4, 0, 4, 0, 48, 0, 0, 0, 1, 0, 0, 0]

/-- It is reported as such. -/
example : run (challenge ⟨false, false, .unix⟩ : TP Verbose _) noEol =
    .error (.error [(⟨48, [1, 0, 0, 0]⟩, .nom .verify), (⟨48, [1, 0, 0, 0]⟩, .context "Challenge/TargetInfos/EOL")]) :=
  rfl

/-- With an end marker it is accepted, so all its checks hold. -/
example : allHold (challengeChecks ⟨false, false, .unix⟩ (noEol.set 48 0)) :=
  (C79_challenge _ _).1.mp ⟨_, rfl⟩

/-- C79: the same for AUTHENTICATE messages. -/
theorem C79_authenticate (cfg : Cfg) (i : List UInt8) :
    ((∃ v, run (authenticate cfg : TP Verbose Authenticate) i = .ok v) ↔ allHold (authenticateChecks cfg i)) ∧
    ∀ r, run (authenticate cfg) i = .error (.error r) ↔ firstFailed (authenticateChecks cfg i) (some r) :=
  (authenticate_gives cfg i).iff

/-- An AUTHENTICATE message whose NT response has two bytes. -/
def shortNt : List UInt8 :=
  [78, 84, 76, 77, 83, 83, 80, 0, 3, 0, 0, 0] ++ List.replicate 8 0 ++ [2, 0, 2, 0, 80, 0, 0, 0] ++ List.replicate 32 0 ++
    List.replicate 4 0 ++ List.replicate 16 7 ++ [1, 1]

/-- It is reported as a short NTLMv1 response, although it starts like an NTLMv2 response. -/
example : run (authenticate ⟨false, false, .unix⟩ : TP Verbose _) shortNt =
    .error (.error [(⟨80, [1, 1]⟩, .nom .eof), (⟨80, [1, 1]⟩, .context "response"),
      (⟨80, [1, 1]⟩, .context "Ntv1Challenge"), (⟨80, [1, 1]⟩, .nom .alt), (⟨80, [1, 1]⟩, .context "Field::get_data"),
      (⟨80, [1, 1]⟩, .context "nt_challenge_response")]) := rfl

/-- C79: a message of another type is reported at its type field, and nothing after it is looked at. -/
theorem C79_wrongType (cfg : Cfg) (i : List UInt8) (h8 : i.take 8 = ntlmssp) (hl : 12 ≤ i.length) :
    (u32At i 8 ≠ 1 → run (negotiate cfg : TP Verbose _) i =
      .error (.error [(⟨8, i.drop 8⟩, .nom .verify), (⟨0, i⟩, .context "Negotiate")])) ∧
    (u32At i 8 ≠ 2 → run (challenge cfg : TP Verbose _) i =
      .error (.error [(⟨8, i.drop 8⟩, .nom .verify), (⟨0, i⟩, .context "Challenge")])) ∧
    (u32At i 8 ≠ 3 → run (authenticate cfg : TP Verbose _) i =
      .error (.error [(⟨8, i.drop 8⟩, .nom .verify), (⟨0, i⟩, .context "Authenticate")])) :=
  ⟨fun h => ((C79_negotiate cfg i).2 _).mpr (.inr ⟨h8, .inr ⟨hl, .inl ⟨h, rfl⟩⟩⟩),
    fun h => ((C79_challenge cfg i).2 _).mpr (.inr ⟨h8, .inr ⟨hl, .inl ⟨h, rfl⟩⟩⟩),
    fun h => ((C79_authenticate cfg i).2 _).mpr (.inr ⟨h8, .inr ⟨hl, .inl ⟨h, rfl⟩⟩⟩)⟩

/-- The message type of a CHALLENGE message in a NEGOTIATE message. -/
example : run (negotiate ⟨false, false, .unix⟩ : TP Verbose _) [78, 84, 76, 77, 83, 83, 80, 0, 2, 0, 0, 0] =
    .error (.error [(⟨8, [2, 0, 0, 0]⟩, .nom .verify),
      (⟨0, [78, 84, 76, 77, 83, 83, 80, 0, 2, 0, 0, 0]⟩, .context "Negotiate")]) := rfl

theorem mem_of_firstFailed {cs : List Check} {o : Option Verbose} (h : firstFailed cs o) : ∃ c ∈ cs, c.2 = o := by
  induction cs with
  | nil => exact absurd h id
  | cons c cs ih =>
    rcases h with ⟨_, h⟩ | ⟨_, h⟩
    · exact ⟨c, List.mem_cons_self, h.symm⟩
    · obtain ⟨c', hc, h'⟩ := ih h
      exact ⟨c', List.mem_cons_of_mem _ hc, h'⟩

theorem last_start {i : List UInt8} {t : Nat} {outer : Verbose} {c : Check} (h : c ∈ startChecks i t outer) :
    ∃ l, c.2 = some (l ++ outer) := by
  simp only [startChecks, List.mem_cons, List.not_mem_nil, or_false] at h
  rcases h with rfl | rfl | rfl <;> exact ⟨[_], rfl⟩

theorem last_descriptor {i : List UInt8} {p : Nat} {outer : Verbose} {c : Check} (h : c ∈ descriptorChecks i p outer) :
    ∃ l, c.2 = some (l ++ outer) := by
  simp only [descriptorChecks, List.mem_cons, List.not_mem_nil, or_false] at h
  rcases h with rfl | rfl | rfl <;> exact ⟨[_, _], rfl⟩

theorem last_flag {i : List UInt8} {p : Nat} {outer : Verbose} {c : Check} (h : c ∈ flagChecks i p outer) :
    ∃ l, c.2 = some (l ++ outer) := by
  simp only [flagChecks, List.mem_cons, List.not_mem_nil, or_false] at h
  subst h
  exact ⟨[_, _], rfl⟩

theorem last_version {i : List UInt8} {fp p : Nat} {name : String} {c : Check} (h : c ∈ versionIf i fp p name) :
    ∃ l, c.2 = some (l ++ [inside (restAt i p) name]) := by
  unfold versionIf at h
  split at h
  · simp only [versionChecks, List.mem_cons, List.not_mem_nil, or_false] at h
    rcases h with rfl | rfl | rfl | rfl | rfl | rfl | rfl <;> exact ⟨[_, _, _], rfl⟩
  · exact absurd h List.not_mem_nil

theorem getLast_of {c : Check} {r l : Verbose} {e : Slice × What} (hr : c.2 = some r) (hl : c.2 = some (l ++ [e])) :
    r.getLast? = some e := by
  rw [hr] at hl
  cases hl
  simp

theorem getLast_of2 {c : Check} {r l : Verbose} {d e : Slice × What} (hr : c.2 = some r) (hl : c.2 = some (l ++ [d, e])) :
    r.getLast? = some e :=
  getLast_of (l := l ++ [d]) hr (by rw [hl, List.append_assoc]; rfl)

/-- C79: a report on a CHALLENGE message never says what is wrong with its target name or target infos: it speaks
    about the fixed part or the version block, or only says that the last pair is not the end marker. -/
theorem C79_challengeParts (cfg : Cfg) (i : List UInt8) (r : Verbose) (h : run (challenge cfg) i = .error (.error r)) :
    r.getLast? = some (inside (restAt i 0) "Challenge") ∨ r.getLast? = some (inside (restAt i 48) "version") ∨
      r = [failed (rangeOf i 40) .verify, inside (rangeOf i 40) "Challenge/TargetInfos/EOL"] := by
  obtain ⟨c, hc, hr⟩ := mem_of_firstFailed (((C79_challenge cfg i).2 r).mp h)
  simp only [challengeChecks, List.mem_append] at hc
  rcases hc with (((((h | h) | h) | h) | h) | h) | h
  · obtain ⟨l, hl⟩ := last_start h; exact .inl (getLast_of hr hl)
  · obtain ⟨l, hl⟩ := last_descriptor h; exact .inl (getLast_of2 hr hl)
  · obtain ⟨l, hl⟩ := last_flag h; exact .inl (getLast_of2 hr hl)
  · simp only [List.mem_cons, List.not_mem_nil, or_false] at h
    rcases h with rfl | rfl | rfl <;> (cases hr; exact .inl rfl)
  · obtain ⟨l, hl⟩ := last_descriptor h; exact .inl (getLast_of2 hr hl)
  · obtain ⟨l, hl⟩ := last_version h; exact .inr (.inl (getLast_of hr hl))
  · simp only [rangeCheck, List.mem_cons, List.not_mem_nil, or_false] at h
    rcases h with rfl | rfl | rfl | rfl <;> cases hr
    exact .inr (.inr rfl)

/-- The third case occurs. -/
example : ∃ r, run (challenge ⟨false, false, .unix⟩ : TP Verbose _) noEol = .error (.error r) ∧
    r = [failed (rangeOf noEol 40) .verify, inside (rangeOf noEol 40) "Challenge/TargetInfos/EOL"] := ⟨_, rfl, rfl⟩

/-- C79: a report on an AUTHENTICATE message speaks about the fixed part, the version block, the integrity code, the
    NT response or the session key: the LM response and the three texts are never the subject. -/
theorem C79_authenticateParts (cfg : Cfg) (i : List UInt8) (r : Verbose)
    (h : run (authenticate cfg) i = .error (.error r)) :
    ∃ s name, r.getLast? = some (inside s name) ∧ name ∈ ["Authenticate", "Authenticate/version", "Authenticate/mic",
      "nt_challenge_response", "encrypted_random_session_key"] := by
  obtain ⟨c, hc, hr⟩ := mem_of_firstFailed (((C79_authenticate cfg i).2 r).mp h)
  simp only [authenticateChecks, List.mem_append] at hc
  rcases hc with ((((((((h | h) | h) | h) | h) | h) | h) | h) | h) | h
  · obtain ⟨l, hl⟩ := last_start h; exact ⟨_, _, getLast_of hr hl, by simp⟩
  · obtain ⟨l, hl⟩ := last_descriptor h; exact ⟨_, _, getLast_of2 hr hl, by simp⟩
  · obtain ⟨l, hl⟩ := last_descriptor h; exact ⟨_, _, getLast_of2 hr hl, by simp⟩
  · obtain ⟨l, hl⟩ := last_descriptor h; exact ⟨_, _, getLast_of2 hr hl, by simp⟩
  · obtain ⟨l, hl⟩ := last_descriptor h; exact ⟨_, _, getLast_of2 hr hl, by simp⟩
  · obtain ⟨l, hl⟩ := last_descriptor h; exact ⟨_, _, getLast_of2 hr hl, by simp⟩
  · obtain ⟨l, hl⟩ := last_descriptor h; exact ⟨_, _, getLast_of2 hr hl, by simp⟩
  · obtain ⟨l, hl⟩ := last_flag h; exact ⟨_, _, getLast_of hr hl, by simp⟩
  · obtain ⟨l, hl⟩ := last_version h; exact ⟨_, _, getLast_of hr hl, by simp⟩
  · simp only [rangeCheck, List.mem_cons, List.not_mem_nil, or_false] at h
    rcases h with rfl | rfl | rfl | rfl | rfl | rfl | rfl | rfl | rfl | rfl <;> cases hr
    all_goals exact ⟨_, _, rfl, by simp⟩

/-- The NT response is the subject in `shortNt`. -/
example : ∃ r, run (authenticate ⟨false, false, .unix⟩ : TP Verbose _) shortNt = .error (.error r) ∧
    r.getLast? = some (inside ⟨80, [1, 1]⟩ "nt_challenge_response") := ⟨_, rfl, rfl⟩

end Ntlm.Props
