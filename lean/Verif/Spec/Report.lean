import Verif.Spec.Decode
import Verif.Model.Trace
/-
  Specification: the report (`nom::error::VerboseError`) of a rejected message, as a table of checks in the order in
  which they are made.  Each check comes with the report that is given if it is the first to fail.
-/
namespace Ntlm.Spec

open Trace (Slice What Kind Verbose TErr)

/-- What is left of the input from a position on. -/
def restAt (i : List UInt8) (pos : Nat) : Slice := ⟨pos, i.drop pos⟩

/-- The payload range named by the descriptor at `pos`. -/
def rangeOf (i : List UInt8) (pos : Nat) : Slice := ⟨u32At i (pos + 4), fieldBytes i pos⟩

/-- A `nom` error at a slice. -/
def failed (s : Slice) (k : Kind) : Slice × What := (s, .nom k)

/-- A context at a slice. -/
def inside (s : Slice) (name : String) : Slice × What := (s, .context name)

/-- A condition on the input, and the report if it is the first that does not hold; `none` means that the call fails
    without a report (it aborts, or says that input is missing). -/
abbrev Check := Prop × Option Verbose

/-- The first condition that does not hold comes with outcome `out`. -/
def firstFailed : List Check → Option Verbose → Prop
  | [], _ => False
  | (ok, o) :: cs, out => (¬ ok ∧ out = o) ∨ (ok ∧ firstFailed cs out)

/-- All conditions hold. -/
def allHold (cs : List Check) : Prop := ∀ c ∈ cs, c.1

/-- An 8-byte descriptor: length, maximal length, offset. -/
def descriptorChecks (i : List UInt8) (pos : Nat) (outer : Verbose) : List Check := [
  (pos + 2 ≤ i.length, some (failed (restAt i pos) .eof :: inside (restAt i pos) "Field" :: outer)),
  (pos + 4 ≤ i.length, some (failed (restAt i (pos + 2)) .eof :: inside (restAt i pos) "Field" :: outer)),
  (pos + 8 ≤ i.length, some (failed (restAt i (pos + 4)) .eof :: inside (restAt i pos) "Field" :: outer))]

/-- The flag word: any value is accepted. -/
def flagChecks (i : List UInt8) (pos : Nat) (outer : Verbose) : List Check := [
  (pos + 4 ≤ i.length, some (failed (restAt i pos) .eof :: inside (restAt i pos) "Flags" :: outer))]

/-- Signature and message type. -/
def startChecks (i : List UInt8) (type : Nat) (outer : Verbose) : List Check := [
  (i.take 8 = ntlmssp, some (failed (restAt i 0) .tag :: outer)),
  (12 ≤ i.length, some (failed (restAt i 8) .eof :: outer)),
  (u32At i 8 = type, some (failed (restAt i 8) .verify :: outer))]

/-- The version block, after a header of `pos` bytes. -/
def versionChecks (i : List UInt8) (pos : Nat) (outer : Verbose) : List Check :=
  let v := inside (restAt i pos) "Version" :: outer
  [ (pos + 1 ≤ i.length, some (failed (restAt i pos) .eof :: inside (restAt i pos) "major" :: v)),
    (pos + 2 ≤ i.length, some (failed (restAt i (pos + 1)) .eof :: inside (restAt i (pos + 1)) "minor" :: v)),
    (pos + 4 ≤ i.length, some (failed (restAt i (pos + 2)) .eof :: inside (restAt i (pos + 2)) "build" :: v)),
    (pos + 7 ≤ i.length, some (failed (restAt i (pos + 4)) .eof :: inside (restAt i (pos + 4)) "reserved" :: v)),
    (byteAt i (pos + 4) = 0 ∧ byteAt i (pos + 5) = 0 ∧ byteAt i (pos + 6) = 0,
      some (failed (restAt i (pos + 4)) .verify :: inside (restAt i (pos + 4)) "reserved" :: v)),
    (pos + 8 ≤ i.length,
      some (failed (restAt i (pos + 7)) .eof :: inside (restAt i (pos + 7)) "revision_count" :: v)),
    (byteAt i (pos + 7) = 15,
      some (failed (restAt i (pos + 7)) .verify :: inside (restAt i (pos + 7)) "revision_count" :: v)) ]

/-- The version block is read only with the VERSION flag (bit 25). -/
def versionIf (i : List UInt8) (flagsPos pos : Nat) (name : String) : List Check :=
  if (u32At i flagsPos).testBit 25 then versionChecks i pos [inside (restAt i pos) name] else []

/-- The range named by a descriptor lies inside the input (otherwise the call aborts). -/
def rangeCheck (i : List UInt8) (pos : Nat) : Check := (¬ outOfRange i pos, none)

/-- An OEM text. -/
def oemChecks (i : List UInt8) (pos : Nat) (name : String) : List Check := [
  rangeCheck i pos,
  (emptyField i pos ∨ ∃ s, fieldBytes i pos = utf8Bytes s,
    some [failed (rangeOf i pos) .mapOpt, inside (rangeOf i pos) "OEM string",
      inside (rangeOf i pos) "Field::get_data", inside (rangeOf i pos) name])]

/-- Decoding a NEGOTIATE message. -/
def negotiateChecks (i : List UInt8) : List Check :=
  let whole := [inside (restAt i 0) "Negotiate"]
  startChecks i 1 whole ++
  flagChecks i 12 whole ++
  descriptorChecks i 16 (inside (restAt i 16) "domain_name_field" :: whole) ++
  descriptorChecks i 24 (inside (restAt i 24) "workstation_field" :: whole) ++
  versionIf i 12 32 "Negotiate/version" ++
  oemChecks i 16 "domain" ++
  oemChecks i 24 "workstation"

/-- Decoding a CHALLENGE message. -/
def challengeChecks (cfg : Cfg) (i : List UInt8) : List Check :=
  let whole := [inside (restAt i 0) "Challenge"]
  startChecks i 2 whole ++
  descriptorChecks i 12 (inside (restAt i 12) "target_name_field" :: whole) ++
  flagChecks i 20 (inside (restAt i 20) "negotiate_flags" :: whole) ++
  [ (32 ≤ i.length, some (failed (restAt i 24) .eof :: inside (restAt i 24) "server_challenge" :: whole)),
    (40 ≤ i.length, some (failed (restAt i 32) .eof :: inside (restAt i 32) "reserved" :: whole)),
    (cfg.strict = true → u32At i 32 = 0 ∧ u32At i 36 = 0,
      some (failed (restAt i 32) .verify :: inside (restAt i 32) "reserved" :: whole)) ] ++
  descriptorChecks i 40 (inside (restAt i 40) "target_infos_field" :: whole) ++
  versionIf i 20 48 "version" ++
  [ rangeCheck i 12,
    rangeCheck i 40,
    (∃ l, infosAre cfg i 40 l, none),
    (∃ l, infosAre cfg i 40 l ∧ (l = [] ∨ l.getLast? = some .eol),
      some [failed (rangeOf i 40) .verify, inside (rangeOf i 40) "Challenge/TargetInfos/EOL"]) ]

/-- Decoding an AUTHENTICATE message.  A bad LM response is not reported; an NT response is reported as a short
    NTLMv1 response, whatever is wrong with it; the six texts and keys have no other checks than the range. -/
def authenticateChecks (cfg : Cfg) (i : List UInt8) : List Check :=
  let whole := [inside (restAt i 0) "Authenticate"]
  let mic := 64 + versionSize i 60
  startChecks i 3 whole ++
  descriptorChecks i 12 (inside (restAt i 12) "lm_challenge" :: whole) ++
  descriptorChecks i 20 (inside (restAt i 20) "nt_challenge" :: whole) ++
  descriptorChecks i 28 (inside (restAt i 28) "domain_field" :: whole) ++
  descriptorChecks i 36 (inside (restAt i 36) "user_field" :: whole) ++
  descriptorChecks i 44 (inside (restAt i 44) "workstation_field" :: whole) ++
  descriptorChecks i 52 (inside (restAt i 52) "encrypted_random_session_key_field" :: whole) ++
  flagChecks i 60 whole ++
  versionIf i 60 64 "Authenticate/version" ++
  [ (mic + 16 ≤ i.length,
      some [failed (restAt i mic) .eof, inside (restAt i mic) "mic", inside (restAt i mic) "Authenticate/mic"]),
    rangeCheck i 12,
    rangeCheck i 20,
    (emptyField i 20 ∨ 24 ≤ u16At i 20,
      some [failed (rangeOf i 20) .eof, inside (rangeOf i 20) "response", inside (rangeOf i 20) "Ntv1Challenge",
        failed (rangeOf i 20) .alt, inside (rangeOf i 20) "Field::get_data",
        inside (rangeOf i 20) "nt_challenge_response"]),
    (emptyField i 20 ∨ ntDecodes cfg (fieldBytes i 20), none),
    rangeCheck i 28,
    rangeCheck i 36,
    rangeCheck i 44,
    (flagAt i 60 30 → ¬ outOfRange i 52, none),
    (flagAt i 60 30 → emptyField i 52 ∨ 16 ≤ u16At i 52,
      some [failed (rangeOf i 52) .eof, inside (rangeOf i 52) "encrypted_random_session_key",
        inside (rangeOf i 52) "Field::get_data", inside (rangeOf i 52) "encrypted_random_session_key"]) ]

/-- What a caller sees of a call apart from the error value: the value and the number of bytes left, an error of
    `nom`, a request for more input, or an abort. -/
inductive Outcome (α : Type) where
  | value (a : α) (left : List UInt8)
  | rejected
  | needsMore
  | aborted (p : Panic)

/-- Forget the error value. -/
def outcome {E α : Type} : Except (TErr E) (α × Slice) → Outcome α
  | .ok (a, s) => .value a s.data
  | .error (.error _) => .rejected
  | .error .incomplete => .needsMore
  | .error (.panic p _) => .aborted p

/-- The same for the decoders without error values. -/
def outcome0 {α : Type} : Except PErr (α × List UInt8) → Outcome α
  | .ok (a, r) => .value a r
  | .error .error => .rejected
  | .error .incomplete => .needsMore
  | .error (.panic p) => .aborted p

/-- `s` is a range of `i`. -/
def rangeIn (i : List UInt8) (s : Slice) : Prop := ∃ before after, i = before ++ s.data ++ after ∧ before.length = s.off

end Ntlm.Spec
