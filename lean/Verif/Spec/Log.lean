import Verif.Spec.Decode
/-
  What the decoders should log, line by line.
-/
namespace Ntlm.Spec

/-- The reserved flags and the positions of their bits (MS-NLMP 2.2.2.5). -/
def reservedFlags : List (String × Nat) :=
  [("R1", 28), ("R2", 27), ("R3", 26), ("R4", 24), ("R5", 21), ("R6", 18), ("R7", 14), ("R8", 10), ("R9", 8), ("R10", 3)]

/-- The lines about a flag word: one per reserved flag that is set, and one for each of three combinations that make
    no sense: both target types, no character set, extended session security with an LM key. -/
def flagLines (w : Nat) : List String :=
  (reservedFlags.filter fun f => w.testBit f.2).map (fun f => "flags.has_flag(" ++ f.1 ++ ")") ++
  (if w.testBit 16 && w.testBit 17 then
    ["flags cannot have NTLMSSP_TARGET_TYPE_DOMAIN and NTLMSSP_TARGET_TYPE_SERVER"] else []) ++
  (if !w.testBit 0 && !w.testBit 1 then
    ["!flags.has_flag(NTLMSSP_NEGOTIATE_UNICODE) && !flags.has_flag(NTLM_NEGOTIATE_OEM)"] else []) ++
  (if w.testBit 19 && w.testBit 7 then
    ["flags.has_flag(NTLMSSP_NEGOTIATE_EXTENDED_SESSIONSECURITY) && flags.has_flag(NTLMSSP_NEGOTIATE_LM_KEY)"] else [])

/-- The line for an empty field. -/
def emptyLine (name : String) : String := "Flag for " ++ name ++ " is set but field is empty"

/-- The line for a field with `n` unused bytes. -/
def unusedLine (name : String) (n : Nat) : String :=
  "Not all is consumed for " ++ name ++ ". " ++ toString n ++ " bytes remaning"

/-- The lines about a field of `len` bytes of which `unused` were not used. -/
def fieldLines (name : String) (len unused : Nat) : List String :=
  if len = 0 then [emptyLine name] else if unused = 0 then [] else [unusedLine name unused]

/-- The line about a field that may be absent. -/
def absentLines (name : String) (present : Bool) : List String := if present then [] else [emptyLine name]

/-- The bytes of the text field at `pos` that are not part of the text read. -/
def textUnused (i : List UInt8) (pos : Nat) (x : Option UnicodeString) : Nat :=
  u16At i pos - (match x with | some s => (utf16le s.s).length | none => 0)

/-- The bytes left after the attribute pairs `l` have been read from `b`. -/
def walkUnused (cfg : Cfg) (b : List UInt8) (l : List AvPair) (n : Nat) : Prop := ∃ r, AvWalk cfg b l r ∧ r.length = n

/-- The bytes of an NT response that are not used. -/
def ntUnused (cfg : Cfg) (b : List UInt8) (x : Option NtChallenge) (n : Nat) : Prop :=
  match x with
  | some (.v1 _) => n = b.length - 24
  | some (.v2 c) => walkUnused cfg (b.drop 28) c.targetInfos n
  | none => n = 0

/-- The lines about the LM response: its name tells which kind it was read as, by the NTLM flag (bit 9).  One that is
    too short to be read, and so counts as absent, is passed over in silence. -/
def lmLines (i : List UInt8) : List String :=
  if 0 < u16At i 12 ∧ u16At i 12 < 24 then []
  else fieldLines (if (u32At i 60).testBit 9 then "lmv1_challenge_response" else "lmv2_challenge_response")
    (u16At i 12) (u16At i 12 - 24)

/-- The lines about the encrypted session key, looked at only with the KEY_EXCH flag (bit 30). -/
def keyLines (i : List UInt8) : List String :=
  if (u32At i 60).testBit 30 then fieldLines "encrypted_random_session_key" (u16At i 52) (u16At i 52 - 16) else []

/-- The names of the fields that appear in the log. -/
def fieldNames : List String :=
  ["domain", "workstation", "target_name", "target_infos", "lmv1_challenge_response", "lmv2_challenge_response",
    "nt_challenge_response", "user", "encrypted_random_session_key"]

/-- A line that says nothing about the contents of a message: a fixed text, or a field's name and a number of
    bytes. -/
def plainLine (s : String) : Prop :=
  s ∈ flagLines 0xffffffff ∨ s ∈ flagLines 0 ∨ (∃ name ∈ fieldNames, s = emptyLine name) ∨
    ∃ name ∈ fieldNames, ∃ n, 0 < n ∧ n ≤ 65535 ∧ s = unusedLine name n

end Ntlm.Spec
