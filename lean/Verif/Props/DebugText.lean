import Verif.Lemmas.DebugText
/-
  C80: the debugging text of a message determines the message, including the exported session key.
  C81: debugging texts contain no control characters, whatever the peer has sent.
-/
namespace Ntlm.Props

open Spec
open Debug (debug)

/-- C80: two messages with the same debugging text are equal, with `{:?}` and with `{:#?}`, whatever characters are taken
    to be printable. -/
theorem C80_messages (f : Fmt) :
    (∀ a b : Negotiate, debug f a = debug f b ↔ a = b) ∧ (∀ a b : Challenge, debug f a = debug f b ↔ a = b) ∧
    (∀ a b : Authenticate, debug f a = debug f b ↔ a = b) ∧ (∀ a b : MessageSignature, debug f a = debug f b ↔ a = b) :=
  ⟨fun _ _ => ⟨(reads_negotiate f).inj, congrArg _⟩, fun _ _ => ⟨(reads_challenge f).inj, congrArg _⟩,
    fun _ _ => ⟨(reads_authenticate f).inj, congrArg _⟩, fun _ _ => ⟨(reads_signature f).inj, congrArg _⟩⟩

/-- A message with a name in which everything has to be escaped. -/
example : debug ⟨false, fun _ => true⟩ ({ Negotiate.default with domainName := some ⟨['"', '\\', '\n', Char.ofNat 27]⟩ }) =
    "Negotiate { negotiate_flags: NTLMSSP_NEGOTIATE_UNICODE, domain_name: Some(\"\\\"\\\\\\n\\u{1b}\"), workstation: None, version: None }".toList := by
  decide +kernel
/-- The other layout. -/
example : debug ⟨true, fun _ => true⟩ ({ Negotiate.default with version := some ⟨6, 1, 7601, 15⟩ }) =
    ("Negotiate {\n    negotiate_flags: NTLMSSP_NEGOTIATE_UNICODE,\n    domain_name: None,\n    workstation: None,\n" ++
      "    version: Some(\n        Version {\n            major: 6,\n            minor: 1,\n            build: 7601,\n" ++
      "            revision_count: 15,\n        },\n    ),\n}").toList := by
  decide +kernel

/-- C80: the same for the parts of messages. -/
theorem C80_parts (f : Fmt) :
    (∀ a b : AvPair, debug f a = debug f b ↔ a = b) ∧ (∀ a b : List AvPair, debugVec f a = debugVec f b ↔ a = b) ∧
    (∀ a b : LmChallenge, debug f a = debug f b ↔ a = b) ∧ (∀ a b : NtChallenge, debug f a = debug f b ↔ a = b) ∧
    (∀ a b : Version, debug f a = debug f b ↔ a = b) ∧ (∀ a b : FileTime, debug f a = debug f b ↔ a = b) ∧
    (∀ a b : SingleHostData, debug f a = debug f b ↔ a = b) ∧ (∀ a b : MsvAvFlags, debug f a = debug f b ↔ a = b) ∧
    (∀ a b : AvId, debug f a = debug f b ↔ a = b) ∧ (∀ a b : Str, debug f a = debug f b ↔ a = b) :=
  ⟨fun _ _ => ⟨(reads_avPair f).inj, congrArg _⟩, fun _ _ => ⟨(reads_avPairs f).inj, congrArg _⟩,
    fun _ _ => ⟨(reads_lm f).inj, congrArg _⟩, fun _ _ => ⟨(reads_nt f).inj, congrArg _⟩,
    fun _ _ => ⟨(reads_version f).inj, congrArg _⟩, fun _ _ => ⟨(reads_fileTime f).inj, congrArg _⟩,
    fun _ _ => ⟨(reads_singleHostData f).inj, congrArg _⟩, fun _ _ => ⟨(reads_avFlags f).inj, congrArg _⟩,
    fun _ _ => ⟨(reads_avId f).inj, congrArg _⟩, fun _ _ => ⟨(reads_str f).inj, congrArg _⟩⟩

/-- A list of two pairs and a list with one pair whose text imitates the second: the quotes tell them apart. -/
example : debugVec ⟨false, fun _ => true⟩ [AvPair.nbDomainName ['A'], .eol] =
      "[MsvAvNbDomainName(\"A\"), MsvAvEOL]".toList ∧
    debugVec ⟨false, fun _ => true⟩ [AvPair.nbDomainName "A\"), MsvAvEOL".toList] =
      "[MsvAvNbDomainName(\"A\\\"), MsvAvEOL\")]".toList := by decide +kernel

/-- C80: the exported session key is not redacted: the text of an AUTHENTICATE message ends with its hexadecimal dump. -/
theorem C80_sessionKey (t : Char → Bool) (a : Authenticate) (key : Bytes 16) (h : a.exportedSessionKey = some key) :
    ∃ pre dump, debug ⟨false, t⟩ a = pre ++ "exported_session_key: Some(".toList ++ dump ++ ") }".toList ∧
      isHexDump dump key.val := by
  have e : ∀ (x : Str), x ++ "exported_session_key: ".toList ++ ("Some".toList ++ "(".toList ++ key.debug ++ ")".toList) ++
      " }".toList = x ++ "exported_session_key: Some(".toList ++ key.debug ++ ") }".toList := by
    intro x
    have h1 : "exported_session_key: Some(".toList = "exported_session_key: ".toList ++ ("Some".toList ++ "(".toList) := rfl
    have h2 : ") }".toList = ")".toList ++ " }".toList := rfl
    rw [h1, h2]
    simp only [List.append_assoc]
  have hd : ∃ x, debug ⟨false, t⟩ a = x ++ "exported_session_key: ".toList ++ debug ⟨false, t⟩ a.exportedSessionKey ++
      " }".toList := by
    have hp : "exported_session_key: ".toList = "exported_session_key".toList ++ ": ".toList := rfl
    refine ⟨?_, ?_⟩
    rotate_left
    · simp only [debug, debugStruct, Bool.false_eq_true, if_false, moreFields, List.append_nil]
      rw [hp]
      simp only [← List.append_assoc]
      rfl
  obtain ⟨x, hx⟩ := hd
  refine ⟨x, key.debug, ?_, (C54_buffers key key).1⟩
  rw [hx, h, ← e x]
  rfl

/-- A message with a key. -/
example : debug ⟨false, fun _ => true⟩ ({ Authenticate.default with
      exportedSessionKey := some ⟨[0x00, 0x11, 0x22, 0x33, 0x44, 0x55, 0x66, 0x77, 0x88, 0x99, 0xaa, 0xbb, 0xcc, 0xdd, 0xee, 0xff], rfl⟩ }) =
    ("Authenticate { lm_challenge_response: None, nt_challenge_response: None, domain: None, user: None, " ++
      "workstation: None, encrypted_random_session_key: None, negotiate_flags: NTLMSSP_NEGOTIATE_UNICODE, version: None, " ++
      "mic: 00000000000000000000000000000000, " ++
      "exported_session_key: Some(00112233445566778899aabbccddeeff) }").toList := by decide +kernel

theorem not_printable (f : Fmt) {c : Char} (h : c.toNat < 32 ∨ (127 ≤ c.toNat ∧ f.table c = false)) :
    ¬ f.printable c = true := by
  simp only [Fmt.printable]
  rcases h with h | ⟨h, ht⟩
  · simp [h]
  · simp [show ¬ c.toNat < 32 by omega, show ¬ c.toNat < 127 by omega, ht]

/-- C81: with `{:?}` the text of a message has no control character and no other unprintable character, so it is one line,
    whatever names and attribute pairs the message contains. -/
theorem C81_oneLine (t : Char → Bool) (c : Char) (h : c.toNat < 32 ∨ (127 ≤ c.toNat ∧ t c = false)) :
    (∀ a : Negotiate, c ∉ debug ⟨false, t⟩ a) ∧ (∀ a : Challenge, c ∉ debug ⟨false, t⟩ a) ∧
    (∀ a : Authenticate, c ∉ debug ⟨false, t⟩ a) ∧ (∀ a : MessageSignature, c ∉ debug ⟨false, t⟩ a) ∧
    (∀ a : AvPair, c ∉ debug ⟨false, t⟩ a) ∧ (∀ a : List AvPair, c ∉ debugVec ⟨false, t⟩ a) := by
  have h : ∀ {u : Str}, Clean ⟨false, t⟩ u → c ∉ u := by
    intro u hu hc
    rcases hu c hc with h' | ⟨h', _⟩
    · exact not_printable ⟨false, t⟩ h h'
    · cases h'
  exact ⟨fun a => h (clean_negotiate _ a), fun a => h (clean_challenge _ a), fun a => h (clean_authenticate _ a),
    fun a => h (clean_signature _ a), fun a => h (clean_avPair _ a), fun a => h (clean_avPairs _ a)⟩

/-- A name with line breaks and an escape sequence. -/
example : debug ⟨false, fun _ => true⟩ (AvPair.targetName ['\r', '\n', Char.ofNat 27, '[', '2', 'J']) =
    "MsvAvTargetName(\"\\r\\n\\u{1b}[2J\")".toList := by decide +kernel

/-- Delete and a right-to-left override, with a table that has neither. -/
example : debug ⟨false, fun c => decide (c.toNat = 233)⟩ (AvPair.targetName ['é', Char.ofNat 127, Char.ofNat 0x202e]) =
    "MsvAvTargetName(\"é\\u{7f}\\u{202e}\")".toList := by decide +kernel

/-- C81: with `{:#?}` the only unprintable characters are the line breaks of the layout; texts inside have none. -/
theorem C81_layout (f : Fmt) (c : Char) (h : c.toNat < 32 ∨ (127 ≤ c.toNat ∧ f.table c = false)) (hc : c ≠ '\n') :
    (∀ a : Negotiate, c ∉ debug f a) ∧ (∀ a : Challenge, c ∉ debug f a) ∧
    (∀ a : Authenticate, c ∉ debug f a) ∧ (∀ a : MessageSignature, c ∉ debug f a) ∧
    (∀ a : AvPair, c ∉ debug f a) ∧ (∀ a : List AvPair, c ∉ debugVec f a) := by
  have h : ∀ {u : Str}, Clean f u → c ∉ u := by
    intro u hu hm
    rcases hu c hm with h' | ⟨_, h'⟩
    · exact not_printable f h h'
    · exact hc h'
  exact ⟨fun a => h (clean_negotiate _ a), fun a => h (clean_challenge _ a), fun a => h (clean_authenticate _ a),
    fun a => h (clean_signature _ a), fun a => h (clean_avPair _ a), fun a => h (clean_avPairs _ a)⟩

/-- A name with a line break, in its own line. -/
example : debug ⟨true, fun _ => true⟩ (AvPair.targetName ['a', '\n', '\t']) = "MsvAvTargetName(\n    \"a\\n\\t\",\n)".toList := by
  decide +kernel

/-- C81: the text of a name has no line break in either layout, nor any other unprintable character. -/
theorem C81_names (f : Fmt) (c : Char) (h : c.toNat < 32 ∨ (127 ≤ c.toNat ∧ f.table c = false)) :
    (∀ s : Str, c ∉ debug f s) ∧ (∀ s : UnicodeString, c ∉ debug f s) ∧ (∀ s : OEMString, c ∉ debug f s) :=
  ⟨fun s hm => not_printable f h (debugStr_chars f s c hm), fun s hm => not_printable f h (debugStr_chars f s.s c hm),
    fun s hm => not_printable f h (debugStr_chars f s.s c hm)⟩

/-- A text with a line break and a backspace. -/
example : debug ⟨true, fun _ => true⟩ (['a', '\n', Char.ofNat 8] : Str) = "\"a\\n\\u{8}\"".toList := by decide +kernel

end Ntlm.Props
