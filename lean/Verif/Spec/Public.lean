import Verif.Spec.Builders
/-
  What a program that uses the crate can get hold of.  `Wire` is visible only inside the crate (messages.rs:65), so such a
  program cannot decode bytes; it has the public constructors, methods and fields.
-/
namespace Ntlm.Spec

/-- Challenges: `Challenge::default()`, the builder calls, and assignments to the public fields (messages/challenge.rs:19-26; the
    target name and the target infos are not public). -/
inductive HeldChallenge (cm : CaseMap) : Challenge → Prop where
  | fresh : HeldChallenge cm Challenge.default
  | call (m : Challenge) (c : ChallengeCall) : HeldChallenge cm m → HeldChallenge cm (c.apply cm m)
  | flags (m : Challenge) (f : Flags) : HeldChallenge cm m → HeldChallenge cm { m with negotiateFlags := f }
  | server (m : Challenge) (s : Bytes 8) : HeldChallenge cm m → HeldChallenge cm { m with serverChallenge := s }
  | version (m : Challenge) (v : Option Version) : HeldChallenge cm m → HeldChallenge cm { m with version := v }

/-- Negotiate messages: `Negotiate::default()`, the setters, the public fields (messages/negotiate.rs:17-23). -/
inductive HeldNegotiate : Negotiate → Prop where
  | fresh : HeldNegotiate Negotiate.default
  | call (m : Negotiate) (c : NegotiateCall) : HeldNegotiate m → HeldNegotiate (c.apply m)
  | flags (m : Negotiate) (f : Flags) : HeldNegotiate m → HeldNegotiate { m with negotiateFlags := f }
  | version (m : Negotiate) (v : Option Version) : HeldNegotiate m → HeldNegotiate { m with version := v }

/-- Authenticate messages: `Authenticate::default()`, the setter of the encrypted session key, all other fields
    (messages/authenticate.rs:23-35).  `compute_mic` only assigns the public field `mic`. -/
inductive HeldAuthenticate : Authenticate → Prop where
  | fresh : HeldAuthenticate Authenticate.default
  | key (m : Authenticate) (k : Option (Bytes 16)) : HeldAuthenticate m → HeldAuthenticate (m.setEncryptedRandomSessionKey k)
  | fields (m : Authenticate) (lm : Option LmChallenge) (nt : Option NtChallenge) (domain user workstation : Option UnicodeString)
      (f : Flags) (v : Option Version) (mic : Bytes 16) (exported : Option (Bytes 16)) : HeldAuthenticate m →
      HeldAuthenticate { m with
        lmChallengeResponse := lm, ntChallengeResponse := nt, domain := domain, user := user, workstation := workstation,
        negotiateFlags := f, version := v, mic := mic, exportedSessionKey := exported }

end Ntlm.Spec
