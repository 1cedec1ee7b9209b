import Verif.Model.Messages
/-
  Specification vocabulary for flag words, setters and builders.
-/
namespace Ntlm.Spec

/-- Flag number `k` of a flag word. -/
def bit (f : Flags) (k : Nat) : Prop := f.bits.toNat.testBit k = true

/-- The words strict mode is meant to refuse: a reserved bit set, both target types, neither character set, or both
    EXTENDED_SESSIONSECURITY and LM_KEY. -/
def strictBad (n : Nat) : Prop :=
  (∃ k ∈ [3, 8, 10, 14, 18, 21, 24, 26, 27, 28], n.testBit k = true) ∨
  (n.testBit 16 = true ∧ n.testBit 17 = true) ∨
  (n.testBit 0 = false ∧ n.testBit 1 = false) ∨
  (n.testBit 19 = true ∧ n.testBit 7 = true)

/-- The value most recently given, if any call gave one. -/
def latest {α : Type} (l : List α) (initial : α) : α := l.getLast?.getD initial

/-- A setter call on a NEGOTIATE message. -/
inductive NegotiateCall where
  | domain (d : Option Str)
  | workstation (w : Option Str)

/-- Carry out a setter call. -/
def NegotiateCall.apply (m : Negotiate) : NegotiateCall → Negotiate
  | .domain d => m.setDomainName d
  | .workstation w => m.setWorkstation w

/-- The domains, and the workstations, given by a sequence of calls. -/
def domainsGiven (l : List NegotiateCall) : List (Option Str) :=
  l.filterMap fun | .domain d => some d | .workstation _ => none
def workstationsGiven (l : List NegotiateCall) : List (Option Str) :=
  l.filterMap fun | .domain _ => none | .workstation w => some w

/-- A builder call on a CHALLENGE message. -/
inductive ChallengeCall where
  | targetName (t : Option Str)
  | computername (s : Str)
  | domainname (s : Str)
  | dnscomputername (s : Str)
  | dnsdomainname (s : Str)
  | dnstreename (s : Str)
  | flags (f : MsvAvFlags)
  | timestamp (t : FileTime)
  | singlehost (d : SingleHostData)
  | targetname (s : Str)
  | channelbindings (h : Bytes 16)
  | fillFromEnv (env : String → Option Str)

/-- Carry out a builder call. -/
def ChallengeCall.apply (cm : CaseMap) (m : Challenge) : ChallengeCall → Challenge
  | .targetName t => m.setTargetName t
  | .computername s => m.addComputername s
  | .domainname s => m.addDomainname s
  | .dnscomputername s => m.addDnscomputername s
  | .dnsdomainname s => m.addDnsdomainname s
  | .dnstreename s => m.addDnstreename s
  | .flags f => m.addFlags f
  | .timestamp t => m.addTimestamp t
  | .singlehost d => m.addSinglehost d
  | .targetname s => m.addTargetname s
  | .channelbindings h => m.addChannelbindings h
  | .fillFromEnv env => m.fillFromEnv cm env

/-- The pairs a call adds: one, or for `fill_from_env` one per environment variable that is set, in a fixed order, the
    NetBIOS names in upper case. -/
def ChallengeCall.pairs (cm : CaseMap) : ChallengeCall → List AvPair
  | .targetName _ => []
  | .computername s => [.nbComputerName s]
  | .domainname s => [.nbDomainName s]
  | .dnscomputername s => [.dnsComputerName s]
  | .dnsdomainname s => [.dnsDomainName s]
  | .dnstreename s => [.dnsTreeName s]
  | .flags f => [.flags f]
  | .timestamp t => [.timestamp t]
  | .singlehost d => [.singleHost d]
  | .targetname s => [.targetName s]
  | .channelbindings h => [.channelBindings h]
  | .fillFromEnv env =>
    ((env "COMPUTERNAME").map fun s => AvPair.nbComputerName (cm.upper s)).toList ++
    ((env "COMPUTERDNSNAME").map fun s => AvPair.dnsComputerName s).toList ++
    ((env "USERDOMAIN").map fun s => AvPair.nbDomainName (cm.upper s)).toList ++
    ((env "USERDNSDOMAIN").map fun s => AvPair.dnsDomainName s).toList

/-- The target names given by a sequence of calls. -/
def targetNamesGiven (l : List ChallengeCall) : List (Option Str) :=
  l.filterMap fun | .targetName t => some t | _ => none

/-- A list of pairs with its terminator; nothing at all if there is no pair. -/
def terminatedList (l : List AvPair) : List AvPair := if l = [] then [] else l ++ [.eol]

/-- What the builder is called on: a fresh challenge or one received from the network. -/
inductive Source (cfg : Cfg) : Challenge → Prop where
  | fresh : Source cfg Challenge.default
  | received (i : List UInt8) (m : Challenge) (r : List UInt8) :
      (Wire.deserialize cfg : Parser Challenge) i = .ok (m, r) → Source cfg m

end Ntlm.Spec
