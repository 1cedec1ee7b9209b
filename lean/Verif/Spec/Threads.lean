import Verif.Model.Threads
import Verif.Spec.Failing
/-
  Specification vocabulary for several clients at once.
-/
namespace Ntlm.Spec

open Client (Op Call Event Finished Machine)

/-- The bytes of the source from a place on. -/
def sourceBytes (source : Nat → UInt8) (place n : Nat) : List UInt8 := (List.range n).map fun i => source (place + i)

/-- The random values of a call: the client challenge is its first draw, the session key its second.  What stands for a draw that is
    not made does not matter where this is used. -/
def randOf (source : Nat → UInt8) (draws : List (Nat × Nat)) (clock : SystemTime) : AuthRand :=
  let place (i : Nat) := (draws.getD i (0, 0)).1
  ⟨⟨sourceBytes source (place 0) 8, by simp [sourceBytes]⟩, ⟨sourceBytes source (place 1) 16, by simp [sourceBytes]⟩, clock⟩

/-- A call that has ended, as a call of a client that has the machine for itself. -/
def opOf (source : Nat → UInt8) (f : Finished) : Op :=
  match f.call with
  | .sendNegociate junk => .sendNegociate junk
  | .recvChallenge ch => .recvChallenge ch
  | .sendAuthenticate clock junk => .sendAuthenticate (randOf source f.draws clock) junk

/-- The calls of one client among those that have ended. -/
def callsOf (source : Nat → UInt8) (k : Nat) (fs : List Finished) : List Op :=
  (fs.filter fun f => f.thread == k).map (opOf source)

/-- Two draws have no byte of the source in common. -/
def apart (d d' : Nat × Nat) : Prop := d.1 + d.2 ≤ d'.1 ∨ d'.1 + d'.2 ≤ d.1

/-- The machine after a schedule. -/
def reached (P : Prims) (cfg : Cfg) (ver : Nat → UInt32) (source : Nat → UInt8) (clients : Nat → Client) (es : List Event) :
    Machine :=
  Machine.run P cfg ver source (Machine.fresh clients) es

/-- How often a schedule lets a thread go on. -/
def turns (k : Nat) (es : List Event) : Nat := (es.filter fun e => e == .draw k).length

end Ntlm.Spec
