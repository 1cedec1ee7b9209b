import Verif.Spec.Layout
import Verif.Model.Target
/-
  Specifications for C73 and C74.
-/
namespace Ntlm.Spec

/-- UTF-16, the high byte of each unit first. -/
def utf16be (s : Str) : List UInt8 := (s.flatMap utf16Units).flatMap fun u => (le 2 u).reverse

/-- The text of a pair, if it is of a kind that holds one. -/
def pairText : AvPair → Option Str
  | .nbComputerName s => some s
  | .nbDomainName s => some s
  | .dnsComputerName s => some s
  | .dnsDomainName s => some s
  | .dnsTreeName s => some s
  | .targetName s => some s
  | _ => none

/-- The value of a pair, the high byte first if it is a text. -/
def swappedValue (p : AvPair) : List UInt8 :=
  match pairText p with
  | some s => utf16be s
  | none => avValueBytes p

/-- A pair with its text, if any, high byte first: identifier, length, value. -/
def swappedPair (p : AvPair) : List UInt8 :=
  le 2 (avIdValue p) ++ le 2 (avValueBytes p).length ++ swappedValue p

/-- Both bytes of every unit are equal. -/
def symmetricText (s : Str) : Prop := ∀ u ∈ s.flatMap utf16Units, u / 256 = u % 256

/-- The pair of the same kind with another text. -/
def withText (s : Str) : AvPair → AvPair
  | .nbComputerName _ => .nbComputerName s
  | .nbDomainName _ => .nbDomainName s
  | .dnsComputerName _ => .dnsComputerName s
  | .dnsDomainName _ => .dnsDomainName s
  | .dnsTreeName _ => .dnsTreeName s
  | .targetName _ => .targetName s
  | p => p

/-- The text a reader sees in place of an ASCII text whose bytes have been swapped. -/
def misread (s : Str) : Str := s.map fun c => Char.ofNat (256 * c.toNat)

end Ntlm.Spec
