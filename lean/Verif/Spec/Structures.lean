import Verif.Spec.Text
import Verif.Spec.Bytes
/-
  Specification vocabulary for the wire structures.
-/
namespace Ntlm.Spec

/-- `α` is a fixed-size structure of `n` bytes: every value has an encoding of exactly `n` bytes; followed by anything, that
    encoding decodes to the value and leaves what follows if the value satisfies `ok`, and is refused
    otherwise; whatever is decoded was the encoding of the result; and fewer than `n` bytes are refused. -/
structure FixedSize (α : Type) [Wire α] (n : Nat) (ok : Cfg → α → Prop) : Prop where
  roundtrip : ∀ cfg (x : α), ∃ b, Wire.serialize cfg x = .ok b ∧ b.length = n ∧
    (ok cfg x → ∀ rest, Wire.deserialize cfg (b ++ rest) = .ok (x, rest)) ∧
    (¬ ok cfg x → ∀ rest, (Wire.deserialize cfg : Parser α) (b ++ rest) = .error .error)
  canonical : ∀ cfg i (x : α) rest, Wire.deserialize cfg i = .ok (x, rest) →
    ∃ b, Wire.serialize cfg x = .ok b ∧ i = b ++ rest
  short : ∀ cfg i, i.length < n → (Wire.deserialize cfg : Parser α) i = .error .error

/-- No condition. -/
def always {α : Type} : Cfg → α → Prop := fun _ _ => True

/-- Where UTF-16LE text ends: at the end of the data (or one byte before), at a NUL unit or at a surrogate unit. -/
def textEnds (r : List UInt8) : Prop := r.length < 2 ∨ u16At r 0 = 0 ∨ (0xD800 ≤ u16At r 0 ∧ u16At r 0 ≤ 0xDFFF)

/-- What may follow the bytes of an AV pair's content within its value: nothing after the terminator, anything that ends a
    text after text, anything else after the fixed-size contents. -/
def leftover : AvPair → List UInt8 → Prop
  | .eol, r => r = []
  | .nbComputerName _, r => textEnds r
  | .nbDomainName _, r => textEnds r
  | .dnsComputerName _, r => textEnds r
  | .dnsDomainName _, r => textEnds r
  | .dnsTreeName _, r => textEnds r
  | .targetName _, r => textEnds r
  | .flags _, _ => True
  | .timestamp _, _ => True
  | .singleHost _, _ => True
  | .channelBindings _, _ => True

/-- The value `v` of an AV pair means `p`: it starts with the bytes of `p`'s content, which is one that can be read back. -/
def valueIs (cfg : Cfg) (v : List UInt8) (p : AvPair) : Prop :=
  ∃ rest, v = avValueBytes p ++ rest ∧ pairOk cfg p ∧ leftover p rest

/-- The bytes `i` start with the AV pair `p`: identifier, length, value. -/
def pairAt (cfg : Cfg) (i : List UInt8) (p : AvPair) : Prop :=
  4 ≤ i.length ∧ u16At i 0 = avIdValue p ∧ 4 + u16At i 2 ≤ i.length ∧ valueIs cfg (bytesAt i 4 (u16At i 2)) p

/-- The value `v` of an AV pair with identifier `id` has no meaning: a terminator that is not empty; flags, a time, host data or
    channel bindings that are too short; unknown flags; a time the clock cannot represent; non-zero Z4 in host data. -/
def badValue (cfg : Cfg) (id : Nat) (v : List UInt8) : Prop :=
  (id = 0 ∧ v ≠ []) ∨ (id = 6 ∧ (v.length < 4 ∨ 8 ≤ u32At v 0)) ∨
  (id = 7 ∧ (v.length < 8 ∨ cfg.platform.maxSecs < (2 ^ 32 * u32At v 4 + u32At v 0) / 1000000)) ∨
  (id = 8 ∧ (v.length < 48 ∨ u32At v 4 ≠ 0)) ∨ (id = 10 ∧ v.length < 16)

/-- The bytes `i` do not start with an AV pair: too short, an unknown identifier, or a value without meaning. -/
def noPair (cfg : Cfg) (i : List UInt8) : Prop :=
  i.length < 4 ∨ 10 < u16At i 0 ∨ (4 + u16At i 2 ≤ i.length ∧ badValue cfg (u16At i 0) (bytesAt i 4 (u16At i 2)))

/-- Reading AV pairs one after the other from `i` gives `l` and stops, with `r` left, where there is no pair.  In debug builds
    no pair may have bytes left over in its value. -/
inductive AvWalk (cfg : Cfg) : List UInt8 → List AvPair → List UInt8 → Prop where
  | stop {i} : noPair cfg i → AvWalk cfg i [] i
  | step {i r p l} : pairAt cfg i p → (cfg.debug = true → bytesAt i 4 (u16At i 2) = avValueBytes p) →
      AvWalk cfg (i.drop (4 + u16At i 2)) l r → AvWalk cfg i (p :: l) r

end Ntlm.Spec
