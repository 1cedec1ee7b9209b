import Verif.Spec.Layout
/-
  What the protocol means by a time ([MS-DTYP] 2.3.3): the number of 100-nanosecond intervals since 1601-01-01, which is
  11644473600 seconds before 1970-01-01.
-/
namespace Ntlm.Spec

/-- The FILETIME value of a point in time. -/
def ticks (t : SystemTime) : Int := (t.secs + 11644473600) * 10000000 + t.nanos / 100

/-- Chronological order. -/
def notAfter (t u : SystemTime) : Prop := t.secs < u.secs ∨ (t.secs = u.secs ∧ t.nanos ≤ u.nanos)

end Ntlm.Spec
