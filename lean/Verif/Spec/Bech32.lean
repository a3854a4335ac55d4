import Verif.Model.Basic

namespace Cardano.Bech32

/-- Specification: an ASCII upper-case letter. -/
def specUpper (c : UInt8) : Prop := c ∈ ascii "ABCDEFGHIJKLMNOPQRSTUVWXYZ"
instance : DecidablePred specUpper := fun _ => inferInstanceAs (Decidable (_ ∈ _))

/-- Specification: an ASCII character. -/
def specAscii (c : UInt8) : Prop := c.toNat < 128

/-- Specification: one of the 32 characters of a Bech32 data part, in either case. -/
def specBech32Char (c : UInt8) : Prop :=
  c ∈ ascii "qpzry9x8gf2tvdw0s3jn54khce6mua7l" ∨ c ∈ ascii "QPZRY9X8GF2TVDW0S3JN54KHCE6MUA7L"
instance (c : UInt8) : Decidable (specBech32Char c) := by unfold specBech32Char; infer_instance

/-- Specification: equal up to the case of ASCII letters. -/
def sameUpToCase (s t : Bytes) : Prop := s.map toLower = t.map toLower

end Cardano.Bech32
