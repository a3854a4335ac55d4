import Verif.Model.Basic

namespace Cardano.Hex

/-- Specification: the sixteen lower-case digits. -/
def specLowerDigit (c : UInt8) : Prop := c ∈ ascii "0123456789abcdef"

/-- Specification: a hexadecimal digit in either case. -/
def specHexDigit (c : UInt8) : Prop := c ∈ ascii "0123456789abcdefABCDEF"

instance : DecidablePred specLowerDigit := fun _ => inferInstanceAs (Decidable (_ ∈ _))
instance : DecidablePred specHexDigit := fun _ => inferInstanceAs (Decidable (_ ∈ _))

end Cardano.Hex
