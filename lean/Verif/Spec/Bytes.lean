/-! # Size of a text in UTF-8 -/

namespace Spec

/-- number of bytes of a character in UTF-8 (RFC 3629) -/
def charBytes (c : Char) : Nat :=
  if c.toNat ≤ 0x7F then 1 else if c.toNat ≤ 0x7FF then 2 else if c.toNat ≤ 0xFFFF then 3 else 4

/-- number of bytes of a text in UTF-8 -/
def bytes (s : List Char) : Nat := (s.map charBytes).sum

end Spec
