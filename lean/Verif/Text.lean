import Mathlib.Data.Int.Notation

/-!
# Strings

`std::string` is modelled as `List Char`.  Simplification: one list element per
character; for the ASCII strings produced by the formatting functions this is
one element per byte.  Chinese literals occupy three bytes per character in the
UTF-8 sources; where the code takes byte offsets into such a string the
model says so at that definition.
-/

namespace Verif

abbrev Str := List Char

/-- decimal representation of an integer, the meaning of `to_str(int)` (/repo/mylib/mystl/my_string.h:201-222 calling
`to_text_from_integer`; that the real digit-pair code produces it is proved in
`Verif/Props/NumText.lean`). -/
def decimal (n : ℤ) : Str :=
  if n < 0 then '-' :: Nat.toDigits 10 n.natAbs else Nat.toDigits 10 n.natAbs

/-- `s.substr(s.length() - k, k)`; `none` models the `std::out_of_range` exception thrown when
`s.length() - k` wraps around. -/
def lastK (k : Nat) (s : Str) : Option Str :=
  if k ≤ s.length then some (s.drop (s.length - k)) else none

end Verif
