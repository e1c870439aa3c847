import Verif.Text

/-! Specification of printed clock times and dates (independent of the model). -/

namespace Verif.Cal

/-- two decimal digits -/
def dd (n : ℤ) : Str := [Nat.digitChar (n / 10).toNat, Nat.digitChar (n % 10).toNat]

/-- `hh:mm:ss` of a number of seconds since midnight -/
def clockText (sec : ℤ) : Str :=
  dd (sec / 3600) ++ ':' :: dd (sec % 3600 / 60) ++ ':' :: dd (sec % 60)

/-- year right-justified in five columns, month and day in two digits -/
def dateText (y m d : ℤ) : Str :=
  List.replicate (5 - (decimal y).length) ' ' ++ decimal y ++ '-' :: dd m ++ '-' :: dd d

example : clockText 43205 = "12:00:05".toList := by decide
example : dateText (-104) 12 3 = " -104-12-03".toList := by decide

end Verif.Cal
