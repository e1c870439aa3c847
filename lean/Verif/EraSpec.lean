import Verif.Text
/-! # What an era record is -/
namespace Verif.Era

/-- one record of the era table: first year, number of years, years already counted before, dynasty, ruler's title, ruler,
era name -/
structure Era where
  start : ℤ
  len : ℤ
  used : ℤ
  dynasty : String
  title : String
  ruler : String
  name : String
  deriving DecidableEq

/-- the era is in force in year `y` -/
def Era.InForce (r : Era) (y : ℤ) : Prop := r.start ≤ y ∧ y < r.start + r.len

instance (r : Era) (y : ℤ) : Decidable (r.InForce y) := by unfold Era.InForce; infer_instance

/-- text of one entry: `[dynasty]title ruler name<count>年` with the running year of the era -/
def Era.entry (r : Era) (y : ℤ) : String :=
  "[" ++ r.dynasty ++ "]" ++ r.title ++ " " ++ r.ruler ++ " " ++ (r.name ++ String.ofList (decimal (y - r.start + 1 + r.used)) ++ "年")

/-- entries separated by semicolons -/
def semis : List String → String
  | [] => ""
  | [a] => a
  | a :: b :: r => a ++ ";" ++ semis (b :: r)

end Verif.Era
