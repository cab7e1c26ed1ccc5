/-
Specification of the proleptic Gregorian calendar, independent of the code in /repo:
which dates exist, and what the day after a date is.
-/
namespace Spec

/-- A calendar date: astronomical year number, month, day of month. -/
structure YMD where
  year : Int
  month : Int
  day : Int
deriving DecidableEq, Repr

/-- Gregorian leap year rule: divisible by 4, but centuries only when divisible by 400. -/
def isLeap (y : Int) : Prop := 4 ∣ y ∧ (¬ 100 ∣ y ∨ 400 ∣ y)

instance (y : Int) : Decidable (isLeap y) := by unfold isLeap; infer_instance

/-- Length of a month of the Gregorian calendar. -/
def monthLength (y m : Int) : Int :=
  if m = 2 then (if isLeap y then 29 else 28)
  else if m = 4 ∨ m = 6 ∨ m = 9 ∨ m = 11 then 30
  else 31

/-- The date exists in the Gregorian calendar. -/
def YMD.Valid (D : YMD) : Prop :=
  1 ≤ D.month ∧ D.month ≤ 12 ∧ 1 ≤ D.day ∧ D.day ≤ monthLength D.year D.month

instance (D : YMD) : Decidable D.Valid := by unfold YMD.Valid; infer_instance

/-- The day after `D`. -/
def nextDay (D : YMD) : YMD :=
  if D.day < monthLength D.year D.month then ⟨D.year, D.month, D.day + 1⟩
  else if D.month < 12 then ⟨D.year, D.month + 1, 1⟩
  else ⟨D.year + 1, 1, 1⟩

/-- The date `k` days after `D`. -/
def addDays : Nat → YMD → YMD
  | 0, D => D
  | k + 1, D => nextDay (addDays k D)

/-- The epoch of Modified Julian Dates. -/
def mjdEpoch : YMD := ⟨1858, 11, 17⟩

/-- `n` is the number of days from the MJD epoch to `D` (negative if `D` is earlier). -/
def IsDayNumber (D : YMD) (n : Int) : Prop :=
  (∃ k : Nat, addDays k mjdEpoch = D ∧ n = k) ∨ (∃ k : Nat, addDays k D = mjdEpoch ∧ n = -k)

/-- Month lengths of a year. -/
def monthLengths (leap : Bool) : List Int :=
  [31, if leap then 29 else 28, 31, 30, 31, 30, 31, 31, 30, 31, 30, 31]

/-- Ordinal number of a day within its year (1 January = 1). -/
def ordinalDay (leap : Bool) (month day : Int) : Int :=
  ((monthLengths leap).take (month - 1).toNat).sum + day

/-- Lexicographic order on dates. -/
def YMD.le (A B : YMD) : Prop :=
  A.year < B.year ∨ A.year = B.year ∧ (A.month < B.month ∨ A.month = B.month ∧ A.day ≤ B.day)

instance (A B : YMD) : Decidable (A.le B) := by unfold YMD.le; infer_instance

/-! The Julian calendar (used by `clyd` outside 1900-2100) in (year, day-in-year) form. -/

/-- Length of a year of the Julian calendar. -/
def julianYearLength (y : Int) : Int := if 4 ∣ y then 366 else 365

/-- The day after (year, day in year) in the Julian calendar. -/
def julianNext (p : Int × Int) : Int × Int :=
  if p.2 < julianYearLength p.1 then (p.1, p.2 + 1) else (p.1 + 1, 1)

/-- `k` days later in the Julian calendar. -/
def julianAddDays : Nat → Int × Int → Int × Int
  | 0, p => p
  | k + 1, p => julianNext (julianAddDays k p)

end Spec
