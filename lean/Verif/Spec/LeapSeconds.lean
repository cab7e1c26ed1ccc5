import Verif.Spec.Gregorian
import Mathlib.Data.Rat.Defs
import Mathlib.Tactic.NormNum.OfScientific

/-
Specification: the days at whose start a leap second took effect (the start of integer UTC offsets
in 1972 included), as announced by the BIH/IERS, in chronological order; and the earlier epochs at which UTC
was stepped or changed rate.
-/
namespace Spec

/-- Days that begin with TAI-UTC one second larger than the day before (first entry: start of the
    present system with 10 s). -/
def leapSecondDates : List YMD :=
  [⟨1972, 1, 1⟩, ⟨1972, 7, 1⟩, ⟨1973, 1, 1⟩, ⟨1974, 1, 1⟩, ⟨1975, 1, 1⟩, ⟨1976, 1, 1⟩, ⟨1977, 1, 1⟩,
   ⟨1978, 1, 1⟩, ⟨1979, 1, 1⟩, ⟨1980, 1, 1⟩, ⟨1981, 7, 1⟩, ⟨1982, 7, 1⟩, ⟨1983, 7, 1⟩, ⟨1985, 7, 1⟩,
   ⟨1988, 1, 1⟩, ⟨1990, 1, 1⟩, ⟨1991, 1, 1⟩, ⟨1992, 7, 1⟩, ⟨1993, 7, 1⟩, ⟨1994, 7, 1⟩, ⟨1996, 1, 1⟩,
   ⟨1997, 7, 1⟩, ⟨1999, 1, 1⟩, ⟨2006, 1, 1⟩, ⟨2009, 1, 1⟩, ⟨2012, 7, 1⟩, ⟨2015, 7, 1⟩, ⟨2017, 1, 1⟩]

/-- The periods of linear TAI-UTC before 1972 (USNO table): first day, and `a`, `r`, `s` in
    TAI-UTC = a + (MJD - r) * s; the last entry only ends the list. -/
def rubberSeconds : List (YMD × ℚ × ℚ × ℚ) :=
  [(⟨1961, 1, 1⟩, 1.4228180, 37300, 0.001296), (⟨1961, 8, 1⟩, 1.3728180, 37300, 0.001296),
   (⟨1962, 1, 1⟩, 1.8458580, 37665, 0.0011232), (⟨1963, 11, 1⟩, 1.9458580, 37665, 0.0011232),
   (⟨1964, 1, 1⟩, 3.2401300, 38761, 0.001296), (⟨1964, 4, 1⟩, 3.3401300, 38761, 0.001296),
   (⟨1964, 9, 1⟩, 3.4401300, 38761, 0.001296), (⟨1965, 1, 1⟩, 3.5401300, 38761, 0.001296),
   (⟨1965, 3, 1⟩, 3.6401300, 38761, 0.001296), (⟨1965, 7, 1⟩, 3.7401300, 38761, 0.001296),
   (⟨1965, 9, 1⟩, 3.8401300, 38761, 0.001296), (⟨1966, 1, 1⟩, 4.3131700, 39126, 0.002592),
   (⟨1968, 2, 1⟩, 4.2131700, 39126, 0.002592), (⟨1972, 1, 1⟩, 10, 0, 0)]

end Spec
