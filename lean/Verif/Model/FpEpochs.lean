import Verif.Model.FpCode
import Verif.Model.TimeScales

/-
Time scales and epochs with the rounding of every operation.
-/
noncomputable section
namespace Sla.Fp

/-- src/dat.cc:65-158 `dat` -/
def dat (R : ℝ → ℝ) (utc : ℝ) : ℝ :=
  if utc ≥ 57754 then 37 -- 2017 January 1
  else if utc ≥ 57204 then 36 -- 2015 July 1
  else if utc ≥ 56109 then 35 -- 2012 July 1
  else if utc ≥ 54832 then 34 -- 2009 January 1
  else if utc ≥ 53736 then 33 -- 2006 January 1
  else if utc ≥ 51179 then 32 -- 1999 January 1
  else if utc ≥ 50630 then 31 -- 1997 July 1
  else if utc ≥ 50083 then 30 -- 1996 January 1
  else if utc ≥ 49534 then 29 -- 1994 July 1
  else if utc ≥ 49169 then 28 -- 1993 July 1
  else if utc ≥ 48804 then 27 -- 1992 July 1
  else if utc ≥ 48257 then 26 -- 1991 January 1
  else if utc ≥ 47892 then 25 -- 1990 January 1
  else if utc ≥ 47161 then 24 -- 1988 January 1
  else if utc ≥ 46247 then 23 -- 1985 July 1
  else if utc ≥ 45516 then 22 -- 1983 July 1
  else if utc ≥ 45151 then 21 -- 1982 July 1
  else if utc ≥ 44786 then 20 -- 1981 July 1
  else if utc ≥ 44239 then 19 -- 1980 January 1
  else if utc ≥ 43874 then 18 -- 1979 January 1
  else if utc ≥ 43509 then 17 -- 1978 January 1
  else if utc ≥ 43144 then 16 -- 1977 January 1
  else if utc ≥ 42778 then 15 -- 1976 January 1
  else if utc ≥ 42413 then 14 -- 1975 January 1
  else if utc ≥ 42048 then 13 -- 1974 January 1
  else if utc ≥ 41683 then 12 -- 1973 January 1
  else if utc ≥ 41499 then 11 -- 1972 July 1
  else if utc ≥ 41317 then 10 -- 1972 January 1
  else if utc ≥ 39887 then R (R 4.21317 + R (R (utc - 39126) * R 0.002592)) -- 1968 February 1
  else if utc ≥ 39126 then R (R 4.31317 + R (R (utc - 39126) * R 0.002592)) -- 1966 January 1
  else if utc ≥ 39004 then R (R 3.84013 + R (R (utc - 38761) * R 0.001296)) -- 1965 September 1
  else if utc ≥ 38942 then R (R 3.74013 + R (R (utc - 38761) * R 0.001296)) -- 1965 July 1
  else if utc ≥ 38820 then R (R 3.64013 + R (R (utc - 38761) * R 0.001296)) -- 1965 March 1
  else if utc ≥ 38761 then R (R 3.54013 + R (R (utc - 38761) * R 0.001296)) -- 1965 January 1
  else if utc ≥ 38639 then R (R 3.44013 + R (R (utc - 38761) * R 0.001296)) -- 1964 September 1
  else if utc ≥ 38486 then R (R 3.34013 + R (R (utc - 38761) * R 0.001296)) -- 1964 April 1
  else if utc ≥ 38395 then R (R 3.24013 + R (R (utc - 38761) * R 0.001296)) -- 1964 January 1
  else if utc ≥ 38334 then R (R 1.945858 + R (R (utc - 37665) * R 0.0011232)) -- 1963 November 1
  else if utc ≥ 37665 then R (R 1.845858 + R (R (utc - 37665) * R 0.0011232)) -- 1962 January 1
  else if utc ≥ 37512 then R (R 1.372818 + R (R (utc - 37300) * R 0.001296)) -- 1961 August 1
  else if utc ≥ 37300 then R (R 1.422818 + R (R (utc - 37300) * R 0.001296)) -- 1961 January 1
  else R (R 1.417818 + R (R (utc - 37300) * R 0.001296))

/-- src/dtt.cc:36-38 `dtt` -/
def dtt (R : ℝ → ℝ) (utc : ℝ) : ℝ := R (R 32.184 + dat R utc)

/-- src/dt.cc:48-64 `dt` -/
def dt (R : ℝ → ℝ) (epoch : ℝ) : ℝ :=
  let centuries := R (R (epoch - 1800) / 100)
  if epoch ≥ R 1708.185161980887 then
    let w := R (centuries - R 0.19)
    R (R 5.156 + R (R (R 13.3066 * w) * w))
  else if epoch ≥ R 979.0258204760233 then
    R (R (25.5 * centuries) * centuries)
  else
    R (1360 + R (R (320 + R (R 44.3 * centuries)) * centuries))

/-- src/epco.cc:34-54 `epco` -/
def epco (R : ℝ → ℝ) (result given : Char) (epoch : ℝ) : ℝ :=
  let result := if result = 'b' then 'B' else result
  if result ≠ 'B' ∧ result ≠ 'J' then 0
  else
    let given := if given = 'j' then 'J' else given
    if given ≠ 'B' ∧ given ≠ 'J' then 0
    else if result = given then epoch
    else if result = 'B' then epb R (epj2d R epoch)
    else epj R (epb2d R epoch)

end Sla.Fp
