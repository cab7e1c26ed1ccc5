import Verif.Model.CMath

/-
Time-scale differences: dat, dtt, dt.
-/
noncomputable section
namespace Sla

/-- src/dat.cc:65-158 `dat`: TAI minus UTC, seconds; `utc` is an MJD. -/
def dat (utc : ℝ) : ℝ :=
  if utc ≥ 57754 then 37 -- 2017 January 1
  else if utc ≥ 57204 then 36 -- 2015 July 1
  else if utc ≥ 56109 then 35 -- 2012 July 1
  else if utc ≥ 54832 then 34 -- 2009 January 1
  else if utc ≥ 53736 then 33 -- 2006 January 1
  else if utc ≥ 51179 then 32 -- 1999 January 1
  else if utc ≥ 50630 then 31 -- 1997 July 1
  else if utc ≥ 50083 then 30 -- 1996 January 1
  else if utc ≥ 49534 then 29 -- 1994 July 1
  else if utc ≥ 49169 then 28 -- 1993 July 1
  else if utc ≥ 48804 then 27 -- 1992 July 1
  else if utc ≥ 48257 then 26 -- 1991 January 1
  else if utc ≥ 47892 then 25 -- 1990 January 1
  else if utc ≥ 47161 then 24 -- 1988 January 1
  else if utc ≥ 46247 then 23 -- 1985 July 1
  else if utc ≥ 45516 then 22 -- 1983 July 1
  else if utc ≥ 45151 then 21 -- 1982 July 1
  else if utc ≥ 44786 then 20 -- 1981 July 1
  else if utc ≥ 44239 then 19 -- 1980 January 1
  else if utc ≥ 43874 then 18 -- 1979 January 1
  else if utc ≥ 43509 then 17 -- 1978 January 1
  else if utc ≥ 43144 then 16 -- 1977 January 1
  else if utc ≥ 42778 then 15 -- 1976 January 1
  else if utc ≥ 42413 then 14 -- 1975 January 1
  else if utc ≥ 42048 then 13 -- 1974 January 1
  else if utc ≥ 41683 then 12 -- 1973 January 1
  else if utc ≥ 41499 then 11 -- 1972 July 1
  else if utc ≥ 41317 then 10 -- 1972 January 1
  else if utc ≥ 39887 then 4.21317 + (utc - 39126) * 0.002592 -- 1968 February 1
  else if utc ≥ 39126 then 4.31317 + (utc - 39126) * 0.002592 -- 1966 January 1
  else if utc ≥ 39004 then 3.84013 + (utc - 38761) * 0.001296 -- 1965 September 1
  else if utc ≥ 38942 then 3.74013 + (utc - 38761) * 0.001296 -- 1965 July 1
  else if utc ≥ 38820 then 3.64013 + (utc - 38761) * 0.001296 -- 1965 March 1
  else if utc ≥ 38761 then 3.54013 + (utc - 38761) * 0.001296 -- 1965 January 1
  else if utc ≥ 38639 then 3.44013 + (utc - 38761) * 0.001296 -- 1964 September 1
  else if utc ≥ 38486 then 3.34013 + (utc - 38761) * 0.001296 -- 1964 April 1
  else if utc ≥ 38395 then 3.24013 + (utc - 38761) * 0.001296 -- 1964 January 1
  else if utc ≥ 38334 then 1.945858 + (utc - 37665) * 0.0011232 -- 1963 November 1
  else if utc ≥ 37665 then 1.845858 + (utc - 37665) * 0.0011232 -- 1962 January 1
  else if utc ≥ 37512 then 1.372818 + (utc - 37300) * 0.001296 -- 1961 August 1
  else if utc ≥ 37300 then 1.422818 + (utc - 37300) * 0.001296 -- 1961 January 1
  else 1.417818 + (utc - 37300) * 0.001296

/-- src/dtt.cc:36-38 `dtt`: TT minus UTC. -/
def dtt (utc : ℝ) : ℝ := 32.184 + dat utc

/-- src/dt.cc:48-64 `dt`: estimate of ET minus UT, seconds; `epoch` is a (Julian) epoch. -/
def dt (epoch : ℝ) : ℝ :=
  let centuries := (epoch - 1800) / 100
  if epoch ≥ 1708.185161980887 then
    let w := centuries - 0.19
    5.156 + 13.3066 * w * w
  else if epoch ≥ 979.0258204760233 then
    25.5 * centuries * centuries
  else
    1360 + (320 + 44.3 * centuries) * centuries

end Sla
