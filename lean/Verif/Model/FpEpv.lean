import Verif.Model.Fp
import Verif.Model.Epv

/-
`sla::epv` (src/epv.cc) in `double` arithmetic (see Model/Fp.lean).

`R` is the rounding; `sn` and `cs` stand for `std::sin` and `std::cos`. The constants 2, 51544.5 and 365.25 are `double`
values and are left unrounded; the numbers of the tables and of the matrix are rounded to `double` when they are compiled.
-/
noncomputable section
namespace Sla.Fp
open Sla.Epv

/-- Body of the loops over the t^0 terms (src/epv.cc:2165-2172, 2207-2214) in `double` arithmetic -/
def epvTerm0 (R : ℝ → ℝ) (sn cs : ℝ → ℝ) (t : ℝ) (s : ℝ × ℝ) (k : Term) : ℝ × ℝ :=
  let p := R (R k.b + R (R k.c * t))
  (R (s.1 + R (R k.a * cs p)), R (s.2 - R (R (R k.a * R k.c) * sn p)))

/-- Body of the loops over the t^1 terms (src/epv.cc:2175-2184, 2217-2226) in `double` arithmetic -/
def epvTerm1 (R : ℝ → ℝ) (sn cs : ℝ → ℝ) (t : ℝ) (s : ℝ × ℝ) (k : Term) : ℝ × ℝ :=
  let ct := R (R k.c * t)
  let p := R (R k.b + ct)
  let cosP := cs p
  (R (s.1 + R (R (R k.a * t) * cosP)), R (s.2 + R (R k.a * R (cosP - R (ct * sn p)))))

/-- Body of the loops over the t^2 terms (src/epv.cc:2187-2196, 2229-2238) in `double` arithmetic; the square of the time is
    rounded once (line 2149) -/
def epvTerm2 (R : ℝ → ℝ) (sn cs : ℝ → ℝ) (t : ℝ) (s : ℝ × ℝ) (k : Term) : ℝ × ℝ :=
  let ct := R (R k.c * t)
  let p := R (R k.b + ct)
  let cosP := cs p
  (R (s.1 + R (R (R k.a * R (t * t)) * cosP)), R (s.2 + R (R (R k.a * t) * R (R (2 * cosP) - R (ct * sn p)))))

/-- Component `j` of the Sun to Earth ecliptic vector and its rate per year (src/epv.cc:2152-2199) in `double` arithmetic -/
def epvHelio (R : ℝ → ℝ) (sn cs : ℝ → ℝ) (t : ℝ) (j : Fin 3) : ℝ × ℝ :=
  let s := ((e0 j).take (ne0 j)).foldl (epvTerm0 R sn cs t) (0, 0)
  let s := ((e1 j).take (ne1 j)).foldl (epvTerm1 R sn cs t) s
  ((e2 j).take (ne2 j)).foldl (epvTerm2 R sn cs t) s

/-- Component `j` of the barycentre to Earth ecliptic vector and its rate per year (src/epv.cc:2206-2242) in `double`
    arithmetic -/
def epvBary (R : ℝ → ℝ) (sn cs : ℝ → ℝ) (t : ℝ) (j : Fin 3) : ℝ × ℝ :=
  let s := ((s0 j).take (ns0 j)).foldl (epvTerm0 R sn cs t) (epvHelio R sn cs t j)
  let s := ((s1 j).take (ns1 j)).foldl (epvTerm1 R sn cs t) s
  ((s2 j).take (ns2 j)).foldl (epvTerm2 R sn cs t) s

/-- Ecliptic to ICRS (src/epv.cc:73-79, 2246-2269) in `double` arithmetic -/
def epvIcrs (R : ℝ → ℝ) (x y z : ℝ) : Vec :=
  ![R (R (x + R (R 0.000000211284 * y)) + R (-R 0.000000091603 * z)),
    R (R (R (-R 0.000000230286 * x) + R (R 0.917482137087 * y)) + R (-R 0.397776982902 * z)),
    R (R (R 0.397776982902 * y) + R (R 0.917482137087 * z))]

/-- The years since J2000 (src/epv.cc:2148) in `double` arithmetic -/
def epvTime (R : ℝ → ℝ) (date : ℝ) : ℝ := R (R (date - 51544.5) / 365.25)

/-- src/epv.cc:58-2270 `epv` in `double` arithmetic -/
def epv (R : ℝ → ℝ) (sn cs : ℝ → ℝ) (date : ℝ) : EarthPV :=
  let t := epvTime R date
  let hp := fun j => (epvHelio R sn cs t j).1
  let hv := fun j => R ((epvHelio R sn cs t j).2 / 365.25)
  let bp := fun j => (epvBary R sn cs t j).1
  let bv := fun j => R ((epvBary R sn cs t j).2 / 365.25)
  ⟨epvIcrs R (hp 0) (hp 1) (hp 2), epvIcrs R (hv 0) (hv 1) (hv 2),
   epvIcrs R (bp 0) (bp 1) (bp 2), epvIcrs R (bv 0) (bv 1) (bv 2)⟩

end Sla.Fp
