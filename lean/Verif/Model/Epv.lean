import Verif.Model.EpvTables
import Verif.Model.Vectors
import Mathlib.Analysis.SpecialFunctions.Trigonometric.Basic

/-
`sla::epv` (src/epv.cc): heliocentric and barycentric position and velocity of the Earth.
-/
noncomputable section
namespace Sla

namespace Epv

/-- The number `0.m * 10^e` with a 13-digit mantissa, in units of 10^-33. -/
def sci (m e : ℤ) : ℤ := m * 10 ^ (e + 20).toNat

/-- Amplitude, phase and frequency of a term. -/
def Term.a (k : Term) : ℝ := (sci k.am k.ae : ℝ) / 10 ^ 33
def Term.b (k : Term) : ℝ := (sci k.bm k.be : ℝ) / 10 ^ 33
def Term.c (k : Term) : ℝ := (sci k.cm k.ce : ℝ) / 10 ^ 33

/-- Body of the loops over the t^0 terms (src/epv.cc:2165-2172, 2207-2214), on the pair (pos, velo). -/
def term0 (t : ℝ) (s : ℝ × ℝ) (k : Term) : ℝ × ℝ :=
  let p := k.b + k.c * t
  (s.1 + k.a * Real.cos p, s.2 - k.a * k.c * Real.sin p)

/-- Body of the loops over the t^1 terms (src/epv.cc:2175-2184, 2217-2226). -/
def term1 (t : ℝ) (s : ℝ × ℝ) (k : Term) : ℝ × ℝ :=
  let ct := k.c * t
  let p := k.b + ct
  let cosP := Real.cos p
  (s.1 + k.a * t * cosP, s.2 + k.a * (cosP - ct * Real.sin p))

/-- Body of the loops over the t^2 terms (src/epv.cc:2187-2196, 2229-2238). -/
def term2 (t : ℝ) (s : ℝ × ℝ) (k : Term) : ℝ × ℝ :=
  let ct := k.c * t
  let p := k.b + ct
  let cosP := Real.cos p
  (s.1 + k.a * (t * t) * cosP, s.2 + k.a * t * (2 * cosP - ct * Real.sin p))

/-- src/epv.cc:110-122, 124-2145: the tables and the number of terms used of each, by component. -/
def ne0 : Fin 3 → ℕ := ![501, 501, 137]
def ne1 : Fin 3 → ℕ := ![79, 80, 12]
def ne2 : Fin 3 → ℕ := ![5, 5, 3]
def ns0 : Fin 3 → ℕ := ![212, 213, 69]
def ns1 : Fin 3 → ℕ := ![50, 50, 14]
def ns2 : Fin 3 → ℕ := ![9, 9, 2]
def e0 : Fin 3 → List Term := ![e0x, e0y, e0z]
def e1 : Fin 3 → List Term := ![e1x, e1y, e1z]
def e2 : Fin 3 → List Term := ![e2x, e2y, e2z]
def s0 : Fin 3 → List Term := ![s0x, s0y, s0z]
def s1 : Fin 3 → List Term := ![s1x, s1y, s1z]
def s2 : Fin 3 → List Term := ![s2x, s2y, s2z]

/-- Component `j` of the Sun to Earth ecliptic vector and its rate per year (src/epv.cc:2152-2200). -/
def helio (t : ℝ) (j : Fin 3) : ℝ × ℝ :=
  let s := ((e0 j).take (ne0 j)).foldl (term0 t) (0, 0)
  let s := ((e1 j).take (ne1 j)).foldl (term1 t) s
  ((e2 j).take (ne2 j)).foldl (term2 t) s

/-- Component `j` of the barycentre to Earth ecliptic vector and its rate per year (src/epv.cc:2206-2242): the sums go
    on from those of the Sun to Earth vector. -/
def bary (t : ℝ) (j : Fin 3) : ℝ × ℝ :=
  let s := ((s0 j).take (ns0 j)).foldl (term0 t) (helio t j)
  let s := ((s1 j).take (ns1 j)).foldl (term1 t) s
  ((s2 j).take (ns2 j)).foldl (term2 t) s

/-- Ecliptic to ICRS (src/epv.cc:73-79, 2246-2269). -/
def toIcrs (x y z : ℝ) : Vec :=
  ![x + 0.000000211284 * y + (-0.000000091603) * z,
    -0.000000230286 * x + 0.917482137087 * y + (-0.397776982902) * z,
    0.397776982902 * y + 0.917482137087 * z]

end Epv

/-- What `epv` returns. -/
structure EarthPV where
  hpos : Vec
  hvelo : Vec
  bpos : Vec
  bvelo : Vec

/-- src/epv.cc:58-2270 `epv` -/
def epv (date : ℝ) : EarthPV :=
  let t := (date - 51544.5) / 365.25
  let hp := fun j => (Epv.helio t j).1
  let hv := fun j => (Epv.helio t j).2 / 365.25
  let bp := fun j => (Epv.bary t j).1
  let bv := fun j => (Epv.bary t j).2 / 365.25
  ⟨Epv.toIcrs (hp 0) (hp 1) (hp 2), Epv.toIcrs (hv 0) (hv 1) (hv 2),
   Epv.toIcrs (bp 0) (bp 1) (bp 2), Epv.toIcrs (bv 0) (bv 1) (bv 2)⟩

end Sla
