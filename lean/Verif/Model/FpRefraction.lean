import Verif.Model.Fp
import Verif.Model.Refraction

/-
Refraction with the rounding of every operation: `R` rounds to `double`; `sn`, `cs`, `pw` are the library's sine, cosine and
power.
-/
noncomputable section
namespace Sla.Fp

/-- The slope of the refraction formula (src/refz.cc:103, 112): 1 + (A + 3 B tan²) / cos². -/
def refzSlope (R : ℝ → ℝ) (refa refb cosine tangentSqr : ℝ) : ℝ :=
  R (1 + R (R (refa + R (R (3 * refb) * tangentSqr)) / R (cosine * cosine)))

/-- High-ZD-model prediction at 83 degrees (src/refz.cc:89). -/
def refz83 (R : ℝ → ℝ) : ℝ :=
  R (R (R (R 0.55445 + R (-R 0.01133 * 7)) + R (R 0.00202 * 49)) / R (R (1 + R (R 0.28385 * 7)) + R (R 0.02390 * 49)))

/-- Special handling for large ZD (src/refz.cc:116-118). -/
def refzLarge (R : ℝ → ℝ) (zu ref : ℝ) : ℝ :=
  let e := R (90 - min 93 (R (zu * R 57.29577951308232)))
  let e2 := R (e * e)
  R (R (R (ref / refz83 R) * R (R (R 0.55445 + R (-R 0.01133 * e)) + R (R 0.00202 * e2))) /
    R (R (1 + R (R 0.28385 * e)) + R (R 0.02390 * e2)))

/-- The refraction at the ZD `zu1`, not more than 83 degrees (src/refz.cc:95-112). -/
def refzSmall (R sn cs : ℝ → ℝ) (refa refb zu1 : ℝ) : ℝ :=
  let zl := zu1
  let cosine := cs zl
  let tangent := R (sn zl / cosine)
  let tangentSqr := R (tangent * tangent)
  let tangentCube := R (tangent * tangentSqr)
  let zl := R (zl - R (R (R (refa * tangent) + R (refb * tangentCube)) / refzSlope R refa refb cosine tangentSqr))
  let cosine := cs zl
  let tangent := R (sn zl / cosine)
  let tangentSqr := R (tangent * tangent)
  let tangentCube := R (tangent * tangentSqr)
  R (R (zu1 - zl) + R (R (R (R (zl - zu1) + R (refa * tangent)) + R (refb * tangentCube)) / refzSlope R refa refb cosine tangentSqr))

/-- src/refz.cc:75-122 `refz` -/
def refz (R sn cs : ℝ → ℝ) (zu refa refb : ℝ) : ℝ :=
  let zu1 := min zu (R (83 / R 57.29577951308232))
  let ref := refzSmall R sn cs refa refb zu1
  let ref := if zu > zu1 then refzLarge R zu ref else ref
  R (zu - ref)

/-- src/refv.cc:73-96 `refv` -/
def refv (R : ℝ → ℝ) (vec : Vec) (refa refb : ℝ) : Vec :=
  let x := vec 0
  let y := vec 1
  let z1 := vec 2
  let z := max z1 (R 0.05)
  let zsq := R (z * z)
  let rsq := R (R (x * x) + R (y * y))
  let r := R (Real.sqrt rsq)
  let wb := R (R (refb * rsq) / zsq)
  let wt := R (R (refa + wb) / R (1 + R (R (R (refa + R (3 * wb)) * R (zsq + rsq)) / zsq)))
  let d := R (R (wt * r) / z)
  let cd := R (1 - R (R (d * d) / 2))
  let f := R (cd * R (1 - wt))
  ![R (x * f), R (y * f), R (R (cd * R (z + R (d * r))) + R (z1 - z))]

/-- Saturation vapour pressure (src/refcoq.cc:154-155). -/
def refcoqPs (R : ℝ → ℝ) (pw : ℝ → ℝ → ℝ) (p tdc : ℝ) : ℝ :=
  R (pw 10 (R (R (R 0.7859 + R (R 0.03477 * tdc)) / R (1 + R (R 0.00412 * tdc)))) *
    R (1 + R (p * R (R 4.5e-6 + R (R (R 6.0e-10 * tdc) * tdc)))))

/-- Refractive index minus 1 at the observer (src/refcoq.cc:162-167). -/
def refcoqGamma (R : ℝ → ℝ) (optic : Prop) [Decidable optic] (t p w vp : ℝ) : ℝ :=
  if optic then
    let wlsq := R (w * w)
    R (R (R (R (R 77.53484e-6 + R (R (R 4.39108e-7 + R (R 3.666e-9 / wlsq)) / wlsq)) * p) - R (R 11.2684e-6 * vp)) / t)
  else R (R (R (R 77.6890e-6 * p) - R (R (R 6.3938e-6 - R (R 0.375463 / t)) * vp)) / t)

/-- src/refcoq.cc:140-176 `refcoq`: (refa, refb) -/
def refcoq (R : ℝ → ℝ) (pw : ℝ → ℝ → ℝ) (atk apm arh wl : ℝ) : ℝ × ℝ :=
  let t := min (max atk 100) 500
  let p := min (max apm 0) 10000
  let r := min (max arh 0) 1
  let w := min (max wl (R 0.1)) 1e6
  let vp := if p > 0 then
      let ps := refcoqPs R pw p (R (t - R 273.15))
      R (R (r * ps) / R (1 - R (R (R (1 - r) * ps) / p)))
    else 0
  open Classical in
  let gamma := refcoqGamma R (wl ≤ 100) t p w vp
  let beta := R (R 4.4474e-6 * t)
  let beta := if wl ≤ 100 then beta else R (beta - R (R (R 0.0074 * vp) * beta))
  (R (gamma * R (1 - beta)), R (-gamma * R (beta - R (gamma / 2))))

end Sla.Fp
