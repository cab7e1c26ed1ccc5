import Verif.Model.Vectors
import Verif.Model.Angles
import Mathlib.Analysis.SpecialFunctions.Pow.Real

/-
Air mass, application of refraction, refraction constants, atmospheric dispersion and the refraction integral.
`std::pow` is the real power, `std::exp` the real exponential.
-/
noncomputable section
namespace Sla
open Real (pi)

/-- src/airmas.cc:44-47 `airmas` -/
def airmas (zd : ℝ) : ℝ :=
  let seczm1 := 1 / Real.cos (min 1.52 |zd|) - 1
  1 + seczm1 * (0.9981833 - seczm1 * (0.002875 + 0.0008083 * seczm1))

/-! ## refz -/

/-- Radians to degrees (src/refz.cc:77), taken as exactly 180/pi. -/
def refzR2D : ℝ := 180 / pi

/-- src/refz.cc:96-107, 110-116: one step of the correction, for the unrefracted `zu1` from the estimate `zl`. -/
def refzStep (refa refb zu1 zl : ℝ) : ℝ :=
  let tangent := Real.sin zl / Real.cos zl
  (zl - zu1 + refa * tangent + refb * (tangent * (tangent * tangent))) /
    (1 + (refa + 3 * refb * (tangent * tangent)) / (Real.cos zl * Real.cos zl))

/-- The high zenith distance model at elevation `e` degrees (src/refz.cc:90, 118). -/
def refzHigh (e : ℝ) : ℝ := (0.55445 + -0.01133 * e + 0.00202 * (e * e)) / (1 + 0.28385 * e + 0.02390 * (e * e))

/-- src/refz.cc:75-122 `refz` (at the first step `zl = zu1`, so the numerator of line 104 is that of the second) -/
def refz (zu refa refb : ℝ) : ℝ :=
  let zu1 := min zu (83 / refzR2D)
  let zl := zu1 - refzStep refa refb zu1 zu1
  let ref := zu1 - zl + refzStep refa refb zu1 zl
  let ref := if zu > zu1 then
      let e := 90 - min 93 (zu * refzR2D)
      ref / refzHigh 7 * (0.55445 + -0.01133 * e + 0.00202 * (e * e)) / (1 + 0.28385 * e + 0.02390 * (e * e))
    else ref
  zu - ref

/-- src/refv.cc:73-96 `refv` -/
def refv (vec : Vec) (refa refb : ℝ) : Vec :=
  let x := vec 0
  let y := vec 1
  let z1 := vec 2
  let z := max z1 0.05
  let zsq := z * z
  let rsq := x * x + y * y
  let r := Real.sqrt rsq
  let wb := refb * rsq / zsq
  let wt := (refa + wb) / (1 + (refa + 3 * wb) * (zsq + rsq) / zsq)
  let d := wt * r / z
  let cd := 1 - d * d / 2
  let f := cd * (1 - wt)
  ![x * f, y * f, cd * (z + d * r) + (z1 - z)]

/-! ## Refraction constants from the weather -/

/-- src/refcoq.cc:140-176 `refcoq`: (refa, refb) -/
def refcoq (atk apm arh wl : ℝ) : ℝ × ℝ :=
  let optic := wl ≤ 100
  let t := min (max atk 100) 500
  let p := min (max apm 0) 10000
  let r := min (max arh 0) 1
  let w := min (max wl 0.1) 1e6
  let tdc := t - 273.15
  let ps := (10 : ℝ) ^ ((0.7859 + 0.03477 * tdc) / (1 + 0.00412 * tdc)) * (1 + p * (4.5e-6 + 6.0e-10 * tdc * tdc))
  let pw := if p > 0 then r * ps / (1 - (1 - r) * ps / p) else 0
  let gamma := if optic then
      ((77.53484e-6 + (4.39108e-7 + 3.666e-9 / (w * w)) / (w * w)) * p - 11.2684e-6 * pw) / t
    else (77.6890e-6 * p - (6.3938e-6 - 0.375463 / t) * pw) / t
  let beta := 4.4474e-6 * t
  let beta := if optic then beta else beta - 0.0074 * pw * beta
  (gamma * (1 - beta), -gamma * (beta - gamma / 2))

/-! ## Atmospheric dispersion -/

/-- Refractivity at the observer for one wavelength (src/atmdsp.cc:80-95). -/
def atmdspN (atk apm arh wl : ℝ) : ℝ :=
  let tdkok := min (max atk 100) 500
  let pmbok := min (max apm 0) 10000
  let rhok := min (max arh 0) 1
  let psat := (10 : ℝ) ^ (-8.7115 + 0.03477 * tdkok)
  let pwo := rhok * psat
  let w1 := 11.2684e-6 * pwo
  let wlok := max wl 0.1
  let wlsq := wlok * wlok
  let w2 := 77.5317e-6 + (0.43909e-6 + 0.00367e-6 / wlsq) / wlsq
  (w2 * pmbok - w1) / tdkok

/-- src/atmdsp.cc:71-113 `atmdsp`: (a2, b2) -/
def atmdsp (atk apm arh wl1 a1 b1 wl2 : ℝ) : ℝ × ℝ :=
  if wl1 > 100 ∨ wl2 > 100 then (a1, b1)
  else
    let dn1 := atmdspN atk apm arh wl1
    let dn2 := atmdspN atk apm arh wl2
    if dn1 ≠ 0 then
      let f := dn2 / dn1
      let a2 := a1 * f
      let b2 := b1 * f
      (a2, if dn1 ≠ a1 then b2 * (1 + dn1 * (dn1 - dn2) / (2 * (dn1 - a1))) else b2)
    else (a1, b1)

/-! ## The refraction integral -/

/-- src/refro.cc:37-42 `atms`: refractive index and r * its derivative in the stratosphere -/
def atms (rt tt dnt gamal r : ℝ) : ℝ × ℝ :=
  let b := gamal / tt
  let w := (dnt - 1) * Real.exp (-b * (r - rt))
  (1 + w, -r * b * w)

/-- The parameters of the tropospheric model (arguments of `atmt`, src/refro.cc:66-68). -/
structure Tropo where
  r0 : ℝ
  t0 : ℝ
  alpha : ℝ
  gamm2 : ℝ
  delm2 : ℝ
  c1 : ℝ
  c2 : ℝ
  c3 : ℝ
  c4 : ℝ
  c5 : ℝ
  c6 : ℝ

/-- Temperature of `atmt` (src/refro.cc:69). -/
def atmtT (a : Tropo) (r : ℝ) : ℝ := max (min (a.t0 - a.alpha * (r - a.r0)) 320) 100

/-- src/refro.cc:66-75 `atmt`: refractive index and r * its derivative in the troposphere -/
def atmt (a : Tropo) (r : ℝ) : ℝ × ℝ :=
  let t := atmtT a r
  let tt0 := t / a.t0
  let tt0gm2 := tt0 ^ a.gamm2
  let tt0dm2 := tt0 ^ a.delm2
  (1 + (a.c1 * tt0gm2 - (a.c2 - a.c5 / t) * tt0dm2) * tt0,
   r * (-a.c3 * tt0gm2 + (a.c4 - a.c6 / tt0) * tt0dm2))

/-- `refraction_integrand` (src/refro.cc:172-174), on the pair (dn, rdndr). -/
def refroIntegrand (a : ℝ × ℝ) : ℝ := a.2 / (a.1 + a.2)

/-- The search for r (src/refro.cc:287-299): at most `n` further steps. -/
def refroNewton (atm : ℝ → ℝ × ℝ) (ww : ℝ) : ℕ → ℝ → ℝ → ℝ
  | 0, rg, _ => rg
  | n + 1, rg, dr =>
    if |dr| > 1 then
      let a := atm rg
      let dr := (rg * a.1 - ww) / (a.1 + a.2)
      refroNewton atm ww n (rg - dr) dr
    else rg

/-- One of the two quadratures: the atmosphere, the starting radius, zenith distance and range, the end values, and
    the tolerance (src/refro.cc:255-266, 276). -/
structure Quad where
  atm : ℝ → ℝ × ℝ
  sk0 : ℝ
  rStart : ℝ
  z0 : ℝ
  zRange : ℝ
  fb : ℝ
  ff : ℝ
  tol : ℝ

/-- State of a pass: the radius and the two sums. -/
structure QPass where
  r : ℝ
  fOdd : ℝ
  fEven : ℝ

/-- One point of a pass (src/refro.cc:279-317). -/
def refroPoint (q : Quad) (h : ℝ) (step : ℕ) (s : QPass) (i : ℕ) : QPass :=
  let sineZd := Real.sin (q.z0 + h * i)
  let r := if sineZd > 1e-20 then refroNewton q.atm (q.sk0 / sineZd) 4 s.r 1e6 else s.r
  let f := refroIntegrand (q.atm r)
  if step = 1 ∧ i % 2 = 0 then { s with r := r, fEven := s.fEven + f } else { s with r := r, fOdd := s.fOdd + f }

/-- The points of a pass: `for (int i = 1; i <= num_strips - 1; i += step)` (src/refro.cc:279). -/
def refroPoints (strips step : ℕ) : List ℕ := List.range' 1 ((strips - 2) / step + 1) step

/-- State of the adaptive loop, with the number of integrand evaluations so far. -/
structure QState where
  refOld : ℝ
  strips : ℕ
  step : ℕ
  fOdd : ℝ
  fEven : ℝ
  evals : ℕ

/-- src/refro.cc:250-254, 267-272: before the first pass. -/
def quadInit : QState := ⟨1, 8, 1, 0, 0, 0⟩

/-- One pass of the adaptive loop (src/refro.cc:274-320): the sums after the pass, and Simpson's rule. -/
def quadPass (q : Quad) (s : QState) : QPass :=
  (refroPoints s.strips s.step).foldl (refroPoint q (q.zRange / s.strips) s.step) ⟨q.rStart, s.fOdd, s.fEven⟩

def quadSimpson (q : Quad) (s : QState) (p : QPass) : ℝ :=
  q.zRange / s.strips * (q.fb + 4 * p.fOdd + 2 * p.fEven + q.ff) / 3

/-- The adaptive loop `for (int step = 1;;)` (src/refro.cc:272-342) cut off after `fuel` passes: `none` if it is still
    running, else the integral, the final number of strips and the number of integrand evaluations. -/
def quadLoop (q : Quad) : ℕ → QState → Option (ℝ × ℕ × ℕ)
  | 0, _ => none
  | fuel + 1, s =>
    let p := quadPass q s
    let refp := quadSimpson q s p
    let evals := s.evals + (refroPoints s.strips s.step).length
    if |refp - s.refOld| > q.tol ∧ s.strips < 16384 then
      quadLoop q fuel ⟨refp, s.strips + s.strips, 2, 0, p.fEven + p.fOdd, evals⟩
    else some (refp, s.strips, evals)

/-- The model atmosphere of `refro` and the constant `gamal` (src/refro.cc:181-216). -/
def refroTropo (oh atk apm arh wl phi tlr : ℝ) : Tropo × ℝ :=
  let hm := min (max oh (-1e3)) 80000
  let tdk := min (max atk 100) 500
  let pmb := min (max apm 0) 10000
  let rh := min (max arh 0) 1
  let wlOk := max wl 0.1
  let alpha := min (max |tlr| 0.001) 0.01
  let optic := wlOk ≤ 100
  let wlsq := wlOk * wlOk
  let gb := 9.784 * (1 - 0.0026 * Real.cos (phi + phi) - 0.00000028 * hm)
  let a := if optic then (287.6155 + (1.62887 + 0.01360 / wlsq) / wlsq) * 273.15e-6 / 1013.25 else 77.6890e-6
  let gamal := (gb * 28.9644) / 8314.32
  let gamma := gamal / alpha
  let gamm2 := gamma - 2
  let delm2 := 18.36 - 2
  let tdc := tdk - 273.15
  let psat := (10 : ℝ) ^ ((0.7859 + 0.03477 * tdc) / (1 + 0.00412 * tdc)) *
    (1 + pmb * (4.5e-6 + 6.0e-10 * tdc * tdc))
  let pwo := if pmb > 0 then rh * psat / (1 - (1 - rh) * psat / pmb) else 0
  let w := pwo * (1 - 18.0152 / 28.9644) * gamma / (18.36 - gamma)
  let c1 := a * (pmb + w) / tdk
  let c2 := (a * w + (if optic then 11.2684e-6 else 6.3938e-6) * pwo) / tdk
  let c3 := (gamma - 1) * alpha * c1 / tdk
  let c4 := (18.36 - 1) * alpha * c2 / tdk
  let c5 := if optic then 0 else 375463.0e-6 * pwo / tdk
  let c6 := if optic then 0 else c5 * delm2 * alpha / (tdk * tdk)
  (⟨6378120 + hm, tdk, alpha, gamm2, delm2, c1, c2, c3, c4, c5, c6⟩, gamal)

/-- Angle with the given sine, as computed in src/refro.cc:227, 234, 242. -/
def refroAsin (sine : ℝ) : ℝ := atan2 sine (Real.sqrt (max (1 - sine * sine) 0))

/-- The two quadratures for the zenith distance `z` in [0, 93 deg] (src/refro.cc:215-243, 255-266). -/
def refroQuads (z : ℝ) (a : Tropo) (gamal hm tol : ℝ) : Quad × Quad :=
  let at0 := atmt a a.r0
  let sk0 := at0.1 * a.r0 * Real.sin z
  let rt := 6378120 + max 11000 hm
  let att := atmt a rt
  let zt := refroAsin (sk0 / (rt * att.1))
  let strato := atms rt (atmtT a rt) att.1 gamal
  let ats := strato rt
  let zts := refroAsin (sk0 / (rt * ats.1))
  let rs : ℝ := 6378120 + 80000
  let ass := strato rs
  let zs := refroAsin (sk0 / (rs * ass.1))
  (⟨atmt a, sk0, a.r0, z, zt - z, refroIntegrand at0, refroIntegrand att, tol⟩,
   ⟨strato, sk0, rt, zts, zs - zts, refroIntegrand ats, refroIntegrand ass, tol⟩)

/-- src/refro.cc:151-350 `refro`, its two loops cut off after `fuel` passes; `none` if one is still running.
    Divisions by zero (a vanishing denominator of the humidity formula at line 206, of line 207 or of the integrand)
    are not modelled as such: real division by zero gives zero. -/
def refroFuel (fuel : ℕ) (ozd oh atk apm arh wl phi tlr eps : ℝ) : Option ℝ :=
  let zobs1 := drange ozd
  let zobs2 := min |zobs1| 1.623156204
  let hm := min (max oh (-1e3)) 80000
  let tol := min (max |eps| 1e-12) 0.1 / 2
  let a := refroTropo oh atk apm arh wl phi tlr
  let qs := refroQuads zobs2 a.1 a.2 hm tol
  match quadLoop qs.1 fuel quadInit with
  | none => none
  | some reft =>
    match quadLoop qs.2 fuel quadInit with
    | none => none
    | some refp =>
      let result := reft.1 + refp.1
      some (if zobs1 < 0 then -result else result)

/-- `refro` with the loops run to the end (twelve passes suffice: theorem C54_terminates). -/
def refro (ozd oh atk apm arh wl phi tlr eps : ℝ) : ℝ := (refroFuel 12 ozd oh atk apm arh wl phi tlr eps).getD 0

/-- src/refco.cc:46-60 `refco`: (refa, refb). The sample zenith distances are the arctangents of 1 and 4, taken as
    exact. -/
def refco (oh atk apm arh wl phi tlr eps : ℝ) : ℝ × ℝ :=
  let r1 := refro (Real.arctan 1) oh atk apm arh wl phi tlr eps
  let r2 := refro (Real.arctan 4) oh atk apm arh wl phi tlr eps
  ((64 * r1 - r2) / 60, (r2 - 4 * r1) / 60)

end Sla
