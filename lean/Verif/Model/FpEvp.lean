import Verif.Model.FpCoords
import Verif.Model.Evp

/-
`sla::evp` (src/evp.cc) in `float` and `double` arithmetic (see Model/Fp.lean).

`S` and `D` are the roundings to `float` and `double`; `snf`, `csf` stand for `std::sin` and `std::cos` of a `float`, `sn`, `cs`
for those of a `double`. Integers, 15019.5 and 51544.5, and the `float` literals 0.125, 0.5, 0.625, 1.25, 1.5 are left unrounded;
`std::fmod` is exact, as are conversions from `float` to `double`. The amplitudes in `CCAMPM`, `CCPAMV` and `CCPAM` are `double`
literals converted to `float`. The tables are those of Model/Evp.lean.
-/
noncomputable section
namespace Sla.Fp

/-- `DC2PI` (src/evp.cc:61) -/
def evpTwoPi (D : ℝ → ℝ) : ℝ := D 6.2831853071796
/-- `CC2PI` (src/evp.cc:62) -/
def evpTwoPiF (S : ℝ → ℝ) : ℝ := S 6.283185

/-- `DCFEL[k][0] + dt * DCFEL[k][1] + dtsq * DCFEL[k][2]` (src/evp.cc:211, 218) in `double` arithmetic -/
def evpPoly (D : ℝ → ℝ) (c : Fin 3 → ℝ) (dt : ℝ) : ℝ := D (D (D (c 0) + D (dt * D (c 1))) + D (D (dt * dt) * D (c 2)))

/-- `CCSEL[k][0] + t * CCSEL[k][1] + tsq * CCSEL[k][2]` (src/evp.cc:204-206, 220) in `float` arithmetic, with the conversions of
    the time and of its square -/
def evpPolyF (S D : ℝ → ℝ) (c : Fin 3 → ℝ) (dt : ℝ) : ℝ :=
  S (S (S (c 0) + S (S dt * S (c 1))) + S (S (D (dt * dt)) * S (c 2)))

/-- The elements and arguments at `dt` centuries from 1900 (src/evp.cc:210-228, 237, 279) -/
def evpElements (S D : ℝ → ℝ) (dt : ℝ) : EvpElements where
  dml := cfmod (evpPoly D (evpFel 0) dt) (evpTwoPi D)
  forbel := fun k => S (cfmod (evpPoly D (evpFel k.succ) dt) (evpTwoPi D))
  deps := cfmod (evpPoly D evpEps dt) (evpTwoPi D)
  sorbel := fun k => cfmod (evpPolyF S D (evpSel k) dt) (evpTwoPiF S)
  sec := fun k => cfmod (S (S (evpSec k 1) + S (S dt * S (evpSec k 2)))) (evpTwoPiF S)
  args := fun k => S (cfmod (D (D (evpArgs k 0) + D (dt * D (evpArgs k 1)))) (evpTwoPi D))
  argm := fun k => S (cfmod (D (D (evpArgm k 0) + D (dt * D (evpArgm k 1)))) (evpTwoPi D))

/-- Perturbations of the Earth-Moon barycentre (src/evp.cc:228, 231-246) in `float` arithmetic -/
def evpPert (S : ℝ → ℝ) (snf csf : ℝ → ℝ) (t : ℝ) (sec : Fin 4 → ℝ) (args : Fin 15 → ℝ) : EvpPert :=
  let pertl := S (S (S (S (S (evpSec 0 0) * snf (sec 0)) + S (S (evpSec 1 0) * snf (sec 1))) +
    S (S (S (evpSec 2 0) + S (t * S (-7.757020e-8))) * snf (sec 2))) + S (S (evpSec 3 0) * snf (sec 3)))
  (List.finRange 15).foldl (fun p k =>
    let c := csf (args k)
    let s := snf (args k)
    { l := S (p.l + S (S (S (evpAmps k 0) * c) + S (S (evpAmps k 1) * s)))
      ld := if k < 10 then S (p.ld + S (S (S (S (evpAmps k 1) * c) - S (S (evpAmps k 0) * s)) * S (evpAmps k 4))) else p.ld
      r := S (p.r + S (S (S (evpAmps k 2) * c) + S (S (evpAmps k 3) * s)))
      rd := if k < 10 then S (p.rd + S (S (S (S (evpAmps k 3) * c) - S (S (evpAmps k 2) * s)) * S (evpAmps k 4))) else p.rd })
    ⟨pertl, 0, 0, 0⟩

/-- The equation of the centre `phi` (src/evp.cc:249, 252-255) in `float` arithmetic -/
def evpPhi (S : ℝ → ℝ) (snf : ℝ → ℝ) (e g : ℝ) : ℝ :=
  let esq := S (e * e)
  let twoG := S (g + g)
  S (S (e + e) * S (S (S (S (1 - S (esq * 0.125)) * snf g) + S (S (e * 0.625) * snf twoG)) +
    S (S (esq * S 0.54166667) * snf (S (g + twoG)))))

/-- What is derived from the elements of the orbit of the Earth-Moon barycentre: `dpsi` and `d1pdro`, the rates `drd` and
    `drld`, and the longitude `dtl` -/
structure EvpOrbit where
  dpsi : ℝ
  d1pdro : ℝ
  drd : ℝ
  drld : ℝ
  dtl : ℝ

/-- The elliptic part of the motion of the Earth-Moon barycentre and its perturbation (src/evp.cc:249-267) -/
def evpOrbit (S D : ℝ → ℝ) (snf csf : ℝ → ℝ) (e g dml : ℝ) (p : EvpPert) : EvpOrbit :=
  let esq := S (e * e)
  let dparam := D (1 - esq)
  let param := S dparam
  let twoE := S (e + e)
  let phi := evpPhi S snf e g
  let f := S (g + phi)
  let sinF := snf f
  let cosF := csf f
  let dpsi := D (dparam / D (1 + S (e * cosF)))
  let phid := S (S (twoE * S 1.990969e-7) *
    S (S (S (1 + S (esq * 1.5)) * cosF) + S (e * S (1.25 - S (S (sinF * sinF) * 0.5)))))
  let psid := S (S (S (S 1.990969e-7 * e) * sinF) / S (Real.sqrt param))
  let d1pdro := D (1 + p.r)
  { dpsi := dpsi
    d1pdro := d1pdro
    drd := D (d1pdro * D (psid + D (dpsi * p.rd)))
    drld := D (D (d1pdro * dpsi) * D (D (D 1.990987e-7 + phid) + p.ld))
    dtl := cfmod (D (D (dml + phi) + p.l)) (evpTwoPi D) }

/-- Perturbations of the geocentric motion of the Moon (src/evp.cc:274-286) in `float` arithmetic -/
def evpMoonPert (S D : ℝ → ℝ) (snf csf : ℝ → ℝ) (argm : Fin 3 → ℝ) : EvpPert :=
  (List.finRange 3).foldl (fun p k =>
    let s := snf (argm k)
    let c := csf (argm k)
    ⟨S (p.l + S (S (D (evpAmpm k 0)) * s)), S (p.ld + S (S (D (evpAmpm k 1)) * c)),
     S (p.r + S (S (D (evpAmpm k 2)) * c)), S (p.rd - S (S (D (evpAmpm k 3)) * s))⟩) ⟨0, 0, 0, 0⟩

/-- Heliocentric velocity of the Earth referred to the ecliptic (src/evp.cc:268-271, 289-297) -/
def evpHelioVel (S D : ℝ → ℝ) (snf csf sn cs : ℝ → ℝ) (o : EvpOrbit) (lm fm : ℝ) (p : EvpPert) : Vec :=
  let dsinls := sn o.dtl
  let dcosls := cs o.dtl
  let dxhd := D (D (o.drd * dcosls) - D (o.drld * dsinls))
  let dyhd := D (D (o.drd * dsinls) + D (o.drld * dcosls))
  let tl := S (lm + p.l)
  let sinlm := snf tl
  let coslm := csf tl
  let sigma := S (S 3.122140e-5 / S (1 + p.r))
  let a := S (sigma * S (S 2.661699e-6 + p.ld))
  let b := S (sigma * p.rd)
  ![D (D (dxhd + S (a * sinlm)) + S (b * coslm)), D (D (dyhd - S (a * coslm)) + S (b * sinlm)),
    -S (S (sigma * S 2.399485e-7) * csf fm)]

/-- Heliocentric position of the Earth referred to the ecliptic (src/evp.cc:289-292, 324-329) -/
def evpHelioPos (S D : ℝ → ℝ) (snf csf sn cs : ℝ → ℝ) (o : EvpOrbit) (lm fm : ℝ) (p : EvpPert) : Vec :=
  let dsinls := sn o.dtl
  let dcosls := cs o.dtl
  let tl := S (lm + p.l)
  let sinlm := snf tl
  let coslm := csf tl
  let sigma := S (S 3.122140e-5 / S (1 + p.r))
  let dr := D (o.dpsi * o.d1pdro)
  let flatm := S (S 8.978749e-2 * snf fm)
  let a := S (sigma * csf flatm)
  ![D (D (dr * dcosls) - S (a * coslm)), D (D (dr * dsinls) - S (a * sinlm)), -S (sigma * snf flatm)]

/-- The longitude `tl` of planet `k` (src/evp.cc:304-307) in `float` arithmetic -/
def evpPlanetLon (S : ℝ → ℝ) (snf : ℝ → ℝ) (x : EvpElements) (k : Fin 4) : ℝ :=
  let plon := x.forbel ⟨k + 3, by omega⟩
  let pomg := x.sorbel ⟨k + 1, by omega⟩
  let pecc := x.sorbel ⟨k + 9, by omega⟩
  cfmod (S (plon + S (S (2 * pecc) * snf (S (plon - pomg))))) (evpTwoPiF S)

/-- Body of the loop over the planets for the velocity (src/evp.cc:303-313) -/
def evpPlanetVel (S D : ℝ → ℝ) (snf csf : ℝ → ℝ) (x : EvpElements) (v : Vec) (k : Fin 4) : Vec :=
  let plon := x.forbel ⟨k + 3, by omega⟩
  let pomg := x.sorbel ⟨k + 1, by omega⟩
  let pecc := x.sorbel ⟨k + 9, by omega⟩
  let tl := evpPlanetLon S snf x k
  ![D (v 0 + S (S (D (evpPamv k)) * S (snf tl + S (pecc * snf pomg)))),
    D (v 1 - S (S (D (evpPamv k)) * S (csf tl + S (pecc * csf pomg)))),
    D (v 2 - S (S (S (D (evpPamv k)) * x.sorbel ⟨k + 13, by omega⟩) * csf (S (plon - x.sorbel ⟨k + 5, by omega⟩))))]

/-- Body of the loop over the planets for the position (src/evp.cc:335-342) -/
def evpPlanetPos (S D : ℝ → ℝ) (snf csf : ℝ → ℝ) (x : EvpElements) (v : Vec) (k : Fin 4) : Vec :=
  let plon := x.forbel ⟨k + 3, by omega⟩
  let tl := evpPlanetLon S snf x k
  let flat := S (x.sorbel ⟨k + 13, by omega⟩ * snf (S (plon - x.sorbel ⟨k + 5, by omega⟩)))
  let a := S (S (D (evpPam k)) * S (1 - S (x.sorbel ⟨k + 9, by omega⟩ * csf (S (plon - x.sorbel ⟨k + 1, by omega⟩)))))
  let b := S (a * csf flat)
  ![D (v 0 - S (b * csf tl)), D (v 1 - S (b * snf tl)), D (v 2 - S (a * snf flat))]

/-- The motions referred to the ecliptic of date (src/evp.cc:230-313, 323-342) -/
def evpEcliptic (S D : ℝ → ℝ) (snf csf sn cs : ℝ → ℝ) (dt : ℝ) (x : EvpElements) : EarthPV :=
  let o := evpOrbit S D snf csf (x.sorbel 0) (x.forbel 0) x.dml (evpPert S snf csf (S dt) x.sec x.args)
  let m := evpMoonPert S D snf csf x.argm
  let hvelo := evpHelioVel S D snf csf sn cs o (x.forbel 1) (x.forbel 2) m
  let hpos := evpHelioPos S D snf csf sn cs o (x.forbel 1) (x.forbel 2) m
  { hpos := hpos
    hvelo := hvelo
    bpos := (List.finRange 4).foldl (evpPlanetPos S D snf csf x) fun i => D (hpos i * D 0.99999696)
    bvelo := (List.finRange 4).foldl (evpPlanetVel S D snf csf x) fun i => D (hvelo i * D 0.99999696) }

/-- Transition to the mean equator of date, with the correction of the equinox (src/evp.cc:316-321, 345-364) in `double`
    arithmetic -/
def evpEquator (D : ℝ → ℝ) (sn cs : ℝ → ℝ) (deps deqcor : ℝ) (v : Vec) : Vec :=
  let ya := D (D (cs deps * v 1) - D (sn deps * v 2))
  let za := D (D (sn deps * v 1) + D (cs deps * v 2))
  ![D (v 0 - D (deqcor * ya)), D (ya + D (deqcor * v 0)), za]

/-- The correction `deqcor` (src/evp.cc:351-352) in `double` arithmetic -/
def evpEqcor (D : ℝ → ℝ) (date : ℝ) : ℝ :=
  D (D 0.7272205216643e-4 * D (D 0.035 + D (D 0.00085 * D (epj D date - D 1949.9997904423))))

/-- src/evp.cc:55-424 `evp` in `float` and `double` arithmetic -/
def evp (S D : ℝ → ℝ) (snf csf sn cs : ℝ → ℝ) (date deqx : ℝ) : EarthPV :=
  let dt := D (D (date - 15019.5) / 36525)
  let x := evpElements S D dt
  let r := evpEcliptic S D snf csf sn cs dt x
  let q := evpEquator D sn cs x.deps (evpEqcor D date)
  if deqx > 0 then
    let m := prec D sn cs (epj D date) deqx
    ⟨dmxv D m (q r.hpos), dmxv D m (q r.hvelo), dmxv D m (q r.bpos), dmxv D m (q r.bvelo)⟩
  else ⟨q r.hpos, q r.hvelo, q r.bpos, q r.bvelo⟩

end Sla.Fp
