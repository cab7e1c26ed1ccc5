import Verif.Model.Angles
import Verif.Model.Precession
import Verif.Model.Epv
import Verif.Model.Spherical
import Mathlib.Data.List.FinRange

/-
`sla::evp` (src/evp.cc): barycentric and heliocentric velocity and position of the Earth.

The code keeps many intermediate values in `float`; the model is in exact real arithmetic, and the literals 6.2831853071796
(DC2PI, line 61) and 6.283185f (CC2PI, line 62) are taken as exactly 2pi, 0.7272205216643e-4 (DS2R, line 63) as pi/43200.
The four output arrays must not overlap.
-/
noncomputable section
namespace Sla
open Real (pi)

/-- `DCFEL` (src/evp.cc:68-77): fast changing elements -/
def evpFel : Fin 8 → Fin 3 → ℝ := ![
  ![1.7400353, 6.2833195099091e2, 5.2796e-6],
  ![6.2565836, 6.2830194572674e2, -2.6180e-6],
  ![4.7199666, 8.3997091449254e3, -1.9780e-5],
  ![1.9636505e-1, 8.4334662911720e3, -5.6044e-5],
  ![4.1547339, 5.2993466764997e1, 5.8845e-6],
  ![4.6524223, 2.1354275911213e1, 5.6797e-6],
  ![4.2620486, 7.5025342197656, 5.5317e-6],
  ![1.4740694, 3.8377331909193, 5.6093e-6]]

/-- `DCEPS` (src/evp.cc:81-83): obliquity -/
def evpEps : Fin 3 → ℝ := ![4.093198e-1, -2.271110e-4, -2.860401e-8]

/-- `CCSEL` (src/evp.cc:84-102): slowly changing elements -/
def evpSel : Fin 17 → Fin 3 → ℝ := ![
  ![1.675104e-2, -4.179579e-5, -1.260516e-7],
  ![2.220221e-1, 2.809917e-2, 1.852532e-5],
  ![1.589963, 3.418075e-2, 1.430200e-5],
  ![2.994089, 2.590824e-2, 4.155840e-6],
  ![8.155457e-1, 2.486352e-2, 6.836840e-6],
  ![1.735614, 1.763719e-2, 6.370440e-6],
  ![1.968564, 1.524020e-2, -2.517152e-6],
  ![1.282417, 8.703393e-3, 2.289292e-5],
  ![2.280820, 1.918010e-2, 4.484520e-6],
  ![4.833473e-2, 1.641773e-4, -4.654200e-7],
  ![5.589232e-2, -3.455092e-4, -7.388560e-7],
  ![4.634443e-2, -2.658234e-5, 7.757000e-8],
  ![8.997041e-3, 6.329728e-6, -1.939256e-9],
  ![2.284178e-2, -9.941590e-5, 6.787400e-8],
  ![4.350267e-2, -6.839749e-5, -2.714956e-7],
  ![1.348204e-2, 1.091504e-5, 6.903760e-7],
  ![3.106570e-2, -1.665665e-4, -1.590188e-7]]

/-- `DCARGS` (src/evp.cc:107-123): arguments of the short-period perturbations -/
def evpArgs : Fin 15 → Fin 2 → ℝ := ![
  ![5.0974222, -7.8604195454652e2],
  ![3.9584962, -5.7533848094674e2],
  ![1.6338070, -1.1506769618935e3],
  ![2.5487111, -3.9302097727326e2],
  ![4.9255514, -5.8849265665348e2],
  ![1.3363463, -5.5076098609303e2],
  ![1.6072053, -5.2237501616674e2],
  ![1.3629480, -1.1790629318198e3],
  ![5.5657014, -1.0977134971135e3],
  ![5.0708205, -1.5774000881978e2],
  ![3.9318944, 5.2963464780000e1],
  ![4.8989497, 3.9809289073258e1],
  ![1.3097446, 7.7540959633708e1],
  ![3.5147141, 7.9618578146517e1],
  ![3.5413158, -5.4868336758022e2]]

/-- `CCAMPS` (src/evp.cc:127-143): amplitudes of the short-period perturbations -/
def evpAmps : Fin 15 → Fin 5 → ℝ := ![
  ![-2.279594e-5, 1.407414e-5, 8.273188e-6, 1.340565e-5, -2.490817e-7],
  ![-3.494537e-5, 2.860401e-7, 1.289448e-7, 1.627237e-5, -1.823138e-7],
  ![6.593466e-7, 1.322572e-5, 9.258695e-6, -4.674248e-7, -3.646275e-7],
  ![1.140767e-5, -2.049792e-5, -4.747930e-6, -2.638763e-6, -1.245408e-7],
  ![9.516893e-6, -2.748894e-6, -1.319381e-6, -4.549908e-6, -1.864821e-7],
  ![7.310990e-6, -1.924710e-6, -8.772849e-7, -3.334143e-6, -1.745256e-7],
  ![-2.603449e-6, 7.359472e-6, 3.168357e-6, 1.119056e-6, -1.655307e-7],
  ![-3.228859e-6, 1.308997e-7, 1.013137e-7, 2.403899e-6, -3.736225e-7],
  ![3.442177e-7, 2.671323e-6, 1.832858e-6, -2.394688e-7, -3.478444e-7],
  ![8.702406e-6, -8.421214e-6, -1.372341e-6, -1.455234e-6, -4.998479e-8],
  ![-1.488378e-6, -1.251789e-5, 5.226868e-7, -2.049301e-7, 0.0],
  ![-8.043059e-6, -2.991300e-6, 1.473654e-7, -3.154542e-7, 0.0],
  ![3.699128e-6, -3.316126e-6, 2.901257e-7, 3.407826e-7, 0.0],
  ![2.550120e-6, -1.241123e-6, 9.901116e-8, 2.210482e-7, 0.0],
  ![-6.351059e-7, 2.341650e-6, 1.061492e-6, 2.878231e-7, 0.0]]

/-- `CCSEC` (src/evp.cc:148-153): secular perturbations in longitude -/
def evpSec : Fin 4 → Fin 3 → ℝ := ![
  ![1.289600e-6, 5.550147e-1, 2.076942],
  ![3.102810e-5, 4.035027, 3.525565e-1],
  ![9.124190e-6, 9.990265e-1, 2.622706],
  ![9.793240e-7, 5.508259, 1.559103e1]]

/-- `DCARGM` (src/evp.cc:166-170): arguments of the perturbations of the motion of the Moon -/
def evpArgm : Fin 3 → Fin 2 → ℝ := ![
  ![5.1679830, 8.3286911095275e3],
  ![5.4913150, -7.2140632838100e3],
  ![5.9598530, 1.5542754389685e4]]

/-- `CCAMPM` (src/evp.cc:175-179): amplitudes of the perturbations of the Moon -/
def evpAmpm : Fin 3 → Fin 4 → ℝ := ![
  ![1.097594e-1, 2.896773e-7, 5.450474e-2, 1.438491e-7],
  ![-2.223581e-2, 5.083103e-8, 1.002548e-2, -2.291823e-8],
  ![1.148966e-2, 5.658888e-8, 8.249439e-3, 4.063015e-8]]

/-- `CCPAMV` (src/evp.cc:182-184): a * M * dL/dt of the planets -/
def evpPamv : Fin 4 → ℝ := ![8.326827e-11, 1.843484e-11, 1.988712e-12, 1.881276e-12]

/-- `CCPAM` (src/evp.cc:188-190): a * M of the planets -/
def evpPam : Fin 4 → ℝ := ![4.960906e-3, 2.727436e-3, 8.392311e-4, 1.556861e-3]
/-- The elements and arguments for the instant (src/evp.cc:202-228, 237, 279), each after its reduction with `fmod`. -/
structure EvpElements where
  dml : ℝ
  forbel : Fin 7 → ℝ
  deps : ℝ
  sorbel : Fin 17 → ℝ
  sec : Fin 4 → ℝ
  args : Fin 15 → ℝ
  argm : Fin 3 → ℝ

/-- A quadratic element (src/evp.cc:211, 218, 220). -/
def evpPoly (c : Fin 3 → ℝ) (dt : ℝ) : ℝ := c 0 + dt * c 1 + dt * dt * c 2

/-- The elements at `dt` centuries from 1900, `red` being the reduction; the code has `fmod(x, 2pi)` (src/evp.cc:210-228,
    237, 279). -/
def evpElements (red : ℝ → ℝ) (dt : ℝ) : EvpElements where
  dml := red (evpPoly (evpFel 0) dt)
  forbel := fun k => red (evpPoly (evpFel k.succ) dt)
  deps := red (evpPoly evpEps dt)
  sorbel := fun k => red (evpPoly (evpSel k) dt)
  sec := fun k => red (evpSec k 1 + dt * evpSec k 2)
  args := fun k => red (evpArgs k 0 + dt * evpArgs k 1)
  argm := fun k => red (evpArgm k 0 + dt * evpArgm k 1)

/-- A perturbation in longitude `l` and in the radius vector (or parallax) `r`, and their rates. -/
@[ext] structure EvpPert where
  l : ℝ
  ld : ℝ
  r : ℝ
  rd : ℝ

/-- Perturbations of the Earth-Moon barycentre (src/evp.cc:231-246). -/
def evpPert (dt : ℝ) (sec : Fin 4 → ℝ) (args : Fin 15 → ℝ) : EvpPert :=
  let pertl := evpSec 0 0 * Real.sin (sec 0) + evpSec 1 0 * Real.sin (sec 1) +
    (evpSec 2 0 + dt * -7.757020e-8) * Real.sin (sec 2) + evpSec 3 0 * Real.sin (sec 3)
  (List.finRange 15).foldl (fun p k =>
    let c := Real.cos (args k)
    let s := Real.sin (args k)
    { l := p.l + (evpAmps k 0 * c + evpAmps k 1 * s)
      ld := if k < 10 then p.ld + (evpAmps k 1 * c - evpAmps k 0 * s) * evpAmps k 4 else p.ld
      r := p.r + (evpAmps k 2 * c + evpAmps k 3 * s)
      rd := if k < 10 then p.rd + (evpAmps k 3 * c - evpAmps k 2 * s) * evpAmps k 4 else p.rd })
    ⟨pertl, 0, 0, 0⟩

/-- The equation of the centre `phi` (src/evp.cc:249, 252-255). -/
def evpPhi (e g : ℝ) : ℝ :=
  (e + e) * ((1 - e * e * 0.125) * Real.sin g + e * 0.625 * Real.sin (g + g) +
    e * e * 0.54166667 * Real.sin (g + (g + g)))

/-- Heliocentric motion of the Earth-Moon barycentre: position and velocity in the plane of the ecliptic
    (src/evp.cc:249-271 and, for the position, 324, 327-328). -/
def evpEmb (red : ℝ → ℝ) (e g dml : ℝ) (p : EvpPert) : VectorPV :=
  let esq := e * e
  let param := 1 - esq
  let phi := evpPhi e g
  let f := g + phi
  let sinF := Real.sin f
  let cosF := Real.cos f
  let dpsi := param / (1 + e * cosF)
  let phid := (e + e) * 1.990969e-7 * ((1 + esq * 1.5) * cosF + e * (1.25 - sinF * sinF * 0.5))
  let psid := 1.990969e-7 * e * sinF / Real.sqrt param
  let d1pdro := 1 + p.r
  let drd := d1pdro * (psid + dpsi * p.rd)
  let drld := d1pdro * dpsi * (1.990987e-7 + phid + p.ld)
  let dtl := red (dml + phi + p.l)
  let s := Real.sin dtl
  let c := Real.cos dtl
  let dr := dpsi * d1pdro
  ⟨![dr * c, dr * s, 0], ![drd * c - drld * s, drd * s + drld * c, 0]⟩

/-- Perturbations of the geocentric motion of the Moon (src/evp.cc:274-286). -/
def evpMoonPert (argm : Fin 3 → ℝ) : EvpPert :=
  (List.finRange 3).foldl (fun p k =>
    let s := Real.sin (argm k)
    let c := Real.cos (argm k)
    ⟨p.l + evpAmpm k 0 * s, p.ld + evpAmpm k 1 * c, p.r + evpAmpm k 2 * c, p.rd - evpAmpm k 3 * s⟩) ⟨0, 0, 0, 0⟩

/-- The Moon's contribution to the heliocentric motion of the Earth, from its mean longitude `lm` and argument of
    latitude `fm` (src/evp.cc:289-297, 325-329). -/
def evpMoon (lm fm : ℝ) (p : EvpPert) : VectorPV :=
  let tl := lm + p.l
  let s := Real.sin tl
  let c := Real.cos tl
  let sigma := 3.122140e-5 / (1 + p.r)
  let av := sigma * (2.661699e-6 + p.ld)
  let b := sigma * p.rd
  let flatm := 8.978749e-2 * Real.sin fm
  let a := sigma * Real.cos flatm
  ⟨![-(a * c), -(a * s), -(sigma * Real.sin flatm)],
   ![av * s + b * c, -(av * c) + b * s, -(sigma * 2.399485e-7 * Real.cos fm)]⟩

/-- The contribution of planet `k` to the motion of the Sun about the barycentre (src/evp.cc:304-312, 336-341). -/
def evpPlanet (red : ℝ → ℝ) (x : EvpElements) (k : Fin 4) : VectorPV :=
  let plon := x.forbel ⟨k + 3, by omega⟩
  let pomg := x.sorbel ⟨k + 1, by omega⟩
  let pecc := x.sorbel ⟨k + 9, by omega⟩
  let node := x.sorbel ⟨k + 5, by omega⟩
  let incl := x.sorbel ⟨k + 13, by omega⟩
  let tl := red (plon + 2 * pecc * Real.sin (plon - pomg))
  let s := Real.sin tl
  let c := Real.cos tl
  let flat := incl * Real.sin (plon - node)
  let a := evpPam k * (1 - pecc * Real.cos (plon - pomg))
  let b := a * Real.cos flat
  ⟨![-(b * c), -(b * s), -(a * Real.sin flat)],
   ![evpPamv k * (s + pecc * Real.sin pomg), -(evpPamv k * (c + pecc * Real.cos pomg)),
     -(evpPamv k * incl * Real.cos (plon - node))]⟩

/-- The loops over the four planets (src/evp.cc:303-313, 335-342) from the starting value `v`. -/
def evpPlanets (v : Vec) (term : Fin 4 → Vec) : Vec := (List.finRange 4).foldl (fun v k => v + term k) v

/-- The motions referred to the ecliptic of date (src/evp.cc:230-313, 323-342). -/
def evpEcliptic (red : ℝ → ℝ) (dt : ℝ) (x : EvpElements) : EarthPV :=
  let emb := evpEmb red (x.sorbel 0) (x.forbel 0) x.dml (evpPert dt x.sec x.args)
  let moon := evpMoon (x.forbel 1) (x.forbel 2) (evpMoonPert x.argm)
  let hpos := emb.pos + moon.pos
  let hvelo := emb.vel + moon.vel
  { hpos := hpos
    hvelo := hvelo
    bpos := evpPlanets ((0.99999696 : ℝ) • hpos) fun k => (evpPlanet red x k).pos
    bvelo := evpPlanets ((0.99999696 : ℝ) • hvelo) fun k => (evpPlanet red x k).vel }

/-- Transition to the mean equator of date, with the correction of the equinox (src/evp.cc:316-321, 345-364). -/
def evpEquator (deps deqcor : ℝ) (v : Vec) : Vec :=
  let ya := Real.cos deps * v 1 - Real.sin deps * v 2
  let za := Real.sin deps * v 1 + Real.cos deps * v 2
  ![v 0 - deqcor * ya, ya + deqcor * v 0, za]

/-- The correction `deqcor` (src/evp.cc:351-352). -/
def evpEqcor (date : ℝ) : ℝ := pi / 43200 * (0.035 + 0.00085 * (epj date - 1949.9997904423))

/-- src/evp.cc:55-424 `evp` -/
def evp (date deqx : ℝ) : EarthPV :=
  let dt := (date - 15019.5) / 36525
  let red := fun x => cfmod x (2 * pi)
  let x := evpElements red dt
  let r := evpEcliptic red dt x
  let q := evpEquator x.deps (evpEqcor date)
  if deqx > 0 then
    let m := prec (epj date) deqx
    ⟨dmxv m (q r.hpos), dmxv m (q r.hvelo), dmxv m (q r.bpos), dmxv m (q r.bvelo)⟩
  else ⟨q r.hpos, q r.hvelo, q r.bpos, q r.bvelo⟩

end Sla
