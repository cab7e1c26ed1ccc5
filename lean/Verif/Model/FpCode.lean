import Verif.Model.Fp
import Verif.Model.Angles
import Verif.Model.Calendar
import Verif.Model.Vectors

/-
Functions of the library that use only the basic arithmetic operations, `fmod`, `round`, `trunc` and `sqrt`, with every
operation rounded to the format by `R` (any function, so that C94 can speak of overflow).  Arguments are numbers of the format; `R (x)` around a literal is
its conversion.  `fmod`, `round` and `trunc` are exact in C; here they are rounded as well and the lemmas show that
nothing is lost.  Integer arithmetic is that of the exact models.
-/
noncomputable section
namespace Sla.Fp

/-- src/drange.cc:31-39 `drange`; with `F = binary32`, src/range.cc `range` -/
def drange (R : ℝ → ℝ) (angle : ℝ) : ℝ :=
  let PI := R 3.141592653589793238462643
  let PI2 := R 6.283185307179586476925287
  let result := R (cfmod angle PI2)
  if |result| ≥ PI then R (result - csign PI2 angle) else result

/-- src/dranrm.cc:31-38 `dranrm`; with `F = binary32`, src/ranorm.cc `ranorm` -/
def dranrm (R : ℝ → ℝ) (angle : ℝ) : ℝ :=
  let A2PI := R 6.283185307179586476925287
  let result := R (cfmod angle A2PI)
  if result < 0 then R (result + A2PI) else result

/-- src/dd2tf.cc:35-63 `dd2tf` -/
def dd2tf (R : ℝ → ℝ) (ndp : Int) (days : ℝ) : ConvResult :=
  let rs := R (dd2tfNrs ndp)
  let rm := R (rs * 60)
  let rh := R (rm * 60)
  let interval := R (cround (R (R (rs * 86400) * |days|)))
  let hours := R (ctrunc (R (interval / rh)))
  let interval := R (interval - R (hours * rh))
  let minutes := R (ctrunc (R (interval / rm)))
  let interval := R (interval - R (minutes * rm))
  let seconds := R (ctrunc (R (interval / rs)))
  let fraction := R (interval - R (seconds * rs))
  { hours := max (cround hours) 0
    minutes := max (min (cround minutes) 59) 0
    seconds := max (min (cround seconds) 59) 0
    fraction := max (cround (min fraction (R (rs - 1)))) 0
    sign := decide (days ≥ 0) }

/-- src/dr2tf.cc:34-39 `dr2tf` -/
def dr2tf (R : ℝ → ℝ) (ndp : Int) (angle : ℝ) : ConvResult :=
  dd2tf R ndp (R (angle / R 6.283185307179586476925287))

/-- src/dr2af.cc:34-38 `dr2af` -/
def dr2af (R : ℝ → ℝ) (ndp : Int) (angle : ℝ) : ConvResult :=
  dd2tf R ndp (R (angle * R (15 / R 6.283185307179586476925287)))

/-- src/cd2tf.cc:34-36 `cd2tf`: the `float` argument is converted to `double` (exactly) and given to `dd2tf`; `D` is the
    rounding of `double` -/
def cd2tf (D : ℝ → ℝ) (ndp : Int) (days : ℝ) : ConvResult := dd2tf D ndp days

/-- src/cr2tf.cc:34-39 `cr2tf`: a division of `float`s, then `cd2tf`; `S` is the rounding of `float` -/
def cr2tf (S D : ℝ → ℝ) (ndp : Int) (angle : ℝ) : ConvResult :=
  cd2tf D ndp (S (angle / S 6.283185307179586476925287))

/-- src/cr2af.cc:34-38 `cr2af`: the factor is computed in `double` and converted to `float`, the product is a `float` -/
def cr2af (S D : ℝ → ℝ) (ndp : Int) (angle : ℝ) : ConvResult :=
  cd2tf D ndp (S (angle * S (D (15 / D 6.283185307179586476925287))))

/-- src/dtf2d.cc:35-46 `dtf2d`: the interval (the status is that of the exact model; it compares only); with
    `F = binary32`, src/ctf2d.cc:35-46 `ctf2d` -/
def dtf2d (R : ℝ → ℝ) (hours minutes : Int) (seconds : ℝ) : ℝ :=
  R (R (R (60 * R (R (60 * R hours) + R minutes)) + seconds) / 86400)

/-- src/dtf2r.cc:35-40 `dtf2r`: the angle; with `F = binary32`, src/ctf2r.cc:35-40 `ctf2r` -/
def dtf2r (R : ℝ → ℝ) (hours minutes : Int) (seconds : ℝ) : ℝ :=
  R (dtf2d R hours minutes seconds * R 6.283185307179586476925287)

/-- src/daf2r.cc:48-50 `daf2r`: the angle; with `F = binary32`, src/caf2r.cc:47-50 `caf2r` -/
def daf2r (R : ℝ → ℝ) (degrees minutes : Int) (seconds : ℝ) : ℝ :=
  R (R (R (R (R (R degrees * 60) + R minutes) * 60) + seconds) * R 0.484813681109535994e-5)

/-- src/djcl.cc:36-60 `djcl`; `none` if the date is not acceptable -/
def djcl (R : ℝ → ℝ) (mjd : ℝ) : Option (CalDate × ℝ) :=
  if mjd ≤ -2395520 ∨ mjd ≥ 1e9 then none
  else
    let f0 := R (cfmod mjd 1)
    let f := if f0 < 0 then R (f0 + 1) else f0
    let d := R (cround (R (mjd - f)))
    let jd : Int := cround d + 2400001
    some (djclExpr jd, f)

/-- src/djcal.cc:39-70 `djcal`; the power of ten is exact, as in the exact model -/
def djcal (R : ℝ → ℝ) (ndp : Int) (mjd : ℝ) : Option (CalDate × Int) :=
  if mjd ≤ -2395520 ∨ mjd ≥ 1e9 then none
  else
    let nfd : Int := 10 ^ (max ndp 0).toNat
    let fd := R nfd
    let df := R (cround (R (mjd * fd)))
    let f0 := R (cfmod df fd)
    let f := if f0 < 0 then R (f0 + fd) else f0
    let d := R (R (df - f) / fd)
    let jd : Int := cround d + 2400001
    some (djcalExpr jd, cround f)

/-- src/epj.cc:33-35 `epj` -/
def epj (R : ℝ → ℝ) (mjd : ℝ) : ℝ := R (2000 + R (R (mjd - 51544.5) / 365.25))
/-- src/epj2d.cc:33-35 `epj2d` -/
def epj2d (R : ℝ → ℝ) (je : ℝ) : ℝ := R (51544.5 + R (R (je - 2000) * 365.25))
/-- src/epb.cc:33-35 `epb` -/
def epb (R : ℝ → ℝ) (mjd : ℝ) : ℝ := R (1900 + R (R (mjd - R 15019.81352) / R 365.242198781))
/-- src/epb2d.cc:33-35 `epb2d` -/
def epb2d (R : ℝ → ℝ) (be : ℝ) : ℝ := R (R 15019.81352 + R (R (be - 1900) * R 365.242198781))

/-- src/gmst.cc:41-53 `gmst` -/
def gmst (R : ℝ → ℝ) (ut1 : ℝ) : ℝ :=
  let D2PI := R 6.283185307179586476925286766559
  let S2R := R 7.272205216643039903848711535369e-5
  let jc := R (R (ut1 - 51544.5) / 36525)
  dranrm R (R (R (R (cfmod ut1 1) * D2PI) +
    R (R (R 24110.54841 + R (R (R 8640184.812866 + R (R (R 0.093104 - R (R 6.2e-6 * jc)) * jc)) * jc)) * S2R)))

/-- src/gmsta.cc:51-69 `gmsta` -/
def gmsta (R : ℝ → ℝ) (date fdate : ℝ) : ℝ :=
  let S2R := R 7.272205216643039903848712e-5
  let d1 := if date < fdate then date else fdate
  let d2 := if date < fdate then fdate else date
  let jc := R (R (d1 + R (d2 - 51544.5)) / 36525)
  dranrm R (R (S2R * R (R (R 24110.54841 + R (R (R 8640184.812866 +
    R (R (R 0.093104 - R (R 6.2e-6 * jc)) * jc)) * jc)) + R (86400 * R (R (cfmod d1 1) + R (cfmod d2 1))))))

/-! ### Vectors -/

/-- The accumulation loop `element = 0; for (k = 0; k < 3; k++) element += f(k)`
    (src/dmxm.cc:38-41, src/dmxv.cc:37-40, src/dimxv.cc:36-39, src/dvn.cc:36-40), `f` the products. -/
def acc3 (R : ℝ → ℝ) (f : Fin 3 → ℝ) : ℝ := R (R (R (0 + f 0) + f 1) + f 2)

/-- src/dmxm.cc:33-52 `dmxm` (and src/mxm.cc `mxm`) -/
def dmxm (R : ℝ → ℝ) (ma mb : Mat) : Mat := fun i j => acc3 R fun k => R (ma i k * mb k j)

/-- src/dmxv.cc:33-48 `dmxv` (and src/mxv.cc `mxv`) -/
def dmxv (R : ℝ → ℝ) (mat : Mat) (va : Vec) : Vec := fun j => acc3 R fun i => R (mat j i * va i)

/-- src/dimxv.cc:33-47 `dimxv` (and src/imxv.cc `imxv`) -/
def dimxv (R : ℝ → ℝ) (mat : Mat) (va : Vec) : Vec := fun j => acc3 R fun i => R (mat i j * va i)

/-- src/dvdv.cc:32-34 `dvdv` (and src/vdv.cc `vdv`) -/
def dvdv (R : ℝ → ℝ) (va vb : Vec) : ℝ := R (R (R (va 0 * vb 0) + R (va 1 * vb 1)) + R (va 2 * vb 2))

/-- src/dvxv.cc:32-44 `dvxv` (and src/vxv.cc `vxv`) -/
def dvxv (R : ℝ → ℝ) (va vb : Vec) : Vec :=
  ![R (R (va 1 * vb 2) - R (va 2 * vb 1)), R (R (va 2 * vb 0) - R (va 0 * vb 2)),
    R (R (va 0 * vb 1) - R (va 1 * vb 0))]

/-- src/dvn.cc:34-52 `dvn` (and src/vn.cc:35-53 `vn`): modulus and normalised vector -/
def dvn (R : ℝ → ℝ) (vec : Vec) : ℝ × Vec :=
  let modulus := R (Real.sqrt (acc3 R fun i => R (vec i * vec i)))
  let d := if modulus ≤ 0 then 1 else modulus
  (modulus, fun i => R (vec i / d))

/-- src/dsepv.cc:35-46 `dsepv` (src/sepv.cc `sepv` calls it); `at2` is the library's `atan2`, not specified here -/
def dsepv (R : ℝ → ℝ) (at2 : ℝ → ℝ → ℝ) (va vb : Vec) : ℝ :=
  let s := (dvn R (dvxv R va vb)).1
  let c := dvdv R va vb
  open Classical in if s ≠ 0 ∨ c ≠ 0 then at2 s c else 0

/-- src/dcs2c.cc:33-38 `dcs2c`; `sn` and `cs` are the library's `sin` and `cos`, not specified here -/
def dcs2c (R : ℝ → ℝ) (sn cs : ℝ → ℝ) (long lat : ℝ) : Vec :=
  ![R (cs long * cs lat), R (sn long * cs lat), sn lat]

/-- src/dsep.cc:31-39 `dsep` (src/sep.cc `sep` calls it) -/
def dsep (R : ℝ → ℝ) (sn cs : ℝ → ℝ) (at2 : ℝ → ℝ → ℝ) (long1 lat1 long2 lat2 : ℝ) : ℝ :=
  dsepv R at2 (dcs2c R sn cs long1 lat1) (dcs2c R sn cs long2 lat2)

/-- One iteration of the loop src/deuler.cc:69-145 (see `Sla.eulerStep`); `sn` and `cs` are the library's `sin`, `cos` -/
def eulerStep (R : ℝ → ℝ) (sn cs : ℝ → ℝ) (order : List Char) (phi theta psi : ℝ) (st : Nat × Mat) (n : Nat) :
    Nat × Mat :=
  if n < st.1 then
    let angle := if n = 0 then phi else if n = 1 then theta else psi
    match eulerRotation (order.getD n '\x00') (sn angle) (cs angle) with
    | some rotation => (st.1, dmxm R rotation st.2)
    | none => (0, dmxm R identity3 st.2)
  else st

/-- src/deuler.cc:52-153 `deuler` -/
def deuler (R : ℝ → ℝ) (sn cs : ℝ → ℝ) (order : List Char) (phi theta psi : ℝ) : Mat :=
  let l := if order.length > 3 then 3 else order.length
  ([0, 1, 2].foldl (eulerStep R sn cs order phi theta psi) (l, identity3)).2

/-- src/dcc2s.cc:36-43 `dcc2s` (and src/cc2s.cc `cc2s`): longitude and latitude -/
def dcc2s (R : ℝ → ℝ) (at2 : ℝ → ℝ → ℝ) (v : Vec) : ℝ × ℝ :=
  let r := R (Real.sqrt (R (R (v 0 * v 0) + R (v 1 * v 1))))
  open Classical in (if r = 0 then 0 else at2 (v 1) (v 0), if v 2 = 0 then 0 else at2 (v 2) r)

/-- src/sepv.cc:34-39 `sepv`: the components are converted to `double` (exactly), the result of `dsepv` to `float` -/
def sepv (S D : ℝ → ℝ) (at2 : ℝ → ℝ → ℝ) (va vb : Vec) : ℝ := S (dsepv D at2 va vb)

/-- src/sep.cc:31-36 `sep`: likewise with `dsep` -/
def sep (S D : ℝ → ℝ) (sn cs : ℝ → ℝ) (at2 : ℝ → ℝ → ℝ) (long1 lat1 long2 lat2 : ℝ) : ℝ :=
  S (dsep D sn cs at2 long1 lat1 long2 lat2)

/-- src/euler.cc:53-63 `euler`: likewise with `deuler` -/
def euler (S D : ℝ → ℝ) (sn cs : ℝ → ℝ) (order : List Char) (phi theta psi : ℝ) : Mat :=
  fun i j => S (deuler D sn cs order phi theta psi i j)

end Sla.Fp
