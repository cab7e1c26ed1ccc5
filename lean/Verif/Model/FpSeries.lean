import Verif.Model.FpNut
import Verif.Model.Nut80
import Verif.Model.Rcc

/-
`precl`, `nutc80` and `rcc` with the rounding of every operation. `fmod` is exact, as IEEE 754 requires and as in `Model/FpCode`;
whole numbers below 2^53 written as literals are exact.
-/
noncomputable section
namespace Sla.Fp

/-! ## Precession, long term -/

/-- src/precl.cc:39-112 `precl`: the Euler angles `zeta`, `theta`, `z` -/
def preclAngles (R : ℝ → ℝ) (ep0 ep1 : ℝ) : ℝ × ℝ × ℝ :=
  let t0 := R (R (ep0 - 2000) / 1000)
  let t := R (R (ep1 - ep0) / 1000)
  let tas2r := R (t * R 0.484813681109535994e-5)
  let w := R (R 23060.9097 + R (R (R 139.7459 + R (R (-R 0.0038 + R (R (-R 0.5918 + R (R (-R 0.0037 +
    R (R 0.0007 * t0)) * t0)) * t0)) * t0)) * t0))
  let zeta := R (R (w + R (R (R (R 30.2226 + R (R (-R 0.2523 + R (R (-R 0.3840 + R (R (-R 0.0014 + R (R 0.0007 * t0)) * t0)) * t0)) * t0)) +
    R (R (R (R 18.0183 + R (R (-R 0.1326 + R (R (R 0.0006 + R (R 0.0005 * t0)) * t0)) * t0)) +
    R (R (R (-R 0.0583 + R (R (-R 0.0001 + R (R 0.0007 * t0)) * t0)) +
    R (R (-R 0.0285 + R (-R 0.0002 * t)) * t)) * t)) * t)) * t)) * tas2r)
  let z := R (R (w + R (R (R (R 109.5270 + R (R (R 0.2446 + R (R (-R 1.3913 + R (R (-R 0.0134 + R (R 0.0026 * t0)) * t0)) * t0)) * t0)) +
    R (R (R (R 18.2667 + R (R (-R 1.1400 + R (R (-R 0.0173 + R (R 0.0044 * t0)) * t0)) * t0)) +
    R (R (R (-R 0.2821 + R (R (-R 0.0093 + R (R 0.0032 * t0)) * t0)) +
    R (R (R (-R 0.0301 + R (R 0.0006 * t0)) - R (R 0.0001 * t)) * t)) * t)) * t)) * t)) * tas2r)
  let theta := R (R (R (R 20042.0207 + R (R (-R 85.3131 + R (R (-R 0.2111 + R (R (R 0.3642 + R (R (R 0.0008 +
      R (-R 0.0005 * t0)) * t0)) * t0)) * t0)) * t0)) +
    R (R (R (-R 42.6566 + R (R (-R 0.2111 + R (R (R 0.5463 + R (R (R 0.0017 + R (-R 0.0012 * t0)) * t0)) * t0)) * t0)) +
    R (R (R (-R 41.8238 + R (R (R 0.0359 + R (R (R 0.0027 + R (-R 0.0001 * t0)) * t0)) * t0)) +
    R (R (R (-R 0.0731 + R (R (R 0.0019 + R (R 0.0009 * t0)) * t0)) +
    R (R (R (-R 0.0127 + R (R 0.0011 * t0)) + R (R 0.0004 * t)) * t)) * t)) * t)) * t)) * tas2r)
  (zeta, theta, z)

/-- src/precl.cc:39-112 `precl` -/
def precl (R : ℝ → ℝ) (sn cs : ℝ → ℝ) (ep0 ep1 : ℝ) : Mat :=
  let a := preclAngles R ep0 ep1
  deuler R sn cs ['Z', 'Y', 'Z'] (-a.1) a.2.1 (-a.2.2)

/-! ## Nutation of 1980 -/

/-- The multiples `el2`, `el3`, `f4`, ... (src/nutc80.cc:82-90); the tables have none above four. -/
def nut80Mult (R : ℝ → ℝ) (k : ℕ) (x : ℝ) : ℝ :=
  if k = 1 then x else if k = 2 then R (x + x) else if k = 3 then R (R (x + x) + x) else R (R (x + x) + R (x + x))

/-- One further summand in the argument of a term (src/nutc80.cc:97-429): an argument with multiplier zero does not occur in
    the source. -/
def nut80Next (R : ℝ → ℝ) (s : ℝ) (p : Int × ℝ) : ℝ :=
  if p.1 = 0 then s else if 0 < p.1 then R (s + nut80Mult R p.1.natAbs p.2) else R (s - nut80Mult R p.1.natAbs p.2)

/-- The argument of a term (src/nutc80.cc:97-429), left to right, in the order `el`, `elp`, `f`, `d`, `om`. -/
def nut80Theta (R : ℝ → ℝ) : List (Int × ℝ) → ℝ
  | [] => 0
  | q :: l => if q.1 = 0 then nut80Theta R l else
      l.foldl (nut80Next R) (if 0 < q.1 then nut80Mult R q.1.natAbs q.2 else -nut80Mult R q.1.natAbs q.2)

/-- The assignment to `dp` or `de` in one term (src/nutc80.cc:97-429), `v` the sine or cosine: absent for coefficient zero, without
    multiplication for coefficients 1 and -1; coefficients with a rate are always added. -/
def nut80Acc (R : ℝ → ℝ) (t s v : ℝ) (q : Int × Int) : ℝ :=
  if q.2 = 0 then
    if q.1 = 0 then s
    else if q.1 = 10 then R (s + v)
    else if q.1 = -10 then R (s - v)
    else if 0 < q.1 then R (s + R (tenth q.1 * v))
    else R (s - R (tenth (-q.1) * v))
  else if 0 < q.2 then R (s + R (R (tenth q.1 + R (R (tenth q.2) * t)) * v))
  else R (s + R (R (tenth q.1 - R (R (tenth (-q.2)) * t)) * v))

/-- One numbered term of src/nutc80.cc:97-429; the state is `(dp, de)`. -/
def nut80Step (R : ℝ → ℝ) (sn cs : ℝ → ℝ) (t : ℝ) (angles : List ℝ) (st : ℝ × ℝ) (r : Nut80Term) : ℝ × ℝ :=
  let theta := nut80Theta R (r.fa.zip angles)
  (nut80Acc R t st.1 (sn theta) r.p, nut80Acc R t st.2 (cs theta) r.e)

/-- The five fundamental arguments, src/nutc80.cc:59-80. -/
def nut80Angles (R : ℝ → ℝ) (t : ℝ) : List ℝ := [
  drange R (R (R 0.484813681109535994e-5 * R (R 485866.733 + R (R (R (R (1325 * 1296000) + R 715922.633) +
    R (R (R 31.310 + R (R 0.064 * t)) * t)) * t)))),
  drange R (R (R 0.484813681109535994e-5 * R (R 1287099.804 + R (R (R (R (99 * 1296000) + R 1292581.224) +
    R (R (-R 0.577 - R (R 0.012 * t)) * t)) * t)))),
  drange R (R (R 0.484813681109535994e-5 * R (R 335778.877 + R (R (R (R (1342 * 1296000) + R 295263.137) +
    R (R (-R 13.257 + R (R 0.011 * t)) * t)) * t)))),
  drange R (R (R 0.484813681109535994e-5 * R (R 1072261.307 + R (R (R (R (1236 * 1296000) + R 1105601.328) +
    R (R (-R 6.891 + R (R 0.019 * t)) * t)) * t)))),
  drange R (R (R 0.484813681109535994e-5 * R (R 450160.280 + R (R (R (R (-5 * 1296000) - R 482890.539) +
    R (R (R 7.455 + R (R 0.008 * t)) * t)) * t))))]

/-- src/nutc80.cc:45-437 `nutc80` -/
def nutc80 (R : ℝ → ℝ) (sn cs : ℝ → ℝ) (tdb : ℝ) : NutResult :=
  let t := R (R (tdb - 51544.5) / 36525)
  let d := nut80Terms.foldl (nut80Step R sn cs t (nut80Angles R t)) (0, 0)
  { psi := R (d.1 * R (R 0.484813681109535994e-5 / 1.0e4))
    eps := R (d.2 * R (R 0.484813681109535994e-5 / 1.0e4))
    eps0 := R (R 0.484813681109535994e-5 * R (R 84381.448 + R (R (-R 46.8150 + R (R (-R 0.00059 +
      R (R 0.001813 * t)) * t)) * t))) }

/-! ## Relativistic clock correction -/

/-- One fundamental argument of src/rcc.cc:909-921. -/
def rccArg (R : ℝ → ℝ) (deg rate w : ℝ) : ℝ :=
  R (cfmod (R (R deg + R (R rate * w))) 360 * R 0.0174532925199432957692369)

/-- The topocentric terms `wt`, src/rcc.cc:900-933. -/
def rccTopo (R : ℝ → ℝ) (sn cs : ℝ → ℝ) (t ut1 cl cda cdp : ℝ) : ℝ :=
  let t_sol := R (R (cfmod ut1 1 * R 6.283185307179586476925287) - cl)
  let w := R (t / 3600)
  let sun_ml := rccArg R 280.46645683 1296027711.03429 w
  let sun_ma := rccArg R 357.52910918 1295965810.481 w
  let moon_me := rccArg R 297.85019547 16029616012.09 w
  let jupiter_ml := rccArg R 34.35151874 109306899.89453 w
  let saturn_ml := rccArg R 50.0774443 44046398.47038 w
  let a0 := R (R (R 0.00029e-10 * cda) * sn (R (R (t_sol + sun_ml) - saturn_ml)))
  let a1 := R (a0 + R (R (R 0.00100e-10 * cda) * sn (R (t_sol - R (2 * sun_ma)))))
  let a2 := R (a1 + R (R (R 0.00133e-10 * cda) * sn (R (t_sol - moon_me))))
  let a3 := R (a2 + R (R (R 0.00133e-10 * cda) * sn (R (R (t_sol + sun_ml) - jupiter_ml))))
  let a4 := R (a3 - R (R (R 0.00229e-10 * cda) * sn (R (R (t_sol + R (2 * sun_ml)) + sun_ma))))
  let a5 := R (a4 - R (R (R 0.02200e-10 * cdp) * cs (R (sun_ml + sun_ma))))
  let a6 := R (a5 + R (R (R 0.05312e-10 * cda) * sn (R (t_sol - sun_ma))))
  let a7 := R (a6 - R (R (R 0.13677e-10 * cda) * sn (R (t_sol + R (2 * sun_ml)))))
  let a8 := R (a7 - R (R (R 1.31840e-10 * cdp) * cs sun_ml))
  R (a8 + R (R (R 3.17679e-10 * cda) * sn t_sol))

/-- One iteration of the loops src/rcc.cc:939-968. -/
def fbStep (R : ℝ → ℝ) (sn : ℝ → ℝ) (t : ℝ) (w : ℝ) (r : FbRow) : ℝ :=
  R (w + R (R ((r.amp : ℝ) * 1e-12) * sn (R (R (R ((r.freq : ℝ) * 1e-9) * t) + R ((r.phase : ℝ) * 1e-9)))))

/-- One loop of src/rcc.cc:939-968, `for (i = hi; i >= lo; i--)`, started from zero. -/
def fbLoop (R : ℝ → ℝ) (sn : ℝ → ℝ) (t : ℝ) (hi lo : ℕ) : ℝ :=
  ((fbCoeffs.take (hi + 1)).drop lo).reverse.foldl (fbStep R sn t) 0

/-- src/rcc.cc:86-981 `rcc` -/
def rcc (R : ℝ → ℝ) (sn cs : ℝ → ℝ) (tdb ut1 cl cda cdp : ℝ) : ℝ :=
  let t := R (R (tdb - 51544.5) / 365250)
  let wt := rccTopo R sn cs t ut1 cl cda cdp
  let w0 := fbLoop R sn t 473 0
  let w1 := fbLoop R sn t 678 474
  let w2 := fbLoop R sn t 763 679
  let w3 := fbLoop R sn t 783 764
  let w4 := fbLoop R sn t 786 784
  let wf := R (R (t * R (R (t * R (R (t * R (R (t * w4) + w3)) + w2)) + w1)) + w0)
  let wj := R (R (R (R (R (R 0.00065e-6 * sn (R (R (R 6069.776754 * t) + R 4.021194))) +
      R (R 0.00033e-6 * sn (R (R (R 213.299095 * t) + R 5.543132)))) +
      R (-R 0.00196e-6 * sn (R (R (R 6208.294251 * t) + R 5.696701)))) +
      R (-R 0.00173e-6 * sn (R (R (R 74.781599 * t) + R 2.435900)))) +
    R (R (R 0.03638e-6 * t) * t))
  R (R (wt + wf) + wj)

end Sla.Fp
