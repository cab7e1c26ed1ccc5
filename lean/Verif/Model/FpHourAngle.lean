import Verif.Model.FpCode

/-
Hour angle from azimuth and from parallactic angle, with rounding.
-/
noncomputable section
namespace Sla.Fp

/-- What `pda2h` and `pdq2h` can return: no solution, NaNs, or two hour angles, each with a flag. -/
inductive HaOut where
  | none
  | nan
  | two (h1 h2 : ℝ) (valid1 valid2 : Prop)

/-- The adjustment of a reduced angle `a` by 1e-12, src/pda2h.cc:44-48, 50-54, 56-61 and src/pdq2h.cc:44-48, 50-54: if it is critical by the
    first test, and otherwise if it is near zero -/
def adjustBy (R : ℝ → ℝ) (critical : Prop) (a : ℝ) : ℝ :=
  open Classical in
  if critical then R (a - csign (R 1e-12) a) else if |a| < R 1e-12 then R 1e-12 else a

/-- src/pda2h.cc:65-85 and src/pdq2h.cc:63-82: the two hour angles.  `b` multiplies the root, `x` and `m` are the arguments of `atan2`, `qt` is
    the numerator; `asn` is the library's `asin`.  (Squaring `-cos_an` or `cos_an` is the same.)  A zero divisor makes the quotient a NaN. -/
def hourAngles (R asn : ℝ → ℝ) (at2 : ℝ → ℝ → ℝ) (b x m qt : ℝ) (valid : ℝ → Prop) : HaOut :=
  let PI := R 3.141592653589793238462643
  let qb := R (b * R (Real.sqrt (R (R (x * x) + R (m * m)))))
  open Classical in
  if |qt| ≤ qb then
    if qb = 0 then .nan
    else
      let hpt := asn (R (qt / qb))
      let t := at2 m x
      let ha1 := drange R (R (hpt - t))
      let ha2 := drange R (R (-hpt - R (t + PI)))
      .two ha1 ha2 (valid ha1) (valid ha2)
  else .none

/-- src/pda2h.cc:37-89 `pda2h`; `R` rounds to `double` -/
def pda2h (R sn cs asn : ℝ → ℝ) (at2 : ℝ → ℝ → ℝ) (lat dec azimuth : ℝ) : HaOut :=
  let PI := R 3.141592653589793238462643
  let DEG_90 := R (PI / 2)
  let TINY := R 1e-12
  let pn := drange R lat
  let pn := adjustBy R (|R (|pn| - DEG_90)| < TINY) pn
  let an := drange R azimuth
  let an := adjustBy R (|R (|an| - PI)| < TINY) an
  let dn := drange R dec
  let dn := adjustBy R (|R (|dn| - |lat|)| < TINY ∨ |R (|dn| - DEG_90)| < TINY) dn
  let sin_an := sn an
  let cos_an := cs an
  let sinan_cospn := R (sin_an * sn pn)
  let qt := R (R (sn dn * sin_an) * cs pn)
  hourAngles R asn at2 (cs dn) (-cos_an) sinan_cospn qt (fun h => R (h * an) ≤ 0)

/-- src/pdq2h.cc:37-87 `pdq2h`; `R` rounds to `double` -/
def pdq2h (R sn cs asn : ℝ → ℝ) (at2 : ℝ → ℝ → ℝ) (lat dec pa : ℝ) : HaOut :=
  let PI := R 3.141592653589793238462643
  let DEG_90 := R (PI / 2)
  let TINY := R 1e-12
  let pn := drange R lat
  let pn := adjustBy R (|R (|pn| - DEG_90)| < TINY) pn
  let qn := drange R pa
  let qn := adjustBy R (|R (|qn| - PI)| < TINY) qn
  let dn := drange R dec
  open Classical in
  let dn := if |R (|dec| - |lat|)| < TINY ∨ |R (|dec| - DEG_90)| < TINY then R (dn - csign TINY dn) else dn
  let sin_qn := sn qn
  let cos_qn := cs qn
  let sinqn_sindn := R (sin_qn * sn dn)
  let qt := R (R (sn pn * sin_qn) * cs dn)
  hourAngles R asn at2 (cs pn) cos_qn sinqn_sindn qt (fun h => R (h * qn) ≥ 0)

end Sla.Fp
