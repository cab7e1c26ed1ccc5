import Verif.Model.FpCode
import Verif.Model.Coords

/-
Polar motion with the rounding of every operation.
-/
noncomputable section
namespace Sla.Fp

/-- The site turned by the polar motion (src/polmo.cc:78-97). -/
def polmoSite (R sn cs : ℝ → ℝ) (mLong mPhi xpm ypm : ℝ) : Vec :=
  let xm := R (cs mLong * cs mPhi)
  let ym := R (sn mLong * cs mPhi)
  let zm := sn mPhi
  let zw := R (R (-ym * sn ypm) + R (zm * cs ypm))
  ![R (R (xm * cs xpm) - R (zw * sn xpm)), R (R (ym * cs ypm) + R (zm * sn ypm)), R (R (xm * sn xpm) + R (zw * cs xpm))]

/-- src/polmo.cc:76-119 `polmo`; `none` when the code would divide by a zero `cos_phi` -/
def polmo (R sn cs : ℝ → ℝ) (at2 : ℝ → ℝ → ℝ) (mLong mPhi xpm ypm : ℝ) : Option Polmo :=
  let v := polmoSite R sn cs mLong mPhi xpm ypm
  let xt := v 0
  let yt := v 1
  let zt := v 2
  let xnm := R (-sn xpm * cs ypm)
  let ynm := sn ypm
  let znm := R (cs xpm * cs ypm)
  let cosPhi := R (Real.sqrt (R (R (xt * xt) + R (yt * yt))))
  if cosPhi = 0 then none
  else
    let sinLong := R (yt / cosPhi)
    let cosLong := R (xt / cosPhi)
    let tLong := open Classical in if xt ≠ 0 ∨ yt ≠ 0 then at2 yt xt else 0
    let tPhi := at2 zt cosPhi
    let xnt := R (R (R (R (xnm * cosLong) + R (ynm * sinLong)) * zt) - R (znm * cosPhi))
    let ynt := R (R (-xnm * sinLong) + R (ynm * cosLong))
    let dAz := open Classical in if xnt ≠ 0 ∨ ynt ≠ 0 then at2 (-ynt) (-xnt) else 0
    some ⟨tLong, tPhi, dAz⟩

end Sla.Fp
