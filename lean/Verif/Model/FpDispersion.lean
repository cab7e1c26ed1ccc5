import Verif.Model.FpCode
import Verif.Model.Refraction

/-
Atmospheric dispersion with the rounding of every operation.
-/
noncomputable section
namespace Sla.Fp

/-- Refractivity at the observer for one wavelength (src/atmdsp.cc:78-98); `pw` is the library's `pow` -/
def atmdspN (R : ℝ → ℝ) (pw : ℝ → ℝ → ℝ) (atk apm arh wl : ℝ) : ℝ :=
  let tdkok := min (max atk 100) 500
  let pmbok := min (max apm 0) 10000
  let rhok := min (max arh 0) 1
  let psat := pw 10 (R (-R 8.7115 + R (R 0.03477 * tdkok)))
  let pwo := R (rhok * psat)
  let w1 := R (R 11.2684e-6 * pwo)
  let wlok := max wl (R 0.1)
  let wlsq := R (wlok * wlok)
  let w2 := R (R 77.5317e-6 + R (R (R 0.43909e-6 + R (R 0.00367e-6 / wlsq)) / wlsq))
  R (R (R (w2 * pmbok) - w1) / tdkok)

/-- src/atmdsp.cc:71-113 `atmdsp`: (a2, b2) -/
def atmdsp (R : ℝ → ℝ) (pw : ℝ → ℝ → ℝ) (atk apm arh wl1 a1 b1 wl2 : ℝ) : ℝ × ℝ :=
  open Classical in
  if wl1 > 100 ∨ wl2 > 100 then (a1, b1)
  else
    let dn1 := atmdspN R pw atk apm arh wl1
    let dn2 := atmdspN R pw atk apm arh wl2
    if dn1 ≠ 0 then
      let f := R (dn2 / dn1)
      let a2 := R (a1 * f)
      let b2 := R (b1 * f)
      (a2, if dn1 ≠ a1 then R (b2 * R (1 + R (R (dn1 * R (dn1 - dn2)) / R (2 * R (dn1 - a1))))) else b2)
    else (a1, b1)

end Sla.Fp
