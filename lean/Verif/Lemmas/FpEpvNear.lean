import Verif.Lemmas.FpEpvSums

/-
`epv` in double precision: the orientation (generated) and the whole.
-/
namespace Sla.Fp
open Sla.Epv
variable {R : ℝ → ℝ} {sn cs : ℝ → ℝ}

theorem icrs_hpos (hR : Dbl R) {x y z x' y' z' : ℝ} (hx : Nb x' x 4.635e-13 1.017) (hy : Nb y' y 4.641e-13 1.036) (hz : Nb z' z 1.176e-16 2.447e-4) (i : Fin 3) :
    |epvIcrs R x' y' z' i - toIcrs x y z i| ≤ 4.7e-13 := by
  have n1 : Nb _ _ 2.54e-23 2.11284e-7 := hR.nlit (x := 0.000000211284) (by norm_num) (by norm_num)
  have n2 : Nb _ _ 1.1e-23 9.1603e-8 := hR.nlit (x := 0.000000091603) (by norm_num) (by norm_num)
  have n3 : Nb _ _ 2.77e-23 2.30286e-7 := hR.nlit (x := 0.000000230286) (by norm_num) (by norm_num)
  have n4 : Nb _ _ 1.11e-16 9.17483e-1 := hR.nlit (x := 0.917482137087) (by norm_num) (by norm_num)
  have n5 : Nb _ _ 4.78e-17 3.97777e-1 := hR.nlit (x := 0.397776982902) (by norm_num) (by norm_num)
  have n6 : Nb _ _ 9.82e-20 2.189e-7 := hR.nmul n1 hy (by norm_num) (by norm_num)
  have n7 : Nb _ _ 4.64e-13 1.018 := hR.nadd hx n6 (by norm_num) (by norm_num)
  have n8 : Nb _ _ 1.08e-23 2.242e-11 := hR.nmul n2.neg hz (by norm_num) (by norm_num)
  have r0 : Nb _ _ 4.65e-13 1.019 := hR.nadd n7 n8 (by norm_num) (by norm_num)
  have n9 : Nb _ _ 1.07e-19 2.343e-7 := hR.nmul n3.neg hx (by norm_num) (by norm_num)
  have n10 : Nb _ _ 4.27e-13 0.9506 := hR.nmul n4 hy (by norm_num) (by norm_num)
  have n11 : Nb _ _ 4.28e-13 0.9507 := hR.nadd n9 n10 (by norm_num) (by norm_num)
  have n12 : Nb _ _ 4.69e-17 9.734e-5 := hR.nmul n5.neg hz (by norm_num) (by norm_num)
  have r1 : Nb _ _ 4.29e-13 0.9508 := hR.nadd n11 n12 (by norm_num) (by norm_num)
  have n13 : Nb _ _ 1.85e-13 0.4121 := hR.nmul n5 hy (by norm_num) (by norm_num)
  have n14 : Nb _ _ 1.08e-16 2.246e-4 := hR.nmul n4 hz (by norm_num) (by norm_num)
  have r2 : Nb _ _ 1.86e-13 0.4124 := hR.nadd n13 n14 (by norm_num) (by norm_num)
  fin_cases i
  · exact r0.err.trans (by norm_num)
  · exact r1.err.trans (by norm_num)
  · exact r2.err.trans (by norm_num)

theorem icrs_bpos (hR : Dbl R) {x y z x' y' z' : ℝ} (hx : Nb x' x 4.983e-13 1.03) (hy : Nb y' y 4.996e-13 1.049) (hz : Nb z' z 1.301e-16 5.586e-4) (i : Fin 3) :
    |epvIcrs R x' y' z' i - toIcrs x y z i| ≤ 5.1e-13 := by
  have n1 : Nb _ _ 2.54e-23 2.11284e-7 := hR.nlit (x := 0.000000211284) (by norm_num) (by norm_num)
  have n2 : Nb _ _ 1.1e-23 9.1603e-8 := hR.nlit (x := 0.000000091603) (by norm_num) (by norm_num)
  have n3 : Nb _ _ 2.77e-23 2.30286e-7 := hR.nlit (x := 0.000000230286) (by norm_num) (by norm_num)
  have n4 : Nb _ _ 1.11e-16 9.17483e-1 := hR.nlit (x := 0.917482137087) (by norm_num) (by norm_num)
  have n5 : Nb _ _ 4.78e-17 3.97777e-1 := hR.nlit (x := 0.397776982902) (by norm_num) (by norm_num)
  have n6 : Nb _ _ 1.06e-19 2.217e-7 := hR.nmul n1 hy (by norm_num) (by norm_num)
  have n7 : Nb _ _ 4.99e-13 1.031 := hR.nadd hx n6 (by norm_num) (by norm_num)
  have n8 : Nb _ _ 1.2e-23 5.117e-11 := hR.nmul n2.neg hz (by norm_num) (by norm_num)
  have r0 : Nb _ _ 5e-13 1.032 := hR.nadd n7 n8 (by norm_num) (by norm_num)
  have n9 : Nb _ _ 1.15e-19 2.372e-7 := hR.nmul n3.neg hx (by norm_num) (by norm_num)
  have n10 : Nb _ _ 4.59e-13 0.9625 := hR.nmul n4 hy (by norm_num) (by norm_num)
  have n11 : Nb _ _ 4.6e-13 0.9626 := hR.nadd n9 n10 (by norm_num) (by norm_num)
  have n12 : Nb _ _ 5.19e-17 2.222e-4 := hR.nmul n5.neg hz (by norm_num) (by norm_num)
  have r1 : Nb _ _ 4.61e-13 0.9629 := hR.nadd n11 n12 (by norm_num) (by norm_num)
  have n13 : Nb _ _ 1.99e-13 0.4173 := hR.nmul n5 hy (by norm_num) (by norm_num)
  have n14 : Nb _ _ 1.2e-16 5.126e-4 := hR.nmul n4 hz (by norm_num) (by norm_num)
  have r2 : Nb _ _ 2e-13 0.4179 := hR.nadd n13 n14 (by norm_num) (by norm_num)
  fin_cases i
  · exact r0.err.trans (by norm_num)
  · exact r1.err.trans (by norm_num)
  · exact r2.err.trans (by norm_num)

theorem icrs_hvel (hR : Dbl R) {x y z x' y' z' : ℝ} (hx : Nb x' x 8.118e-15 1.752e-2) (hy : Nb y' y 8.104e-15 1.752e-2) (hz : Nb z' z 5.682e-18 4.857e-6) (i : Fin 3) :
    |epvIcrs R x' y' z' i - toIcrs x y z i| ≤ 8.2e-15 := by
  have n1 : Nb _ _ 2.54e-23 2.11284e-7 := hR.nlit (x := 0.000000211284) (by norm_num) (by norm_num)
  have n2 : Nb _ _ 1.1e-23 9.1603e-8 := hR.nlit (x := 0.000000091603) (by norm_num) (by norm_num)
  have n3 : Nb _ _ 2.77e-23 2.30286e-7 := hR.nlit (x := 0.000000230286) (by norm_num) (by norm_num)
  have n4 : Nb _ _ 1.11e-16 9.17483e-1 := hR.nlit (x := 0.917482137087) (by norm_num) (by norm_num)
  have n5 : Nb _ _ 4.78e-17 3.97777e-1 := hR.nlit (x := 0.397776982902) (by norm_num) (by norm_num)
  have n6 : Nb _ _ 1.72e-21 3.702e-9 := hR.nmul n1 hy (by norm_num) (by norm_num)
  have n7 : Nb _ _ 8.13e-15 1.753e-2 := hR.nadd hx n6 (by norm_num) (by norm_num)
  have n8 : Nb _ _ 5.21e-25 4.45e-13 := hR.nmul n2.neg hz (by norm_num) (by norm_num)
  have r0 : Nb _ _ 8.14e-15 1.754e-2 := hR.nadd n7 n8 (by norm_num) (by norm_num)
  have n9 : Nb _ _ 1.88e-21 4.035e-9 := hR.nmul n3.neg hx (by norm_num) (by norm_num)
  have n10 : Nb _ _ 7.44e-15 1.608e-2 := hR.nmul n4 hy (by norm_num) (by norm_num)
  have n11 : Nb _ _ 7.45e-15 1.609e-2 := hR.nadd n9 n10 (by norm_num) (by norm_num)
  have n12 : Nb _ _ 2.27e-18 1.933e-6 := hR.nmul n5.neg hz (by norm_num) (by norm_num)
  have r1 : Nb _ _ 7.46e-15 0.0161 := hR.nadd n11 n12 (by norm_num) (by norm_num)
  have n13 : Nb _ _ 3.23e-15 6.97e-3 := hR.nmul n5 hy (by norm_num) (by norm_num)
  have n14 : Nb _ _ 5.22e-18 4.457e-6 := hR.nmul n4 hz (by norm_num) (by norm_num)
  have r2 : Nb _ _ 3.24e-15 6.975e-3 := hR.nadd n13 n14 (by norm_num) (by norm_num)
  fin_cases i
  · exact r0.err.trans (by norm_num)
  · exact r1.err.trans (by norm_num)
  · exact r2.err.trans (by norm_num)

theorem icrs_bvel (hR : Dbl R) {x y z x' y' z' : ℝ} (hx : Nb x' x 8.709e-15 1.753e-2) (hy : Nb y' y 8.698e-15 1.753e-2) (hz : Nb z' z 5.751e-18 5.123e-6) (i : Fin 3) :
    |epvIcrs R x' y' z' i - toIcrs x y z i| ≤ 8.8e-15 := by
  have n1 : Nb _ _ 2.54e-23 2.11284e-7 := hR.nlit (x := 0.000000211284) (by norm_num) (by norm_num)
  have n2 : Nb _ _ 1.1e-23 9.1603e-8 := hR.nlit (x := 0.000000091603) (by norm_num) (by norm_num)
  have n3 : Nb _ _ 2.77e-23 2.30286e-7 := hR.nlit (x := 0.000000230286) (by norm_num) (by norm_num)
  have n4 : Nb _ _ 1.11e-16 9.17483e-1 := hR.nlit (x := 0.917482137087) (by norm_num) (by norm_num)
  have n5 : Nb _ _ 4.78e-17 3.97777e-1 := hR.nlit (x := 0.397776982902) (by norm_num) (by norm_num)
  have n6 : Nb _ _ 1.84e-21 3.704e-9 := hR.nmul n1 hy (by norm_num) (by norm_num)
  have n7 : Nb _ _ 8.72e-15 1.754e-2 := hR.nadd hx n6 (by norm_num) (by norm_num)
  have n8 : Nb _ _ 5.27e-25 4.693e-13 := hR.nmul n2.neg hz (by norm_num) (by norm_num)
  have r0 : Nb _ _ 8.73e-15 1.755e-2 := hR.nadd n7 n8 (by norm_num) (by norm_num)
  have n9 : Nb _ _ 2.01e-21 4.037e-9 := hR.nmul n3.neg hx (by norm_num) (by norm_num)
  have n10 : Nb _ _ 7.99e-15 1.609e-2 := hR.nmul n4 hy (by norm_num) (by norm_num)
  have n11 : Nb _ _ 8e-15 0.0161 := hR.nadd n9 n10 (by norm_num) (by norm_num)
  have n12 : Nb _ _ 2.29e-18 2.038e-6 := hR.nmul n5.neg hz (by norm_num) (by norm_num)
  have r1 : Nb _ _ 8.01e-15 1.611e-2 := hR.nadd n11 n12 (by norm_num) (by norm_num)
  have n13 : Nb _ _ 3.47e-15 6.974e-3 := hR.nmul n5 hy (by norm_num) (by norm_num)
  have n14 : Nb _ _ 5.28e-18 4.701e-6 := hR.nmul n4 hz (by norm_num) (by norm_num)
  have r2 : Nb _ _ 3.48e-15 6.979e-3 := hR.nadd n13 n14 (by norm_num) (by norm_num)
  fin_cases i
  · exact r0.err.trans (by norm_num)
  · exact r1.err.trans (by norm_num)
  · exact r2.err.trans (by norm_num)

theorem epvTime_near (hR : Dbl R) {date : ℝ} (h : |date - 51544.5| ≤ 36525) :
    Nb (epvTime R date) ((date - 51544.5) / 365.25) 2.41e-14 100 := by
  have h1 : Nb (R (date - 51544.5)) (date - 51544.5) 4.384e-12 36525 := hR.nlit h (by norm_num)
  exact hR.ndivc h1 (by norm_num) (by norm_num) (by norm_num)

theorem epv_near (hR : Dbl R) (hs : ∀ x, |sn x - Real.sin x| ≤ 2e-16) (hc : ∀ x, |cs x - Real.cos x| ≤ 2e-16) {date : ℝ}
    (h : |date - 51544.5| ≤ 36525) :
    (∀ i, |(Fp.epv R sn cs date).hpos i - (Sla.epv date).hpos i| ≤ 4.7e-13) ∧
    (∀ i, |(Fp.epv R sn cs date).hvelo i - (Sla.epv date).hvelo i| ≤ 8.2e-15) ∧
    (∀ i, |(Fp.epv R sn cs date).bpos i - (Sla.epv date).bpos i| ≤ 5.1e-13) ∧
    (∀ i, |(Fp.epv R sn cs date).bvelo i - (Sla.epv date).bvelo i| ≤ 8.8e-15) := by
  have ht := epvTime_near hR h
  obtain ⟨hx, bx⟩ := epv_x hR hs hc ht
  obtain ⟨hy, b_y⟩ := epv_y hR hs hc ht
  obtain ⟨hz, bz⟩ := epv_z hR hs hc ht
  exact ⟨icrs_hpos hR hx.p hy.p hz.p,
    icrs_hvel hR (hR.ndivc (n := 365.25) (g := 8.118e-15) (C := 1.752e-2) hx.v (by norm_num) (by norm_num) (by norm_num))
      (hR.ndivc (n := 365.25) (g := 8.104e-15) (C := 1.752e-2) hy.v (by norm_num) (by norm_num) (by norm_num))
      (hR.ndivc (n := 365.25) (g := 5.682e-18) (C := 4.857e-6) hz.v (by norm_num) (by norm_num) (by norm_num)),
    icrs_bpos hR bx.p b_y.p bz.p,
    icrs_bvel hR (hR.ndivc (n := 365.25) (g := 8.709e-15) (C := 1.753e-2) bx.v (by norm_num) (by norm_num) (by norm_num))
      (hR.ndivc (n := 365.25) (g := 8.698e-15) (C := 1.753e-2) b_y.v (by norm_num) (by norm_num) (by norm_num))
      (hR.ndivc (n := 365.25) (g := 5.751e-18) (C := 5.123e-6) bz.v (by norm_num) (by norm_num) (by norm_num))⟩

end Sla.Fp
