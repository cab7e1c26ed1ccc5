import Verif.Lemmas.FpNut80
import Verif.Lemmas.PrecMotion

/-
The angles of `precl` and the sums of `rcc` in double precision (the chains of bounds are generated).
-/
namespace Sla.Fp
open Real (pi)
variable {D sn cs : ℝ → ℝ}

/-- The Euler angles of `precl`, exactly (as in `Sla.precl`). -/
noncomputable def preclExact (ep0 ep1 : ℝ) : ℝ × ℝ × ℝ :=
  let t0 := (ep0 - 2000) / 1000
  let t := (ep1 - ep0) / 1000
  let tas2r := t * as2r
  let w := 23060.9097 + (139.7459 + (-0.0038 + (-0.5918 + (-0.0037 + 0.0007 * t0) * t0) * t0) * t0) * t0
  let zeta := (w + (30.2226 + (-0.2523 + (-0.3840 + (-0.0014 + 0.0007 * t0) * t0) * t0) * t0 +
    (18.0183 + (-0.1326 + (0.0006 + 0.0005 * t0) * t0) * t0 + (-0.0583 + (-0.0001 + 0.0007 * t0) * t0 +
    (-0.0285 + -0.0002 * t) * t) * t) * t) * t) * tas2r
  let z := (w + (109.5270 + (0.2446 + (-1.3913 + (-0.0134 + 0.0026 * t0) * t0) * t0) * t0 +
    (18.2667 + (-1.1400 + (-0.0173 + 0.0044 * t0) * t0) * t0 + (-0.2821 + (-0.0093 + 0.0032 * t0) * t0 +
    (-0.0301 + 0.0006 * t0 - 0.0001 * t) * t) * t) * t) * t) * tas2r
  let theta := (20042.0207 + (-85.3131 + (-0.2111 + (0.3642 + (0.0008 + -0.0005 * t0) * t0) * t0) * t0) * t0 +
    (-42.6566 + (-0.2111 + (0.5463 + (0.0017 + -0.0012 * t0) * t0) * t0) * t0 +
    (-41.8238 + (0.0359 + (0.0027 + -0.0001 * t0) * t0) * t0 + (-0.0731 + (0.0019 + 0.0009 * t0) * t0 +
    (-0.0127 + 0.0011 * t0 + 0.0004 * t) * t) * t) * t) * t) * tas2r
  (zeta, theta, z)

theorem precl_exact (ep0 ep1 : ℝ) : Sla.precl ep0 ep1 =
    Sla.deuler zyz (-(preclExact ep0 ep1).1) (preclExact ep0 ep1).2.1 (-(preclExact ep0 ep1).2.2) := rfl

theorem preclAngles_near (hD : Dbl D) {ep0 ep1 : ℝ} (h0 : |ep0 - 2000| ≤ 1000) (h1 : |ep1 - ep0| ≤ 2000) :
    Nb (preclAngles D ep0 ep1).1 (preclExact ep0 ep1).1 2.22e-16 0.2265 ∧ Nb (preclAngles D ep0 ep1).2.1 (preclExact ep0 ep1).2.1 1.95e-16 0.1978 ∧
      Nb (preclAngles D ep0 ep1).2.2 (preclExact ep0 ep1).2.2 2.24e-16 0.2281 := by
  have a0 : Nb (D (ep0 - 2000)) (ep0 - 2000) 1.21e-13 1000 := hD.nlit h0 (by norm_num)
  have a1 : Nb (D (ep1 - ep0)) (ep1 - ep0) 2.41e-13 2000 := hD.nlit h1 (by norm_num)
  have h0 : Nb (D (D (ep0 - 2000) / 1000)) ((ep0 - 2000) / 1000) 2.5e-16 1 := hD.ndivc (n := 1000) a0 (by norm_num) (by norm_num) (by norm_num)
  have ht : Nb (D (D (ep1 - ep0) / 1000)) ((ep1 - ep0) / 1000) 4.9e-16 2 := hD.ndivc (n := 1000) a1 (by norm_num) (by norm_num) (by norm_num)
  have has : Nb (D 0.484813681109535994e-5) as2r 6e-22 4.8482e-6 := ⟨as2r_round' hD, as2r_digits.2⟩
  unfold preclAngles preclExact
  dsimp only
  generalize D (D (ep0 - 2000) / 1000) = t0' at *
  generalize (ep0 - 2000) / 1000 = t0 at *
  generalize D (D (ep1 - ep0) / 1000) = t' at *
  generalize (ep1 - ep0) / 1000 = t at *
  have tas : Nb _ _ 4.74e-21 9.697e-6 := hD.nmul ht has (by norm_num) (by norm_num)
  have n1 : Nb _ _ 8.41e-20 0.0007 := hD.nlit (x := 0.0007) (by norm_num) (by norm_num)
  have n2 : Nb _ _ 4.45e-19 0.0037 := hD.nlit (x := 0.0037) (by norm_num) (by norm_num)
  have n3 : Nb _ _ 3.44e-19 0.0007 := hD.nmul n1 h0 (by norm_num) (by norm_num)
  have n4 : Nb _ _ 1.32e-18 0.0044 := hD.nadd n2.neg n3 (by norm_num) (by norm_num)
  have n5 : Nb _ _ 7.11e-17 0.5918 := hD.nlit (x := 0.5918) (by norm_num) (by norm_num)
  have n6 : Nb _ _ 2.95e-18 0.0044 := hD.nmul n4 h0 (by norm_num) (by norm_num)
  have n7 : Nb _ _ 1.46e-16 0.5962 := hD.nadd n5.neg n6 (by norm_num) (by norm_num)
  have n8 : Nb _ _ 4.57e-19 0.0038 := hD.nlit (x := 0.0038) (by norm_num) (by norm_num)
  have n9 : Nb _ _ 3.67e-16 0.5962 := hD.nmul n7 h0 (by norm_num) (by norm_num)
  have n10 : Nb _ _ 4.4e-16 0.6 := hD.nadd n8.neg n9 (by norm_num) (by norm_num)
  have n11 : Nb _ _ 1.68e-14 1.39746e2 := hD.nlit (x := 139.7459) (by norm_num) (by norm_num)
  have n12 : Nb _ _ 6.63e-16 0.6 := hD.nmul n10 h0 (by norm_num) (by norm_num)
  have n13 : Nb _ _ 3.44e-14 140.4 := hD.nadd n11 n12 (by norm_num) (by norm_num)
  have n14 : Nb _ _ 2.77e-12 23061 := hD.nlit (x := 23060.9097) (by norm_num) (by norm_num)
  have n15 : Nb _ _ 8.64e-14 140.4 := hD.nmul n13 h0 (by norm_num) (by norm_num)
  have n16 : Nb _ _ 5.65e-12 23210 := hD.nadd n14 n15 (by norm_num) (by norm_num)
  have n17 : Nb _ _ 2.41e-20 0.0002 := hD.nlit (x := 0.0002) (by norm_num) (by norm_num)
  have n18 : Nb _ _ 3.43e-18 0.0285 := hD.nlit (x := 0.0285) (by norm_num) (by norm_num)
  have n19 : Nb _ _ 1.95e-19 0.0004 := hD.nmul n17.neg ht (by norm_num) (by norm_num)
  have n20 : Nb _ _ 7.1e-18 0.0289 := hD.nadd n18.neg n19 (by norm_num) (by norm_num)
  have n21 : Nb _ _ 8.41e-20 0.0007 := hD.nlit (x := 0.0007) (by norm_num) (by norm_num)
  have n22 : Nb _ _ 1.21e-20 0.0001 := hD.nlit (x := 0.0001) (by norm_num) (by norm_num)
  have n23 : Nb _ _ 3.44e-19 0.0007 := hD.nmul n21 h0 (by norm_num) (by norm_num)
  have n24 : Nb _ _ 4.53e-19 0.0008 := hD.nadd n22.neg n23 (by norm_num) (by norm_num)
  have n25 : Nb _ _ 7e-18 0.0583 := hD.nlit (x := 0.0583) (by norm_num) (by norm_num)
  have n26 : Nb _ _ 7.5e-19 0.0008 := hD.nmul n24 h0 (by norm_num) (by norm_num)
  have n27 : Nb _ _ 1.49e-17 0.0591 := hD.nadd n25.neg n26 (by norm_num) (by norm_num)
  have n28 : Nb _ _ 3.53e-17 0.0578 := hD.nmul n20 ht (by norm_num) (by norm_num)
  have n29 : Nb _ _ 6.43e-17 0.1169 := hD.nadd n27 n28 (by norm_num) (by norm_num)
  have n30 : Nb _ _ 6.01e-20 0.0005 := hD.nlit (x := 0.0005) (by norm_num) (by norm_num)
  have n31 : Nb _ _ 7.21e-20 0.0006 := hD.nlit (x := 0.0006) (by norm_num) (by norm_num)
  have n32 : Nb _ _ 2.46e-19 0.0005 := hD.nmul n30 h0 (by norm_num) (by norm_num)
  have n33 : Nb _ _ 4.51e-19 0.0011 := hD.nadd n31 n32 (by norm_num) (by norm_num)
  have n34 : Nb _ _ 1.6e-17 0.1326 := hD.nlit (x := 0.1326) (by norm_num) (by norm_num)
  have n35 : Nb _ _ 8.59e-19 0.0011 := hD.nmul n33 h0 (by norm_num) (by norm_num)
  have n36 : Nb _ _ 3.3e-17 0.1337 := hD.nadd n34.neg n35 (by norm_num) (by norm_num)
  have n37 : Nb _ _ 2.17e-15 1.80183e1 := hD.nlit (x := 18.0183) (by norm_num) (by norm_num)
  have n38 : Nb _ _ 8.25e-17 0.1337 := hD.nmul n36 h0 (by norm_num) (by norm_num)
  have n39 : Nb _ _ 4.44e-15 18.16 := hD.nadd n37 n38 (by norm_num) (by norm_num)
  have n40 : Nb _ _ 2.14e-16 0.2338 := hD.nmul n29 ht (by norm_num) (by norm_num)
  have n41 : Nb _ _ 6.87e-15 18.4 := hD.nadd n39 n40 (by norm_num) (by norm_num)
  have n42 : Nb _ _ 8.41e-20 0.0007 := hD.nlit (x := 0.0007) (by norm_num) (by norm_num)
  have n43 : Nb _ _ 1.69e-19 0.0014 := hD.nlit (x := 0.0014) (by norm_num) (by norm_num)
  have n44 : Nb _ _ 3.44e-19 0.0007 := hD.nmul n42 h0 (by norm_num) (by norm_num)
  have n45 : Nb _ _ 7.66e-19 0.0021 := hD.nadd n43.neg n44 (by norm_num) (by norm_num)
  have n46 : Nb _ _ 4.61e-17 0.384 := hD.nlit (x := 0.3840) (by norm_num) (by norm_num)
  have n47 : Nb _ _ 1.55e-18 0.0021 := hD.nmul n45 h0 (by norm_num) (by norm_num)
  have n48 : Nb _ _ 9.4e-17 0.3861 := hD.nadd n46.neg n47 (by norm_num) (by norm_num)
  have n49 : Nb _ _ 3.03e-17 0.2523 := hD.nlit (x := 0.2523) (by norm_num) (by norm_num)
  have n50 : Nb _ _ 2.37e-16 0.3861 := hD.nmul n48 h0 (by norm_num) (by norm_num)
  have n51 : Nb _ _ 3.44e-16 0.6384 := hD.nadd n49.neg n50 (by norm_num) (by norm_num)
  have n52 : Nb _ _ 3.63e-15 3.02226e1 := hD.nlit (x := 30.2226) (by norm_num) (by norm_num)
  have n53 : Nb _ _ 5.81e-16 0.6384 := hD.nmul n51 h0 (by norm_num) (by norm_num)
  have n54 : Nb _ _ 7.92e-15 30.87 := hD.nadd n52 n53 (by norm_num) (by norm_num)
  have n55 : Nb _ _ 2.72e-14 36.8 := hD.nmul n41 ht (by norm_num) (by norm_num)
  have n56 : Nb _ _ 4.33e-14 67.67 := hD.nadd n54 n55 (by norm_num) (by norm_num)
  have n57 : Nb _ _ 1.36e-13 135.4 := hD.nmul n56 ht (by norm_num) (by norm_num)
  have n58 : Nb _ _ 8.59e-12 23350 := hD.nadd n16 n57 (by norm_num) (by norm_num)
  have zeta : Nb _ _ 2.22e-16 0.2265 := hD.nmul n58 tas (by norm_num) (by norm_num)
  have n59 : Nb _ _ 3.62e-18 0.0301 := hD.nlit (x := 0.0301) (by norm_num) (by norm_num)
  have n60 : Nb _ _ 7.21e-20 0.0006 := hD.nlit (x := 0.0006) (by norm_num) (by norm_num)
  have n61 : Nb _ _ 2.95e-19 0.0006 := hD.nmul n60 h0 (by norm_num) (by norm_num)
  have n62 : Nb _ _ 7.6e-18 0.0307 := hD.nadd n59.neg n61 (by norm_num) (by norm_num)
  have n63 : Nb _ _ 1.21e-20 0.0001 := hD.nlit (x := 0.0001) (by norm_num) (by norm_num)
  have n64 : Nb _ _ 9.73e-20 0.0002 := hD.nmul n63 ht (by norm_num) (by norm_num)
  have n65 : Nb _ _ 1.15e-17 0.0309 := hD.nsub n62 n64 (by norm_num) (by norm_num)
  have n66 : Nb _ _ 3.85e-19 0.0032 := hD.nlit (x := 0.0032) (by norm_num) (by norm_num)
  have n67 : Nb _ _ 1.12e-18 0.0093 := hD.nlit (x := 0.0093) (by norm_num) (by norm_num)
  have n68 : Nb _ _ 1.57e-18 0.0032 := hD.nmul n66 h0 (by norm_num) (by norm_num)
  have n69 : Nb _ _ 4.2e-18 0.0125 := hD.nadd n67.neg n68 (by norm_num) (by norm_num)
  have n70 : Nb _ _ 3.39e-17 0.2821 := hD.nlit (x := 0.2821) (by norm_num) (by norm_num)
  have n71 : Nb _ _ 8.83e-18 0.0125 := hD.nmul n69 h0 (by norm_num) (by norm_num)
  have n72 : Nb _ _ 7.81e-17 0.2946 := hD.nadd n70.neg n71 (by norm_num) (by norm_num)
  have n73 : Nb _ _ 4.56e-17 0.0618 := hD.nmul n65 ht (by norm_num) (by norm_num)
  have n74 : Nb _ _ 1.67e-16 0.3564 := hD.nadd n72 n73 (by norm_num) (by norm_num)
  have n75 : Nb _ _ 5.29e-19 0.0044 := hD.nlit (x := 0.0044) (by norm_num) (by norm_num)
  have n76 : Nb _ _ 2.08e-18 0.0173 := hD.nlit (x := 0.0173) (by norm_num) (by norm_num)
  have n77 : Nb _ _ 2.16e-18 0.0044 := hD.nmul n75 h0 (by norm_num) (by norm_num)
  have n78 : Nb _ _ 6.85e-18 0.0217 := hD.nadd n76.neg n77 (by norm_num) (by norm_num)
  have n79 : Nb _ _ 1.37e-16 1.14 := hD.nlit (x := 1.1400) (by norm_num) (by norm_num)
  have n80 : Nb _ _ 1.49e-17 0.0217 := hD.nmul n78 h0 (by norm_num) (by norm_num)
  have n81 : Nb _ _ 2.92e-16 1.162 := hD.nadd n79.neg n80 (by norm_num) (by norm_num)
  have n82 : Nb _ _ 2.2e-15 1.82667e1 := hD.nlit (x := 18.2667) (by norm_num) (by norm_num)
  have n83 : Nb _ _ 7.22e-16 1.162 := hD.nmul n81 h0 (by norm_num) (by norm_num)
  have n84 : Nb _ _ 5.26e-15 19.43 := hD.nadd n82 n83 (by norm_num) (by norm_num)
  have n85 : Nb _ _ 5.95e-16 0.7128 := hD.nmul n74 ht (by norm_num) (by norm_num)
  have n86 : Nb _ _ 8.28e-15 20.15 := hD.nadd n84 n85 (by norm_num) (by norm_num)
  have n87 : Nb _ _ 3.13e-19 0.0026 := hD.nlit (x := 0.0026) (by norm_num) (by norm_num)
  have n88 : Nb _ _ 1.61e-18 0.0134 := hD.nlit (x := 0.0134) (by norm_num) (by norm_num)
  have n89 : Nb _ _ 1.28e-18 0.0026 := hD.nmul n87 h0 (by norm_num) (by norm_num)
  have n90 : Nb _ _ 4.82e-18 0.016 := hD.nadd n88.neg n89 (by norm_num) (by norm_num)
  have n91 : Nb _ _ 1.67e-16 1.3913e0 := hD.nlit (x := 1.3913) (by norm_num) (by norm_num)
  have n92 : Nb _ _ 1.08e-17 0.016 := hD.nmul n90 h0 (by norm_num) (by norm_num)
  have n93 : Nb _ _ 3.47e-16 1.408 := hD.nadd n91.neg n92 (by norm_num) (by norm_num)
  have n94 : Nb _ _ 2.94e-17 0.2446 := hD.nlit (x := 0.2446) (by norm_num) (by norm_num)
  have n95 : Nb _ _ 8.68e-16 1.408 := hD.nmul n93 h0 (by norm_num) (by norm_num)
  have n96 : Nb _ _ 1.1e-15 1.653 := hD.nadd n94 n95 (by norm_num) (by norm_num)
  have n97 : Nb _ _ 1.32e-14 1.09527e2 := hD.nlit (x := 109.5270) (by norm_num) (by norm_num)
  have n98 : Nb _ _ 1.72e-15 1.653 := hD.nmul n96 h0 (by norm_num) (by norm_num)
  have n99 : Nb _ _ 2.83e-14 111.2 := hD.nadd n97 n98 (by norm_num) (by norm_num)
  have n100 : Nb _ _ 3.13e-14 40.3 := hD.nmul n86 ht (by norm_num) (by norm_num)
  have n101 : Nb _ _ 7.78e-14 151.5 := hD.nadd n99 n100 (by norm_num) (by norm_num)
  have n102 : Nb _ _ 2.67e-13 303 := hD.nmul n101 ht (by norm_num) (by norm_num)
  have n103 : Nb _ _ 8.74e-12 23520 := hD.nadd n16 n102 (by norm_num) (by norm_num)
  have z : Nb _ _ 2.24e-16 0.2281 := hD.nmul n103 tas (by norm_num) (by norm_num)
  have n104 : Nb _ _ 1.53e-18 0.0127 := hD.nlit (x := 0.0127) (by norm_num) (by norm_num)
  have n105 : Nb _ _ 1.33e-19 0.0011 := hD.nlit (x := 0.0011) (by norm_num) (by norm_num)
  have n106 : Nb _ _ 5.41e-19 0.0011 := hD.nmul n105 h0 (by norm_num) (by norm_num)
  have n107 : Nb _ _ 3.73e-18 0.0138 := hD.nadd n104.neg n106 (by norm_num) (by norm_num)
  have n108 : Nb _ _ 4.81e-20 0.0004 := hD.nlit (x := 0.0004) (by norm_num) (by norm_num)
  have n109 : Nb _ _ 3.89e-19 0.0008 := hD.nmul n108 ht (by norm_num) (by norm_num)
  have n110 : Nb _ _ 5.88e-18 0.0146 := hD.nadd n107 n109 (by norm_num) (by norm_num)
  have n111 : Nb _ _ 1.09e-19 0.0009 := hD.nlit (x := 0.0009) (by norm_num) (by norm_num)
  have n112 : Nb _ _ 2.29e-19 0.0019 := hD.nlit (x := 0.0019) (by norm_num) (by norm_num)
  have n113 : Nb _ _ 4.43e-19 0.0009 := hD.nmul n111 h0 (by norm_num) (by norm_num)
  have n114 : Nb _ _ 1.01e-18 0.0028 := hD.nadd n112 n113 (by norm_num) (by norm_num)
  have n115 : Nb _ _ 8.78e-18 0.0731 := hD.nlit (x := 0.0731) (by norm_num) (by norm_num)
  have n116 : Nb _ _ 2.05e-18 0.0028 := hD.nmul n114 h0 (by norm_num) (by norm_num)
  have n117 : Nb _ _ 2e-17 0.0759 := hD.nadd n115.neg n116 (by norm_num) (by norm_num)
  have n118 : Nb _ _ 2.25e-17 0.0292 := hD.nmul n110 ht (by norm_num) (by norm_num)
  have n119 : Nb _ _ 5.52e-17 0.1051 := hD.nadd n117 n118 (by norm_num) (by norm_num)
  have n120 : Nb _ _ 1.21e-20 0.0001 := hD.nlit (x := 0.0001) (by norm_num) (by norm_num)
  have n121 : Nb _ _ 3.25e-19 0.0027 := hD.nlit (x := 0.0027) (by norm_num) (by norm_num)
  have n122 : Nb _ _ 4.92e-20 0.0001 := hD.nmul n120.neg h0 (by norm_num) (by norm_num)
  have n123 : Nb _ _ 7.11e-19 0.0028 := hD.nadd n121 n122 (by norm_num) (by norm_num)
  have n124 : Nb _ _ 4.31e-18 0.0359 := hD.nlit (x := 0.0359) (by norm_num) (by norm_num)
  have n125 : Nb _ _ 1.75e-18 0.0028 := hD.nmul n123 h0 (by norm_num) (by norm_num)
  have n126 : Nb _ _ 1.08e-17 0.0387 := hD.nadd n124 n125 (by norm_num) (by norm_num)
  have n127 : Nb _ _ 5.02e-15 4.18238e1 := hD.nlit (x := 41.8238) (by norm_num) (by norm_num)
  have n128 : Nb _ _ 2.52e-17 0.0387 := hD.nmul n126 h0 (by norm_num) (by norm_num)
  have n129 : Nb _ _ 1.01e-14 41.87 := hD.nadd n127.neg n128 (by norm_num) (by norm_num)
  have n130 : Nb _ _ 1.88e-16 0.2102 := hD.nmul n119 ht (by norm_num) (by norm_num)
  have n131 : Nb _ _ 1.54e-14 42.09 := hD.nadd n129 n130 (by norm_num) (by norm_num)
  have n132 : Nb _ _ 1.45e-19 0.0012 := hD.nlit (x := 0.0012) (by norm_num) (by norm_num)
  have n133 : Nb _ _ 2.05e-19 0.0017 := hD.nlit (x := 0.0017) (by norm_num) (by norm_num)
  have n134 : Nb _ _ 5.9e-19 0.0012 := hD.nmul n132.neg h0 (by norm_num) (by norm_num)
  have n135 : Nb _ _ 1.15e-18 0.0029 := hD.nadd n133 n134 (by norm_num) (by norm_num)
  have n136 : Nb _ _ 6.56e-17 0.5463 := hD.nlit (x := 0.5463) (by norm_num) (by norm_num)
  have n137 : Nb _ _ 2.23e-18 0.0029 := hD.nmul n135 h0 (by norm_num) (by norm_num)
  have n138 : Nb _ _ 1.34e-16 0.5492 := hD.nadd n136 n137 (by norm_num) (by norm_num)
  have n139 : Nb _ _ 2.54e-17 0.2111 := hD.nlit (x := 0.2111) (by norm_num) (by norm_num)
  have n140 : Nb _ _ 3.38e-16 0.5492 := hD.nmul n138 h0 (by norm_num) (by norm_num)
  have n141 : Nb _ _ 4.55e-16 0.7603 := hD.nadd n139.neg n140 (by norm_num) (by norm_num)
  have n142 : Nb _ _ 5.12e-15 4.26566e1 := hD.nlit (x := 42.6566) (by norm_num) (by norm_num)
  have n143 : Nb _ _ 7.37e-16 0.7603 := hD.nmul n141 h0 (by norm_num) (by norm_num)
  have n144 : Nb _ _ 1.11e-14 43.42 := hD.nadd n142.neg n143 (by norm_num) (by norm_num)
  have n145 : Nb _ _ 6.16e-14 84.18 := hD.nmul n131 ht (by norm_num) (by norm_num)
  have n146 : Nb _ _ 8.81e-14 127.6 := hD.nadd n144 n145 (by norm_num) (by norm_num)
  have n147 : Nb _ _ 6.01e-20 0.0005 := hD.nlit (x := 0.0005) (by norm_num) (by norm_num)
  have n148 : Nb _ _ 9.61e-20 0.0008 := hD.nlit (x := 0.0008) (by norm_num) (by norm_num)
  have n149 : Nb _ _ 2.46e-19 0.0005 := hD.nmul n147.neg h0 (by norm_num) (by norm_num)
  have n150 : Nb _ _ 4.99e-19 0.0013 := hD.nadd n148 n149 (by norm_num) (by norm_num)
  have n151 : Nb _ _ 4.38e-17 0.3642 := hD.nlit (x := 0.3642) (by norm_num) (by norm_num)
  have n152 : Nb _ _ 9.81e-19 0.0013 := hD.nmul n150 h0 (by norm_num) (by norm_num)
  have n153 : Nb _ _ 8.87e-17 0.3655 := hD.nadd n151 n152 (by norm_num) (by norm_num)
  have n154 : Nb _ _ 2.54e-17 0.2111 := hD.nlit (x := 0.2111) (by norm_num) (by norm_num)
  have n155 : Nb _ _ 2.24e-16 0.3655 := hD.nmul n153 h0 (by norm_num) (by norm_num)
  have n156 : Nb _ _ 3.19e-16 0.5766 := hD.nadd n154.neg n155 (by norm_num) (by norm_num)
  have n157 : Nb _ _ 1.03e-14 8.53131e1 := hD.nlit (x := 85.3131) (by norm_num) (by norm_num)
  have n158 : Nb _ _ 5.33e-16 0.5766 := hD.nmul n156 h0 (by norm_num) (by norm_num)
  have n159 : Nb _ _ 2.12e-14 85.89 := hD.nadd n157.neg n158 (by norm_num) (by norm_num)
  have n160 : Nb _ _ 2.41e-12 20042.1 := hD.nlit (x := 20042.0207) (by norm_num) (by norm_num)
  have n161 : Nb _ _ 5.3e-14 85.89 := hD.nmul n159 h0 (by norm_num) (by norm_num)
  have n162 : Nb _ _ 4.88e-12 20130 := hD.nadd n160 n161 (by norm_num) (by norm_num)
  have n163 : Nb _ _ 2.7e-13 255.2 := hD.nmul n146 ht (by norm_num) (by norm_num)
  have n164 : Nb _ _ 7.6e-12 20390 := hD.nadd n162 n163 (by norm_num) (by norm_num)
  have theta : Nb _ _ 1.95e-16 0.1978 := hD.nmul n164 tas (by norm_num) (by norm_num)
  exact ⟨zeta, theta, z⟩

/-! ### The series of the clock correction -/

/-- Amplitude times frequency, phase and three, of one row, in units of 1e-21. -/
def iFb (r : FbRow) : ℤ := |r.amp| * (|r.freq| + |r.phase| + 3000000000)
def iAmp (r : FbRow) : ℤ := |r.amp|

private theorem fb_term (hD : Dbl D) (hs : ∀ x, |sn x - Real.sin x| ≤ 2e-16) {t T : ℝ} (ht : Nb t T 2.41e-16 1) (r : FbRow)
    (ha : |r.amp| ≤ 10 ^ 10) (hf : |r.freq| + |r.phase| ≤ 10 ^ 15) :
    Nb (D (D ((r.amp : ℝ) * 1e-12) * sn (D (D (D ((r.freq : ℝ) * 1e-9) * t) + D ((r.phase : ℝ) * 1e-9)))))
      ((r.amp : ℝ) * 1e-12 * Real.sin ((r.freq : ℝ) * 1e-9 * T + (r.phase : ℝ) * 1e-9)) (6.1e-16 * (1e-21 * (iFb r : ℝ)) + 1e-180) (1e-12 * (iAmp r : ℝ)) := by
  have ea : (iAmp r : ℝ) = |(r.amp : ℝ)| := by simp [iAmp]
  have ef : (iFb r : ℝ) = |(r.amp : ℝ)| * (|(r.freq : ℝ)| + |(r.phase : ℝ)| + 3000000000) := by simp [iFb]
  have ha' : |(r.amp : ℝ)| ≤ 10 ^ 10 := by exact_mod_cast ha
  have hf' : |(r.freq : ℝ)| + |(r.phase : ℝ)| ≤ 10 ^ 15 := by exact_mod_cast hf
  rw [ea, ef]
  have b1 : |(r.amp : ℝ) * 1e-12| = 1e-12 * |(r.amp : ℝ)| := by rw [abs_mul, mul_comm]; norm_num [abs_of_pos]
  have b2 : |(r.freq : ℝ) * 1e-9| = 1e-9 * |(r.freq : ℝ)| := by rw [abs_mul, mul_comm]; norm_num [abs_of_pos]
  have b3 : |(r.phase : ℝ) * 1e-9| = 1e-9 * |(r.phase : ℝ)| := by rw [abs_mul, mul_comm]; norm_num [abs_of_pos]
  have p1 := abs_nonneg (r.amp : ℝ)
  have p2 := abs_nonneg (r.freq : ℝ)
  have p3 := abs_nonneg (r.phase : ℝ)
  generalize (r.amp : ℝ) * 1e-12 = a at *
  generalize (r.freq : ℝ) * 1e-9 = f at *
  generalize (r.phase : ℝ) * 1e-9 = p at *
  generalize |(r.amp : ℝ)| = a' at *
  generalize |(r.freq : ℝ)| = f' at *
  generalize |(r.phase : ℝ)| = p' at *
  have n1 : Nb (D a) a (1.2e-28 * a' + 1e-200) (1e-12 * a') := hD.nlit b1.le (by linarith)
  have n2 : Nb (D f) f (1.2e-25 * f' + 1e-200) (1e-9 * f') := hD.nlit b2.le (by linarith)
  have n3 : Nb (D p) p (1.2e-25 * p' + 1e-200) (1e-9 * p') := hD.nlit b3.le (by linarith)
  have n4 : Nb (D (D f * t)) (f * T) (4.82e-25 * f' + 1e-195) (1e-9 * f') := by
    refine hD.nmul n2 ht (by linarith) ?_
    linarith
  have n5 : Nb (D (D (D f * t) + D p)) (f * T + p) (6.03e-25 * (f' + p') + 1e-190) (1e-9 * (f' + p')) := by
    refine hD.nadd n4 n3 (by linarith) ?_
    linarith
  have n6 : Nb (sn (D (D (D f * t) + D p))) (Real.sin (f * T + p)) (6.03e-25 * (f' + p') + 2.01e-16) 1 :=
    Nb.sin hs n5 (by linarith)
  refine hD.nmul n1 n6 (by linarith) ?_
  have q1 : 0 ≤ a' * (f' + p') := by positivity
  have q2 : a' * (f' + p') ≤ 10 ^ 15 * a' := by nlinarith
  norm_num at *
  linarith

private theorem rows_ok : ∀ r ∈ fbCoeffs, |r.amp| ≤ 10 ^ 10 ∧ |r.freq| + |r.phase| ≤ 10 ^ 15 := by
  decide +kernel

private theorem fb_loop (hD : Dbl D) (hs : ∀ x, |sn x - Real.sin x| ≤ 2e-16) {t T : ℝ} (ht : Nb t T 2.41e-16 1) (hi lo n : ℕ) {p q : ℤ} {B g : ℝ}
    (hl : ((fbCoeffs.take (hi + 1)).drop lo).reverse.length = n) (hp : ((((fbCoeffs.take (hi + 1)).drop lo).reverse).map iFb).sum = p)
    (hq : ((((fbCoeffs.take (hi + 1)).drop lo).reverse).map iAmp).sum = q) (hB : 1e-12 * (q : ℝ) ≤ B) (hB1 : 1e-20 ≤ B)
    (h1 : 6.1e-37 * (p : ℝ) + n * (1.3e-16 * B) ≤ g) (h2 : g ≤ 0.01 * B) :
    Nb (fbLoop D sn t hi lo) (Sla.fbLoop T hi lo) g B := by
  unfold fbLoop Sla.fbLoop
  have hm : ∀ r ∈ ((fbCoeffs.take (hi + 1)).drop lo).reverse, |r.amp| ≤ 10 ^ 10 ∧ |r.freq| + |r.phase| ≤ 10 ^ 15 := fun r hr =>
    rows_ok r (List.mem_of_mem_take (List.mem_of_mem_drop (List.mem_reverse.1 hr)))
  generalize ((fbCoeffs.take (hi + 1)).drop lo).reverse = l at *
  have h := fold_nb (K := FbRow) (er := iFb) (bd := iAmp) (α := 6.1e-37) (β := 1e-12) (ρ := 1.3e-16 * B) (B := B) (by norm_num) (by norm_num)
    (by positivity) (fun r => by unfold iFb; positivity) (fun r => by unfold iAmp; positivity) l (f' := fbStep D sn t) (f := Sla.fbStep T)
    (fun r hr s s' e b h3 h4 h5 => by
      obtain ⟨k1, k2⟩ := hm r hr
      have hF : (0 : ℝ) ≤ iFb r := by exact_mod_cast (show 0 ≤ iFb r by unfold iFb; positivity)
      have hFB : 6.1e-37 * (iFb r : ℝ) ≤ 0.01 * B := by
        have m1 : (iFb r : ℤ) ≤ p := by
          rw [← hp]
          exact List.single_le_sum (by simp; intro a _; unfold iFb; positivity) _ (List.mem_map_of_mem hr)
        have m2 : (iFb r : ℝ) ≤ p := by exact_mod_cast m1
        have m3 : (0 : ℝ) ≤ n * (1.3e-16 * B) := by positivity
        nlinarith
      refine hD.nadd h3 (fb_term hD hs ht r k1 k2) le_rfl ?_
      have e0 : 0 ≤ e := (abs_nonneg _).trans h3.err
      linarith)
    0 0 0 0 (Nb.self (by simp)) (by rw [hq]; linarith) (by rw [hp, hl]; linarith)
  rw [hp, hq, hl] at h
  exact h.mono (by linarith) (by linarith)

private theorem loop0_sums : ((fbCoeffs.take (473 + 1)).drop 0).reverse.length = 474 ∧
    ((((fbCoeffs.take (473 + 1)).drop 0).reverse).map iFb).sum = 10959235173287249195781 ∧
    ((((fbCoeffs.take (473 + 1)).drop 0).reverse).map iAmp).sum = 1720159852 := by
  decide +kernel

private theorem loop0 (hD : Dbl D) (hs : ∀ x, |sn x - Real.sin x| ≤ 2e-16) {t T : ℝ} (ht : Nb t T 2.41e-16 1) :
    Nb (fbLoop D sn t 473 0) (Sla.fbLoop T 473 0) 6.8e-15 1.7202e-3 :=
  fb_loop hD hs ht 473 0 474 loop0_sums.1 loop0_sums.2.1 loop0_sums.2.2 (by norm_num) (by norm_num) (by norm_num) (by norm_num)

private theorem loop1_sums : ((fbCoeffs.take (678 + 1)).drop 474).reverse.length = 205 ∧
    ((((fbCoeffs.take (678 + 1)).drop 474).reverse).map iFb).sum = 667591561275735292637 ∧
    ((((fbCoeffs.take (678 + 1)).drop 474).reverse).map iAmp).sum = 105387506 := by
  decide +kernel

private theorem loop1 (hD : Dbl D) (hs : ∀ x, |sn x - Real.sin x| ≤ 2e-16) {t T : ℝ} (ht : Nb t T 2.41e-16 1) :
    Nb (fbLoop D sn t 678 474) (Sla.fbLoop T 678 474) 4.11e-16 1.0539e-4 :=
  fb_loop hD hs ht 678 474 205 loop1_sums.1 loop1_sums.2.1 loop1_sums.2.2 (by norm_num) (by norm_num) (by norm_num) (by norm_num)

private theorem loop2_sums : ((fbCoeffs.take (763 + 1)).drop 679).reverse.length = 85 ∧
    ((((fbCoeffs.take (763 + 1)).drop 679).reverse).map iFb).sum = 29540867824112606787 ∧
    ((((fbCoeffs.take (763 + 1)).drop 679).reverse).map iAmp).sum = 5000461 := by
  decide +kernel

private theorem loop2 (hD : Dbl D) (hs : ∀ x, |sn x - Real.sin x| ≤ 2e-16) {t T : ℝ} (ht : Nb t T 2.41e-16 1) :
    Nb (fbLoop D sn t 763 679) (Sla.fbLoop T 763 679) 1.81e-17 5.0005e-6 :=
  fb_loop hD hs ht 763 679 85 loop2_sums.1 loop2_sums.2.1 loop2_sums.2.2 (by norm_num) (by norm_num) (by norm_num) (by norm_num)

private theorem loop3_sums : ((fbCoeffs.take (783 + 1)).drop 764).reverse.length = 20 ∧
    ((((fbCoeffs.take (783 + 1)).drop 764).reverse).map iFb).sum = 1005050121527552315 ∧
    ((((fbCoeffs.take (783 + 1)).drop 764).reverse).map iAmp).sum = 157937 := by
  decide +kernel

private theorem loop3 (hD : Dbl D) (hs : ∀ x, |sn x - Real.sin x| ≤ 2e-16) {t T : ℝ} (ht : Nb t T 2.41e-16 1) :
    Nb (fbLoop D sn t 783 764) (Sla.fbLoop T 783 764) 6.14e-19 1.5794e-7 :=
  fb_loop hD hs ht 783 764 20 loop3_sums.1 loop3_sums.2.1 loop3_sums.2.2 (by norm_num) (by norm_num) (by norm_num) (by norm_num)

private theorem loop4_sums : ((fbCoeffs.take (786 + 1)).drop 784).reverse.length = 3 ∧
    ((((fbCoeffs.take (786 + 1)).drop 784).reverse).map iFb).sum = 27915971577719774 ∧
    ((((fbCoeffs.take (786 + 1)).drop 784).reverse).map iAmp).sum = 4338 := by
  decide +kernel

private theorem loop4 (hD : Dbl D) (hs : ∀ x, |sn x - Real.sin x| ≤ 2e-16) {t T : ℝ} (ht : Nb t T 2.41e-16 1) :
    Nb (fbLoop D sn t 786 784) (Sla.fbLoop T 786 784) 1.71e-20 4.338e-9 :=
  fb_loop hD hs ht 786 784 3 loop4_sums.1 loop4_sums.2.1 loop4_sums.2.2 (by norm_num) (by norm_num) (by norm_num) (by norm_num)

private theorem deg_nb (hD : Dbl D) : Nb (D 0.0174532925199432957692369) (pi / 180) 2.2e-18 0.0174533 := by
  have p1 := Real.pi_gt_d20
  have p2 := Real.pi_lt_d20
  have b : |pi / 180| ≤ 0.0174533 := by rw [abs_of_pos (by positivity)]; norm_num at *; linarith
  refine ⟨hD.round (e := 1e-20) ?_ b (by norm_num), b⟩
  rw [abs_le]; constructor <;> norm_num at * <;> linarith

/-- An angle in degrees, reduced to one turn and converted. -/
private theorem arg_na (hD : Dbl D) {a x e B g : ℝ} (h : Nb a x e B) (hg : 0.0174533 * e + 1.6e-15 ≤ g) :
    Na (D (cfmod a 360 * D 0.0174532925199432957692369)) (cfmod x 360 * (pi / 180)) g 6.2832 := by
  have hc := deg_nb hD
  have hm := (abs_cfmod a 360 (by norm_num)).2
  have h1 : Nb (D (cfmod a 360 * D 0.0174532925199432957692369)) (cfmod a 360 * (pi / 180)) 1.6e-15 6.283199 :=
    hD.nmul (Nb.self hm.le) hc (by norm_num) (by norm_num)
  refine ⟨⟨ctrunc (x / 360) - ctrunc (a / 360), ?_⟩, ?_⟩
  · have e1 : D (cfmod a 360 * D 0.0174532925199432957692369) - (cfmod x 360 * (pi / 180) + ((ctrunc (x / 360) - ctrunc (a / 360) : ℤ) : ℝ) * (2 * pi)) =
        (D (cfmod a 360 * D 0.0174532925199432957692369) - cfmod a 360 * (pi / 180)) + (a - x) * (pi / 180) := by
      unfold cfmod; push_cast; ring
    rw [e1]
    have h2 := abs_add_le (D (cfmod a 360 * D 0.0174532925199432957692369) - cfmod a 360 * (pi / 180)) ((a - x) * (pi / 180))
    have h3 : |(a - x) * (pi / 180)| ≤ e * 0.0174533 := by
      rw [abs_mul]; exact mul_le_mul h.err hc.bd (abs_nonneg _) ((abs_nonneg _).trans h.err)
    linarith [h1.err]
  · have := (Na.of_nb h1 (A := 6.2832) (by norm_num)).bd
    exact this

private theorem two_na {a x e A : ℝ} (h : Na a x e A) : Na (2 * a) (2 * x) (2 * e) (2 * A) := by
  rw [two_mul, two_mul, two_mul, two_mul]; exact h.add h

/-- The topocentric terms, for distances up to 10000 km. -/
theorem rccTopo_near (hD : Dbl D) (hs : ∀ x, |sn x - Real.sin x| ≤ 2e-16) (hc : ∀ x, |cs x - Real.cos x| ≤ 2e-16) {t T : ℝ} (ht : Nb t T 2.41e-16 1)
    {cl cda cdp : ℝ} (ut1 : ℝ) (b1 : |cl| ≤ 10) (b2 : |cda| ≤ 1e4) (b3 : |cdp| ≤ 1e4) :
    Nb (rccTopo D sn cs t ut1 cl cda cdp) (Sla.rccTopo T ut1 cl cda cdp) 7.93e-18 4.715e-6 := by
  have hcl : Nb cl cl 0 10 := Nb.self b1
  have hcda : Nb cda cda 0 1e4 := Nb.self b2
  have hcdp : Nb cdp cdp 0 1e4 := Nb.self b3
  have hfr : Nb (cfmod ut1 1) (cfmod ut1 1) 0 1 := Nb.self (abs_cfmod ut1 1 (by norm_num)).2.le
  have htp : Nb (D 6.283185307179586476925287) (2 * pi) 8e-16 6.283186 := by
    have p1 := Real.pi_gt_d20
    have p2 := Real.pi_lt_d20
    have b : |2 * pi| ≤ 6.283186 := by rw [abs_of_pos (by positivity)]; norm_num at *; linarith
    refine ⟨hD.round (e := 1e-19) ?_ b (by norm_num), b⟩
    rw [abs_le]; constructor <;> norm_num at * <;> linarith
  unfold rccTopo Sla.rccTopo rccArg Sla.rccArg
  dsimp only
  have w : Nb _ _ 1.01e-19 2.778e-4 := hD.ndivc (n := 3600) ht (by norm_num) (by norm_num) (by norm_num)
  have n1 : Nb _ _ 3.37e-14 2.80467e2 := hD.nlit (x := 280.46645683) (by norm_num) (by norm_num)
  have n2 : Nb _ _ 1.56e-7 1296030000 := hD.nlit (x := 1296027711.03429) (by norm_num) (by norm_num)
  have n3 : Nb _ _ 2.18e-10 360100 := hD.nmul n2 w (by norm_num) (by norm_num)
  have n4 : Nb _ _ 2.62e-10 360400 := hD.nadd n1 n3 (by norm_num) (by norm_num)
  have ml : Na _ _ 4.58e-12 6.2832e0 := arg_na hD n4 (by norm_num)
  have n5 : Nb _ _ 4.3e-14 357.53 := hD.nlit (x := 357.52910918) (by norm_num) (by norm_num)
  have n6 : Nb _ _ 1.56e-7 1295970000 := hD.nlit (x := 1295965810.481) (by norm_num) (by norm_num)
  have n7 : Nb _ _ 2.18e-10 360100 := hD.nmul n6 w (by norm_num) (by norm_num)
  have n8 : Nb _ _ 2.62e-10 360500 := hD.nadd n5 n7 (by norm_num) (by norm_num)
  have ma : Na _ _ 4.58e-12 6.2832e0 := arg_na hD n8 (by norm_num)
  have n9 : Nb _ _ 3.58e-14 2.97851e2 := hD.nlit (x := 297.85019547) (by norm_num) (by norm_num)
  have n10 : Nb _ _ 1.93e-6 16029700000 := hD.nlit (x := 16029616012.09) (by norm_num) (by norm_num)
  have n11 : Nb _ _ 2.69e-9 4454000 := hD.nmul n10 w (by norm_num) (by norm_num)
  have n12 : Nb _ _ 3.23e-9 4455000 := hD.nadd n9 n11 (by norm_num) (by norm_num)
  have me : Na _ _ 5.64e-11 6.2832e0 := arg_na hD n12 (by norm_num)
  have n13 : Nb _ _ 4.13e-15 3.43516e1 := hD.nlit (x := 34.35151874) (by norm_num) (by norm_num)
  have n14 : Nb _ _ 1.32e-8 109307000 := hD.nlit (x := 109306899.89453) (by norm_num) (by norm_num)
  have n15 : Nb _ _ 1.84e-11 30370 := hD.nmul n14 w (by norm_num) (by norm_num)
  have n16 : Nb _ _ 2.21e-11 30410 := hD.nadd n13 n15 (by norm_num) (by norm_num)
  have ju : Na _ _ 3.88e-13 6.2832e0 := arg_na hD n16 (by norm_num)
  have n17 : Nb _ _ 6.01e-15 5.00775e1 := hD.nlit (x := 50.0774443) (by norm_num) (by norm_num)
  have n18 : Nb _ _ 5.29e-9 44046400 := hD.nlit (x := 44046398.47038) (by norm_num) (by norm_num)
  have n19 : Nb _ _ 7.39e-12 12240 := hD.nmul n18 w (by norm_num) (by norm_num)
  have n20 : Nb _ _ 8.88e-12 12300 := hD.nadd n17 n19 (by norm_num) (by norm_num)
  have sa : Na _ _ 1.57e-13 6.2832e0 := arg_na hD n20 (by norm_num)
  have n21 : Nb _ _ 1.56e-15 6.284 := hD.nmul hfr htp (by norm_num) (by norm_num)
  have n22 : Nb _ _ 3.52e-15 16.29 := hD.nsub n21 hcl (by norm_num) (by norm_num)
  have ts := (Na.of_nb (A := 16.291) n22 (by norm_num))
  have ma2 : Na _ _ 9.17e-12 12.567 := (two_na ma).dbl hD (by norm_num) (by norm_num)
  have ml2 : Na _ _ 9.17e-12 12.567 := (two_na ml).dbl hD (by norm_num) (by norm_num)
  have n23 : Na _ _ 4.59e-12 22.575 := (ts.add ml).dbl hD (by norm_num) (by norm_num)
  have n24 : Na _ _ 4.76e-12 28.859 := (n23.sub sa).dbl hD (by norm_num) (by norm_num)
  have n25 : Nb _ _ 3.49e-30 2.9e-14 := hD.nlit (x := 0.00029e-10) (by norm_num) (by norm_num)
  have n26 : Nb _ _ 6.98e-26 2.9e-10 := hD.nmul n25 hcda (by norm_num) (by norm_num)
  have n27 : Nb _ _ 4.77e-12 1 := n24.sin hs (by norm_num)
  have n28 : Nb _ _ 1.39e-21 2.9e-10 := hD.nmul n26 n27 (by norm_num) (by norm_num)
  have n29 : Na _ _ 9.18e-12 28.859 := (ts.sub ma2).dbl hD (by norm_num) (by norm_num)
  have n30 : Nb _ _ 1.21e-29 1e-13 := hD.nlit (x := 0.00100e-10) (by norm_num) (by norm_num)
  have n31 : Nb _ _ 2.42e-25 1e-9 := hD.nmul n30 hcda (by norm_num) (by norm_num)
  have n32 : Nb _ _ 9.19e-12 1 := n29.sin hs (by norm_num)
  have n33 : Nb _ _ 9.2e-21 1e-9 := hD.nmul n31 n32 (by norm_num) (by norm_num)
  have n34 : Nb _ _ 1.06e-20 1.29e-9 := hD.nadd n28 n33 (by norm_num) (by norm_num)
  have n35 : Na _ _ 5.65e-11 22.575 := (ts.sub me).dbl hD (by norm_num) (by norm_num)
  have n36 : Nb _ _ 1.6e-29 1.33e-13 := hD.nlit (x := 0.00133e-10) (by norm_num) (by norm_num)
  have n37 : Nb _ _ 3.2e-25 1.33e-9 := hD.nmul n36 hcda (by norm_num) (by norm_num)
  have n38 : Nb _ _ 5.66e-11 1 := n35.sin hs (by norm_num)
  have n39 : Nb _ _ 7.53e-20 1.33e-9 := hD.nmul n37 n38 (by norm_num) (by norm_num)
  have n40 : Nb _ _ 8.6e-20 2.62e-9 := hD.nadd n34 n39 (by norm_num) (by norm_num)
  have n41 : Na _ _ 4.59e-12 22.575 := (ts.add ml).dbl hD (by norm_num) (by norm_num)
  have n42 : Na _ _ 4.99e-12 28.859 := (n41.sub ju).dbl hD (by norm_num) (by norm_num)
  have n43 : Nb _ _ 1.6e-29 1.33e-13 := hD.nlit (x := 0.00133e-10) (by norm_num) (by norm_num)
  have n44 : Nb _ _ 3.2e-25 1.33e-9 := hD.nmul n43 hcda (by norm_num) (by norm_num)
  have n45 : Nb _ _ 5e-12 1 := n42.sin hs (by norm_num)
  have n46 : Nb _ _ 6.66e-21 1.33e-9 := hD.nmul n44 n45 (by norm_num) (by norm_num)
  have n47 : Nb _ _ 9.27e-20 3.95e-9 := hD.nadd n40 n46 (by norm_num) (by norm_num)
  have n48 : Na _ _ 9.18e-12 28.859 := (ts.add ml2).dbl hD (by norm_num) (by norm_num)
  have n49 : Na _ _ 1.38e-11 35.143 := (n48.add ma).dbl hD (by norm_num) (by norm_num)
  have n50 : Nb _ _ 2.75e-29 2.29e-13 := hD.nlit (x := 0.00229e-10) (by norm_num) (by norm_num)
  have n51 : Nb _ _ 5.5e-25 2.29e-9 := hD.nmul n50 hcda (by norm_num) (by norm_num)
  have n52 : Nb _ _ 1.39e-11 1 := n49.sin hs (by norm_num)
  have n53 : Nb _ _ 3.19e-20 2.29e-9 := hD.nmul n51 n52 (by norm_num) (by norm_num)
  have n54 : Nb _ _ 1.25e-19 6.24e-9 := hD.nsub n47 n53 (by norm_num) (by norm_num)
  have n55 : Na _ _ 9.17e-12 12.567 := (ml.add ma).dbl hD (by norm_num) (by norm_num)
  have n56 : Nb _ _ 2.65e-28 2.2e-12 := hD.nlit (x := 0.02200e-10) (by norm_num) (by norm_num)
  have n57 : Nb _ _ 5.3e-24 2.2e-8 := hD.nmul n56 hcdp (by norm_num) (by norm_num)
  have n58 : Nb _ _ 9.18e-12 1 := n55.cos hc (by norm_num)
  have n59 : Nb _ _ 2.02e-19 2.2e-8 := hD.nmul n57 n58 (by norm_num) (by norm_num)
  have n60 : Nb _ _ 3.28e-19 2.824e-8 := hD.nsub n54 n59 (by norm_num) (by norm_num)
  have n61 : Na _ _ 4.59e-12 22.575 := (ts.sub ma).dbl hD (by norm_num) (by norm_num)
  have n62 : Nb _ _ 6.38e-28 5.312e-12 := hD.nlit (x := 0.05312e-10) (by norm_num) (by norm_num)
  have n63 : Nb _ _ 1.28e-23 5.312e-8 := hD.nmul n62 hcda (by norm_num) (by norm_num)
  have n64 : Nb _ _ 4.6e-12 1 := n61.sin hs (by norm_num)
  have n65 : Nb _ _ 2.45e-19 5.312e-8 := hD.nmul n63 n64 (by norm_num) (by norm_num)
  have n66 : Nb _ _ 5.74e-19 8.136e-8 := hD.nadd n60 n65 (by norm_num) (by norm_num)
  have n67 : Na _ _ 9.18e-12 28.859 := (ts.add ml2).dbl hD (by norm_num) (by norm_num)
  have n68 : Nb _ _ 1.65e-27 1.3677e-11 := hD.nlit (x := 0.13677e-10) (by norm_num) (by norm_num)
  have n69 : Nb _ _ 3.3e-23 1.368e-7 := hD.nmul n68 hcda (by norm_num) (by norm_num)
  have n70 : Nb _ _ 9.19e-12 1 := n67.sin hs (by norm_num)
  have n71 : Nb _ _ 1.26e-18 1.368e-7 := hD.nmul n69 n70 (by norm_num) (by norm_num)
  have n72 : Nb _ _ 1.84e-18 2.182e-7 := hD.nsub n66 n71 (by norm_num) (by norm_num)
  have n73 : Nb _ _ 1.59e-26 1.3184e-10 := hD.nlit (x := 1.31840e-10) (by norm_num) (by norm_num)
  have n74 : Nb _ _ 3.18e-22 1.319e-6 := hD.nmul n73 hcdp (by norm_num) (by norm_num)
  have n75 : Nb _ _ 4.59e-12 1 := ml.cos hc (by norm_num)
  have n76 : Nb _ _ 6.06e-18 1.319e-6 := hD.nmul n74 n75 (by norm_num) (by norm_num)
  have n77 : Nb _ _ 7.91e-18 1.538e-6 := hD.nsub n72 n76 (by norm_num) (by norm_num)
  have n78 : Nb _ _ 3.82e-26 3.17679e-10 := hD.nlit (x := 3.17679e-10) (by norm_num) (by norm_num)
  have n79 : Nb _ _ 7.64e-22 3.177e-6 := hD.nmul n78 hcda (by norm_num) (by norm_num)
  have n80 : Nb _ _ 3.72e-15 1 := ts.sin hs (by norm_num)
  have n81 : Nb _ _ 1.3e-20 3.177e-6 := hD.nmul n79 n80 (by norm_num) (by norm_num)
  have n82 : Nb _ _ 7.93e-18 4.715e-6 := hD.nadd n77 n81 (by norm_num) (by norm_num)
  exact n82

/-- The clock correction. -/
theorem rcc_nb (hD : Dbl D) (hs : ∀ x, |sn x - Real.sin x| ≤ 2e-16) (hc : ∀ x, |cs x - Real.cos x| ≤ 2e-16) {tdb : ℝ} (h : |tdb - 51544.5| ≤ 365250)
    {cl cda cdp : ℝ} (ut1 : ℝ) (b1 : |cl| ≤ 10) (b2 : |cda| ≤ 1e4) (b3 : |cdp| ≤ 1e4) :
    Nb (rcc D sn cs tdb ut1 cl cda cdp) (Sla.rcc tdb ut1 cl cda cdp) 7.26e-15 1.837e-3 := by
  have a0 : Nb (D (tdb - 51544.5)) (tdb - 51544.5) 4.384e-11 365250 := hD.nlit h (by norm_num)
  have ht : Nb (D (D (tdb - 51544.5) / 365250)) ((tdb - 51544.5) / 365250) 2.41e-16 1 :=
    hD.ndivc (n := 365250) a0 (by norm_num) (by norm_num) (by norm_num)
  unfold rcc Sla.rcc
  dsimp only
  generalize D (D (tdb - 51544.5) / 365250) = t' at *
  generalize (tdb - 51544.5) / 365250 = t at *
  have wt := rccTopo_near hD hs hc ht ut1 b1 b2 b3
  have w0 := loop0 hD hs ht
  have w1 := loop1 hD hs ht
  have w2 := loop2 hD hs ht
  have w3 := loop3 hD hs ht
  have w4 := loop4 hD hs ht
  have n1 : Nb _ _ 1.72e-20 4.338e-9 := hD.nmul ht w4 (by norm_num) (by norm_num)
  have n2 : Nb _ _ 6.32e-19 1.623e-7 := hD.nadd n1 w3 (by norm_num) (by norm_num)
  have n3 : Nb _ _ 6.33e-19 1.623e-7 := hD.nmul ht n2 (by norm_num) (by norm_num)
  have n4 : Nb _ _ 1.88e-17 5.163e-6 := hD.nadd n3 w2 (by norm_num) (by norm_num)
  have n5 : Nb _ _ 1.89e-17 5.163e-6 := hD.nmul ht n4 (by norm_num) (by norm_num)
  have n6 : Nb _ _ 4.3e-16 1.106e-4 := hD.nadd n5 w1 (by norm_num) (by norm_num)
  have n7 : Nb _ _ 4.31e-16 1.106e-4 := hD.nmul ht n6 (by norm_num) (by norm_num)
  have wf : Nb _ _ 7.24e-15 1.831e-3 := hD.nadd n7 w0 (by norm_num) (by norm_num)
  have n8 : Nb _ _ 7.29e-13 6069.78 := hD.nlit (x := 6069.776754) (by norm_num) (by norm_num)
  have n9 : Nb _ _ 2.93e-12 6070 := hD.nmul n8 ht (by norm_num) (by norm_num)
  have n10 : Nb _ _ 4.83e-16 4.0212e0 := hD.nlit (x := 4.021194) (by norm_num) (by norm_num)
  have n11 : Nb _ _ 3.66e-12 6075 := hD.nadd n9 n10 (by norm_num) (by norm_num)
  have n12 : Nb _ _ 3.67e-12 1 := n11.sin hs (by norm_num)
  have n13 : Nb _ _ 7.81e-26 6.5e-10 := hD.nlit (x := 0.00065e-6) (by norm_num) (by norm_num)
  have n14 : Nb _ _ 2.39e-21 6.5e-10 := hD.nmul n13 n12 (by norm_num) (by norm_num)
  have n15 : Nb _ _ 2.56e-14 213.3 := hD.nlit (x := 213.299095) (by norm_num) (by norm_num)
  have n16 : Nb _ _ 1.03e-13 213.3 := hD.nmul n15 ht (by norm_num) (by norm_num)
  have n17 : Nb _ _ 6.66e-16 5.54314e0 := hD.nlit (x := 5.543132) (by norm_num) (by norm_num)
  have n18 : Nb _ _ 1.3e-13 218.9 := hD.nadd n16 n17 (by norm_num) (by norm_num)
  have n19 : Nb _ _ 1.31e-13 1 := n18.sin hs (by norm_num)
  have n20 : Nb _ _ 3.97e-26 3.3e-10 := hD.nlit (x := 0.00033e-6) (by norm_num) (by norm_num)
  have n21 : Nb _ _ 4.34e-23 3.3e-10 := hD.nmul n20 n19 (by norm_num) (by norm_num)
  have n22 : Nb _ _ 2.44e-21 9.8e-10 := hD.nadd n14 n21 (by norm_num) (by norm_num)
  have n23 : Nb _ _ 7.45e-13 6208.3 := hD.nlit (x := 6208.294251) (by norm_num) (by norm_num)
  have n24 : Nb _ _ 2.99e-12 6209 := hD.nmul n23 ht (by norm_num) (by norm_num)
  have n25 : Nb _ _ 6.84e-16 5.69671e0 := hD.nlit (x := 5.696701) (by norm_num) (by norm_num)
  have n26 : Nb _ _ 3.74e-12 6215 := hD.nadd n24 n25 (by norm_num) (by norm_num)
  have n27 : Nb _ _ 3.75e-12 1 := n26.sin hs (by norm_num)
  have n28 : Nb _ _ 2.36e-25 1.96e-9 := hD.nlit (x := 0.00196e-6) (by norm_num) (by norm_num)
  have n29 : Nb _ _ 7.36e-21 1.96e-9 := hD.nmul n28.neg n27 (by norm_num) (by norm_num)
  have n30 : Nb _ _ 9.81e-21 2.94e-9 := hD.nadd n22 n29 (by norm_num) (by norm_num)
  have n31 : Nb _ _ 8.98e-15 7.47816e1 := hD.nlit (x := 74.781599) (by norm_num) (by norm_num)
  have n32 : Nb _ _ 3.6e-14 74.79 := hD.nmul n31 ht (by norm_num) (by norm_num)
  have n33 : Nb _ _ 2.93e-16 2.4359e0 := hD.nlit (x := 2.435900) (by norm_num) (by norm_num)
  have n34 : Nb _ _ 4.56e-14 77.23 := hD.nadd n32 n33 (by norm_num) (by norm_num)
  have n35 : Nb _ _ 4.58e-14 1 := n34.sin hs (by norm_num)
  have n36 : Nb _ _ 2.08e-25 1.73e-9 := hD.nlit (x := 0.00173e-6) (by norm_num) (by norm_num)
  have n37 : Nb _ _ 7.97e-23 1.73e-9 := hD.nmul n36.neg n35 (by norm_num) (by norm_num)
  have n38 : Nb _ _ 9.9e-21 4.67e-9 := hD.nadd n30 n37 (by norm_num) (by norm_num)
  have n39 : Nb _ _ 4.37e-24 3.638e-8 := hD.nlit (x := 0.03638e-6) (by norm_num) (by norm_num)
  have n40 : Nb _ _ 1.76e-23 3.638e-8 := hD.nmul n39 ht (by norm_num) (by norm_num)
  have n41 : Nb _ _ 3.08e-23 3.638e-8 := hD.nmul n40 ht (by norm_num) (by norm_num)
  have n42 : Nb _ _ 9.94e-21 4.105e-8 := hD.nadd n38 n41 (by norm_num) (by norm_num)
  have n43 : Nb _ _ 7.25e-15 1.836e-3 := hD.nadd wt wf (by norm_num) (by norm_num)
  have tot : Nb _ _ 7.26e-15 1.837e-3 := hD.nadd n43 n42 (by norm_num) (by norm_num)
  exact tot

end Sla.Fp
