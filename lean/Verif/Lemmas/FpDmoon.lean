import Verif.Lemmas.FpNear
import Verif.Lemmas.FpMoon
import Verif.Lemmas.FpNut
import Verif.Model.FpDmoon

/-
Error analysis of `dmoon` in double precision: the arguments and the series.
-/
namespace Sla.Fp
open Real (pi)

variable {R : ℝ → ℝ} {sn cs : ℝ → ℝ}

private theorem lit_bd {x A : ℝ} (h1 : -A ≤ x) (h2 : x ≤ A) : |x| ≤ A := abs_le.2 ⟨h1, h2⟩
private theorem add_bd {x y A B C : ℝ} (hx : |x| ≤ A) (hy : |y| ≤ B) (h : A + B ≤ C) : |x + y| ≤ C :=
  (abs_add_le x y).trans ((add_le_add hx hy).trans h)
private theorem mul_bd {x y A B C : ℝ} (hx : |x| ≤ A) (hy : |y| ≤ B) (h : A * B ≤ C) : |x * y| ≤ C := by
  rw [abs_mul]
  exact (mul_le_mul hx hy (abs_nonneg _) ((abs_nonneg _).trans hx)).trans h

/-! ### The arguments -/

theorem dmoonDeg_near (hR : Dbl R) : Nb (dmoonDeg R) d2r 2.2e-18 0.0174533 := by
  have h1 := Real.pi_gt_d20
  have h2 := Real.pi_lt_d20
  have b : |d2r| ≤ 0.0174533 := by
    rw [abs_of_pos (by unfold d2r; positivity)]; unfold d2r; linarith
  refine ⟨hR.round (e := 1e-20) ?_ b (by norm_num), b⟩
  unfold d2r
  exact lit_bd (by linarith) (by linarith)

/-- The time in centuries. -/
theorem dmoonTime_near (hR : Dbl R) {date : ℝ} (h : |date - 15019.5| ≤ 109575) :
    Nb (R (R (date - 15019.5) / 36525)) ((date - 15019.5) / 36525) 7.22e-16 3 := by
  have h0 : Nb (R (date - 15019.5)) (date - 15019.5) 1.32e-11 109575 := hR.nlit h (by norm_num)
  have h1 : Nb _ _ 7.22e-16 3 := hR.ndivc (n := 36525) h0 (by norm_num) (by norm_num) (by norm_num)
  exact h1

/-- The polynomials of the arguments. -/
private theorem poly_near (hR : Dbl R) {t T c0 c1 c2 c3 d0 d1 d2 d3 : ℝ} (ht : Nb t T 7.22e-16 3) (h0 : Nb c0 d0 4.33e-14 360)
    (h1 : Nb c1 d1 5.8e-11 483203) (h2 : Nb c2 d2 1.11e-18 0.0092) (h3 : Nb c3 d3 1.8e-21 0.0000145) :
    |dmoonPoly R c0 c1 c2 c3 t - moonPoly d0 d1 d2 d3 T| ≤ 1.05e-9 := by
  have n1 : Nb _ _ 2.11e-20 4.35e-5 := hR.nmul h3 ht (by norm_num) (by norm_num)
  have n2 : Nb _ _ 2.25e-18 9.244e-3 := hR.nadd h2 n1 (by norm_num) (by norm_num)
  have n3 : Nb _ _ 1.68e-17 2.774e-2 := hR.nmul n2 ht (by norm_num) (by norm_num)
  have n4 : Nb _ _ 1.16e-10 483204 := hR.nadd h1 n3 (by norm_num) (by norm_num)
  have n5 : Nb _ _ 8.71e-10 1449620 := hR.nmul n4 ht (by norm_num) (by norm_num)
  have n6 : Nb _ _ 1.05e-9 1449980 := hR.nadd h0 n5 (by norm_num) (by norm_num)
  exact n6.err

/-- Reduction to within a turn and conversion to radians. -/
private theorem dmoon_reduce (hR : Dbl R) {A X : ℝ} (hA : |A - X| ≤ 1.05e-9) :
    ∃ k : ℤ, Nb (R (dmoonDeg R * cfmod A 360)) (d2r * (X + 360 * k)) 1.84e-11 6.3 := by
  refine ⟨-ctrunc (A / 360), ?_⟩
  have hd := dmoonDeg_near hR
  have hc := (abs_cfmod A 360 (by norm_num)).2.le
  have e1 : X + 360 * ((-ctrunc (A / 360) : ℤ) : ℝ) = cfmod A 360 - (A - X) := by unfold cfmod; push_cast; ring
  rw [e1]
  have b1 : |d2r * (cfmod A 360 - (A - X))| ≤ 6.3 :=
    mul_bd hd.bd ((abs_sub _ _).trans (add_le_add hc hA)) (by norm_num)
  refine ⟨hR.round (e := 0.0174533 * 1.05e-9 + 2.2e-18 * 360) ?_ b1 (by norm_num), b1⟩
  have e2 : dmoonDeg R * cfmod A 360 - d2r * (cfmod A 360 - (A - X)) = d2r * (A - X) + (dmoonDeg R - d2r) * cfmod A 360 := by
    ring
  rw [e2]
  exact add_bd (mul_bd hd.bd hA le_rfl) (mul_bd hd.err hc le_rfl) le_rfl

/-- Arguments close to each other. -/
structure DArgsNear (a b : MoonArgs) (e B eo Bo : ℝ) : Prop where
  elp : Nb a.elp b.elp e B
  em : Nb a.em b.em e B
  emp : Nb a.emp b.emp e B
  d : Nb a.d b.d e B
  f : Nb a.f b.f e B
  om : Nb a.om b.om eo Bo

/-- The arguments at time `T`, each with a whole number of turns added. -/
noncomputable def dmoonTurned (T : ℝ) (k : Fin 6 → ℤ) : MoonArgs where
  elp := d2r * (moonPoly 270.434164 481267.8831 (-0.001133) 0.0000019 T + 360 * k 0)
  em := d2r * (moonPoly 358.475833 35999.0498 (-0.000150) (-0.0000033) T + 360 * k 1)
  emp := d2r * (moonPoly 296.104608 477198.8491 0.009192 0.0000144 T + 360 * k 2)
  d := d2r * (moonPoly 350.737486 445267.1142 (-0.001436) 0.0000019 T + 360 * k 3)
  f := d2r * (moonPoly 11.250889 483202.0251 (-0.003211) (-0.0000003) T + 360 * k 4)
  om := d2r * (moonPoly 259.183275 (-1934.1420) 0.002078 0.0000022 T + 360 * k 5)

theorem dmoonArgs_near (hR : Dbl R) {t T : ℝ} (ht : Nb t T 7.22e-16 3) :
    ∃ k : Fin 6 → ℤ, DArgsNear (dmoonArgs R t) (dmoonTurned T k) 1.84e-11 6.3 1.84e-11 6.3 := by
  have l : ∀ {x B g : ℝ}, |x| ≤ B → 1.2e-16 * B + 1e-200 ≤ g → Nb (R x) x g B := fun h h' => hR.nlit h h'
  have m : ∀ {x B g : ℝ}, |x| ≤ B → 1.2e-16 * B + 1e-200 ≤ g → Nb (-R x) (-x) g B := fun h h' => (hR.nlit h h').neg
  obtain ⟨kelp, help⟩ := dmoon_reduce hR (poly_near hR ht (l (x := 270.434164) (by norm_num) (by norm_num)) (l (x := 481267.8831) (by norm_num) (by norm_num)) (m (x := 0.001133) (by norm_num) (by norm_num)) (l (x := 0.0000019) (by norm_num) (by norm_num)))
  obtain ⟨kem, hem⟩ := dmoon_reduce hR (poly_near hR ht (l (x := 358.475833) (by norm_num) (by norm_num)) (l (x := 35999.0498) (by norm_num) (by norm_num)) (m (x := 0.000150) (by norm_num) (by norm_num)) (m (x := 0.0000033) (by norm_num) (by norm_num)))
  obtain ⟨kemp, hemp⟩ := dmoon_reduce hR (poly_near hR ht (l (x := 296.104608) (by norm_num) (by norm_num)) (l (x := 477198.8491) (by norm_num) (by norm_num)) (l (x := 0.009192) (by norm_num) (by norm_num)) (l (x := 0.0000144) (by norm_num) (by norm_num)))
  obtain ⟨kd, hd⟩ := dmoon_reduce hR (poly_near hR ht (l (x := 350.737486) (by norm_num) (by norm_num)) (l (x := 445267.1142) (by norm_num) (by norm_num)) (m (x := 0.001436) (by norm_num) (by norm_num)) (l (x := 0.0000019) (by norm_num) (by norm_num)))
  obtain ⟨kf, hf⟩ := dmoon_reduce hR (poly_near hR ht (l (x := 11.250889) (by norm_num) (by norm_num)) (l (x := 483202.0251) (by norm_num) (by norm_num)) (m (x := 0.003211) (by norm_num) (by norm_num)) (m (x := 0.0000003) (by norm_num) (by norm_num)))
  obtain ⟨kom, hom⟩ := dmoon_reduce hR (poly_near hR ht (l (x := 259.183275) (by norm_num) (by norm_num)) (m (x := 1934.1420) (by norm_num) (by norm_num)) (l (x := 0.002078) (by norm_num) (by norm_num)) (l (x := 0.0000022) (by norm_num) (by norm_num)))
  refine ⟨![kelp, kem, kemp, kd, kf, kom], ?_⟩
  exact ⟨help, hem, hemp, hd, hf, hom⟩

theorem dmoonRates_near (hR : Dbl R) {t T : ℝ} (ht : Nb t T 7.22e-16 3) :
    DArgsNear (dmoonRates R t) (Sla.dmoonRates T) 4.1e-12 8433.5 1.65e-14 33.76 := by
  have hd := dmoonDeg_near hR
  have n1 : Nb 2 2 0 2 := Nb.self (by norm_num)
  have n2 : Nb 3 3 0 3 := Nb.self (by norm_num)
  have n3 : Nb _ _ 5.78e-11 481268 := hR.nlit (x := 481267.8831) (by norm_num) (by norm_num)
  have n4 : Nb _ _ 1.36e-19 1.133e-3 := hR.nlit (x := 0.001133) (by norm_num) (by norm_num)
  have n5 : Nb _ _ 2.29e-22 1.9e-6 := hR.nlit (x := 0.0000019) (by norm_num) (by norm_num)
  have n6 : Nb _ _ 1.38e-21 5.7e-6 := hR.nmul n2 n5 (by norm_num) (by norm_num)
  have n7 : Nb _ _ 1.04e-20 1.71e-5 := hR.nmul n6 ht (by norm_num) (by norm_num)
  have n8 : Nb _ _ 5.44e-19 2.266e-3 := hR.nmul n1 n4.neg (by norm_num) (by norm_num)
  have n9 : Nb _ _ 8.29e-19 2.284e-3 := hR.nadd n8 n7 (by norm_num) (by norm_num)
  have n10 : Nb _ _ 4.96e-18 6.852e-3 := hR.nmul n9 ht (by norm_num) (by norm_num)
  have n11 : Nb _ _ 1.16e-10 4.8126801e5 := hR.nadd n3 n10 (by norm_num) (by norm_num)
  have relp : Nb _ _ 4.1e-12 8399.72 := hR.nmul hd n11 (by norm_num) (by norm_num)
  have n12 : Nb _ _ 4.32e-12 35999.1 := hR.nlit (x := 35999.0498) (by norm_num) (by norm_num)
  have n13 : Nb _ _ 1.81e-20 1.5e-4 := hR.nlit (x := 0.000150) (by norm_num) (by norm_num)
  have n14 : Nb _ _ 3.97e-22 3.3e-6 := hR.nlit (x := 0.0000033) (by norm_num) (by norm_num)
  have n15 : Nb _ _ 2.38e-21 9.9e-6 := hR.nmul n2 n14.neg (by norm_num) (by norm_num)
  have n16 : Nb _ _ 1.79e-20 2.97e-5 := hR.nmul n15 ht (by norm_num) (by norm_num)
  have n17 : Nb _ _ 7.23e-20 0.0003 := hR.nmul n1 n13.neg (by norm_num) (by norm_num)
  have n18 : Nb _ _ 1.3e-19 3.297e-4 := hR.nadd n17 n16 (by norm_num) (by norm_num)
  have n19 : Nb _ _ 7.47e-19 9.891e-4 := hR.nmul n18 ht (by norm_num) (by norm_num)
  have n20 : Nb _ _ 8.64e-12 3.5999101e4 := hR.nadd n12 n19 (by norm_num) (by norm_num)
  have rem : Nb _ _ 3.06e-13 6.28304e2 := hR.nmul hd n20 (by norm_num) (by norm_num)
  have n21 : Nb _ _ 5.73e-11 477199 := hR.nlit (x := 477198.8491) (by norm_num) (by norm_num)
  have n22 : Nb _ _ 1.11e-18 9.192e-3 := hR.nlit (x := 0.009192) (by norm_num) (by norm_num)
  have n23 : Nb _ _ 1.73e-21 1.44e-5 := hR.nlit (x := 0.0000144) (by norm_num) (by norm_num)
  have n24 : Nb _ _ 1.04e-20 4.32e-5 := hR.nmul n2 n23 (by norm_num) (by norm_num)
  have n25 : Nb _ _ 7.8e-20 1.296e-4 := hR.nmul n24 ht (by norm_num) (by norm_num)
  have n26 : Nb _ _ 4.43e-18 1.839e-2 := hR.nmul n1 n22 (by norm_num) (by norm_num)
  have n27 : Nb _ _ 6.74e-18 1.852e-2 := hR.nadd n26 n25 (by norm_num) (by norm_num)
  have n28 : Nb _ _ 4.03e-17 5.556e-2 := hR.nmul n27 ht (by norm_num) (by norm_num)
  have n29 : Nb _ _ 1.15e-10 4.7719906e5 := hR.nadd n21 n28 (by norm_num) (by norm_num)
  have remp : Nb _ _ 4.06e-12 8328.7 := hR.nmul hd n29 (by norm_num) (by norm_num)
  have n30 : Nb _ _ 5.35e-11 445268 := hR.nlit (x := 445267.1142) (by norm_num) (by norm_num)
  have n31 : Nb _ _ 1.73e-19 1.436e-3 := hR.nlit (x := 0.001436) (by norm_num) (by norm_num)
  have n32 : Nb _ _ 2.29e-22 1.9e-6 := hR.nlit (x := 0.0000019) (by norm_num) (by norm_num)
  have n33 : Nb _ _ 1.38e-21 5.7e-6 := hR.nmul n2 n32 (by norm_num) (by norm_num)
  have n34 : Nb _ _ 1.04e-20 1.71e-5 := hR.nmul n33 ht (by norm_num) (by norm_num)
  have n35 : Nb _ _ 6.91e-19 2.872e-3 := hR.nmul n1 n31.neg (by norm_num) (by norm_num)
  have n36 : Nb _ _ 1.05e-18 2.89e-3 := hR.nadd n35 n34 (by norm_num) (by norm_num)
  have n37 : Nb _ _ 6.28e-18 8.67e-3 := hR.nmul n36 ht (by norm_num) (by norm_num)
  have n38 : Nb _ _ 1.07e-10 4.4526801e5 := hR.nadd n30 n37 (by norm_num) (by norm_num)
  have rd : Nb _ _ 3.78e-12 7771.4 := hR.nmul hd n38 (by norm_num) (by norm_num)
  have n39 : Nb _ _ 5.8e-11 483203 := hR.nlit (x := 483202.0251) (by norm_num) (by norm_num)
  have n40 : Nb _ _ 3.86e-19 3.211e-3 := hR.nlit (x := 0.003211) (by norm_num) (by norm_num)
  have n41 : Nb _ _ 3.61e-23 3e-7 := hR.nlit (x := 0.0000003) (by norm_num) (by norm_num)
  have n42 : Nb _ _ 2.17e-22 9e-7 := hR.nmul n2 n41.neg (by norm_num) (by norm_num)
  have n43 : Nb _ _ 1.63e-21 2.7e-6 := hR.nmul n42 ht (by norm_num) (by norm_num)
  have n44 : Nb _ _ 1.55e-18 6.422e-3 := hR.nmul n1 n40.neg (by norm_num) (by norm_num)
  have n45 : Nb _ _ 2.33e-18 6.425e-3 := hR.nadd n44 n43 (by norm_num) (by norm_num)
  have n46 : Nb _ _ 1.4e-17 1.928e-2 := hR.nmul n45 ht (by norm_num) (by norm_num)
  have n47 : Nb _ _ 1.16e-10 4.8320302e5 := hR.nadd n39 n46 (by norm_num) (by norm_num)
  have rf : Nb _ _ 4.1e-12 8433.49 := hR.nmul hd n47 (by norm_num) (by norm_num)
  have n48 : Nb _ _ 2.33e-13 1934.15 := hR.nlit (x := 1934.1420) (by norm_num) (by norm_num)
  have n49 : Nb _ _ 2.5e-19 2.078e-3 := hR.nlit (x := 0.002078) (by norm_num) (by norm_num)
  have n50 : Nb _ _ 2.65e-22 2.2e-6 := hR.nlit (x := 0.0000022) (by norm_num) (by norm_num)
  have n51 : Nb _ _ 1.59e-21 6.6e-6 := hR.nmul n2 n50 (by norm_num) (by norm_num)
  have n52 : Nb _ _ 1.2e-20 1.98e-5 := hR.nmul n51 ht (by norm_num) (by norm_num)
  have n53 : Nb _ _ 9.99e-19 4.156e-3 := hR.nmul n1 n49 (by norm_num) (by norm_num)
  have n54 : Nb _ _ 1.52e-18 4.176e-3 := hR.nadd n53 n52 (by norm_num) (by norm_num)
  have n55 : Nb _ _ 9.08e-18 1.253e-2 := hR.nmul n54 ht (by norm_num) (by norm_num)
  have n56 : Nb _ _ 4.66e-13 1.9341626e3 := hR.nadd n48.neg n55 (by norm_num) (by norm_num)
  have rom : Nb _ _ 1.65e-14 3.37576e1 := hR.nmul hd n56 (by norm_num) (by norm_num)
  exact ⟨relp.mono (by norm_num) (by norm_num), rem.mono (by norm_num) (by norm_num), remp.mono (by norm_num) (by norm_num), rd.mono (by norm_num) (by norm_num), rf.mono (by norm_num) (by norm_num), rom.mono (by norm_num) (by norm_num)⟩

private theorem waves (hR : Dbl R) (hs : ∀ x, |sn x - Real.sin x| ≤ 2e-16) (hc : ∀ x, |cs x - Real.cos x| ≤ 2e-16) {t T : ℝ}
    (ht : Nb t T 7.22e-16 3) :
    Nb (dmoonWa R sn t) (Sla.dmoonWa T) 1.54e-15 1 ∧ Nb (dmoonDwa R cs t) (Sla.dmoonDwa T) 7.16e-16 0.3526 ∧
    Nb (dmoonWb R sn t) (Sla.dmoonWb T) 4.02e-17 3.964e-3 ∧ Nb (dmoonDwb R cs t) (Sla.dmoonDwb T) 9.9e-17 9.203e-3 := by
  have hd := dmoonDeg_near hR
  have n1 : Nb _ _ 6.15e-15 51.2 := hR.nlit (x := 51.2) (by norm_num) (by norm_num)
  have n2 : Nb _ _ 2.43e-15 20.2 := hR.nlit (x := 20.2) (by norm_num) (by norm_num)
  have n3 : Nb _ _ 2.92e-14 60.6 := hR.nmul n2 ht (by norm_num) (by norm_num)
  have n4 : Nb _ _ 4.88e-14 111.8 := hR.nadd n1 n3 (by norm_num) (by norm_num)
  have n5 : Nb _ _ 1.34e-15 1.952 := hR.nmul hd n4 (by norm_num) (by norm_num)
  have wa : Nb _ _ 1.54e-15 1 := n5.sin hs (by norm_num)
  have n6 : Nb _ _ 2.43e-15 20.2 := hR.nlit (x := 20.2) (by norm_num) (by norm_num)
  have n7 : Nb _ _ 1.3e-16 0.3526 := hR.nmul hd n6 (by norm_num) (by norm_num)
  have n8 : Nb _ _ 1.54e-15 1 := n5.cos hc (by norm_num)
  have dwa : Nb _ _ 7.16e-16 0.3526 := hR.nmul n7 n8 (by norm_num) (by norm_num)
  have n9 : Nb _ _ 4.16e-14 346.56 := hR.nlit (x := 346.560) (by norm_num) (by norm_num)
  have n10 : Nb _ _ 1.6e-14 132.87 := hR.nlit (x := 132.870) (by norm_num) (by norm_num)
  have n11 : Nb _ _ 1.11e-18 9.1731e-3 := hR.nlit (x := 0.0091731) (by norm_num) (by norm_num)
  have n12 : Nb _ _ 1.33e-17 2.752e-2 := hR.nmul n11.neg ht (by norm_num) (by norm_num)
  have n13 : Nb _ _ 3.2e-14 132.9 := hR.nadd n10 n12 (by norm_num) (by norm_num)
  have n14 : Nb _ _ 2.4e-13 398.7 := hR.nmul n13 ht (by norm_num) (by norm_num)
  have n15 : Nb _ _ 3.72e-13 745.3 := hR.nadd n9 n14 (by norm_num) (by norm_num)
  have n16 : Nb _ _ 9.7e-15 13.01 := hR.nmul hd n15 (by norm_num) (by norm_num)
  have n17 : Nb _ _ 4.76e-19 3.964e-3 := hR.nlit (x := 0.003964) (by norm_num) (by norm_num)
  have n18 : Nb _ _ 9.9e-15 1 := n16.sin hs (by norm_num)
  have wb : Nb _ _ 4.02e-17 3.964e-3 := hR.nmul n17 n18 (by norm_num) (by norm_num)
  have n19 : Nb 2 2 0 2 := Nb.self (by norm_num)
  have n20 : Nb _ _ 4.76e-19 3.964e-3 := hR.nlit (x := 0.003964) (by norm_num) (by norm_num)
  have n21 : Nb _ _ 2.54e-20 6.919e-5 := hR.nmul hd n20 (by norm_num) (by norm_num)
  have n22 : Nb _ _ 1.6e-14 132.87 := hR.nlit (x := 132.870) (by norm_num) (by norm_num)
  have n23 : Nb _ _ 1.11e-18 9.1731e-3 := hR.nlit (x := 0.0091731) (by norm_num) (by norm_num)
  have n24 : Nb _ _ 4.43e-18 1.835e-2 := hR.nmul n19 n23.neg (by norm_num) (by norm_num)
  have n25 : Nb _ _ 3.32e-17 5.505e-2 := hR.nmul n24 ht (by norm_num) (by norm_num)
  have n26 : Nb _ _ 3.2e-14 133 := hR.nadd n22 n25 (by norm_num) (by norm_num)
  have n27 : Nb _ _ 6.7e-18 9.203e-3 := hR.nmul n21 n26 (by norm_num) (by norm_num)
  have n28 : Nb _ _ 9.9e-15 1 := n16.cos hc (by norm_num)
  have dwb : Nb _ _ 9.9e-17 9.203e-3 := hR.nmul n27 n28 (by norm_num) (by norm_num)
  exact ⟨wa, dwa, wb, dwb⟩

theorem wom_near (hR : Dbl R) {t T : ℝ} {a b r q : MoonArgs} (ht : Nb t T 7.22e-16 3) (ho : Nb a.om b.om 1.84e-11 6.3)
    (hdo : Nb r.om q.om 1.65e-14 33.76) :
    Nb (dmoonWom R t a.om) (Sla.dmoonWom T b) 1.85e-11 11.23 ∧ Nb (dmoonDwom R r.om) (Sla.dmoonDwom q) 2.06e-14 33.81 := by
  have hd := dmoonDeg_near hR
  have n1 : Nb _ _ 3.31e-14 275.05 := hR.nlit (x := 275.05) (by norm_num) (by norm_num)
  have n2 : Nb _ _ 2.77e-16 2.3 := hR.nlit (x := 2.30) (by norm_num) (by norm_num)
  have n3 : Nb _ _ 3.32e-15 6.9 := hR.nmul n2.neg ht (by norm_num) (by norm_num)
  have n4 : Nb _ _ 7.03e-14 282 := hR.nadd n1 n3 (by norm_num) (by norm_num)
  have n5 : Nb _ _ 2.44e-15 4.922 := hR.nmul hd n4 (by norm_num) (by norm_num)
  have wom : Nb _ _ 1.85e-11 11.23 := hR.nadd ho n5 (by norm_num) (by norm_num)
  have n6 : Nb _ _ 2.77e-16 2.3 := hR.nlit (x := 2.30) (by norm_num) (by norm_num)
  have n7 : Nb _ _ 1.48e-17 4.015e-2 := hR.nmul hd n6.neg (by norm_num) (by norm_num)
  have dwom : Nb _ _ 2.06e-14 33.81 := hR.nadd hdo n7 (by norm_num) (by norm_num)
  exact ⟨wom, dwom⟩

theorem dmoonPeriodic_near (hR : Dbl R) (hs : ∀ x, |sn x - Real.sin x| ≤ 2e-16) (hc : ∀ x, |cs x - Real.cos x| ≤ 2e-16) {t T : ℝ}
    (ht : Nb t T 7.22e-16 3) {a b r q : MoonArgs} (ha : DArgsNear a b 1.84e-11 6.3 1.84e-11 6.3)
    (hr : DArgsNear r q 4.1e-12 8433.5 1.65e-14 33.76) :
    DArgsNear (dmoonPeriodic R sn t a) (Sla.dmoonPeriodic T b) 1.85e-11 6.301 1.84e-11 6.3 := by
  obtain ⟨wa, -, wb, -⟩ := waves hR hs hc ht
  have ho := ha.om
  obtain ⟨wom, -⟩ := wom_near hR ht ho hr.om
  have hd := dmoonDeg_near hR
  have so : Nb _ _ 1.85e-11 1 := ho.sin hs (by norm_num)
  have n1 : Nb _ _ 2.8e-20 2.33e-4 := hR.nlit (x := 0.000233) (by norm_num) (by norm_num)
  have n2 : Nb _ _ 4.15e-19 2.33e-4 := hR.nmul n1 wa (by norm_num) (by norm_num)
  have n3 : Nb _ _ 4.12e-17 4.197e-3 := hR.nadd n2 wb (by norm_num) (by norm_num)
  have n4 : Nb _ _ 2.36e-19 1.964e-3 := hR.nlit (x := 0.001964) (by norm_num) (by norm_num)
  have n5 : Nb _ _ 3.64e-14 1.964e-3 := hR.nmul n4 so (by norm_num) (by norm_num)
  have n6 : Nb _ _ 3.65e-14 6.161e-3 := hR.nadd n3 n5 (by norm_num) (by norm_num)
  have n7 : Nb _ _ 6.38e-16 1.076e-4 := hR.nmul hd n6 (by norm_num) (by norm_num)
  have n8 : Nb _ _ 1.85e-11 6.301 := hR.nadd ha.elp n7 (by norm_num) (by norm_num)
  have n9 : Nb _ _ 2.14e-19 1.778e-3 := hR.nlit (x := 0.001778) (by norm_num) (by norm_num)
  have n10 : Nb _ _ 1.14e-20 3.104e-5 := hR.nmul hd n9.neg (by norm_num) (by norm_num)
  have n11 : Nb _ _ 6.3e-20 3.104e-5 := hR.nmul n10 wa (by norm_num) (by norm_num)
  have n12 : Nb _ _ 1.85e-11 6.301 := hR.nadd ha.em n11 (by norm_num) (by norm_num)
  have n13 : Nb _ _ 9.81e-20 8.17e-4 := hR.nlit (x := 0.000817) (by norm_num) (by norm_num)
  have n14 : Nb _ _ 1.46e-18 8.17e-4 := hR.nmul n13 wa (by norm_num) (by norm_num)
  have n15 : Nb _ _ 4.23e-17 4.781e-3 := hR.nadd n14 wb (by norm_num) (by norm_num)
  have n16 : Nb _ _ 3.05e-19 2.541e-3 := hR.nlit (x := 0.002541) (by norm_num) (by norm_num)
  have n17 : Nb _ _ 4.71e-14 2.541e-3 := hR.nmul n16 so (by norm_num) (by norm_num)
  have n18 : Nb _ _ 4.72e-14 7.322e-3 := hR.nadd n15 n17 (by norm_num) (by norm_num)
  have n19 : Nb _ _ 8.24e-16 1.278e-4 := hR.nmul hd n18 (by norm_num) (by norm_num)
  have n20 : Nb _ _ 1.85e-11 6.301 := hR.nadd ha.emp n19 (by norm_num) (by norm_num)
  have n21 : Nb _ _ 2.42e-19 2.011e-3 := hR.nlit (x := 0.002011) (by norm_num) (by norm_num)
  have n22 : Nb _ _ 3.59e-18 2.011e-3 := hR.nmul n21 wa (by norm_num) (by norm_num)
  have n23 : Nb _ _ 4.46e-17 5.975e-3 := hR.nadd n22 wb (by norm_num) (by norm_num)
  have n24 : Nb _ _ 2.36e-19 1.964e-3 := hR.nlit (x := 0.001964) (by norm_num) (by norm_num)
  have n25 : Nb _ _ 3.64e-14 1.964e-3 := hR.nmul n24 so (by norm_num) (by norm_num)
  have n26 : Nb _ _ 3.65e-14 7.939e-3 := hR.nadd n23 n25 (by norm_num) (by norm_num)
  have n27 : Nb _ _ 6.38e-16 1.386e-4 := hR.nmul hd n26 (by norm_num) (by norm_num)
  have n28 : Nb _ _ 1.85e-11 6.301 := hR.nadd ha.d n27 (by norm_num) (by norm_num)
  have n29 : Nb _ _ 1.86e-11 1 := wom.sin hs (by norm_num)
  have n30 : Nb _ _ 2.97e-18 2.4691e-2 := hR.nlit (x := 0.024691) (by norm_num) (by norm_num)
  have n31 : Nb _ _ 4.57e-13 0.0247 := hR.nmul n30.neg so (by norm_num) (by norm_num)
  have n32 : Nb _ _ 4.58e-13 2.867e-2 := hR.nadd wb n31 (by norm_num) (by norm_num)
  have n33 : Nb _ _ 5.2e-19 4.328e-3 := hR.nlit (x := 0.004328) (by norm_num) (by norm_num)
  have n34 : Nb _ _ 8.06e-14 4.328e-3 := hR.nmul n33.neg n29 (by norm_num) (by norm_num)
  have n35 : Nb _ _ 5.39e-13 0.033 := hR.nadd n32 n34 (by norm_num) (by norm_num)
  have n36 : Nb _ _ 9.41e-15 5.76e-4 := hR.nmul hd n35 (by norm_num) (by norm_num)
  have n37 : Nb _ _ 1.85e-11 6.301 := hR.nadd ha.f n36 (by norm_num) (by norm_num)
  exact ⟨n8.mono (by norm_num) (by norm_num), n12.mono (by norm_num) (by norm_num), n20.mono (by norm_num) (by norm_num), n28.mono (by norm_num) (by norm_num), n37.mono (by norm_num) (by norm_num), ho⟩

theorem dmoonPeriodicRates_near (hR : Dbl R) (hs : ∀ x, |sn x - Real.sin x| ≤ 2e-16) (hc : ∀ x, |cs x - Real.cos x| ≤ 2e-16)
    {t T : ℝ} (ht : Nb t T 7.22e-16 3) {a b r q : MoonArgs} (ha : DArgsNear a b 1.84e-11 6.3 1.84e-11 6.3)
    (hr : DArgsNear r q 4.1e-12 8433.5 1.65e-14 33.76) :
    DArgsNear (dmoonPeriodicRates R cs t a r) (Sla.dmoonPeriodicRates T b q) 5.44e-12 8433.6 1.65e-14 33.76 := by
  obtain ⟨-, dwa, -, dwb⟩ := waves hR hs hc ht
  have ho := ha.om
  have hdo := hr.om
  obtain ⟨wom, dwom⟩ := wom_near hR ht ho hdo
  have hd := dmoonDeg_near hR
  have co : Nb _ _ 1.85e-11 1 := ho.cos hc (by norm_num)
  have n1 : Nb _ _ 6.25e-10 33.76 := hR.nmul hdo co (by norm_num) (by norm_num)
  have n2 : Nb _ _ 2.8e-20 2.33e-4 := hR.nlit (x := 0.000233) (by norm_num) (by norm_num)
  have n3 : Nb _ _ 1.87e-19 8.216e-5 := hR.nmul n2 dwa (by norm_num) (by norm_num)
  have n4 : Nb _ _ 1.01e-16 9.286e-3 := hR.nadd n3 dwb (by norm_num) (by norm_num)
  have n5 : Nb _ _ 2.36e-19 1.964e-3 := hR.nlit (x := 0.001964) (by norm_num) (by norm_num)
  have n6 : Nb _ _ 1.23e-12 6.631e-2 := hR.nmul n5 n1 (by norm_num) (by norm_num)
  have n7 : Nb _ _ 1.24e-12 0.0756 := hR.nadd n4 n6 (by norm_num) (by norm_num)
  have n8 : Nb _ _ 2.17e-14 1.32e-3 := hR.nmul hd n7 (by norm_num) (by norm_num)
  have n9 : Nb _ _ 5.14e-12 8433.51 := hR.nadd hr.elp n8 (by norm_num) (by norm_num)
  have n10 : Nb _ _ 2.14e-19 1.778e-3 := hR.nlit (x := 0.001778) (by norm_num) (by norm_num)
  have n11 : Nb _ _ 1.14e-20 3.104e-5 := hR.nmul hd n10.neg (by norm_num) (by norm_num)
  have n12 : Nb _ _ 2.76e-20 1.095e-5 := hR.nmul n11 dwa (by norm_num) (by norm_num)
  have n13 : Nb _ _ 5.12e-12 8433.51 := hR.nadd hr.em n12 (by norm_num) (by norm_num)
  have n14 : Nb _ _ 9.81e-20 8.17e-4 := hR.nlit (x := 0.000817) (by norm_num) (by norm_num)
  have n15 : Nb _ _ 6.55e-19 2.881e-4 := hR.nmul n14 dwa (by norm_num) (by norm_num)
  have n16 : Nb _ _ 1.01e-16 9.492e-3 := hR.nadd n15 dwb (by norm_num) (by norm_num)
  have n17 : Nb _ _ 3.05e-19 2.541e-3 := hR.nlit (x := 0.002541) (by norm_num) (by norm_num)
  have n18 : Nb _ _ 1.59e-12 8.579e-2 := hR.nmul n17 n1 (by norm_num) (by norm_num)
  have n19 : Nb _ _ 1.6e-12 9.529e-2 := hR.nadd n16 n18 (by norm_num) (by norm_num)
  have n20 : Nb _ _ 2.8e-14 1.664e-3 := hR.nmul hd n19 (by norm_num) (by norm_num)
  have n21 : Nb _ _ 5.15e-12 8433.51 := hR.nadd hr.emp n20 (by norm_num) (by norm_num)
  have n22 : Nb _ _ 2.42e-19 2.011e-3 := hR.nlit (x := 0.002011) (by norm_num) (by norm_num)
  have n23 : Nb _ _ 1.62e-18 7.091e-4 := hR.nmul n22 dwa (by norm_num) (by norm_num)
  have n24 : Nb _ _ 1.02e-16 9.913e-3 := hR.nadd n23 dwb (by norm_num) (by norm_num)
  have n25 : Nb _ _ 2.36e-19 1.964e-3 := hR.nlit (x := 0.001964) (by norm_num) (by norm_num)
  have n26 : Nb _ _ 1.23e-12 6.631e-2 := hR.nmul n25 n1 (by norm_num) (by norm_num)
  have n27 : Nb _ _ 1.24e-12 7.623e-2 := hR.nadd n24 n26 (by norm_num) (by norm_num)
  have n28 : Nb _ _ 2.17e-14 1.331e-3 := hR.nmul hd n27 (by norm_num) (by norm_num)
  have n29 : Nb _ _ 5.14e-12 8433.51 := hR.nadd hr.d n28 (by norm_num) (by norm_num)
  have n30 : Nb _ _ 1.86e-11 1 := wom.cos hc (by norm_num)
  have n31 : Nb _ _ 2.97e-18 2.4691e-2 := hR.nlit (x := 0.024691) (by norm_num) (by norm_num)
  have n32 : Nb _ _ 1.55e-11 0.8336 := hR.nmul n31.neg n1 (by norm_num) (by norm_num)
  have n33 : Nb _ _ 1.56e-11 0.8429 := hR.nadd dwb n32 (by norm_num) (by norm_num)
  have n34 : Nb _ _ 5.2e-19 4.328e-3 := hR.nlit (x := 0.004328) (by norm_num) (by norm_num)
  have n35 : Nb _ _ 1.25e-16 0.1464 := hR.nmul n34.neg dwom (by norm_num) (by norm_num)
  have n36 : Nb _ _ 2.73e-12 0.1464 := hR.nmul n35 n30 (by norm_num) (by norm_num)
  have n37 : Nb _ _ 1.84e-11 0.9893 := hR.nadd n33 n36 (by norm_num) (by norm_num)
  have n38 : Nb _ _ 3.22e-13 1.727e-2 := hR.nmul hd n37 (by norm_num) (by norm_num)
  have n39 : Nb _ _ 5.44e-12 8433.52 := hR.nadd hr.f n38 (by norm_num) (by norm_num)
  exact ⟨n9.mono (by norm_num) (by norm_num), n13.mono (by norm_num) (by norm_num), n21.mono (by norm_num) (by norm_num), n29.mono (by norm_num) (by norm_num), n39.mono (by norm_num) (by norm_num), hdo⟩

private theorem en_near (hR : Dbl R) {t T : ℝ} (ht : Nb t T 7.22e-16 3) (i : ℤ) :
    Nb (dmoonEn R t i) (Sla.dmoonEn T i) 3.76e-16 1.017 ∧ Nb (dmoonDen R t i) (Sla.dmoonDen T i) 3.15e-18 5.123e-3 := by
  have n1 : Nb 1 1 0 1 := Nb.self (by norm_num)
  have n2 : Nb 2 2 0 2 := Nb.self (by norm_num)
  have n3 : Nb _ _ 3e-19 2.495e-3 := hR.nlit (x := 0.002495) (by norm_num) (by norm_num)
  have n4 : Nb _ _ 9.03e-22 7.52e-6 := hR.nlit (x := 0.00000752) (by norm_num) (by norm_num)
  have n5 : Nb _ _ 1.09e-20 2.256e-5 := hR.nmul n4.neg ht (by norm_num) (by norm_num)
  have n6 : Nb _ _ 6.14e-19 2.518e-3 := hR.nadd n3.neg n5 (by norm_num) (by norm_num)
  have n7 : Nb _ _ 4.57e-18 7.554e-3 := hR.nmul n6 ht (by norm_num) (by norm_num)
  have he : Nb _ _ 1.26e-16 1.008 := hR.nadd n1 n7 (by norm_num) (by norm_num)
  have n8 : Nb _ _ 3e-19 2.495e-3 := hR.nlit (x := 0.002495) (by norm_num) (by norm_num)
  have n9 : Nb _ _ 9.03e-22 7.52e-6 := hR.nlit (x := 0.00000752) (by norm_num) (by norm_num)
  have n10 : Nb _ _ 3.62e-21 1.504e-5 := hR.nmul n2 n9.neg (by norm_num) (by norm_num)
  have n11 : Nb _ _ 2.72e-20 4.512e-5 := hR.nmul n10 ht (by norm_num) (by norm_num)
  have hde : Nb _ _ 6.33e-19 2.541e-3 := hR.nadd n8.neg n11 (by norm_num) (by norm_num)
  have hq : Nb _ _ 3.76e-16 1.017 := hR.nmul he he (by norm_num) (by norm_num)
  have n12 : Nb _ _ 4.94e-16 2.016 := hR.nmul n2 he (by norm_num) (by norm_num)
  have hdq : Nb _ _ 3.15e-18 5.123e-3 := hR.nmul n12 hde (by norm_num) (by norm_num)
  unfold dmoonEn Sla.dmoonEn dmoonDen Sla.dmoonDen
  split_ifs
  · exact ⟨n1.mono (by norm_num) (by norm_num), (Nb.self (B := 0) (by simp)).mono (by norm_num) (by norm_num)⟩
  · exact ⟨he.mono (by norm_num) (by norm_num), hde.mono (by norm_num) (by norm_num)⟩
  · exact ⟨hq, hdq⟩
/-! ### The series -/

/-- Sums with errors proportional to the size of the terms. -/
theorem Dbl.wadd (hR : Dbl R) {a b x y wa wb δa δb : ℝ} (ha : |a - x| ≤ δa) (hb : |b - y| ≤ δb)
    (hx : |x| ≤ wa) (hy : |y| ≤ wb) (h1 : δa ≤ 0.001 * wa + 1e-30) (h2 : δb ≤ 0.001 * wb + 1e-30) :
    |R (a + b) - (x + y)| ≤ δa + δb + 1.21e-16 * (wa + wb) + 1e-45 := by
  have n1 := (abs_nonneg _).trans hx
  have n2 := (abs_nonneg _).trans hy
  refine hR.round (e := δa + δb) (B := wa + wb) ?_ (add_bd hx hy le_rfl) (by linarith)
  rw [add_sub_add_comm]
  exact add_bd ha hb le_rfl

theorem Dbl.wmul (hR : Dbl R) {a x wa δa : ℝ} (k : ℤ) (ha : |a - x| ≤ δa) (hx : |x| ≤ wa) (h1 : δa ≤ 0.001 * wa) :
    |R (k * a) - k * x| ≤ |k| * (δa + 1.21e-16 * wa) + 1e-50 ∧ |k * x| ≤ |k| * wa := by
  have h0 : (0 : ℝ) ≤ |(k : ℝ)| := abs_nonneg _
  have h2 : |(k : ℝ) * x| ≤ |(k : ℝ)| * wa := mul_bd le_rfl hx le_rfl
  push_cast
  refine ⟨?_, h2⟩
  have h3 : |(k : ℝ) * a - k * x| ≤ |(k : ℝ)| * δa := by rw [← mul_sub]; exact mul_bd le_rfl ha le_rfl
  refine hR.round h3 h2 ?_
  have := mul_le_mul_of_nonneg_left h1 h0
  have := (abs_nonneg _).trans h2
  linarith

/-- Sum of the sizes of the multiples of a term. -/
def dmoonWeight (k : MoonTerm) : ℤ := |k.m| + |k.mp| + |k.d| + |k.f|

theorem dmoonTheta_near (hR : Dbl R) {a b : MoonArgs} {d w eo Bo : ℝ} (h : DArgsNear a b d w eo Bo) (c : d ≤ 0.0002 * w)
    (k : MoonTerm) :
    Nb (moonTheta R k a) (k.theta b) (dmoonWeight k * (d + 5e-16 * w) + 1e-40) (dmoonWeight k * w) := by
  have w0 := (abs_nonneg _).trans h.em.bd
  obtain ⟨m1, n1⟩ := hR.wmul k.m h.em.err h.em.bd (by linarith)
  obtain ⟨m2, n2⟩ := hR.wmul k.mp h.emp.err h.emp.bd (by linarith)
  obtain ⟨m3, n3⟩ := hR.wmul k.d h.d.err h.d.bd (by linarith)
  obtain ⟨m4, n4⟩ := hR.wmul k.f h.f.err h.f.bd (by linarith)
  have p : ∀ (k : ℤ), (|k| : ℝ) * d ≤ 0.0002 * ((|k| : ℝ) * w) ∧ 0 ≤ (|k| : ℝ) * w :=
    fun k => ⟨by have := mul_le_mul_of_nonneg_left c (abs_nonneg (k : ℝ)); linarith, mul_nonneg (abs_nonneg _) w0⟩
  obtain ⟨p1, q1⟩ := p k.m
  obtain ⟨p2, q2⟩ := p k.mp
  obtain ⟨p3, q3⟩ := p k.d
  obtain ⟨p4, q4⟩ := p k.f
  clear p h
  unfold dmoonWeight
  push_cast at *
  rw [mul_add] at m1 m2 m3 m4
  have r1 := hR.wadd m1 m2 n1 n2 (by linarith) (by linarith)
  have t1 := add_bd n1 n2 le_rfl
  have r2 := hR.wadd r1 m3 t1 n3 (by linarith) (by linarith)
  have t2 := add_bd t1 n3 le_rfl
  have r3 := hR.wadd r2 m4 t2 n4 (by linarith) (by linarith)
  refine ⟨r3.trans (by linarith), (add_bd t2 n4 le_rfl).trans (by linarith)⟩

private theorem c_abs (k : MoonTerm) : |k.c| = 1e-6 * (|k.coeff| : ℤ) := by
  unfold MoonTerm.c; push_cast; rw [abs_div]; norm_num; ring

/-- Condition on the terms of a table. -/
def DTermOk (k : MoonTerm) : Prop := 1 ≤ |k.coeff| ∧ |k.coeff| ≤ 10000000 ∧ dmoonWeight k ≤ 7
instance (k : MoonTerm) : Decidable (DTermOk k) := by unfold DTermOk; infer_instance

/-- Bounds on a term and on its rate, and on their errors. -/
def dTermErr (k : MoonTerm) : ℤ := |k.coeff| * (10000 * dmoonWeight k + 1)
def dRateBd (k : MoonTerm) : ℤ := |k.coeff| * (8577 * dmoonWeight k + 1)
def dRateErr (k : MoonTerm) : ℤ := |k.coeff| * (dmoonWeight k * (10000 * dmoonWeight k + 2) + 1)

/-- One term of a series and of its rate; `s` and `c` stand for the two trigonometric functions. -/
private theorem dterm_near (hR : Dbl R) {t T : ℝ} (ht : Nb t T 7.22e-16 3) {k : MoonTerm} (hk : DTermOk k)
    {s s' c c' θ θ' : ℝ} (hs : Nb s' s (2e-16 + (dmoonWeight k * (1.85e-11 + 5e-16 * 6.301) + 1e-40)) 1)
    (hc : Nb c' c (2e-16 + (dmoonWeight k * (1.85e-11 + 5e-16 * 6.301) + 1e-40)) 1)
    (hθ : Nb θ' θ (dmoonWeight k * (5.44e-12 + 5e-16 * 8433.6) + 1e-40) (dmoonWeight k * 8433.6)) :
    (|R (R (R k.c * s') * dmoonEn R t k.e) - k.c * s * Sla.dmoonEn T k.e| ≤ 1.89e-21 * dTermErr k ∧
      |k.c * s * Sla.dmoonEn T k.e| ≤ 1.017e-6 * (|k.coeff| : ℤ)) ∧
    (|R (R k.c * R (R (R (c' * θ') * dmoonEn R t k.e) + R (s' * dmoonDen R t k.e))) -
        k.c * (c * θ * Sla.dmoonEn T k.e + s * Sla.dmoonDen T k.e)| ≤ 1.6e-17 * dRateErr k ∧
      |k.c * (c * θ * Sla.dmoonEn T k.e + s * Sla.dmoonDen T k.e)| ≤ 1e-6 * dRateBd k) := by
  obtain ⟨en, den⟩ := en_near hR ht k.e
  obtain ⟨k1, k2, k3⟩ := hk
  have hW0 : (0 : ℝ) ≤ dmoonWeight k := by
    have : 0 ≤ dmoonWeight k := by unfold dmoonWeight; positivity
    exact_mod_cast this
  have hW7 : (dmoonWeight k : ℝ) ≤ 7 := by exact_mod_cast k3
  have hC1 : (1 : ℝ) ≤ (|k.coeff| : ℤ) := by exact_mod_cast k1
  have hcb := (c_abs k).le
  unfold dTermErr dRateErr dRateBd
  rw [Int.cast_mul, Int.cast_mul, Int.cast_mul]
  push_cast at *
  generalize dmoonEn R t k.e = en' at *
  generalize dmoonDen R t k.e = den' at *
  generalize Sla.dmoonEn T k.e = EN at *
  generalize Sla.dmoonDen T k.e = DEN at *
  generalize (|(k.coeff : ℝ)|) = C at *
  generalize (dmoonWeight k : ℝ) = W at *
  generalize k.c = kc at *
  obtain ⟨σ, hσ⟩ : ∃ σ, σ = 1.852e-11 * W + 2.1e-16 := ⟨_, rfl⟩
  have hs := hs.mono (g := σ) (C := 1) (by linarith) le_rfl
  have hc := hc.mono (g := σ) (C := 1) (by linarith) le_rfl
  have hθ := hθ.mono (g := 9.8e-12 * W + 1e-40) (C := 8433.6 * W) (by linarith) (by linarith)
  have p1 : 0 ≤ σ := by linarith
  have p2 : 0 ≤ C := by linarith
  have p3 : 0 ≤ W * σ := mul_nonneg hW0 p1
  have p4 : 0 ≤ C * W := mul_nonneg p2 hW0
  have p5 : 0 ≤ C * σ := mul_nonneg p2 p1
  have p6 : 0 ≤ C * (W * σ) := mul_nonneg p2 p3
  have hσ7 : σ ≤ 1.3e-10 := by linarith
  have hk : Nb (R kc) kc (1.21e-22 * C) (1e-6 * C) := hR.nlit hcb (by linarith)
  have a1 : Nb (R (R kc * s')) (kc * s) (1e-6 * (1.0001 * (C * σ) + 2.5e-16 * C)) (1e-6 * C) :=
    hR.nmul hk hs (by linarith) (by linarith)
  have a2 : Nb (R (R (R kc * s') * en')) (kc * s * EN) (1e-6 * (1.0172 * (C * σ) + 8e-16 * C)) (1.017e-6 * C) :=
    hR.nmul a1 en (by linarith) (by linarith)
  have b1 : Nb (R (c' * θ')) (c * θ) (8434 * (W * σ) + 1.1e-11 * W + 2e-40) (8433.6 * W) :=
    hR.nmul hc hθ (by linarith) (by linarith)
  have b2 : Nb (R (R (c' * θ') * en')) (c * θ * EN) (8579 * (W * σ) + 1.56e-11 * W + 3e-40) (8577 * W) :=
    hR.nmul b1 en (by linarith) (by linarith)
  have b3 : Nb (R (s' * den')) (s * DEN) (0.00513 * σ + 4e-18) 0.005123 := hR.nmul hs den (by norm_num) (by linarith)
  have b4 : Nb (R (R (R (c' * θ') * en') + R (s' * den'))) (c * θ * EN + s * DEN)
      (8580 * (W * σ) + 1.67e-11 * W + 0.00514 * σ + 6e-18) (8577 * W + 0.006) := hR.nadd b2 b3 (by linarith) (by linarith)
  have b5 : Nb (R (R kc * R (R (R (c' * θ') * en') + R (s' * den')))) (kc * (c * θ * EN + s * DEN))
      (1e-6 * (8581 * (C * (W * σ)) + 1.9e-11 * (C * W) + 0.00515 * (C * σ) + 1e-17 * C)) (1e-6 * (C * (8577 * W + 1))) :=
    hR.nmul hk b4 (by linarith) (by linarith)
  have e1 : C * σ = 1.852e-11 * (C * W) + 2.1e-16 * C := by rw [hσ]; ring
  have e2 : C * (W * σ) = 1.852e-11 * (C * (W * W)) + 2.1e-16 * (C * W) := by rw [hσ]; ring
  have p7 : 0 ≤ C * (W * W) := mul_nonneg p2 (mul_nonneg hW0 hW0)
  rw [e1] at a2
  rw [e1, e2] at b5
  exact ⟨⟨a2.err.trans (by linarith), a2.bd⟩, ⟨b5.err.trans (by linarith), b5.bd⟩⟩

/-- A running sum. -/
theorem fold_near64 (hR : Dbl R) {u u' : MoonTerm → ℝ} {er bd : MoonTerm → ℤ} {α β B : ℝ} (l : List MoonTerm)
    (h : ∀ k ∈ l, |u' k - u k| ≤ α * er k ∧ |u k| ≤ β * bd k) :
    ∀ (s s' e b : ℝ), |s' - s| ≤ e → |s| ≤ b → b + β * ((l.map bd).sum : ℤ) ≤ B →
      e + α * ((l.map er).sum : ℤ) + l.length * (1.22e-16 * B) ≤ 0.01 * B → 1e-20 ≤ B →
      |l.foldl (fun s k => R (s + u' k)) s' - l.foldl (fun s k => s + u k) s| ≤
        e + α * ((l.map er).sum : ℤ) + l.length * (1.22e-16 * B) ∧
      |l.foldl (fun s k => s + u k) s| ≤ b + β * ((l.map bd).sum : ℤ) := by
  induction l with
  | nil => intro s s' e b h1 h2 _ _ _; simpa using ⟨h1, h2⟩
  | cons k l ih =>
    intro s s' e b h1 h2 h3 h4 h5
    obtain ⟨hk1, hk2⟩ := h k (by simp)
    have hl : ∀ k ∈ l, |u' k - u k| ≤ α * er k ∧ |u k| ≤ β * bd k := fun k hk => h k (by simp [hk])
    have n1 : ∀ l : List MoonTerm, (∀ k ∈ l, |u' k - u k| ≤ α * er k ∧ |u k| ≤ β * bd k) →
        0 ≤ α * ((l.map er).sum : ℤ) ∧ 0 ≤ β * ((l.map bd).sum : ℤ) := by
      intro l; induction l with
      | nil => intro _; simp
      | cons k l ih =>
        intro h
        have h1 := (abs_nonneg _).trans (h k (by simp)).1
        have h1' := (abs_nonneg _).trans (h k (by simp)).2
        obtain ⟨h2, h2'⟩ := ih fun k hk => h k (by simp [hk])
        rw [List.map_cons, List.sum_cons, List.map_cons, List.sum_cons]; push_cast; rw [mul_add, mul_add]; push_cast at h2 h2'
        exact ⟨by linarith, by linarith⟩
    obtain ⟨n1, n2⟩ := n1 l hl
    have n3 : 0 ≤ (l.length : ℝ) * (1.22e-16 * B) := by positivity
    rw [List.map_cons, List.sum_cons, Int.cast_add, mul_add] at h3 h4
    rw [List.map_cons, List.sum_cons, Int.cast_add, mul_add, List.map_cons, List.sum_cons, Int.cast_add, mul_add]
    rw [List.length_cons, Nat.cast_add, Nat.cast_one, add_mul, one_mul] at h4 ⊢
    rw [List.foldl_cons, List.foldl_cons]
    have hb : |s + u k| ≤ b + β * bd k := add_bd h2 hk2 le_rfl
    have he : |R (s' + u' k) - (s + u k)| ≤ e + α * er k + 1.22e-16 * B := by
      refine hR.add h1 hk1 hb ?_
      linarith
    obtain ⟨i1, i2⟩ := ih hl (s + u k) (R (s' + u' k)) (e + α * er k + 1.22e-16 * B) (b + β * bd k) he hb (by linarith)
      (by linarith) h5
    exact ⟨i1.trans (by linarith), i2.trans (by linarith)⟩

private theorem foldl_pair {f g : ℝ → MoonTerm → ℝ} (l : List MoonTerm) (x y : ℝ) :
    l.foldl (fun s k => (f s.1 k, g s.2 k)) (x, y) = (l.foldl f x, l.foldl g y) := by
  induction l generalizing x y with
  | nil => rfl
  | cons k l ih => exact ih _ _

/-- Sums over a table. -/
def dSumBd (l : List MoonTerm) : ℤ := (l.map fun k => |k.coeff|).sum
def dSumErr (l : List MoonTerm) : ℤ := (l.map dTermErr).sum
def dSumBdRate (l : List MoonTerm) : ℤ := (l.map dRateBd).sum
def dSumErrRate (l : List MoonTerm) : ℤ := (l.map dRateErr).sum

/-- The bounds of a series and of its rate in terms of the sums. -/
def DSeriesNear (x y : ℝ × ℝ) (B C : ℝ) (l : List MoonTerm) : Prop :=
    (|x.1 - y.1| ≤ 1.89e-21 * (dSumErr l : ℝ) + l.length * (1.22e-16 * B) ∧ |y.1| ≤ 1.017e-6 * (dSumBd l : ℝ)) ∧
    (|x.2 - y.2| ≤ 1.6e-17 * (dSumErrRate l : ℝ) + l.length * (1.22e-16 * C) ∧ |y.2| ≤ 1e-6 * (dSumBdRate l : ℝ))

private theorem dseries_near (hR : Dbl R) {u u' v v' : MoonTerm → ℝ} {B C : ℝ} (l : List MoonTerm)
    (h : ∀ k ∈ l, (|u' k - u k| ≤ 1.89e-21 * dTermErr k ∧ |u k| ≤ 1.017e-6 * (|k.coeff| : ℤ)) ∧
      (|v' k - v k| ≤ 1.6e-17 * dRateErr k ∧ |v k| ≤ 1e-6 * dRateBd k))
    (hB : 1.017e-6 * (dSumBd l : ℝ) ≤ B) (hB' : 1.89e-21 * (dSumErr l : ℝ) + l.length * (1.22e-16 * B) ≤ 0.01 * B) (hB0 : 1e-20 ≤ B)
    (hC : 1e-6 * (dSumBdRate l : ℝ) ≤ C) (hC' : 1.6e-17 * (dSumErrRate l : ℝ) + l.length * (1.22e-16 * C) ≤ 0.01 * C)
    (hC0 : 1e-20 ≤ C) :
    DSeriesNear (l.foldl (fun s k => (R (s.1 + u' k), R (s.2 + v' k))) ((0 : ℝ), (0 : ℝ)))
      (l.foldl (fun s k => (s.1 + u k, s.2 + v k)) ((0 : ℝ), (0 : ℝ))) B C l := by
  have ex : l.foldl (fun s k => (R (s.1 + u' k), R (s.2 + v' k))) ((0 : ℝ), (0 : ℝ)) =
      (l.foldl (fun s k => R (s + u' k)) 0, l.foldl (fun s k => R (s + v' k)) 0) :=
    foldl_pair (f := fun s k => R (s + u' k)) (g := fun s k => R (s + v' k)) l 0 0
  have ey : l.foldl (fun s k => (s.1 + u k, s.2 + v k)) ((0 : ℝ), (0 : ℝ)) =
      (l.foldl (fun s k => s + u k) 0, l.foldl (fun s k => s + v k) 0) :=
    foldl_pair (f := fun s k => s + u k) (g := fun s k => s + v k) l 0 0
  rw [ex, ey]
  have h1 := fold_near64 (B := B) (bd := fun k => |k.coeff|) hR l (fun k hk => (h k hk).1) 0 0 0 0 (by simp) (by simp)
    (by rw [zero_add]; exact hB) (by rw [zero_add]; exact hB') hB0
  have h2 := fold_near64 (B := C) hR l (fun k hk => (h k hk).2) 0 0 0 0 (by simp) (by simp)
    (by rw [zero_add]; exact hC) (by rw [zero_add]; exact hC') hC0
  simp only [zero_add] at h1 h2
  exact ⟨h1, h2⟩

section
variable {a b r q : MoonArgs} {eo Bo ep Bp : ℝ} {t T : ℝ}

/-- A sine series. -/
theorem dsin_series (hR : Dbl R) (hs : ∀ x, |sn x - Real.sin x| ≤ 2e-16) (hc : ∀ x, |cs x - Real.cos x| ≤ 2e-16)
    (ht : Nb t T 7.22e-16 3) (ha : DArgsNear a b 1.85e-11 6.301 eo Bo) (hr : DArgsNear r q 5.44e-12 8433.6 ep Bp) {B C : ℝ}
    (l : List MoonTerm) (hl : ∀ k ∈ l, DTermOk k)
    (hB : 1.017e-6 * (dSumBd l : ℝ) ≤ B) (hB' : 1.89e-21 * (dSumErr l : ℝ) + l.length * (1.22e-16 * B) ≤ 0.01 * B) (hB0 : 1e-20 ≤ B)
    (hC : 1e-6 * (dSumBdRate l : ℝ) ≤ C) (hC' : 1.6e-17 * (dSumErrRate l : ℝ) + l.length * (1.22e-16 * C) ≤ 0.01 * C)
    (hC0 : 1e-20 ≤ C) :
    DSeriesNear (l.foldl (dmoonSinTerm R sn cs t a r) (0, 0)) (l.foldl (Sla.dmoonSinTerm T b q) (0, 0)) B C l :=
  dseries_near hR (u := fun k => k.c * Real.sin (k.theta b) * Sla.dmoonEn T k.e)
    (u' := fun k => R (R (R k.c * sn (moonTheta R k a)) * dmoonEn R t k.e))
    (v := fun k => k.c * (Real.cos (k.theta b) * k.theta q * Sla.dmoonEn T k.e + Real.sin (k.theta b) * Sla.dmoonDen T k.e))
    (v' := fun k => R (R k.c * R (R (R (cs (moonTheta R k a) * moonTheta R k r) * dmoonEn R t k.e) +
      R (sn (moonTheta R k a) * dmoonDen R t k.e)))) l
    (fun k hk => dterm_near hR ht (hl k hk) ((dmoonTheta_near hR ha (by norm_num) k).sin hs le_rfl)
      ((dmoonTheta_near hR ha (by norm_num) k).cos hc le_rfl) (dmoonTheta_near hR hr (by norm_num) k)) hB hB' hB0 hC hC' hC0

/-- A cosine series. -/
theorem dcos_series (hR : Dbl R) (hs : ∀ x, |sn x - Real.sin x| ≤ 2e-16) (hc : ∀ x, |cs x - Real.cos x| ≤ 2e-16)
    (ht : Nb t T 7.22e-16 3) (ha : DArgsNear a b 1.85e-11 6.301 eo Bo) (hr : DArgsNear r q 5.44e-12 8433.6 ep Bp) {B C : ℝ}
    (l : List MoonTerm) (hl : ∀ k ∈ l, DTermOk k)
    (hB : 1.017e-6 * (dSumBd l : ℝ) ≤ B) (hB' : 1.89e-21 * (dSumErr l : ℝ) + l.length * (1.22e-16 * B) ≤ 0.01 * B) (hB0 : 1e-20 ≤ B)
    (hC : 1e-6 * (dSumBdRate l : ℝ) ≤ C) (hC' : 1.6e-17 * (dSumErrRate l : ℝ) + l.length * (1.22e-16 * C) ≤ 0.01 * C)
    (hC0 : 1e-20 ≤ C) :
    DSeriesNear (l.foldl (dmoonCosTerm R sn cs t a r) (0, 0)) (l.foldl (Sla.dmoonCosTerm T b q) (0, 0)) B C l :=
  dseries_near hR (u := fun k => k.c * Real.cos (k.theta b) * Sla.dmoonEn T k.e)
    (u' := fun k => R (R (R k.c * cs (moonTheta R k a)) * dmoonEn R t k.e))
    (v := fun k => k.c * (-Real.sin (k.theta b) * k.theta q * Sla.dmoonEn T k.e + Real.cos (k.theta b) * Sla.dmoonDen T k.e))
    (v' := fun k => R (R k.c * R (R (R (-sn (moonTheta R k a) * moonTheta R k r) * dmoonEn R t k.e) +
      R (cs (moonTheta R k a) * dmoonDen R t k.e)))) l
    (fun k hk => dterm_near hR ht (hl k hk) ((dmoonTheta_near hR ha (by norm_num) k).cos hc le_rfl)
      ((dmoonTheta_near hR ha (by norm_num) k).sin hs le_rfl).neg (dmoonTheta_near hR hr (by norm_num) k)) hB hB' hB0 hC hC' hC0

/-- The exact parallax series: the terms after the first. -/
theorem dcos_rest (hR : Dbl R) (hs : ∀ x, |sn x - Real.sin x| ≤ 2e-16) (hc : ∀ x, |cs x - Real.cos x| ≤ 2e-16)
    (ht : Nb t T 7.22e-16 3) (ha : DArgsNear a b 1.85e-11 6.301 eo Bo) (hr : DArgsNear r q 5.44e-12 8433.6 ep Bp) :
    |(dmoonP.reverse.foldl (Sla.dmoonCosTerm T b q) (0, 0)).1 - 0.950724| ≤ 0.0775 := by
  have tb : (∀ k ∈ (dmoonP.drop 1).reverse, DTermOk k) ∧ dSumBd (dmoonP.drop 1).reverse = 76124 ∧
      dSumErr (dmoonP.drop 1).reverse ≤ 2000000000 ∧ dSumBdRate (dmoonP.drop 1).reverse ≤ 1000000000 ∧
      dSumErrRate (dmoonP.drop 1).reverse ≤ 3000000000 ∧ (dmoonP.drop 1).reverse.length = 30 := by decide +kernel
  obtain ⟨t1, t2, t3, t4, t5, t6⟩ := tb
  have t3' : (dSumErr (dmoonP.drop 1).reverse : ℝ) ≤ 2000000000 := by exact_mod_cast t3
  have t4' : (dSumBdRate (dmoonP.drop 1).reverse : ℝ) ≤ 1000000000 := by exact_mod_cast t4
  have t5' : (dSumErrRate (dmoonP.drop 1).reverse : ℝ) ≤ 3000000000 := by exact_mod_cast t5
  have h := (dcos_series (B := 0.08) (C := 1000) hR hs hc ht ha hr (dmoonP.drop 1).reverse t1 (by rw [t2]; norm_num)
    (by rw [t6]; norm_num at *; linarith) (by norm_num) (by linarith) (by rw [t6]; norm_num at *; linarith) (by norm_num)).1.2
  have e : (dmoonP.reverse.foldl (Sla.dmoonCosTerm T b q) (0, 0)).1 - 0.950724 =
      ((dmoonP.drop 1).reverse.foldl (Sla.dmoonCosTerm T b q) (0, 0)).1 := by
    rw [show dmoonP.reverse = (dmoonP.drop 1).reverse ++ [⟨950724, 0, 0, 0, 0, 0⟩] from rfl, List.foldl_append]
    simp [Sla.dmoonCosTerm, MoonTerm.theta, MoonTerm.c, Sla.dmoonEn]
    norm_num
  rw [e]
  rw [t2] at h
  exact h.trans (by norm_num)

/-- The tables. -/
theorem dtable_sums : (∀ k ∈ dmoonL.reverse, DTermOk k) ∧ (∀ k ∈ dmoonB.reverse, DTermOk k) ∧ (∀ k ∈ dmoonP.reverse, DTermOk k) ∧
    dSumBd dmoonL.reverse = 9196071 ∧ dSumErr dmoonL.reverse = 137418256071 ∧ dSumBdRate dmoonL.reverse = 117864946833 ∧
    dSumErrRate dmoonL.reverse = 271564317883 ∧ dSumBd dmoonB.reverse = 6081869 ∧ dSumErr dmoonB.reverse = 75970041869 ∧
    dSumBdRate dmoonB.reverse = 65160370361 ∧ dSumErrRate dmoonB.reverse = 121462334661 ∧ dSumBd dmoonP.reverse = 1026848 ∧
    dSumErr dmoonP.reverse = 1143826848 ∧ dSumBdRate dmoonP.reverse = 981206408 ∧ dSumErrRate dmoonP.reverse = 2236195408 ∧
    dmoonL.reverse.length = 50 ∧ dmoonB.reverse.length = 45 ∧ dmoonP.reverse.length = 31 := by
  decide +kernel

end

end Sla.Fp
