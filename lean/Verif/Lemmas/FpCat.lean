import Verif.Model.FpCat
import Verif.Lemmas.FpCoords
import Verif.Lemmas.EulerMotion
import Verif.Props.Eterms
import Verif.Props.Observer

/-
The E-terms and the space motion in double precision, and from neighbouring vectors to neighbouring directions.
-/
namespace Sla.Fp
open Sla.Spec Sla.Props Matrix

variable {R : ℝ → ℝ}

private theorem mul_bound {a b A B : ℝ} (ha : |a| ≤ A) (hb : |b| ≤ B) : |a * b| ≤ A * B := by
  rw [abs_mul]; exact mul_le_mul ha hb (abs_nonneg _) ((abs_nonneg _).trans ha)

private theorem neg_near {a x e : ℝ} (h : |a - x| ≤ e) : |-a - -x| ≤ e := by
  rwa [show -a - -x = -(a - x) by ring, abs_neg]

/-! ### E-terms -/

private theorem jc_near (hR : Dbl R) {be : ℝ} (h : |be - 1950| ≤ 1000) :
    |etrmsJc R be - Sla.etrmsJc be| ≤ 3.7e-15 ∧ |Sla.etrmsJc be| ≤ 10.001 := by
  have h1 : |R (be - 1950) - (be - 1950)| ≤ 1.21e-13 := hR.lit h (by norm_num)
  have h2 : |R 1.00002135903e-2 - 1.00002135903e-2| ≤ 1.21e-18 := hR.lit (B := 0.01001) (by norm_num [abs_le]) (by norm_num)
  refine ⟨hR.mul h1 h2 h (Y := 0.01001) (by norm_num [abs_le]) (by norm_num), ?_⟩
  have := mul_bound h (show |(1.00002135903e-2 : ℝ)| ≤ 0.010001 by norm_num [abs_le])
  exact this.trans (by norm_num)

private theorem ecc_near (hR : Dbl R) {t T : ℝ} (ht : |t - T| ≤ 3.7e-15) (b : |T| ≤ 10.001) :
    |etrmsEcc R t - Sla.etrmsEcc T| ≤ 6e-18 ∧ |Sla.etrmsEcc T| ≤ 0.0173 := by
  have a1 : |R 0.000000126 - 0.000000126| ≤ 2e-23 := hR.lit (B := 0.000000126) (by norm_num [abs_le]) (by norm_num)
  have a2 : |R (R 0.000000126 * t) - 0.000000126 * T| ≤ 1e-21 := hR.mul a1 ht (X := 0.000000126) (by norm_num [abs_le]) b (by norm_num)
  have c2 : |0.000000126 * T| ≤ 0.0000013 := (mul_bound (by norm_num [abs_le]) b (A := 0.000000126)).trans (by norm_num)
  have a3 : |R 0.00004193 - 0.00004193| ≤ 5.1e-21 := hR.lit (B := 0.00004193) (by norm_num [abs_le]) (by norm_num)
  have c3 : |0.00004193 + 0.000000126 * T| ≤ 0.0000433 := (abs_add_le _ _).trans (by norm_num [abs_of_pos] at *; linarith)
  have a4 : |R (R 0.00004193 + R (R 0.000000126 * t)) - (0.00004193 + 0.000000126 * T)| ≤ 1.2e-20 := hR.add a3 a2 c3 (by norm_num)
  have a5 := hR.mul a4 ht c3 b (g := 4e-19) (by norm_num)
  have c5 := mul_bound c3 b
  have a6 : |R 0.01673011 - 0.01673011| ≤ 2.1e-18 := hR.lit (B := 0.01673011) (by norm_num [abs_le]) (by norm_num)
  have c6 : |0.01673011 - (0.00004193 + 0.000000126 * T) * T| ≤ 0.0173 := (abs_sub _ _).trans (by norm_num [abs_of_pos] at *; linarith)
  exact ⟨hR.sub a6 a5 c6 (by norm_num), c6⟩

private theorem obl_near (hR : Dbl R) {t T : ℝ} (ht : |t - T| ≤ 3.7e-15) (b : |T| ≤ 10.001) :
    |etrmsObl R t - Sla.etrmsObl T| ≤ 4e-16 := by
  have a1 : |R 0.00181 - 0.00181| ≤ 3e-19 := hR.lit (B := 0.00181) (by norm_num [abs_le]) (by norm_num)
  have a2 : |R (R 0.00181 * t) - 0.00181 * T| ≤ 1.2e-17 := hR.mul a1 ht (X := 0.00181) (by norm_num [abs_le]) b (by norm_num)
  have c2 : |0.00181 * T| ≤ 0.0182 := (mul_bound (by norm_num [abs_le]) b (A := 0.00181)).trans (by norm_num)
  have a3 : |R 0.00319 - 0.00319| ≤ 4e-19 := hR.lit (B := 0.00319) (by norm_num [abs_le]) (by norm_num)
  have c3 : |0.00319 + 0.00181 * T| ≤ 0.0214 := (abs_add_le _ _).trans (by norm_num [abs_of_pos] at *; linarith)
  have a4 : |R (R 0.00319 + R (R 0.00181 * t)) - (0.00319 + 0.00181 * T)| ≤ 2e-17 := hR.add a3 a2 c3 (by norm_num)
  have a5 := hR.mul a4 ht c3 b (g := 4e-16) (by norm_num)
  have c5 := mul_bound c3 b
  have a6 : |R 46.8495 - 46.8495| ≤ 6e-15 := hR.lit (B := 46.8495) (by norm_num [abs_le]) (by norm_num)
  have c6 : |46.8495 + (0.00319 + 0.00181 * T) * T| ≤ 47.1 := (abs_add_le _ _).trans (by norm_num [abs_of_pos] at *; linarith)
  have a7 := hR.add a6 a5 c6 (g := 1.3e-14) (by norm_num)
  have a8 := hR.mul a7 ht c6 b (g := 4e-13) (by norm_num)
  have c8 := mul_bound c6 b
  have a9 : |R 84404.836 - 84404.836| ≤ 1.02e-11 := hR.lit (B := 84405) (by norm_num [abs_le]) (by norm_num)
  have c9 : |84404.836 - (46.8495 + (0.00319 + 0.00181 * T) * T) * T| ≤ 84900 := (abs_sub _ _).trans (by norm_num [abs_of_pos] at *; linarith)
  have a10 := hR.sub a9 a8 c9 (g := 2.2e-11) (by norm_num)
  exact hR.mul a10 (as2r_near hR) c9 as2r_lit.2 (by norm_num)

private theorem per_near (hR : Dbl R) {t T : ℝ} (ht : |t - T| ≤ 3.7e-15) (b : |T| ≤ 10.001) :
    |etrmsPer R t - Sla.etrmsPer T| ≤ 3.3e-15 := by
  have a1 : |R 0.012 - 0.012| ≤ 2e-18 := hR.lit (B := 0.012) (by norm_num [abs_le]) (by norm_num)
  have a2 : |R (R 0.012 * t) - 0.012 * T| ≤ 1e-16 := hR.mul a1 ht (X := 0.012) (by norm_num [abs_le]) b (by norm_num)
  have c2 : |0.012 * T| ≤ 0.121 := (mul_bound (by norm_num [abs_le]) b (A := 0.012)).trans (by norm_num)
  have a3 : |R 1.65 - 1.65| ≤ 2e-16 := hR.lit (B := 1.65) (by norm_num [abs_le]) (by norm_num)
  have c3 : |1.65 + 0.012 * T| ≤ 1.78 := (abs_add_le _ _).trans (by norm_num [abs_of_pos] at *; linarith)
  have a4 : |R (R 1.65 + R (R 0.012 * t)) - (1.65 + 0.012 * T)| ≤ 6e-16 := hR.add a3 a2 c3 (by norm_num)
  have a5 := hR.mul a4 ht c3 b (g := 2e-14) (by norm_num)
  have c5 := mul_bound c3 b
  have a6 : |R 6190.67 - 6190.67| ≤ 7.5e-13 := hR.lit (B := 6191) (by norm_num [abs_le]) (by norm_num)
  have c6 : |6190.67 + (1.65 + 0.012 * T) * T| ≤ 6210 := (abs_add_le _ _).trans (by norm_num [abs_of_pos] at *; linarith)
  have a7 := hR.add a6 a5 c6 (g := 1.6e-12) (by norm_num)
  have a8 := hR.mul a7 ht c6 b (g := 5e-11) (by norm_num)
  have c8 := mul_bound c6 b
  have a9 : |R 1015489.951 - 1015489.951| ≤ 1.22e-10 := hR.lit (B := 1015490) (by norm_num [abs_le]) (by norm_num)
  have c9 : |1015489.951 + (6190.67 + (1.65 + 0.012 * T) * T) * T| ≤ 1078000 := (abs_add_le _ _).trans (by norm_num [abs_of_pos] at *; linarith)
  have a10 := hR.add a9 a8 c9 (g := 3.1e-10) (by norm_num)
  exact hR.mul a10 (as2r_near hR) c9 as2r_lit.2 (by norm_num)

/-- The components of the E-terms. -/
theorem etrms_near (hR : Dbl R) {sn cs : ℝ → ℝ} {ε : ℝ} (hε : ε ≤ 1e-3) (hs : ∀ a, |sn a - Real.sin a| ≤ ε)
    (hc : ∀ a, |cs a - Real.cos a| ≤ ε) {be : ℝ} (h : |be - 1950| ≤ 1000) (i : Fin 3) :
    |etrms R sn cs be i - Sla.etrms be i| ≤ 2e-20 + 4e-6 * ε := by
  have ε0 : 0 ≤ ε := (abs_nonneg _).trans (hs 0)
  have ε2 : ε * ε ≤ 1e-3 * ε := mul_le_mul_of_nonneg_right hε ε0
  obtain ⟨j, jb⟩ := jc_near hR h
  obtain ⟨e, eb⟩ := ecc_near hR j jb
  have o := obl_near hR j jb
  have p := per_near hR j jb
  have k1 : |R 20.49552 - 20.49552| ≤ 2.5e-15 := hR.lit (B := 20.5) (by norm_num [abs_le]) (by norm_num)
  have k2 := hR.mul e k1 eb (show |(20.49552 : ℝ)| ≤ 20.5 by norm_num [abs_le]) (g := 2.2e-16) (by norm_num)
  have kb := mul_bound eb (show |(20.49552 : ℝ)| ≤ 20.5 by norm_num [abs_le])
  have k3 := hR.mul k2 (as2r_near hR) kb as2r_lit.2 (g := 1.6e-21) (by norm_num)
  have kc := (mul_bound kb as2r_lit.2).trans (show _ ≤ 1.73e-6 by norm_num)
  have s1 := sin_err hs p
  have c1 := cos_err hc p
  have s2 := sin_err hs o
  have c2 := cos_err hc o
  simp only [etrms, Sla.etrms]
  generalize etrmsPer R (etrmsJc R be) = P' at *
  generalize Sla.etrmsPer (Sla.etrmsJc be) = P at *
  generalize etrmsObl R (etrmsJc R be) = O' at *
  generalize Sla.etrmsObl (Sla.etrmsJc be) = O at *
  generalize R (R (etrmsEcc R (etrmsJc R be) * R 20.49552) * R 0.484813681109535994e-5) = K' at *
  generalize Sla.etrmsEcc (Sla.etrmsJc be) * 20.49552 * as2r = K at *
  have m1 : |R (-K' * cs P') - -K * Real.cos P| ≤ 1e-20 + 1.8e-6 * ε := by
    refine hR.mul (neg_near k3) c1 (show |-K| ≤ 1.73e-6 by rwa [abs_neg]) (Real.abs_cos_le_one P) ?_
    norm_num; linarith
  have mb : |-K * Real.cos P| ≤ 1.73e-6 := (mul_bound (show |-K| ≤ 1.73e-6 by rwa [abs_neg]) (Real.abs_cos_le_one P)).trans (by norm_num)
  fin_cases i
  · refine hR.mul k3 s1 kc (Real.abs_sin_le_one P) ?_
    norm_num; linarith
  · refine hR.mul m1 c2 mb (Real.abs_cos_le_one O) ?_
    norm_num; nlinarith
  · refine hR.mul m1 s2 mb (Real.abs_sin_le_one O) ?_
    norm_num; nlinarith

/-! ### Vectors -/

/-- The chord between two directions is no longer than the angle between them. -/
theorem chord_le_angle {u v : Vec} (hu : len u = 1) (hv : len v = 1) : len (u - v) ≤ angleBetween u v := by
  have h0 : 0 ≤ angleBetween u v := InnerProductGeometry.angle_nonneg _ _
  have h1 := InnerProductGeometry.cos_angle_mul_norm_mul_norm (WithLp.toLp 2 u : EuclideanSpace ℝ (Fin 3)) (WithLp.toLp 2 v)
  rw [norm_toLp, norm_toLp, inner_toLp, show √(u ⬝ᵥ u) = 1 from hu, show √(v ⬝ᵥ v) = 1 from hv, mul_one, mul_one] at h1
  have h2 := Real.one_sub_sq_div_two_le_cos (x := angleBetween u v)
  have h3 : Real.cos (angleBetween u v) = u ⬝ᵥ v := h1
  rw [h3] at h2
  refine abs_le_of_sq_le_sq' ?_ h0 |>.2
  have e1 := len_sq u
  have e2 := len_sq v
  rw [len_sq, sub_dotProduct, dotProduct_sub, dotProduct_sub, dotProduct_comm v u, ← e1, ← e2, hu, hv]
  linarith

theorem near_len {v u : Vec} {d : ℝ} (hu : len u = 1) (h : len (v - u) ≤ d) : len v ≤ 1 + d := by
  have := len_add_le u (v - u)
  rw [add_sub_cancel, hu] at this
  linarith

/-- Adding a small vector. -/
theorem plus_near (hR : Dbl R) {v u et et' : Vec} {δ ε : ℝ} (hu : len u = 1) (h : len (v - u) ≤ δ) (hδ : δ ≤ 0.045)
    (ε0 : 0 ≤ ε) (hl : len et ≤ 2.5e-6) (he : ∀ i, |et' i - et i| ≤ 2e-20 + 4e-6 * ε) :
    len ((fun i => R (v i + et' i)) - (u + et)) ≤ δ + 7.2e-6 * ε + 2.3e-16 := by
  have hv := (near_len hu h).trans (add_le_add le_rfl hδ)
  have k : ∀ i, |((fun i => R (v i + et' i)) - (v + et)) i| ≤ 4.1e-6 * ε + 1.28e-16 := by
    intro i
    have hb : |v i + et i| ≤ 1.0451 := by
      refine (abs_add_le _ _).trans ((add_le_add ((abs_le_len v i).trans hv) ((abs_le_len et i).trans hl)).trans (by norm_num))
    have z : |v i - v i| ≤ 0 := by simp
    refine hR.add z (he i) hb ?_
    norm_num; linarith
  have k1 := len_le_of k
  have k2 := len_add_le ((fun i => R (v i + et' i)) - (v + et)) (v - u)
  rw [show (fun i => R (v i + et' i)) - (v + et) + (v - u) = (fun i => R (v i + et' i)) - (u + et) by abel] at k2
  refine k2.trans ((add_le_add k1 h).trans ?_)
  norm_num; linarith

/-- Removing a small vector as `subet` does. -/
theorem minus_near (hR : Dbl R) {v u et et' : Vec} {δ ε : ℝ} (hu : len u = 1) (h : len (v - u) ≤ δ) (hδ : δ ≤ 0.045)
    (ε0 : 0 ≤ ε) (hl : len et ≤ 2.5e-6) (he : ∀ i, |et' i - et i| ≤ 2e-20 + 4e-6 * ε) :
    len ((fun i => R (R (v i * R (1 + dvdv R v et')) - et' i)) - ((1 + u ⬝ᵥ et) • u - et)) ≤ 1.00001 * δ + 3.6e-5 * ε + 7e-16 := by
  have hv := (near_len hu h).trans (add_le_add le_rfl hδ)
  have vb : ∀ i, |v i| ≤ 1.045 := fun i => ((abs_le_len v i).trans hv).trans (by norm_num)
  have eb : ∀ i, |et i| ≤ 2.5e-6 := fun i => (abs_le_len et i).trans hl
  have z : ∀ i, |v i - v i| ≤ 0 := fun i => by simp
  have p : ∀ i, |R (v i * et' i) - v i * et i| ≤ 4.3e-6 * ε + 2.2e-20 := by
    intro i
    refine hR.mul (z i) (he i) (vb i) (eb i) ?_
    norm_num; linarith
  have pb : ∀ i, |v i * et i| ≤ 2.7e-6 := fun i => (mul_bound (vb i) (eb i)).trans (by norm_num)
  have q1 : |R (R (v 0 * et' 0) + R (v 1 * et' 1)) - (v 0 * et 0 + v 1 * et 1)| ≤ 8.7e-6 * ε + 5e-20 := by
    refine hR.add (p 0) (p 1) (B := 5.4e-6) ((abs_add_le _ _).trans ((add_le_add (pb 0) (pb 1)).trans (by norm_num))) ?_
    norm_num; linarith
  have dv : v ⬝ᵥ et = v 0 * et 0 + v 1 * et 1 + v 2 * et 2 := by simp [dotProduct, Fin.sum_univ_three]
  have db : |v ⬝ᵥ et| ≤ 2.7e-6 := (abs_dot_le_len v et).trans ((mul_le_mul hv hl (len_nonneg _) (by norm_num)).trans (by norm_num))
  have q2 : |dvdv R v et' - v ⬝ᵥ et| ≤ 1.35e-5 * ε + 1e-19 := by
    rw [dv] at db ⊢
    refine hR.add q1 (p 2) db ?_
    norm_num; linarith
  have q3 : |R (1 + dvdv R v et') - (1 + v ⬝ᵥ et)| ≤ 1.36e-5 * ε + 1.21e-16 := by
    refine hR.add (a := 1) (x := 1) (e := 0) (by simp) q2 (B := 1.000003)
      ((abs_add_le _ _).trans ((add_le_add (abs_one).le db).trans (by norm_num))) ?_
    norm_num; linarith
  have fb : |1 + v ⬝ᵥ et| ≤ 1.000003 := (abs_add_le _ _).trans ((add_le_add (abs_one).le db).trans (by norm_num))
  have k : ∀ i, |((fun i => R (R (v i * R (1 + dvdv R v et')) - et' i)) - ((1 + v ⬝ᵥ et) • v - et)) i| ≤ 2e-5 * ε + 3.9e-16 := by
    intro i
    have k1 : |R (v i * R (1 + dvdv R v et')) - v i * (1 + v ⬝ᵥ et)| ≤ 1.5e-5 * ε + 2.55e-16 := by
      refine hR.mul (z i) q3 (vb i) fb ?_
      norm_num; linarith
    have k2 : |v i * (1 + v ⬝ᵥ et) - et i| ≤ 1.0451 :=
      (abs_sub _ _).trans ((add_le_add (mul_bound (vb i) fb) (eb i)).trans (by norm_num))
    have k3 := hR.sub k1 (he i) k2 (g := 2e-5 * ε + 3.9e-16) (by norm_num; linarith)
    have e : ((fun i => R (R (v i * R (1 + dvdv R v et')) - et' i)) - ((1 + v ⬝ᵥ et) • v - et)) i =
        R (R (v i * R (1 + dvdv R v et')) - et' i) - (v i * (1 + v ⬝ᵥ et) - et i) := by
      simp [mul_comm]
    rw [e]; exact k3
  have k1 := len_le_of k
  have δ0 : 0 ≤ δ := (len_nonneg _).trans h
  have m1 : len ((1 + v ⬝ᵥ et) • (v - u)) ≤ 1.000003 * δ := by
    rw [len_smul]; exact mul_le_mul fb h (len_nonneg _) (by norm_num)
  have m2 : len (((v - u) ⬝ᵥ et) • u) ≤ δ * 2.5e-6 := by
    rw [len_smul, hu, mul_one]
    exact (abs_dot_le_len _ _).trans (mul_le_mul h hl (len_nonneg _) δ0)
  have e : (fun i => R (R (v i * R (1 + dvdv R v et')) - et' i)) - ((1 + u ⬝ᵥ et) • u - et) =
      ((fun i => R (R (v i * R (1 + dvdv R v et')) - et' i)) - ((1 + v ⬝ᵥ et) • v - et)) +
        ((1 + v ⬝ᵥ et) • (v - u) + ((v - u) ⬝ᵥ et) • u) := by
    rw [sub_dotProduct]
    funext i
    simp only [Pi.sub_apply, Pi.add_apply, Pi.smul_apply, smul_eq_mul]
    ring
  rw [e]
  refine (len_add_le _ _).trans ((add_le_add k1 ((len_add_le _ _).trans (add_le_add m1 m2))).trans ?_)
  norm_num; linarith

/-- A matrix of tabulated values applied to a nearby vector. -/
theorem table_step (R : Rounding binary64) {M A : Mat} (hM : ∀ i j, |M i j - A i j| ≤ 0.5 * (1 / 2 ^ 53))
    (h1 : ∀ i j, |(Aᵀ * A - 1) i j| ≤ 1e-10) (h2 : ∀ i j, |(A * Aᵀ - 1) i j| ≤ 1e-10) {v u : Vec} {δ : ℝ} (hu : len u = 1)
    (h : len (v - u) ≤ δ) (hδ : δ ≤ 0.045) :
    len (dmxv R M v - A *ᵥ u) ≤ 1.001 * δ + 9.5e-16 ∧ 0.999 ≤ len (A *ᵥ u) := by
  have t : (2 : ℝ) ^ (-1071 : ℤ) ≤ 1e-20 := (two_zpow_le (b := -100) (by norm_num)).trans (by norm_num)
  have hw := (table_len h1 u).1
  rw [hu] at hw
  have hv := (near_len hu h).trans (add_le_add le_rfl hδ)
  have d2 := table_near R (table_rows h2) hM v
  have d3 : len (A *ᵥ v - A *ᵥ u) ≤ 1.001 * len (v - u) := by
    rw [← Matrix.mulVec_sub]; exact (table_len h1 _).2
  have d4 := len_add_le (dmxv R M v - A *ᵥ v) (A *ᵥ v - A *ᵥ u)
  rw [sub_add_sub_cancel] at d4
  refine ⟨d4.trans ?_, by norm_num at *; linarith⟩
  have h8 : (8 : ℝ) * (1 / 2 ^ 53) * len v ≤ 8 * (1 / 2 ^ 53) * (1 + 0.045) := mul_le_mul_of_nonneg_left hv (by norm_num)
  have d2' := d2.trans (add_le_add h8 t)
  clear d2 h8 hw d4 t
  generalize len (A *ᵥ v - A *ᵥ u) = x1 at *
  generalize len (dmxv R M v - A *ᵥ v) = x2 at *
  generalize len (v - u) = x3 at *
  norm_num at *
  linarith

/-! ### Angles -/

/-- The angles of a vector near one of length at least 0.94. -/
theorem angles_of_near (R : Rounding binary64) {at2 : ℝ → ℝ → ℝ} {ε' : ℝ} (hε' : ε' ≤ 0.1) (ha : Atan2Near at2 ε')
    (hrep : ∀ y x, binary64.Rep (at2 y x)) {v w x : Vec} {d κ k : ℝ} (hk : 0 ≤ k) (hx : w = k • x) (hw : 0.94 ≤ len w)
    (h : len (v - w) ≤ d) (hd : d ≤ 0.04) (hκ : 1.5708 ≤ κ * len w) :
    let r := dcc2s R at2 v
    angleBetween (direction (dranrm R r.1) r.2) x ≤ κ * d + 3.2 * ε' + 4.6e-15 ∧
      0 ≤ dranrm R r.1 ∧ dranrm R r.1 < 2 * Real.pi ∧ |r.2| ≤ Real.pi / 2 + ε' ∧ drange R r.2 = r.2 := by
  intro r
  have ε0 : 0 ≤ ε' := (abs_nonneg _).trans (ha.1 0 0 (Or.inr le_rfl))
  have d0 : 0 ≤ d := (len_nonneg _).trans h
  have hL : (0 : ℝ) < len w := lt_of_lt_of_le (by norm_num) hw
  have hi : 0 < (len w)⁻¹ := inv_pos.2 hL
  have hv : 0.9 ≤ len v := by
    have := len_sub_le v (v - w)
    rw [sub_sub_cancel] at this
    norm_num at *; linarith
  obtain ⟨h1, h2⟩ := angles_near R hε' ha hrep v hv
  refine ⟨?_, h2⟩
  have hp := Real.pi_lt_d6
  have g1 : len ((len w)⁻¹ • w) = 1 := by rw [len_smul, abs_of_pos hi, inv_mul_cancel₀ hL.ne']
  have g2 : len ((len w)⁻¹ • v - (len w)⁻¹ • w) ≤ (len w)⁻¹ * d := by
    rw [← smul_sub, len_smul, abs_of_pos hi]; exact mul_le_mul_of_nonneg_left h hi.le
  have g3 := fp_angle_near g1 (d := (len w)⁻¹ * d) (by rw [inv_mul_lt_iff₀ hL]; norm_num at *; linarith) g2
  rw [angle_scale hi, angle_symm, angle_scale hi, angle_symm] at g3
  have g4 : Real.pi / 2 * ((len w)⁻¹ * d) ≤ κ * d := by
    rw [← mul_assoc]
    refine mul_le_mul_of_nonneg_right ?_ d0
    rw [← div_eq_mul_inv, div_le_iff₀ hL]
    norm_num at *; linarith
  have k0 : 0 < k := by
    rcases hk.eq_or_lt with h0 | h0
    · rw [hx, ← h0, zero_smul] at hw
      norm_num [len] at hw
    · exact h0
  have g5 : angleBetween v x = angleBetween v w := by rw [hx, angle_scale k0]
  have h4 := angle_triangle (direction (dranrm R r.1) r.2) v x
  have e1 : Real.pi / 2 * (2 * ε' + 2.9e-15) ≤ 3.141593 / 2 * (2 * ε' + 2.9e-15) :=
    mul_le_mul_of_nonneg_right (by linarith) (by positivity)
  have h1' := h1.trans e1
  have g3' := g3.trans g4
  rw [← g5] at g3'
  clear h1 e1 g3 g4 g1 g2 hκ
  generalize κ * d = y at *
  norm_num at *
  linarith

/-- The angles as `dcc2s` returns them. -/
theorem raw_of_near (R : Rounding binary64) {at2 : ℝ → ℝ → ℝ} {ε' : ℝ} (hε' : ε' ≤ 0.1) (ha : Atan2Near at2 ε')
    {v w x : Vec} {d k : ℝ} (hk : 0 ≤ k) (hx : w = k • x) (hw : 0.999 ≤ len w) (h : len (v - w) ≤ d) (hd : d ≤ 0.05) :
    let r := dcc2s R at2 v
    angleBetween (direction r.1 r.2) x ≤ 1.58 * d + 3.2 * ε' + 3.5e-15 := by
  intro r
  have ε0 : 0 ≤ ε' := (abs_nonneg _).trans (ha.1 0 0 (Or.inr le_rfl))
  have d0 : 0 ≤ d := (len_nonneg _).trans h
  have hv : 0.9 ≤ len v := by
    have := len_sub_le v (v - w)
    rw [sub_sub_cancel] at this
    norm_num at *; linarith
  set ρ := R (Real.sqrt (R (R (v 0 * v 0) + R (v 1 * v 1)))) with hρ
  have ρ0 : 0 ≤ ρ := R.nonneg (Real.sqrt_nonneg _)
  have e1 : r.1 = if ρ = 0 then 0 else at2 (v 1) (v 0) := rfl
  have e2 : r.2 = if v 2 = 0 then 0 else at2 (v 2) ρ := rfl
  have hlat : |r.2 - atan2 (v 2) ρ| ≤ ε' := by
    rw [e2]
    split_ifs with h
    · rw [h, atan2_zero_of_nonneg ρ0]; simpa using ε0
    · exact ha.1 _ _ (Or.inr ρ0)
  have hlong : ρ ≠ 0 → ∃ k : ℤ, |r.1 - (atan2 (v 1) (v 0) + 2 * Real.pi * k)| ≤ ε' := by
    intro h0
    obtain ⟨k, hk, -⟩ := at2_turn ha (v 1) (v 0)
    exact ⟨k, by rw [e1, if_neg h0]; exact hk⟩
  have h1 := polar_near R v hv hlong hlat ε0 (by norm_num at *; linarith)
  have h3 := angle_of_near hw h (hd.trans (by norm_num))
  have k0 : 0 < k := by
    rcases hk.eq_or_lt with h0 | h0
    · rw [hx, ← h0, zero_smul] at hw
      norm_num [len] at hw
    · exact h0
  rw [hx, angle_scale k0] at h3
  have h4 := angle_triangle (direction r.1 r.2) v x
  have hp := Real.pi_lt_d6
  have e1 : Real.pi / 2 * (ε' + ε' + 2.2e-15) ≤ 3.141593 / 2 * (ε' + ε' + 2.2e-15) :=
    mul_le_mul_of_nonneg_right (by linarith) (by positivity)
  have e2 : Real.pi / 2 * (1.002 * d) ≤ 3.141593 / 2 * (1.002 * d) :=
    mul_le_mul_of_nonneg_right (by linarith) (by positivity)
  have h1' := h1.trans e1
  have h3' := h3.trans e2
  clear h1 h3 e1 e2
  norm_num at *
  linarith

theorem dranrm_rep (R : Rounding binary64) (a : ℝ) : binary64.Rep (dranrm R a) := by
  simp only [dranrm]
  split_ifs
  · exact R.rep _
  · exact R.rep _

/-- Reducing a reduced longitude again: the full turn becomes zero, everything else stays. -/
theorem dranrm_again (R : Rounding binary64) {x : ℝ} (hx : binary64.Rep x) (h0 : 0 ≤ x) (h1 : x < 2 * Real.pi) (b : ℝ) :
    len (direction (dranrm R x) b - direction x b) ≤ 2.5e-16 ∧ 0 ≤ dranrm R x ∧ dranrm R x < 2 * Real.pi := by
  have hA : R 6.283185307179586476925287 = 884279719003555 / 2 ^ 47 := fp_2pi64 R
  have hp1 := Real.pi_gt_d20
  have hp2 := Real.pi_lt_d20
  have hle : x ≤ 884279719003555 / 2 ^ 47 := by
    have h := R.eq_of_near (x := 6.2831853071795865) (m := 7074237752028440) (e := -50)
      (by simp [binary64]) (by norm_num [binary64]) (by norm_num [binary64]) (by rw [abs_lt]; norm_num)
    have h' : R 6.2831853071795865 = 884279719003555 / 2 ^ 47 := by rw [h]; norm_num
    rw [← h', ← R.eq_self hx]
    exact R.mono (by clear hA h h' hx; norm_num at *; linarith)
  rcases hle.eq_or_lt with e | l
  · have hf : cfmod x (884279719003555 / 2 ^ 47) = 0 := by
      rw [e]; unfold cfmod; rw [div_self (by norm_num), ctrunc_of_nonneg zero_le_one]; simp
    have hd : dranrm R x = 0 := by simp only [dranrm, hA, hf, R.zero, lt_irrefl, if_false]
    refine ⟨?_, hd.ge, by rw [hd]; positivity⟩
    have e2 : direction (dranrm R x) b = direction (2 * Real.pi) b := by
      rw [hd, direction_eq, direction_eq]; simp
    rw [e2]
    refine (chord_le _ _ _ _).trans ?_
    rw [sub_self, abs_zero, add_zero, e, abs_le]
    constructor <;> norm_num at * <;> linarith
  · have hd : dranrm R x = x := by
      have hf : cfmod x (884279719003555 / 2 ^ 47) = x := cfmod_small (by rwa [abs_of_nonneg h0])
      simp only [dranrm, hA, hf, R.eq_self hx, not_lt.2 h0, if_false]
    rw [hd]
    exact ⟨by rw [sub_self]; norm_num [len], h0, h1⟩

end Sla.Fp
