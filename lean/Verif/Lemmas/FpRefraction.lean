import Verif.Model.FpRefraction
import Verif.Lemmas.FpNear
import Verif.Lemmas.FpAngle
import Mathlib.Analysis.Real.Pi.Bounds

/-
Running error bounds for `refz`, generated.
-/
namespace Sla.Fp

variable {D sn cs : ℝ → ℝ}

/-- Radians to degrees. -/
theorem refzR2D_near (hD : Dbl D) : Nb (D 57.29577951308232) Sla.refzR2D 8e-15 57.3 := by
  have p1 := Real.pi_gt_d20
  have p2 := Real.pi_lt_d20
  have hp := Real.pi_pos
  have k1 : Sla.refzR2D ≤ 57.295779513082321 := by
    unfold Sla.refzR2D; rw [div_le_iff₀ hp]; norm_num at p1 ⊢; linarith
  have k2 : 57.295779513082320 ≤ Sla.refzR2D := by
    unfold Sla.refzR2D; rw [le_div_iff₀ hp]; norm_num at p2 ⊢; linarith
  have b : |Sla.refzR2D| ≤ 57.3 := by
    rw [abs_of_pos (by linarith)]; linarith
  refine ⟨hD.round (e := 1e-15) ?_ b (by norm_num), b⟩
  rw [abs_le]; constructor <;> linarith

theorem refzR2D_ge : 57.29 ≤ |Sla.refzR2D| := by
  have p2 := Real.pi_lt_d20
  have hp := Real.pi_pos
  have k2 : 57.29 ≤ Sla.refzR2D := by
    unfold Sla.refzR2D; rw [le_div_iff₀ hp]; norm_num at p2 ⊢; linarith
  exact k2.trans (le_abs_self _)

theorem refz_thr : 1.448622 ≤ 83 / Sla.refzR2D ∧ 83 / Sla.refzR2D ≤ 1.448624 ∧ 83 / Sla.refzR2D = 83 * (Real.pi / 180) := by
  have p1 := Real.pi_gt_d20
  have p2 := Real.pi_lt_d20
  have hp := Real.pi_pos
  have e : 83 / Sla.refzR2D = 83 * (Real.pi / 180) := by unfold Sla.refzR2D; field_simp
  rw [e]
  refine ⟨?_, ?_, rfl⟩ <;> norm_num at p1 p2 ⊢ <;> linarith

/-- The threshold of 83 degrees. -/
theorem refzThr_near (hD : Dbl D) : Nb (D (83 / D 57.29577951308232)) (83 / Sla.refzR2D) 3.77e-16 1.449 := by
  have n1 : Nb 83 83 0 83 := Nb.self (by norm_num)
  have thr : Nb _ _ 3.77e-16 1.449 := hD.ndiv (m := 57.29) (E := 2.03e-16) n1 (refzR2D_near hD) refzR2D_ge (by norm_num) (by norm_num) (by norm_num) (by norm_num)
  exact thr

private theorem nb_sub {a x b y e f B : ℝ} (h1 : |a - x| ≤ e) (h2 : |b - y| ≤ f) (h : |x - y| ≤ B) : Nb (a - b) (x - y) (e + f) B := by
  refine ⟨?_, h⟩
  have : a - b - (x - y) = (a - x) - (b - y) := by ring
  rw [this]; exact (abs_sub _ _).trans (add_le_add h1 h2)

theorem refz_parts (hD : Dbl D) (hs : ∀ x, |sn x - Real.sin x| ≤ 2e-16) (hc : ∀ x, |cs x - Real.cos x| ≤ 2e-16) {z' z A B : ℝ} (hz : Nb z' z 8e-16 1.45) (hcz : 0.1218 ≤ |Real.cos z|)
    (hA : Nb A A 0 4e-4) (hB : Nb B B 0 1e-6) :
    Nb (D (A * D (sn z' / cs z'))) (A * (Real.sin z / Real.cos z)) 3.11e-17 3.285e-3 ∧
    Nb (D (B * D (D (sn z' / cs z') * D (D (sn z' / cs z') * D (sn z' / cs z')))))
      (B * (Real.sin z / Real.cos z * (Real.sin z / Real.cos z * (Real.sin z / Real.cos z)))) 1.58e-17 5.537e-4 ∧
    Nb (refzSlope D A B (cs z') (D (D (sn z' / cs z') * D (sn z' / cs z'))))
      (1 + (A + 3 * B * (Real.sin z / Real.cos z * (Real.sin z / Real.cos z))) / (Real.cos z * Real.cos z)) 6.27e-15 1.041 := by
  have hc2 : 0.0148 ≤ |Real.cos z * Real.cos z| := by
    rw [abs_mul]
    have := mul_le_mul hcz hcz (by norm_num) (abs_nonneg _)
    norm_num at this ⊢; linarith
  have n1 : Nb _ _ 1e-15 1 := hz.sin hs (by norm_num)
  have n2 : Nb _ _ 1e-15 1 := hz.cos hc (by norm_num)
  have ht : Nb _ _ 7.67e-14 8.211 := hD.ndiv (m := 0.1218) (E := 7.57e-14) n1 n2 hcz (by norm_num) (by norm_num) (by norm_num) (by norm_num)
  have ht2 : Nb _ _ 1.27e-12 67.43 := hD.nmul ht ht (by norm_num) (by norm_num)
  have ht3 : Nb _ _ 1.57e-11 553.7 := hD.nmul ht ht2 (by norm_num) (by norm_num)
  have hat : Nb _ _ 3.11e-17 3.285e-3 := hD.nmul hA ht (by norm_num) (by norm_num)
  have hbt : Nb _ _ 1.58e-17 5.537e-4 := hD.nmul hB ht3 (by norm_num) (by norm_num)
  have hcc : Nb _ _ 2.13e-15 1 := hD.nmul n2 n2 (by norm_num) (by norm_num)
  have n3 : Nb 3 3 0 3 := Nb.self (by norm_num)
  have n4 : Nb _ _ 3.61e-22 3e-6 := hD.nmul n3 hB (by norm_num) (by norm_num)
  have n5 : Nb _ _ 3.86e-18 2.023e-4 := hD.nmul n4 ht2 (by norm_num) (by norm_num)
  have n6 : Nb _ _ 3.94e-18 6.023e-4 := hD.nadd hA n5 (by norm_num) (by norm_num)
  have n7 : Nb _ _ 6.14e-15 0.0407 := hD.ndiv (m := 0.0148) (E := 6.13e-15) n6 hcc hc2 (by norm_num) (by norm_num) (by norm_num) (by norm_num)
  have n8 : Nb 1 1 0 1 := Nb.self (by norm_num)
  have hsl : Nb _ _ 6.27e-15 1.041 := hD.nadd n8 n7 (by norm_num) (by norm_num)
  exact ⟨hat, hbt, hsl⟩

/-- What the exact arithmetic does up to 83 degrees. -/
theorem refz_exact {A B z : ℝ} (hA : 0 ≤ A) (hA4 : A ≤ 4e-4) (hB : -A / 410 ≤ B) (hB0 : B ≤ 0) (hz : |z| ≤ 83 / Sla.refzR2D) :
    0.1218 ≤ Real.cos z ∧
    1 ≤ 1 + (A + 3 * B * (Real.sin z / Real.cos z * (Real.sin z / Real.cos z))) / (Real.cos z * Real.cos z) ∧
    (0 ≤ z → 0 ≤ A * (Real.sin z / Real.cos z) + B * (Real.sin z / Real.cos z * (Real.sin z / Real.cos z * (Real.sin z / Real.cos z))) ∧
      A * (Real.sin z / Real.cos z) + B * (Real.sin z / Real.cos z * (Real.sin z / Real.cos z * (Real.sin z / Real.cos z))) ≤ 0.0033) := by
  obtain ⟨t1, t2, t3⟩ := refz_thr
  have p1 := Real.pi_gt_d20
  have p2 := Real.pi_lt_d20
  have hcos : 0.1218 ≤ Real.cos z := by
    rw [← Real.cos_abs]
    have h2 : Real.cos (83 / Sla.refzR2D) ≤ Real.cos |z| := Real.cos_le_cos_of_nonneg_of_le_pi (abs_nonneg z) (by linarith) hz
    have e : Real.cos (83 / Sla.refzR2D) = Real.sin (7 * (Real.pi / 180)) := by
      rw [t3, ← Real.cos_pi_div_two_sub]; congr 1; ring
    have h3 := Real.sin_gt_sub_cube (x := 7 * (Real.pi / 180)) (by positivity)
    have x1 : 0.12217 ≤ 7 * (Real.pi / 180) := by norm_num at p1 ⊢; linarith
    have x2 : 7 * (Real.pi / 180) ≤ 0.12218 := by norm_num at p2 ⊢; linarith
    have h4 : (7 * (Real.pi / 180)) ^ 3 ≤ 0.12218 ^ 3 := pow_le_pow_left₀ (by positivity) x2 3
    rw [e] at h2
    have h5 : (0.12218 : ℝ) ^ 3 ≤ 0.0019 := by norm_num
    linarith
  have hc0 : 0 < Real.cos z := by linarith
  have hsc := Real.sin_sq_add_cos_sq z
  set t := Real.sin z / Real.cos z with ht
  have ht2 : t * t ≤ 67.5 := by
    rw [ht, div_mul_div_comm, div_le_iff₀ (by positivity)]
    nlinarith
  have hAB : 0 ≤ A + 3 * B * (t * t) := by
    have := mul_le_mul_of_nonneg_right hB (mul_self_nonneg t)
    have h2 := mul_le_mul_of_nonneg_left ht2 hA
    have : -A / 410 * (t * t) = -(A * (t * t)) / 410 := by ring
    nlinarith
  refine ⟨hcos, le_add_of_nonneg_right (by positivity), fun h0 => ?_⟩
  have hs0 : 0 ≤ Real.sin z := by
    rw [abs_of_nonneg h0] at hz
    exact Real.sin_nonneg_of_nonneg_of_le_pi h0 (by linarith)
  have ht0 : 0 ≤ t := by positivity
  have htb : t ≤ 8.22 := by nlinarith
  have e : A * t + B * (t * (t * t)) = t * (A + B * (t * t)) := by ring
  have hAB1 : 0 ≤ A + B * (t * t) := by nlinarith [mul_nonpos_of_nonpos_of_nonneg hB0 (mul_self_nonneg t)]
  have hAB2 : A + B * (t * t) ≤ 4e-4 := by nlinarith [mul_nonpos_of_nonpos_of_nonneg hB0 (mul_self_nonneg t)]
  rw [e]
  refine ⟨mul_nonneg ht0 hAB1, (mul_le_mul htb hAB2 hAB1 (by norm_num)).trans (by norm_num)⟩

/-- The refraction up to 83 degrees in exact arithmetic. -/
noncomputable def refzRef (refa refb zu1 : ℝ) : ℝ :=
  zu1 - (zu1 - Sla.refzStep refa refb zu1 zu1) + Sla.refzStep refa refb zu1 (zu1 - Sla.refzStep refa refb zu1 zu1)

theorem refzSmall_near (hD : Dbl D) (hs : ∀ x, |sn x - Real.sin x| ≤ 2e-16) (hc : ∀ x, |cs x - Real.cos x| ≤ 2e-16) {z' z A B : ℝ} (hz : Nb z' z 3.77e-16 1.45) (hz0 : 0 ≤ z) (hzt : z ≤ 83 / Sla.refzR2D)
    (hA : 0 ≤ A) (hA4 : A ≤ 4e-4) (hB : -A / 410 ≤ B) (hB0 : B ≤ 0) :
    |refzSmall D sn cs A B z' - refzRef A B z| ≤ 2.49e-15 ∧ |refzRef A B z| ≤ 1.044e-2 := by
  have nA : Nb A A 0 4e-4 := Nb.self (by rw [abs_of_nonneg hA]; exact hA4)
  have nB : Nb B B 0 1e-6 := Nb.self (by rw [abs_of_nonpos hB0]; norm_num at hA4 ⊢; linarith)
  obtain ⟨t1, t2, t3⟩ := refz_thr
  obtain ⟨c1, e1', m1⟩ := refz_exact hA hA4 hB hB0 (z := z) (by rw [abs_of_nonneg hz0]; exact hzt)
  obtain ⟨m2, m3⟩ := m1 hz0
  obtain ⟨a1, b1, s1⟩ := refz_parts hD hs hc (⟨hz.err.trans (by norm_num), hz.bd⟩ : Nb z' z 8e-16 1.45)
    (c1.trans (le_abs_self _)) nA nB
  unfold refzSmall refzRef Sla.refzStep
  dsimp only
  simp only [sub_self, zero_add]
  set S := 1 + (A + 3 * B * (Real.sin z / Real.cos z * (Real.sin z / Real.cos z))) / (Real.cos z * Real.cos z) with hS
  set N := A * (Real.sin z / Real.cos z) + B * (Real.sin z / Real.cos z * (Real.sin z / Real.cos z * (Real.sin z / Real.cos z))) with hN
  have e1 : 1 ≤ |S| := e1'.trans (le_abs_self _)
  have q0 : 0 ≤ N / S := div_nonneg m2 (by linarith)
  have q1 : N / S ≤ 0.0033 := (div_le_self m2 e1').trans m3
  have hzlb' : |z - N / S| ≤ 83 / Sla.refzR2D := by rw [abs_le]; constructor <;> linarith
  have hzlb : |z - N / S| ≤ 1.45 := hzlb'.trans (by linarith)
  obtain ⟨c2, e2', -⟩ := refz_exact hA hA4 hB hB0 hzlb'
  have n1 : Nb _ _ 4.74e-17 3.839e-3 := hD.nadd a1 b1 (by norm_num) (by norm_num)
  have hst : Nb _ _ 7.2e-17 3.839e-3 := hD.ndiv (m := 1) (E := 7.15e-17) n1 s1 e1 (by norm_num) (by norm_num) (by norm_num) (by norm_num)
  have n2 : Nb _ _ 6.24e-16 1.454 := hD.nsub hz hst (by norm_num) (by norm_num)
  have hzl : Nb _ _ 8e-16 1.45 := ⟨n2.err.trans (by norm_num), hzlb⟩
  generalize D (z' - D (D (D (A * D (sn z' / cs z')) + D (B * D (D (sn z' / cs z') * D (D (sn z' / cs z') * D (sn z' / cs z'))))) /
    refzSlope D A B (cs z') (D (D (sn z' / cs z') * D (sn z' / cs z'))))) = zl' at *
  have hdb : |z - (z - N / S)| ≤ 0.0033 := by rw [sub_sub_cancel, abs_of_nonneg q0]; exact q1
  generalize z - N / S = zl at *
  obtain ⟨a2, b2, s2⟩ := refz_parts hD hs hc hzl (c2.trans (le_abs_self _)) nA nB
  have e2 := e2'.trans (le_abs_self _)
  have w1 := nb_sub hz.err hzl.err hdb
  have w2 := nb_sub hzl.err hz.err ((abs_sub_comm _ _).trans_le hdb)
  have d1 : Nb _ _ 1.18e-15 0.0033 := hD.nround w1 (by norm_num) (by norm_num)
  have n51 : Nb _ _ 1.18e-15 0.0033 := hD.nround w2 (by norm_num) (by norm_num)
  have n52 : Nb _ _ 1.22e-15 6.585e-3 := hD.nadd n51 a2 (by norm_num) (by norm_num)
  have n53 : Nb _ _ 1.24e-15 7.139e-3 := hD.nadd n52 b2 (by norm_num) (by norm_num)
  have n54 : Nb _ _ 1.3e-15 7.139e-3 := hD.ndiv (m := 1) (E := 1.29e-15) n53 s2 e2 (by norm_num) (by norm_num) (by norm_num) (by norm_num)
  have href : Nb _ _ 2.49e-15 1.044e-2 := hD.nadd d1 n54 (by norm_num) (by norm_num)
  exact ⟨href.err, href.bd⟩

theorem refz83_near (hD : Dbl D) : Nb (refz83 D) (Sla.refzHigh 7) 1.65e-16 0.1832 ∧ 0.138 ≤ |Sla.refzHigh 7| := by
  have e : Sla.refzHigh 7 = (0.55445 + -0.01133 * 7 + 0.00202 * 49) / (1 + 0.28385 * 7 + 0.02390 * 49) := by
    rw [Sla.refzHigh, show (7 : ℝ) * 7 = 49 by norm_num]
  rw [e]
  have n1 : Nb _ _ 6.66e-17 5.5445e-1 := hD.nlit (x := 0.55445) (by norm_num) (by norm_num)
  have n2 : Nb _ _ 1.36e-18 1.133e-2 := hD.nlit (x := 0.01133) (by norm_num) (by norm_num)
  have n3 : Nb _ _ 2.43e-19 2.02e-3 := hD.nlit (x := 0.00202) (by norm_num) (by norm_num)
  have n4 : Nb _ _ 3.41e-17 2.8385e-1 := hD.nlit (x := 0.28385) (by norm_num) (by norm_num)
  have n5 : Nb _ _ 2.87e-18 0.0239 := hD.nlit (x := 0.02390) (by norm_num) (by norm_num)
  have n6 : Nb 1 1 0 1 := Nb.self (by norm_num)
  have n7 : Nb 7 7 0 7 := Nb.self (by norm_num)
  have n8 : Nb 49 49 0 49 := Nb.self (by norm_num)
  have n9 : Nb _ _ 1.91e-17 7.931e-2 := hD.nmul n2.neg n7 (by norm_num) (by norm_num)
  have n10 : Nb _ _ 1.62e-16 0.6338 := hD.nadd n1 n9 (by norm_num) (by norm_num)
  have n11 : Nb _ _ 2.38e-17 9.898e-2 := hD.nmul n3 n8 (by norm_num) (by norm_num)
  have n12 : Nb _ _ 2.74e-16 0.7328 := hD.nadd n10 n11 (by norm_num) (by norm_num)
  have n13 : Nb _ _ 4.78e-16 1.987 := hD.nmul n4 n7 (by norm_num) (by norm_num)
  have n14 : Nb _ _ 8.37e-16 2.987 := hD.nadd n6 n13 (by norm_num) (by norm_num)
  have n15 : Nb _ _ 2.82e-16 1.172 := hD.nmul n5 n8 (by norm_num) (by norm_num)
  have n16 : Nb _ _ 1.62e-15 4.159 := hD.nadd n14 n15 (by norm_num) (by norm_num)
  have r83 : Nb _ _ 1.65e-16 0.1832 := hD.ndiv (m := 4) (E := 1.43e-16) n12 n16 (by norm_num) (by norm_num) (by norm_num) (by norm_num) (by norm_num)
  exact ⟨r83, by norm_num⟩

/-- The refraction beyond 83 degrees in exact arithmetic. -/
noncomputable def refzBig (zu ref : ℝ) : ℝ :=
  let e := 90 - min 93 (zu * Sla.refzR2D)
  ref / Sla.refzHigh 7 * (0.55445 + -0.01133 * e + 0.00202 * (e * e)) / (1 + 0.28385 * e + 0.02390 * (e * e))

theorem refzLarge_near (hD : Dbl D) {zu r' r : ℝ} (h1 : 1.448 ≤ zu) (h2 : zu ≤ 4) (hr : Nb r' r 2.49e-15 1.044e-2) :
    Nb (refzLarge D zu r') (refzBig zu r) 5.53e-14 0.1549 := by
  have hzu : Nb zu zu 0 4 := Nb.self (by rw [abs_of_nonneg (by linarith)]; exact h2)
  have h83 := refz83_near hD
  have hR := refzR2D_ge
  have hR0 : 0 < Sla.refzR2D := by unfold Sla.refzR2D; positivity
  rw [abs_of_pos hR0] at hR
  have hE1 : 90 - min 93 (zu * Sla.refzR2D) ≤ 7.1 := by
    have : 82.9 ≤ min 93 (zu * Sla.refzR2D) := le_min (by norm_num) (by nlinarith)
    linarith
  have hE2 : -3 ≤ 90 - min 93 (zu * Sla.refzR2D) := by linarith [min_le_left 93 (zu * Sla.refzR2D)]
  have hE : |90 - min 93 (zu * Sla.refzR2D)| ≤ 7.1 := abs_le.2 ⟨by linarith, hE1⟩
  have hden : 0.36 ≤ |1 + 0.28385 * (90 - min 93 (zu * Sla.refzR2D)) + 0.02390 * ((90 - min 93 (zu * Sla.refzR2D)) * (90 - min 93 (zu * Sla.refzR2D)))| := by
    refine le_trans ?_ (le_abs_self _)
    generalize 90 - min 93 (zu * Sla.refzR2D) = e at *
    nlinarith [mul_nonneg (sub_nonneg.2 hE2) (sub_nonneg.2 hE2)]
  unfold refzLarge refzBig
  dsimp only
  have n1 : Nb _ _ 5.96e-14 229.2 := hD.nmul hzu (refzR2D_near hD) (by norm_num) (by norm_num)
  have hmin : |min 93 (D (zu * D 57.29577951308232)) - min 93 (zu * Sla.refzR2D)| ≤ 5.96e-14 := by
    refine (abs_min_sub_min_le_max _ _ _ _).trans (max_le (by norm_num) n1.err)
  have we := nb_sub (a := 90) (x := 90) (e := 0) (by norm_num) hmin hE
  have n2 : Nb _ _ 6.05e-14 7.1 := hD.nround we (by norm_num) (by norm_num)
  have n3 : Nb _ _ 8.66e-13 50.41 := hD.nmul n2 n2 (by norm_num) (by norm_num)
  have n4 : Nb _ _ 6.66e-17 5.5445e-1 := hD.nlit (x := 0.55445) (by norm_num) (by norm_num)
  have n5 : Nb _ _ 1.36e-18 1.133e-2 := hD.nlit (x := 0.01133) (by norm_num) (by norm_num)
  have n6 : Nb _ _ 2.43e-19 2.02e-3 := hD.nlit (x := 0.00202) (by norm_num) (by norm_num)
  have n7 : Nb _ _ 3.41e-17 2.8385e-1 := hD.nlit (x := 0.28385) (by norm_num) (by norm_num)
  have n8 : Nb _ _ 2.87e-18 0.0239 := hD.nlit (x := 0.02390) (by norm_num) (by norm_num)
  have n9 : Nb 1 1 0 1 := Nb.self (by norm_num)
  have n10 : Nb _ _ 7.05e-16 8.045e-2 := hD.nmul n5.neg n2 (by norm_num) (by norm_num)
  have n11 : Nb _ _ 8.48e-16 0.6349 := hD.nadd n4 n10 (by norm_num) (by norm_num)
  have n12 : Nb _ _ 1.78e-15 0.1019 := hD.nmul n6 n3 (by norm_num) (by norm_num)
  have n13 : Nb _ _ 2.72e-15 0.7368 := hD.nadd n11 n12 (by norm_num) (by norm_num)
  have n14 : Nb _ _ 1.77e-14 2.016 := hD.nmul n7 n2 (by norm_num) (by norm_num)
  have n15 : Nb _ _ 1.81e-14 3.016 := hD.nadd n9 n14 (by norm_num) (by norm_num)
  have n16 : Nb _ _ 2.1e-14 1.205 := hD.nmul n8 n3 (by norm_num) (by norm_num)
  have n17 : Nb _ _ 3.97e-14 4.221 := hD.nadd n15 n16 (by norm_num) (by norm_num)
  have n18 : Nb _ _ 1.83e-14 7.566e-2 := hD.ndiv (m := 0.138) (E := 1.82e-14) hr h83.1 h83.2 (by norm_num) (by norm_num) (by norm_num) (by norm_num)
  have n19 : Nb _ _ 1.37e-14 5.575e-2 := hD.nmul n18 n13 (by norm_num) (by norm_num)
  have hlg : Nb _ _ 5.53e-14 0.1549 := hD.ndiv (m := 0.36) (E := 5.52e-14) n19 n17 hden (by norm_num) (by norm_num) (by norm_num) (by norm_num)
  exact hlg

/-- At 83 degrees the two formulae agree. -/
theorem refzBig_joint {zu r : ℝ} (h : |zu - 83 / Sla.refzR2D| ≤ 4e-16) (hr : |r| ≤ 1.044e-2) : |refzBig zu r - r| ≤ 1e-16 := by
  have hR := (refzR2D_near (D := id) (by intro x; simp; positivity)).bd
  have hR0 : 0 < Sla.refzR2D := by unfold Sla.refzR2D; positivity
  rw [abs_of_pos hR0] at hR
  have e83 : 83 / Sla.refzR2D * Sla.refzR2D = 83 := by field_simp
  have hd : |zu * Sla.refzR2D - 83| ≤ 2.3e-14 := by
    have : zu * Sla.refzR2D - 83 = (zu - 83 / Sla.refzR2D) * Sla.refzR2D := by rw [sub_mul, e83]
    rw [this, abs_mul, abs_of_pos hR0]
    exact (mul_le_mul h hR hR0.le (by norm_num)).trans (by norm_num)
  obtain ⟨d1, d2⟩ := abs_le.1 hd
  have hmin : min 93 (zu * Sla.refzR2D) = zu * Sla.refzR2D := min_eq_right (by linarith)
  unfold refzBig
  dsimp only
  rw [hmin]
  obtain ⟨δ, hδ⟩ : ∃ δ, δ = 83 - zu * Sla.refzR2D := ⟨_, rfl⟩
  rw [show 90 - zu * Sla.refzR2D = 7 + δ by rw [hδ]; ring]
  have hδ' : |δ| ≤ 2.3e-14 := by rw [hδ, abs_sub_comm]; exact hd
  clear hδ hd d1 d2 hmin e83
  obtain ⟨d1, d2⟩ := abs_le.1 hδ'
  have e7 : Sla.refzHigh 7 = 574120 / 4158050 := by unfold Sla.refzHigh; norm_num
  rw [e7]
  have hden : 4 ≤ 1 + 0.28385 * (7 + δ) + 0.02390 * ((7 + δ) * (7 + δ)) := by nlinarith
  have key : r / (574120 / 4158050) * (0.55445 + -0.01133 * (7 + δ) + 0.00202 * ((7 + δ) * (7 + δ))) /
      (1 + 0.28385 * (7 + δ) + 0.02390 * ((7 + δ) * (7 + δ))) - r =
      r * (δ * (((-0.01133 + 0.02828 + 0.00202 * δ) * 4158050 - (0.28385 + 0.3346 + 0.0239 * δ) * 574120) / 574120 /
        (1 + 0.28385 * (7 + δ) + 0.02390 * ((7 + δ) * (7 + δ))))) := by
    have hne : (1 + 0.28385 * (7 + δ) + 0.02390 * ((7 + δ) * (7 + δ))) ≠ 0 := by linarith
    obtain ⟨d, hd⟩ : ∃ d, d = 1 + 0.28385 * (7 + δ) + 0.02390 * ((7 + δ) * (7 + δ)) := ⟨_, rfl⟩
    rw [← hd] at hne ⊢
    field_simp
    rw [hd]
    ring
  rw [key, abs_mul, abs_mul]
  have hk : |((-0.01133 + 0.02828 + 0.00202 * δ) * 4158050 - (0.28385 + 0.3346 + 0.0239 * δ) * 574120) / 574120 /
        (1 + 0.28385 * (7 + δ) + 0.02390 * ((7 + δ) * (7 + δ)))| ≤ 0.3 := by
    rw [abs_div, abs_of_pos (show 0 < 1 + 0.28385 * (7 + δ) + 0.02390 * ((7 + δ) * (7 + δ)) by linarith),
      div_le_iff₀ (by linarith)]
    refine le_trans (b := 1) ?_ (by linarith)
    rw [abs_le]; constructor <;> linarith
  calc |r| * (|δ| * _) ≤ 1.044e-2 * (2.3e-14 * 0.3) :=
        mul_le_mul hr (mul_le_mul hδ' hk (abs_nonneg _) (by norm_num)) (by positivity) (by norm_num)
    _ ≤ 1e-16 := by norm_num

/-- The refraction itself. -/
theorem refz_near (hD : Dbl D) (hs : ∀ x, |sn x - Real.sin x| ≤ 2e-16) (hc : ∀ x, |cs x - Real.cos x| ≤ 2e-16) {zu A B : ℝ} (hz0 : 0 ≤ zu) (hz4 : zu ≤ 4)
    (hA : 0 ≤ A) (hA4 : A ≤ 4e-4) (hB : -A / 410 ≤ B) (hB0 : B ≤ 0) :
    |refz D sn cs zu A B - Sla.refz zu A B| ≤ 5.7e-14 ∧
    (zu ≤ 1.4486 → |refz D sn cs zu A B - Sla.refz zu A B| ≤ 3.1e-15) := by
  obtain ⟨t1, t2, t3⟩ := refz_thr
  have ht := refzThr_near hD
  have hm : |min zu (D (83 / D 57.29577951308232)) - min zu (83 / Sla.refzR2D)| ≤ 3.77e-16 :=
    (abs_min_sub_min_le_max _ _ _ _).trans (max_le (by norm_num) ht.err)
  have hm0 : 0 ≤ min zu (83 / Sla.refzR2D) := le_min hz0 (by linarith)
  have hmt := min_le_right zu (83 / Sla.refzR2D)
  obtain ⟨r1, r2⟩ := refzSmall_near hD hs hc ⟨hm, by rw [abs_of_nonneg hm0]; linarith⟩ hm0 hmt hA hA4 hB hB0
  have hex : Sla.refz zu A B = zu - (if zu > min zu (83 / Sla.refzR2D) then refzBig zu (refzRef A B (min zu (83 / Sla.refzR2D)))
      else refzRef A B (min zu (83 / Sla.refzR2D))) := by
    unfold Sla.refz refzBig refzRef; rfl
  have hfp : refz D sn cs zu A B = D (zu - (if zu > min zu (D (83 / D 57.29577951308232)) then
      refzLarge D zu (refzSmall D sn cs A B (min zu (D (83 / D 57.29577951308232))))
      else refzSmall D sn cs A B (min zu (D (83 / D 57.29577951308232))))) := rfl
  rw [hex, hfp]
  generalize refzSmall D sn cs A B (min zu (D (83 / D 57.29577951308232))) = r' at *
  generalize refzRef A B (min zu (83 / Sla.refzR2D)) = r at *
  have hzu : |zu| ≤ 4 := by rw [abs_of_nonneg hz0]; exact hz4
  have herr := ht.err
  generalize D (83 / D 57.29577951308232) = T' at *
  clear ht t3 hex hfp
  generalize hT : 83 / Sla.refzR2D = T at *
  obtain ⟨f1, f2⟩ := abs_le.1 herr
  have hd4 : T - 4e-16 ≤ T' ∧ T' ≤ T + 4e-16 := by constructor <;> norm_num at f1 f2 ⊢ <;> linarith
  obtain ⟨f3, f4⟩ := hd4
  have fin : ∀ {a x e g : ℝ}, |a - x| ≤ e → |zu - x| ≤ 4.2 → e + 1.2e-16 * (4.2 + e) + 1e-200 ≤ g → |D (zu - a) - (zu - x)| ≤ g := by
    intro a x e g h1 h2 h3
    refine hD.round (e := e) ?_ h2 h3
    rw [show zu - a - (zu - x) = -(a - x) by ring, abs_neg]; exact h1
  have bd : ∀ {x : ℝ}, |x| ≤ 0.1549 → |zu - x| ≤ 4.2 := fun {x} h => (abs_sub _ _).trans (by linarith)
  have nr : Nb r' r 2.49e-15 1.044e-2 := ⟨r1, r2⟩
  by_cases c1 : zu ≤ T
  · have x1 : ¬ zu > min zu T := by rw [min_eq_left c1]; exact lt_irrefl zu
    rw [if_neg x1]
    by_cases c2 : zu ≤ T'
    · have x2 : ¬ zu > min zu T' := by rw [min_eq_left c2]; exact lt_irrefl zu
      rw [if_neg x2]
      have := fin r1 (bd (r2.trans (by norm_num))) (g := 3.1e-15) (by norm_num)
      exact ⟨this.trans (by norm_num), fun _ => this.trans (by norm_num)⟩
    · push Not at c2
      have x2 : zu > min zu T' := lt_of_le_of_lt (min_le_right _ _) c2
      rw [if_pos x2]
      have hl := refzLarge_near hD (by linarith) hz4 nr
      have hj := refzBig_joint (zu := zu) (by rw [hT]; rw [abs_le]; constructor <;> linarith) r2
      have : |refzLarge D zu r' - r| ≤ 5.54e-14 := by
        have := abs_sub_le (refzLarge D zu r') (refzBig zu r) r
        have := hl.err
        norm_num at *; linarith
      have := fin this (bd (r2.trans (by norm_num))) (g := 5.7e-14) (by norm_num)
      exact ⟨this, fun h => absurd h (by linarith)⟩
  · push Not at c1
    have x1 : zu > min zu T := lt_of_le_of_lt (min_le_right _ _) c1
    rw [if_pos x1]
    refine ⟨?_, fun h => absurd h (by linarith)⟩
    have hl := refzLarge_near hD (by linarith) hz4 nr
    by_cases c2 : zu ≤ T'
    · have x2 : ¬ zu > min zu T' := by rw [min_eq_left c2]; exact lt_irrefl zu
      rw [if_neg x2]
      have hj := refzBig_joint (zu := zu) (by rw [hT]; rw [abs_le]; constructor <;> linarith) r2
      have : |r' - refzBig zu r| ≤ 3e-15 := by
        have := abs_sub_le r' r (refzBig zu r)
        rw [abs_sub_comm r] at this
        norm_num at r1 hj ⊢; linarith
      exact fin this (bd hl.bd) (g := 5.7e-14) (by norm_num)
    · push Not at c2
      have x2 : zu > min zu T' := lt_of_le_of_lt (min_le_right _ _) c2
      rw [if_pos x2]
      exact fin hl.err (bd hl.bd) (g := 5.7e-14) (by norm_num)


end Sla.Fp
