import Verif.Model.FpDispersion
import Verif.Lemmas.FpRefcoq

/-
Running error bounds for `atmdsp`, generated.
-/
namespace Sla.Fp

variable {D : ℝ → ℝ} {pw : ℝ → ℝ → ℝ}

private theorem rpow_ten_near {y' y : ℝ} {e : ℝ} (h : |y' - y| ≤ e) (he : e ≤ 0.1) (hy : y ≤ 2.5) :
    0 ≤ (10 : ℝ) ^ y ∧ (10 : ℝ) ^ y ≤ 317 ∧ |(10 : ℝ) ^ y' - (10 : ℝ) ^ y| ≤ 317 * (6 * e) := by
  have h10 : (0 : ℝ) < 10 := by norm_num
  have h0 : (0 : ℝ) ≤ (10 : ℝ) ^ y := (Real.rpow_pos_of_pos h10 y).le
  have hle : (10 : ℝ) ^ y ≤ 317 := by
    have h1 : (10 : ℝ) ^ y ≤ (10 : ℝ) ^ (2.5 : ℝ) := Real.rpow_le_rpow_of_exponent_le (by norm_num) hy
    refine h1.trans ?_
    by_contra hc
    push Not at hc
    have h2 : (317 : ℝ) ^ 2 < ((10 : ℝ) ^ (2.5 : ℝ)) ^ 2 := pow_lt_pow_left₀ hc (by norm_num) (by norm_num)
    rw [← Real.rpow_natCast ((10 : ℝ) ^ (2.5 : ℝ)) 2, ← Real.rpow_mul h10.le,
      show (2.5 : ℝ) * ((2 : ℕ) : ℝ) = ((5 : ℕ) : ℝ) by norm_num, Real.rpow_natCast] at h2
    norm_num at h2
  refine ⟨h0, hle, ?_⟩
  have hlog : Real.log 10 ≤ 3 := by
    rw [Real.log_le_iff_le_exp h10]
    have h1 := Real.exp_one_gt_d9
    have e3 : Real.exp 3 = Real.exp 1 ^ 3 := by rw [← Real.exp_nat_mul]; norm_num
    rw [e3]
    have : (2.7 : ℝ) ^ 3 ≤ Real.exp 1 ^ 3 := pow_le_pow_left₀ (by norm_num) (by norm_num at h1 ⊢; linarith) 3
    norm_num at this ⊢; linarith
  have hlog0 : 0 ≤ Real.log 10 := Real.log_nonneg (by norm_num)
  have e1 : (10 : ℝ) ^ y' - (10 : ℝ) ^ y = (10 : ℝ) ^ y * (Real.exp (Real.log 10 * (y' - y)) - 1) := by
    rw [← Real.rpow_def_of_pos h10, mul_sub, ← Real.rpow_add h10, mul_one, add_sub_cancel]
  have h3 : |Real.log 10 * (y' - y)| ≤ 3 * e := by
    rw [abs_mul, abs_of_nonneg hlog0]
    exact mul_le_mul hlog h (abs_nonneg _) (by norm_num)
  have h4 := Real.abs_exp_sub_one_le (x := Real.log 10 * (y' - y)) (h3.trans (by linarith))
  rw [e1, abs_mul, abs_of_nonneg h0]
  exact mul_le_mul hle (h4.trans (by linarith)) (abs_nonneg _) (by norm_num)

private theorem div_sq (hD : Dbl D) {a x e A w g C : ℝ} (h : Nb a x e A) (hw : 0.11 ≤ w) (hC : 83 * A ≤ C)
    (hg : 83 * e + 83 * (2.6e-16 * (A + e)) + 1e-199 ≤ g) :
    Nb (D (a / D (w * w))) (x / (w * w)) g C := by
  have hw2 : 0.0121 ≤ w * w := by
    have := mul_le_mul hw hw (by norm_num) (by linarith)
    norm_num at this ⊢; linarith
  have e1 := hD (w * w)
  generalize w * w = u at *
  have hu0 : 0 < u := by linarith
  rw [abs_of_pos hu0] at e1
  have e0 : 0 ≤ e := (abs_nonneg _).trans h.err
  have A0 : 0 ≤ A := (abs_nonneg _).trans h.bd
  have e2 : |D u - u| ≤ 1.21e-16 * u := e1.trans (by norm_num at hw2 ⊢; linarith)
  obtain ⟨l1, l2⟩ := abs_le.1 e2
  have hv0 : 0 < D u := by norm_num at l1; linarith
  have hi : 1 / u ≤ 82.7 := by rw [div_le_iff₀ hu0]; norm_num at hw2 ⊢; linarith
  have hdv : 1 / D u ≤ 82.8 := by rw [div_le_iff₀ hv0]; norm_num at l1 hw2 ⊢; linarith
  have bx : |x / u| ≤ 82.7 * A := by
    rw [abs_div, abs_of_pos hu0, div_eq_mul_one_div, mul_comm]
    exact mul_le_mul hi h.bd (abs_nonneg _) (by norm_num)
  have er : |a / D u - x / u| ≤ 82.8 * e + 1.22e-16 * (82.8 * A) := by
    have hne : u ≠ 0 := hu0.ne'
    have hne' : D u ≠ 0 := hv0.ne'
    have e3 : a / D u - x / u = (a - x) * (1 / D u) + x * (1 / D u) * ((u - D u) / u) := by field_simp; ring
    have h5 : |(u - D u) / u| ≤ 1.22e-16 := by
      rw [abs_div, abs_of_pos hu0, div_le_iff₀ hu0, abs_sub_comm]
      norm_num at e2 ⊢; linarith
    have hp : (0 : ℝ) < 1 / D u := by positivity
    rw [e3]
    refine (abs_add_le _ _).trans ?_
    rw [abs_mul, abs_mul, abs_mul, abs_of_pos hp]
    have q1 : |a - x| * (1 / D u) ≤ e * 82.8 := mul_le_mul h.err hdv hp.le e0
    have q2 : |x| * (1 / D u) ≤ A * 82.8 := mul_le_mul h.bd hdv hp.le A0
    have q3 := mul_le_mul q2 h5 (abs_nonneg _) (by positivity)
    norm_num at q1 q3 ⊢; linarith
  refine ⟨hD.round er bx (le_trans ?_ hg), bx.trans (le_trans (by linarith) hC)⟩
  norm_num
  linarith

/-- The refractivity. -/
theorem atmdspN_near (hD : Dbl D) (hpw : ∀ y, |pw 10 y - (10 : ℝ) ^ y| ≤ 3e-16 * (10 : ℝ) ^ y) {t p r wl : ℝ} (h : RefcoqWeather t p r)
    (hw : 0.11 ≤ wl) : Nb (atmdspN D pw t p r wl) (Sla.atmdspN t p r wl) 1.19e-18 7.427e-4 ∧ 8.5e-5 ≤ Sla.atmdspN t p r wl := by
  obtain ⟨t0, t1, p0, p1, r0, r1⟩ := h
  have hp : Nb p p 0 1200 := Nb.self (by rw [abs_of_nonneg (by linarith)]; exact p1)
  have hr : Nb r r 0 1 := Nb.self (by rw [abs_of_nonneg r0]; exact r1)
  have ht : Nb t t 0 320 := Nb.self (by rw [abs_of_nonneg (by linarith)]; exact t1)
  have ht2 : 230 ≤ |t| := t0.trans (le_abs_self _)
  have k1 : min (max t 100) 500 = t := by rw [max_eq_left (by linarith), min_eq_left (by linarith)]
  have k2 : min (max p 0) 10000 = p := by rw [max_eq_left (by linarith), min_eq_left (by linarith)]
  have k3 : min (max r 0) 1 = r := by rw [max_eq_left r0, min_eq_left r1]
  have k5 : max wl 0.1 = wl := max_eq_left (by linarith)
  have k6 : max wl (D 0.1) = wl := by
    have := hD 0.1
    rw [abs_of_pos (show (0 : ℝ) < 0.1 by norm_num)] at this
    have := (abs_le.1 this).2
    exact max_eq_left (by norm_num at this hw; linarith)
  have hy2 : -8.7115 + 0.03477 * t ≤ 2.5 := by linarith
  unfold atmdspN Sla.atmdspN
  simp only [k1, k2, k3, k5, k6]
  have n1 : Nb _ _ 1.05e-15 8.7115e0 := hD.nlit (x := 8.7115) (by norm_num) (by norm_num)
  have n2 : Nb _ _ 4.18e-18 3.477e-2 := hD.nlit (x := 0.03477) (by norm_num) (by norm_num)
  have n3 : Nb _ _ 2.68e-15 11.13 := hD.nmul n2 ht (by norm_num) (by norm_num)
  have hy : Nb _ _ 6.12e-15 19.85 := hD.nadd n1.neg n3 (by norm_num) (by norm_num)
  obtain ⟨z0, z1, z2⟩ := rpow_ten_near hy.err (by norm_num) hy2
  have hpow : Nb (pw 10 (D (-D 8.7115 + D (D 0.03477 * t)))) ((10 : ℝ) ^ (-8.7115 + 0.03477 * t)) 1.18e-11 317 := by
    refine ⟨?_, by rw [abs_of_nonneg z0]; exact z1⟩
    have p1 := hpw (D (-D 8.7115 + D (D 0.03477 * t)))
    generalize (D (-D 8.7115 + D (D 0.03477 * t))) = y1 at *
    generalize (10 : ℝ) ^ (-8.7115 + 0.03477 * t) = P at *
    have p2 := abs_sub_le (pw 10 y1) ((10 : ℝ) ^ y1) P
    have p3 := (abs_le.1 z2).2
    norm_num at p1 z2 p3 ⊢; linarith
  have n4 : Nb _ _ 1.36e-21 1.12684e-5 := hD.nlit (x := 11.2684e-6) (by norm_num) (by norm_num)
  have n5 : Nb _ _ 1.19e-11 317 := hD.nmul hr hpow (by norm_num) (by norm_num)
  have n6 : Nb _ _ 1.35e-16 3.573e-3 := hD.nmul n4 n5 (by norm_num) (by norm_num)
  have n7 : Nb _ _ 5.27e-23 4.3909e-7 := hD.nlit (x := 0.43909e-6) (by norm_num) (by norm_num)
  have n8 : Nb _ _ 4.41e-25 3.67e-9 := hD.nlit (x := 0.00367e-6) (by norm_num) (by norm_num)
  have n9 : Nb _ _ 1.16e-22 3.047e-7 := div_sq hD n8 hw (by norm_num) (by norm_num)
  have n10 : Nb _ _ 2.58e-22 7.438e-7 := hD.nadd n7 n9 (by norm_num) (by norm_num)
  have n11 : Nb _ _ 9.31e-21 7.75317e-5 := hD.nlit (x := 77.5317e-6) (by norm_num) (by norm_num)
  have n12 : Nb _ _ 3.75e-20 6.174e-5 := div_sq hD n10 hw (by norm_num) (by norm_num)
  have n13 : Nb _ _ 6.36e-20 1.393e-4 := hD.nadd n11 n12 (by norm_num) (by norm_num)
  have n14 : Nb _ _ 9.64e-17 0.1672 := hD.nmul n13 hp (by norm_num) (by norm_num)
  have n15 : Nb _ _ 2.52e-16 0.1708 := hD.nsub n14 n6 (by norm_num) (by norm_num)
  have hn : Nb _ _ 1.19e-18 7.427e-4 := hD.ndiv (m := 230) (E := 1.1e-18) n15 ht ht2 (by norm_num) (by norm_num) (by norm_num) (by norm_num)
  refine ⟨hn, ?_⟩
  generalize (10 : ℝ) ^ (-8.7115 + 0.03477 * t) = P at *
  rw [le_div_iff₀ (by linarith)]
  have q1 : r * P ≤ 1 * 317 := mul_le_mul r1 z1 z0 zero_le_one
  have q2 : 0 ≤ (0.43909e-6 + 0.00367e-6 / (wl * wl)) / (wl * wl) * p := by positivity
  have q3 : 77.5317e-6 * 400 ≤ 77.5317e-6 * p := mul_le_mul_of_nonneg_left p0 (by norm_num)
  rw [add_mul]
  norm_num at *
  linarith

/-- The constants for the second wavelength. -/
theorem atmdsp_near (hD : Dbl D) (hpw : ∀ y, |pw 10 y - (10 : ℝ) ^ y| ≤ 3e-16 * (10 : ℝ) ^ y) {t p r wl1 wl2 a1 b1 : ℝ} (h : RefcoqWeather t p r)
    (hw1 : 0.11 ≤ wl1 ∧ wl1 ≤ 100) (hw2 : 0.11 ≤ wl2 ∧ wl2 ≤ 100) (ha1 : |a1| ≤ 1e-3) (hb1 : |b1| ≤ 1e-6) :
    |(atmdsp D pw t p r wl1 a1 b1 wl2).1 - (Sla.atmdsp t p r wl1 a1 b1 wl2).1| ≤ 1.41e-16 ∧
    (1e-7 ≤ |Sla.atmdspN t p r wl1 - a1| →
      |(atmdsp D pw t p r wl1 a1 b1 wl2).2 - (Sla.atmdsp t p r wl1 a1 b1 wl2).2| ≤ 7.8e-16) := by
  obtain ⟨h1, l1⟩ := atmdspN_near hD hpw h hw1.1
  obtain ⟨h2, -⟩ := atmdspN_near hD hpw h hw2.1
  have hn : ¬ (wl1 > 100 ∨ wl2 > 100) := by push Not; exact ⟨hw1.2, hw2.2⟩
  have ha : Nb a1 a1 0 1e-3 := Nb.self ha1
  have hb : Nb b1 b1 0 1e-6 := Nb.self hb1
  unfold atmdsp Sla.atmdsp
  simp only [if_neg hn]
  generalize atmdspN D pw t p r wl1 = n1' at *
  generalize atmdspN D pw t p r wl2 = n2' at *
  generalize Sla.atmdspN t p r wl1 = n1 at *
  generalize Sla.atmdspN t p r wl2 = n2 at *
  have m1 : 8.5e-5 ≤ |n1| := l1.trans (le_abs_self _)
  have z1 : n1 ≠ 0 := by intro z; rw [z] at l1; norm_num at l1
  have z2 : n1' ≠ 0 := by
    intro z
    have := (abs_le.1 h1.err).1
    rw [z] at this
    norm_num at this l1; linarith
  rw [if_pos z1, if_pos z2]
  have hf : Nb _ _ 1.39e-13 8.738 := hD.ndiv (m := 8.5e-5) (E := 1.37e-13) h2 h1 m1 (by norm_num) (by norm_num) (by norm_num) (by norm_num)
  have oa : Nb _ _ 1.41e-16 8.738e-3 := hD.nmul ha hf (by norm_num) (by norm_num)
  refine ⟨oa.err, fun hg => ?_⟩
  have g1 : n1 ≠ a1 := by intro z; rw [z, sub_self, abs_zero] at hg; norm_num at hg
  have g2 : n1' ≠ a1 := by
    intro z
    have := h1.err
    rw [z, abs_sub_comm] at this
    norm_num at this hg; linarith
  have m2 : 2e-7 ≤ |2 * (n1 - a1)| := by
    rw [abs_mul, abs_of_pos (by norm_num : (0 : ℝ) < 2)]
    norm_num at hg ⊢; linarith
  dsimp only
  rw [if_pos g1, if_pos g2]
  have n1 : Nb _ _ 1.41e-19 8.738e-6 := hD.nmul hb hf (by norm_num) (by norm_num)
  have hga : Nb _ _ 1.4e-18 1.743e-3 := hD.nsub h1 ha (by norm_num) (by norm_num)
  have n2 : Nb 2 2 0 2 := Nb.self (by norm_num)
  have n3 : Nb _ _ 3.22e-18 3.486e-3 := hD.nmul n2 hga (by norm_num) (by norm_num)
  have n4 : Nb _ _ 2.56e-18 1.486e-3 := hD.nsub h1 h2 (by norm_num) (by norm_num)
  have n5 : Nb _ _ 3.81e-21 1.104e-6 := hD.nmul h1 n4 (by norm_num) (by norm_num)
  have hq : Nb _ _ 8.9e-11 5.52 := hD.ndiv (m := 2e-7) (E := 8.89e-11) n5 n3 m2 (by norm_num) (by norm_num) (by norm_num) (by norm_num)
  have n6 : Nb 1 1 0 1 := Nb.self (by norm_num)
  have n7 : Nb _ _ 8.91e-11 6.52 := hD.nadd n6 hq (by norm_num) (by norm_num)
  have ob : Nb _ _ 7.8e-16 5.698e-5 := hD.nmul n1 n7 (by norm_num) (by norm_num)
  exact ob.err

end Sla.Fp
