import Verif.Model.FpRefraction
import Verif.Lemmas.FpNear
import Verif.Lemmas.FpAngle
import Mathlib.Analysis.SpecialFunctions.Pow.Real
import Mathlib.Analysis.Complex.ExponentialBounds

/-
Running error bounds for `refcoq`, generated.
-/
namespace Sla.Fp

variable {D : ℝ → ℝ} {pw : ℝ → ℝ → ℝ}

private theorem rpow_ten_near {y' y : ℝ} {e : ℝ} (h : |y' - y| ≤ e) (he : e ≤ 0.1) (hy : y ≤ 2.25) :
    0 ≤ (10 : ℝ) ^ y ∧ (10 : ℝ) ^ y ≤ 178 ∧ |(10 : ℝ) ^ y' - (10 : ℝ) ^ y| ≤ 178 * (6 * e) := by
  have h10 : (0 : ℝ) < 10 := by norm_num
  have h0 : (0 : ℝ) ≤ (10 : ℝ) ^ y := (Real.rpow_pos_of_pos h10 y).le
  have hle : (10 : ℝ) ^ y ≤ 178 := by
    have h1 : (10 : ℝ) ^ y ≤ (10 : ℝ) ^ (2.25 : ℝ) := Real.rpow_le_rpow_of_exponent_le (by norm_num) hy
    refine h1.trans ?_
    by_contra hc
    push Not at hc
    have h2 : (178 : ℝ) ^ 4 < ((10 : ℝ) ^ (2.25 : ℝ)) ^ 4 := pow_lt_pow_left₀ hc (by norm_num) (by norm_num)
    rw [← Real.rpow_natCast ((10 : ℝ) ^ (2.25 : ℝ)) 4, ← Real.rpow_mul h10.le,
      show (2.25 : ℝ) * ((4 : ℕ) : ℝ) = ((9 : ℕ) : ℝ) by norm_num, Real.rpow_natCast] at h2
    norm_num at h2
  refine ⟨h0, hle, ?_⟩
  have hlog : Real.log 10 ≤ 3 := by
    rw [Real.log_le_iff_le_exp h10]
    have h1 := Real.exp_one_gt_d9
    have e3 : Real.exp 3 = Real.exp 1 ^ 3 := by rw [← Real.exp_nat_mul]; norm_num
    rw [e3]
    have : (2.7 : ℝ) ^ 3 ≤ Real.exp 1 ^ 3 := pow_le_pow_left₀ (by norm_num) (by norm_num at h1 ⊢; linarith) 3
    norm_num at this ⊢; linarith
  have hlog0 : 0 ≤ Real.log 10 := Real.log_nonneg (by norm_num)
  have e1 : (10 : ℝ) ^ y' - (10 : ℝ) ^ y = (10 : ℝ) ^ y * (Real.exp (Real.log 10 * (y' - y)) - 1) := by
    rw [← Real.rpow_def_of_pos h10, mul_sub, ← Real.rpow_add h10, mul_one, add_sub_cancel]
  have h3 : |Real.log 10 * (y' - y)| ≤ 3 * e := by
    rw [abs_mul, abs_of_nonneg hlog0]
    exact mul_le_mul hlog h (abs_nonneg _) (by norm_num)
  have h4 := Real.abs_exp_sub_one_le (x := Real.log 10 * (y' - y)) (h3.trans (by linarith))
  rw [e1, abs_mul, abs_of_nonneg h0]
  exact mul_le_mul hle (h4.trans (by linarith)) (abs_nonneg _) (by norm_num)

private theorem div_sq (hD : Dbl D) {a x e A w g C : ℝ} (h : Nb a x e A) (hw : 0.11 ≤ w) (hC : 83 * A ≤ C)
    (hg : 83 * e + 83 * (2.6e-16 * (A + e)) + 1e-199 ≤ g) :
    Nb (D (a / D (w * w))) (x / (w * w)) g C := by
  have hw2 : 0.0121 ≤ w * w := by
    have := mul_le_mul hw hw (by norm_num) (by linarith)
    norm_num at this ⊢; linarith
  have e1 := hD (w * w)
  generalize w * w = u at *
  have hu0 : 0 < u := by linarith
  rw [abs_of_pos hu0] at e1
  have e0 : 0 ≤ e := (abs_nonneg _).trans h.err
  have A0 : 0 ≤ A := (abs_nonneg _).trans h.bd
  have e2 : |D u - u| ≤ 1.21e-16 * u := e1.trans (by norm_num at hw2 ⊢; linarith)
  obtain ⟨l1, l2⟩ := abs_le.1 e2
  have hv0 : 0 < D u := by norm_num at l1; linarith
  have hi : 1 / u ≤ 82.7 := by rw [div_le_iff₀ hu0]; norm_num at hw2 ⊢; linarith
  have hdv : 1 / D u ≤ 82.8 := by rw [div_le_iff₀ hv0]; norm_num at l1 hw2 ⊢; linarith
  have bx : |x / u| ≤ 82.7 * A := by
    rw [abs_div, abs_of_pos hu0, div_eq_mul_one_div, mul_comm]
    exact mul_le_mul hi h.bd (abs_nonneg _) (by norm_num)
  have er : |a / D u - x / u| ≤ 82.8 * e + 1.22e-16 * (82.8 * A) := by
    have hne : u ≠ 0 := hu0.ne'
    have hne' : D u ≠ 0 := hv0.ne'
    have e3 : a / D u - x / u = (a - x) * (1 / D u) + x * (1 / D u) * ((u - D u) / u) := by field_simp; ring
    have h5 : |(u - D u) / u| ≤ 1.22e-16 := by
      rw [abs_div, abs_of_pos hu0, div_le_iff₀ hu0, abs_sub_comm]
      norm_num at e2 ⊢; linarith
    have hp : (0 : ℝ) < 1 / D u := by positivity
    rw [e3]
    refine (abs_add_le _ _).trans ?_
    rw [abs_mul, abs_mul, abs_mul, abs_of_pos hp]
    have q1 : |a - x| * (1 / D u) ≤ e * 82.8 := mul_le_mul h.err hdv hp.le e0
    have q2 : |x| * (1 / D u) ≤ A * 82.8 := mul_le_mul h.bd hdv hp.le A0
    have q3 := mul_le_mul q2 h5 (abs_nonneg _) (by positivity)
    norm_num at q1 q3 ⊢; linarith
  refine ⟨hD.round er bx (le_trans ?_ hg), bx.trans (le_trans (by linarith) hC)⟩
  norm_num
  linarith

/-- The conditions of ordinary weather. -/
structure RefcoqWeather (t p r : ℝ) : Prop where
  t0 : 230 ≤ t
  t1 : t ≤ 320
  p0 : 400 ≤ p
  p1 : p ≤ 1200
  r0 : 0 ≤ r
  r1 : r ≤ 1

/-- Saturation vapour pressure in exact arithmetic. -/
noncomputable def refcoqPsE (p tdc : ℝ) : ℝ :=
  (10 : ℝ) ^ ((0.7859 + 0.03477 * tdc) / (1 + 0.00412 * tdc)) * (1 + p * (4.5e-6 + 6.0e-10 * tdc * tdc))

theorem refcoqPs_near (hD : Dbl D) (hpw : ∀ y, |pw 10 y - (10 : ℝ) ^ y| ≤ 3e-16 * (10 : ℝ) ^ y) {t p r : ℝ} (h : RefcoqWeather t p r) :
    Nb (refcoqPs D pw p (D (t - D 273.15))) (refcoqPsE p (t - 273.15)) 4.8e-12 179.3 ∧ 0 ≤ refcoqPsE p (t - 273.15) := by
  obtain ⟨t0, t1, p0, p1, -, -⟩ := h
  have hp : Nb p p 0 1200 := Nb.self (by rw [abs_of_nonneg (by linarith)]; exact p1)
  have htd : |t - 273.15| ≤ 46.9 := by rw [abs_le]; constructor <;> linarith
  obtain ⟨d1, d2⟩ := abs_le.1 htd
  have hy1' : 0.8 ≤ 1 + 0.00412 * (t - 273.15) := by linarith
  have hy1 := hy1'.trans (le_abs_self _)
  have hy2 : (0.7859 + 0.03477 * (t - 273.15)) / (1 + 0.00412 * (t - 273.15)) ≤ 2.25 := by
    rw [div_le_iff₀ (by linarith)]; linarith
  have n1 : Nb _ _ 3.28e-14 273.15 := hD.nlit (x := 273.15) (by norm_num) (by norm_num)
  have wt : Nb (t - D 273.15) (t - 273.15) 3.28e-14 46.9 := ⟨by rw [show t - D 273.15 - (t - 273.15) = -(D 273.15 - 273.15) by ring, abs_neg]; exact n1.err, htd⟩
  have htdc : Nb _ _ 3.85e-14 46.9 := hD.nround wt (by norm_num) (by norm_num)
  have n2 : Nb _ _ 9.44e-17 0.7859 := hD.nlit (x := 0.7859) (by norm_num) (by norm_num)
  have n3 : Nb _ _ 4.18e-18 3.477e-2 := hD.nlit (x := 0.03477) (by norm_num) (by norm_num)
  have n4 : Nb _ _ 1.74e-15 1.631 := hD.nmul n3 htdc (by norm_num) (by norm_num)
  have n5 : Nb _ _ 2.13e-15 2.417 := hD.nadd n2 n4 (by norm_num) (by norm_num)
  have n6 : Nb 1 1 0 1 := Nb.self (by norm_num)
  have n7 : Nb _ _ 4.95e-19 4.12e-3 := hD.nlit (x := 0.00412) (by norm_num) (by norm_num)
  have n8 : Nb _ _ 2.06e-16 0.1933 := hD.nmul n7 htdc (by norm_num) (by norm_num)
  have n9 : Nb _ _ 3.5e-16 1.194 := hD.nadd n6 n8 (by norm_num) (by norm_num)
  have hy : Nb _ _ 4.36e-15 3.022 := hD.ndiv (m := 0.8) (E := 3.99e-15) n5 n9 hy1 (by norm_num) (by norm_num) (by norm_num) (by norm_num)
  obtain ⟨z0, z1, z2⟩ := rpow_ten_near hy.err (by norm_num) hy2
  have hpow : Nb (pw 10 (D (D (D 0.7859 + D (D 0.03477 * D (t - D 273.15))) / D (1 + D (D 0.00412 * D (t - D 273.15)))))) ((10 : ℝ) ^ ((0.7859 + 0.03477 * (t - 273.15)) / (1 + 0.00412 * (t - 273.15)))) 4.72e-12 178 := by
    refine ⟨?_, by rw [abs_of_nonneg z0]; exact z1⟩
    have p1 := hpw (D (D (D 0.7859 + D (D 0.03477 * D (t - D 273.15))) / D (1 + D (D 0.00412 * D (t - D 273.15)))))
    generalize D (D (D 0.7859 + D (D 0.03477 * D (t - D 273.15))) / D (1 + D (D 0.00412 * D (t - D 273.15)))) = y1 at *
    generalize (10 : ℝ) ^ ((0.7859 + 0.03477 * (t - 273.15)) / (1 + 0.00412 * (t - 273.15))) = P at *
    have p2 := abs_sub_le (pw 10 y1) ((10 : ℝ) ^ y1) P
    have p3 := (abs_le.1 z2).2
    norm_num at p1 z2 p3 ⊢; linarith
  have n10 : Nb 1 1 0 1 := Nb.self (by norm_num)
  have n11 : Nb _ _ 5.41e-22 4.5e-6 := hD.nlit (x := 4.5e-6) (by norm_num) (by norm_num)
  have n12 : Nb _ _ 7.21e-26 6e-10 := hD.nlit (x := 6.0e-10) (by norm_num) (by norm_num)
  have n13 : Nb _ _ 2.99e-23 2.814e-8 := hD.nmul n12 htdc (by norm_num) (by norm_num)
  have n14 : Nb _ _ 2.65e-21 1.32e-6 := hD.nmul n13 htdc (by norm_num) (by norm_num)
  have n15 : Nb _ _ 3.89e-21 5.82e-6 := hD.nadd n11 n14 (by norm_num) (by norm_num)
  have n16 : Nb _ _ 5.51e-18 6.984e-3 := hD.nmul hp n15 (by norm_num) (by norm_num)
  have n17 : Nb _ _ 1.27e-16 1.007 := hD.nadd n10 n16 (by norm_num) (by norm_num)
  have hps : Nb _ _ 4.8e-12 179.3 := hD.nmul hpow n17 (by norm_num) (by norm_num)
  refine ⟨hps, mul_nonneg z0 ?_⟩
  have := mul_self_nonneg (t - 273.15)
  have q : 0 ≤ 4.5e-6 + 6.0e-10 * (t - 273.15) * (t - 273.15) := by rw [mul_assoc]; norm_num; linarith
  have : 0 ≤ p * (4.5e-6 + 6.0e-10 * (t - 273.15) * (t - 273.15)) := mul_nonneg (by linarith) q
  linarith

theorem refcoqVp_near (hD : Dbl D) (hpw : ∀ y, |pw 10 y - (10 : ℝ) ^ y| ≤ 3e-16 * (10 : ℝ) ^ y) {t p r : ℝ} (h : RefcoqWeather t p r) :
    Nb (D (D (r * refcoqPs D pw p (D (t - D 273.15))) / D (1 - D (D (D (1 - r) * refcoqPs D pw p (D (t - D 273.15))) / p))))
      (r * refcoqPsE p (t - 273.15) / (1 - (1 - r) * refcoqPsE p (t - 273.15) / p)) 1.88e-11 358.6 := by
  obtain ⟨hps, hps0⟩ := refcoqPs_near hD hpw h
  obtain ⟨t0, t1, p0, p1, r0, r1⟩ := h
  have hp : Nb p p 0 1200 := Nb.self (by rw [abs_of_nonneg (by linarith)]; exact p1)
  have hr : Nb r r 0 1 := Nb.self (by rw [abs_of_nonneg r0]; exact r1)
  have hp4 : 400 ≤ |p| := p0.trans (le_abs_self _)
  generalize refcoqPs D pw p (D (t - D 273.15)) = s' at *
  generalize refcoqPsE p (t - 273.15) = s at *
  have hsb := hps.bd
  rw [abs_of_nonneg hps0] at hsb
  have hm : 0.5 ≤ |1 - (1 - r) * s / p| := by
    refine le_trans ?_ (le_abs_self _)
    have : (1 - r) * s / p ≤ 0.5 := by
      rw [div_le_iff₀ (by linarith)]
      nlinarith
    linarith
  have n1 : Nb _ _ 4.83e-12 179.3 := hD.nmul hr hps (by norm_num) (by norm_num)
  have wr : Nb (1 - r) (1 - r) 0 1 := Nb.self (by rw [abs_of_nonneg (by linarith)]; linarith)
  have n2 : Nb _ _ 1.21e-16 1 := hD.nround wr (by norm_num) (by norm_num)
  have n3 : Nb 1 1 0 1 := Nb.self (by norm_num)
  have n4 : Nb _ _ 4.85e-12 179.3 := hD.nmul n2 hps (by norm_num) (by norm_num)
  have n5 : Nb _ _ 1.23e-14 0.4483 := hD.ndiv (m := 400) (E := 1.22e-14) n4 hp hp4 (by norm_num) (by norm_num) (by norm_num) (by norm_num)
  have n6 : Nb _ _ 1.25e-14 1.449 := hD.nsub n3 n5 (by norm_num) (by norm_num)
  have hvp : Nb _ _ 1.88e-11 358.6 := hD.ndiv (m := 0.5) (E := 1.87e-11) n1 n6 hm (by norm_num) (by norm_num) (by norm_num) (by norm_num)
  exact hvp

/-- The optical case. -/
theorem refcoq_optic (hD : Dbl D) (hpw : ∀ y, |pw 10 y - (10 : ℝ) ^ y| ≤ 3e-16 * (10 : ℝ) ^ y) {t p r wl : ℝ} (h : RefcoqWeather t p r)
    (hw : 0.11 ≤ wl) (hw2 : wl ≤ 100) :
    |(refcoq D pw t p r wl).1 - (Sla.refcoq t p r wl).1| ≤ 1.72e-18 ∧ |(refcoq D pw t p r wl).2 - (Sla.refcoq t p r wl).2| ≤ 3.94e-21 := by
  have hv := refcoqVp_near hD hpw h
  obtain ⟨t0, t1, p0, p1, r0, r1⟩ := h
  have hp : Nb p p 0 1200 := Nb.self (by rw [abs_of_nonneg (by linarith)]; exact p1)
  have ht : Nb t t 0 320 := Nb.self (by rw [abs_of_nonneg (by linarith)]; exact t1)
  have ht2 : 230 ≤ |t| := t0.trans (le_abs_self _)
  have k1 : min (max t 100) 500 = t := by rw [max_eq_left (by linarith), min_eq_left (by linarith)]
  have k2 : min (max p 0) 10000 = p := by rw [max_eq_left (by linarith), min_eq_left (by linarith)]
  have k3 : min (max r 0) 1 = r := by rw [max_eq_left r0, min_eq_left r1]
  have k4 : p > 0 := by linarith
  have k5 : min (max wl 0.1) 1e6 = wl := by
    rw [max_eq_left (by linarith), min_eq_left (hw2.trans (by norm_num))]
  have k6 : min (max wl (D 0.1)) 1e6 = wl := by
    have := hD 0.1
    rw [abs_of_pos (show (0 : ℝ) < 0.1 by norm_num)] at this
    have := (abs_le.1 this).2
    rw [max_eq_left (by norm_num at this hw; linarith), min_eq_left (hw2.trans (by norm_num))]
  unfold refcoq Sla.refcoq refcoqGamma
  simp only [k1, k2, k3, k5, k6, if_pos k4, if_pos hw2]
  unfold refcoqPsE at hv
  generalize D (D (r * refcoqPs D pw p (D (t - D 273.15))) / D (1 - D (D (D (1 - r) * refcoqPs D pw p (D (t - D 273.15))) / p))) = v' at *
  generalize (r * ((10 : ℝ) ^ ((0.7859 + 0.03477 * (t - 273.15)) / (1 + 0.00412 * (t - 273.15))) * (1 + p * (4.5e-6 + 6.0e-10 * (t - 273.15) * (t - 273.15)))) / (1 - (1 - r) * ((10 : ℝ) ^ ((0.7859 + 0.03477 * (t - 273.15)) / (1 + 0.00412 * (t - 273.15))) * (1 + p * (4.5e-6 + 6.0e-10 * (t - 273.15) * (t - 273.15)))) / p)) = v at *
  have n1 : Nb _ _ 5.27e-23 4.39108e-7 := hD.nlit (x := 4.39108e-7) (by norm_num) (by norm_num)
  have n2 : Nb _ _ 4.4e-25 3.666e-9 := hD.nlit (x := 3.666e-9) (by norm_num) (by norm_num)
  have n3 : Nb _ _ 1.16e-22 3.043e-7 := div_sq hD n2 hw (by norm_num) (by norm_num)
  have n4 : Nb _ _ 2.58e-22 7.435e-7 := hD.nadd n1 n3 (by norm_num) (by norm_num)
  have n5 : Nb _ _ 9.31e-21 7.75349e-5 := hD.nlit (x := 77.53484e-6) (by norm_num) (by norm_num)
  have n6 : Nb _ _ 3.75e-20 6.172e-5 := div_sq hD n4 hw (by norm_num) (by norm_num)
  have n7 : Nb _ _ 6.36e-20 1.393e-4 := hD.nadd n5 n6 (by norm_num) (by norm_num)
  have n8 : Nb _ _ 9.64e-17 0.1672 := hD.nmul n7 hp (by norm_num) (by norm_num)
  have n9 : Nb _ _ 1.36e-21 1.12684e-5 := hD.nlit (x := 11.2684e-6) (by norm_num) (by norm_num)
  have n10 : Nb _ _ 2.13e-16 4.041e-3 := hD.nmul n9 hv (by norm_num) (by norm_num)
  have n11 : Nb _ _ 3.3e-16 0.1713 := hD.nsub n8 n10 (by norm_num) (by norm_num)
  have hg : Nb _ _ 1.53e-18 7.448e-4 := hD.ndiv (m := 230) (E := 1.44e-18) n11 ht ht2 (by norm_num) (by norm_num) (by norm_num) (by norm_num)
  have n12 : Nb _ _ 5.34e-22 4.4474e-6 := hD.nlit (x := 4.4474e-6) (by norm_num) (by norm_num)
  have n13 : Nb _ _ 3.42e-19 1.424e-3 := hD.nmul n12 ht (by norm_num) (by norm_num)
  have n14 : Nb 1 1 0 1 := Nb.self (by norm_num)
  have n15 : Nb _ _ 1.21e-16 1.002 := hD.nsub n14 n13 (by norm_num) (by norm_num)
  have oa : Nb _ _ 1.72e-18 7.463e-4 := hD.nmul hg n15 (by norm_num) (by norm_num)
  have n16 : Nb _ _ 8.1e-19 3.724e-4 := hD.ndivc (n := 2) hg (by norm_num) (by norm_num) (by norm_num)
  have n17 : Nb _ _ 1.37e-18 1.797e-3 := hD.nsub n13 n16 (by norm_num) (by norm_num)
  have ob : Nb _ _ 3.94e-21 1.339e-6 := hD.nmul hg.neg n17 (by norm_num) (by norm_num)
  exact ⟨oa.err, ob.err⟩

/-- The radio case. -/
theorem refcoq_radio (hD : Dbl D) (hpw : ∀ y, |pw 10 y - (10 : ℝ) ^ y| ≤ 3e-16 * (10 : ℝ) ^ y) {t p r wl : ℝ} (h : RefcoqWeather t p r)
    (hw : 100 < wl) :
    |(refcoq D pw t p r wl).1 - (Sla.refcoq t p r wl).1| ≤ 1.41e-16 ∧ |(refcoq D pw t p r wl).2 - (Sla.refcoq t p r wl).2| ≤ 1.74e-18 := by
  have hv := refcoqVp_near hD hpw h
  obtain ⟨t0, t1, p0, p1, r0, r1⟩ := h
  have hp : Nb p p 0 1200 := Nb.self (by rw [abs_of_nonneg (by linarith)]; exact p1)
  have ht : Nb t t 0 320 := Nb.self (by rw [abs_of_nonneg (by linarith)]; exact t1)
  have ht2 : 230 ≤ |t| := t0.trans (le_abs_self _)
  have k1 : min (max t 100) 500 = t := by rw [max_eq_left (by linarith), min_eq_left (by linarith)]
  have k2 : min (max p 0) 10000 = p := by rw [max_eq_left (by linarith), min_eq_left (by linarith)]
  have k3 : min (max r 0) 1 = r := by rw [max_eq_left r0, min_eq_left r1]
  have k4 : p > 0 := by linarith
  have k5 : ¬ wl ≤ 100 := not_le.2 hw
  unfold refcoq Sla.refcoq refcoqGamma
  simp only [k1, k2, k3, if_pos k4, if_neg k5]
  unfold refcoqPsE at hv
  generalize D (D (r * refcoqPs D pw p (D (t - D 273.15))) / D (1 - D (D (D (1 - r) * refcoqPs D pw p (D (t - D 273.15))) / p))) = v' at *
  generalize (r * ((10 : ℝ) ^ ((0.7859 + 0.03477 * (t - 273.15)) / (1 + 0.00412 * (t - 273.15))) * (1 + p * (4.5e-6 + 6.0e-10 * (t - 273.15) * (t - 273.15)))) / (1 - (1 - r) * ((10 : ℝ) ^ ((0.7859 + 0.03477 * (t - 273.15)) / (1 + 0.00412 * (t - 273.15))) * (1 + p * (4.5e-6 + 6.0e-10 * (t - 273.15) * (t - 273.15)))) / p)) = v at *
  have n1 : Nb _ _ 7.68e-22 6.3938e-6 := hD.nlit (x := 6.3938e-6) (by norm_num) (by norm_num)
  have n2 : Nb _ _ 4.51e-17 3.75463e-1 := hD.nlit (x := 0.375463) (by norm_num) (by norm_num)
  have n3 : Nb _ _ 3.93e-19 1.633e-3 := hD.ndiv (m := 230) (E := 1.97e-19) n2 ht ht2 (by norm_num) (by norm_num) (by norm_num) (by norm_num)
  have n4 : Nb _ _ 5.91e-19 1.64e-3 := hD.nsub n1 n3 (by norm_num) (by norm_num)
  have n5 : Nb _ _ 9.33e-21 7.7689e-5 := hD.nlit (x := 77.6890e-6) (by norm_num) (by norm_num)
  have n6 : Nb _ _ 2.24e-17 9.323e-2 := hD.nmul n5 hp (by norm_num) (by norm_num)
  have n7 : Nb _ _ 3.12e-14 0.5882 := hD.nmul n4 hv (by norm_num) (by norm_num)
  have n8 : Nb _ _ 3.14e-14 0.6815 := hD.nsub n6 n7 (by norm_num) (by norm_num)
  have hg : Nb _ _ 1.38e-16 2.964e-3 := hD.ndiv (m := 230) (E := 1.37e-16) n8 ht ht2 (by norm_num) (by norm_num) (by norm_num) (by norm_num)
  have n9 : Nb _ _ 5.34e-22 4.4474e-6 := hD.nlit (x := 4.4474e-6) (by norm_num) (by norm_num)
  have n10 : Nb _ _ 3.42e-19 1.424e-3 := hD.nmul n9 ht (by norm_num) (by norm_num)
  have n11 : Nb _ _ 8.89e-19 0.0074 := hD.nlit (x := 0.0074) (by norm_num) (by norm_num)
  have n12 : Nb _ _ 1.4e-13 2.654 := hD.nmul n11 hv (by norm_num) (by norm_num)
  have n13 : Nb _ _ 2.01e-16 3.78e-3 := hD.nmul n12 n10 (by norm_num) (by norm_num)
  have n14 : Nb _ _ 2.02e-16 5.204e-3 := hD.nsub n10 n13 (by norm_num) (by norm_num)
  have n15 : Nb 1 1 0 1 := Nb.self (by norm_num)
  have n16 : Nb _ _ 3.23e-16 1.006 := hD.nsub n15 n14 (by norm_num) (by norm_num)
  have oa : Nb _ _ 1.41e-16 2.982e-3 := hD.nmul hg n16 (by norm_num) (by norm_num)
  have n17 : Nb _ _ 6.92e-17 1.482e-3 := hD.ndivc (n := 2) hg (by norm_num) (by norm_num) (by norm_num)
  have n18 : Nb _ _ 2.73e-16 6.686e-3 := hD.nsub n14 n17 (by norm_num) (by norm_num)
  have ob : Nb _ _ 1.74e-18 1.982e-5 := hD.nmul hg.neg n18 (by norm_num) (by norm_num)
  exact ⟨oa.err, ob.err⟩

end Sla.Fp
