import Verif.Model.FpTangentVec
import Verif.Lemmas.FpNear
import Verif.Lemmas.FpAngle

/-
Running error bounds for the tangent-plane projection of vectors, generated.  Near the poles the bounds are in proportion to the
distance of the tangent point from the axis.
-/
namespace Sla.Fp

variable {D : ℝ → ℝ}

private theorem sqrt_rel {a b k : ℝ} (hb : 0 < b) (h : |a - b| ≤ k * b) : |Real.sqrt a - Real.sqrt b| ≤ k * Real.sqrt b := by
  have sa := Real.sqrt_nonneg a
  have sb := Real.sqrt_pos.2 hb
  have eb := Real.mul_self_sqrt hb.le
  have key : |Real.sqrt a - Real.sqrt b| * Real.sqrt b ≤ |a - b| := by
    rcases le_total 0 a with ha | ha
    · have ea := Real.mul_self_sqrt ha
      have e2 : a - b = (Real.sqrt a - Real.sqrt b) * (Real.sqrt a + Real.sqrt b) := by linear_combination -ea + eb
      rw [e2, abs_mul, abs_of_nonneg (add_nonneg sa sb.le)]
      exact mul_le_mul_of_nonneg_left (by linarith) (abs_nonneg _)
    · rw [Real.sqrt_eq_zero_of_nonpos ha, zero_sub, abs_neg, abs_of_nonneg sb.le, abs_of_nonpos (by linarith : a - b ≤ 0)]
      linarith
  have h3 : |Real.sqrt a - Real.sqrt b| * Real.sqrt b ≤ k * Real.sqrt b * Real.sqrt b := by rw [mul_assoc, eb]; exact key.trans h
  exact le_of_mul_le_mul_right h3 sb

/-- Distance from the axis, and its square. -/
theorem axis_near_d (hD : Dbl D) {x y : ℝ} (h : 1e-80 ≤ Real.sqrt (x * x + y * y)) :
    |D (D (x * x) + D (y * y)) - (x * x + y * y)| ≤ 2.5e-16 * (x * x + y * y) ∧
    |D (Real.sqrt (D (D (x * x) + D (y * y)))) - Real.sqrt (x * x + y * y)| ≤ 3.8e-16 * Real.sqrt (x * x + y * y) := by
  have hx := mul_self_nonneg x
  have hy := mul_self_nonneg y
  have e1 := hD (x * x)
  have e2 := hD (y * y)
  have e3 := hD (D (x * x) + D (y * y))
  rw [abs_of_nonneg hx] at e1
  rw [abs_of_nonneg hy] at e2
  have hs0 : 0 ≤ x * x + y * y := by linarith
  have es := Real.mul_self_sqrt hs0
  have k0 : (1e-200 : ℝ) ≤ 1 := by norm_num
  have k1 : |D (x * x) + D (y * y) - (x * x + y * y)| ≤ 1.2e-16 * (x * x + y * y) + 2 * 1e-200 := by
    rw [show D (x * x) + D (y * y) - (x * x + y * y) = (D (x * x) - x * x) + (D (y * y) - y * y) by ring]
    refine (abs_add_le _ _).trans ?_
    norm_num at e1 e2 ⊢; linarith
  generalize D (x * x) + D (y * y) = v at *
  generalize x * x + y * y = s at *
  have hq : 0 < Real.sqrt s := lt_of_lt_of_le (by norm_num) h
  have hs : 1e-160 ≤ s := by
    have := mul_le_mul h h (by norm_num) hq.le
    rw [es] at this
    norm_num at this ⊢; exact this
  have hsp : 0 < s := lt_of_lt_of_le (by norm_num) hs
  have k2 : |v| ≤ s + (1.2e-16 * s + 2 * 1e-200) := by
    have := abs_sub_abs_le_abs_sub v s
    rw [abs_of_nonneg hs0] at this
    linarith
  have k3 : |D v - s| ≤ 2.5e-16 * s := by
    have := abs_sub_le (D v) v s
    norm_num at k1 k2 e3 hs ⊢; linarith
  refine ⟨k3, ?_⟩
  have k4 := sqrt_rel hsp k3
  have e4 := hD (Real.sqrt (D v))
  rw [abs_of_nonneg (Real.sqrt_nonneg _)] at e4
  have k5 := (abs_le.1 k4).2
  have := abs_sub_le (D (Real.sqrt (D v))) (Real.sqrt (D v)) (Real.sqrt s)
  norm_num at e4 k4 k5 h ⊢; linarith

/-- The secant of the distance from the tangent point. -/
theorem secant_near_d (hD : Dbl D) {xi eta : ℝ} (h1 : |xi| ≤ 1) (h2 : |eta| ≤ 1) :
    Nb (D (Real.sqrt (D (D (1 + D (xi * xi)) + D (eta * eta))))) (Real.sqrt (1 + xi * xi + eta * eta)) 1.06e-15 1.7321 ∧
    1 ≤ Real.sqrt (1 + xi * xi + eta * eta) := by
  have hxi : Nb xi xi 0 1 := Nb.self h1
  have heta : Nb eta eta 0 1 := Nb.self h2
  have h3 : 1 ≤ 1 + xi * xi + eta * eta := by linarith [mul_self_nonneg xi, mul_self_nonneg eta]
  have h4 : 1 ≤ Real.sqrt (1 + xi * xi + eta * eta) := by rw [Real.one_le_sqrt]; exact h3
  have n1 : Nb 1 1 0 1 := Nb.self (by norm_num)
  have n2 : Nb _ _ 1.21e-16 1 := hD.nmul hxi hxi (by linarith) (by linarith)
  have n3 : Nb _ _ 3.62e-16 2 := hD.nadd n1 n2 (by linarith) (by linarith)
  have n4 : Nb _ _ 1.21e-16 1 := hD.nmul heta heta (by linarith) (by linarith)
  have h2 : Nb _ _ 8.44e-16 3 := hD.nadd n3 n4 (by linarith) (by linarith)
  have h5 := h2.bd
  rw [abs_of_nonneg (by linarith)] at h5
  have h6 : Real.sqrt (1 + xi * xi + eta * eta) ≤ 1.7321 := by
    rw [Real.sqrt_le_iff]; norm_num at h5 ⊢; linarith
  refine ⟨⟨?_, by rw [abs_of_nonneg (by linarith)]; exact h6⟩, h4⟩
  have h7 := h2.err
  generalize D (D (1 + D (xi * xi)) + D (eta * eta)) = v at *
  generalize 1 + xi * xi + eta * eta = s at *
  have h8 := sqrt_rel (a := v) (b := s) (k := 8.44e-16 / s) (by linarith) (by rw [div_mul_cancel₀ _ (by linarith)]; exact h7)
  have h9 : 8.44e-16 / s * Real.sqrt s ≤ 8.44e-16 := by
    rw [div_mul_eq_mul_div, div_le_iff₀ (by linarith)]
    refine mul_le_mul_of_nonneg_left ?_ (by norm_num)
    have := Real.mul_self_sqrt (show 0 ≤ s by linarith)
    nlinarith
  refine hD.round (e := 8.44e-16) (B := 1.7321) (h8.trans h9) (by rw [abs_of_nonneg (by linarith)]; exact h6) (by norm_num)

theorem dtp2v_core_d (hD : Dbl D) {xi eta z f' f : ℝ} (h1 : |xi| ≤ 1) (h2 : |eta| ≤ 1) (hz1 : |z| ≤ 1.001) (hf : Nb f' f 1.06e-15 1.7321) (hf0 : 1 ≤ f)
    {x' x y r' r : ℝ} (hx : Nb x' x (1.3e-16 * r) r) (hy : |y| ≤ r)
    (hr : Nb r' r (3.8e-16 * r) r) (hr0 : 1e-80 ≤ r) (hr1 : r ≤ 1.001) :
    |D (D (x' - D (D (D (xi * y) + D (D (eta * x') * z)) / r')) / f') - (x - (xi * y + eta * x * z) / r) / f| ≤ 5.81e-15 ∧
    |D (D (y + D (D (D (xi * x') - D (D (eta * y) * z)) / r')) / f') - (y + (xi * x - eta * y * z) / r) / f| ≤ 5.81e-15 ∧
    |D (D (z + D (eta * r')) / f') - (z + eta * r) / f| ≤ 5.81e-15 := by
  have hf1 : 1 ≤ |f| := by rw [abs_of_nonneg (by linarith)]; exact hf0
  have hxi : Nb xi xi 0 1 := Nb.self h1
  have heta : Nb eta eta 0 1 := Nb.self h2
  have hz : Nb z z 0 1.001 := Nb.self hz1
  have hrp : 0 < r := lt_of_lt_of_le (by norm_num) hr0
  have hT : 1e-200 ≤ 1e-100 * r := by norm_num at hr0 ⊢; linarith
  have hr2 : 1 * r ≤ |r| := by rw [abs_of_pos hrp, one_mul]
  have hxx : Nb x' x (1.3e-16 * r) (1 * r) := by rw [one_mul]; exact hx
  have hyy : Nb y y (0 * r) (1 * r) := by rw [zero_mul, one_mul]; exact Nb.self hy
  have hrr : Nb r' r (3.8e-16 * r) (1 * r) := by rw [one_mul]; exact hr
  have n1 : Nb _ _ (1.21e-16 * r) (1 * r) := hD.nmul hxi hyy (by linarith) (by linarith)
  have n2 : Nb _ _ (2.51e-16 * r) (1 * r) := hD.nmul heta hxx (by linarith) (by linarith)
  have n3 : Nb _ _ (3.72e-16 * r) (1.001 * r) := hD.nmul n2 hz (by linarith) (by linarith)
  have n4 : Nb _ _ (7.34e-16 * r) (2.001 * r) := hD.nadd n1 n3 (by linarith) (by linarith)
  have n5 : Nb _ _ 1.75e-15 2.001 := hD.ndiv (m := (1 * r)) (C := 2.001) (E := 1.5e-15) n4 hrr hr2 (by linarith) (by linarith) (by linarith) (by linarith)
  have n6 : Nb _ _ 1.31e-16 1.001 := hxx.mono (by linarith) (by linarith)
  have n7 : Nb _ _ 2.25e-15 3.002 := hD.nsub n6 n5 (by linarith) (by linarith)
  have p0 : Nb _ _ 5.81e-15 3.002 := hD.ndiv (m := 1) (C := 3.002) (E := 5.44e-15) n7 hf hf1 (by linarith) (by linarith) (by linarith) (by linarith)
  have n8 : Nb _ _ (2.51e-16 * r) (1 * r) := hD.nmul hxi hxx (by linarith) (by linarith)
  have n9 : Nb _ _ (1.21e-16 * r) (1 * r) := hD.nmul heta hyy (by linarith) (by linarith)
  have n10 : Nb _ _ (2.42e-16 * r) (1.001 * r) := hD.nmul n9 hz (by linarith) (by linarith)
  have n11 : Nb _ _ (7.34e-16 * r) (2.001 * r) := hD.nsub n8 n10 (by linarith) (by linarith)
  have n12 : Nb _ _ 1.75e-15 2.001 := hD.ndiv (m := (1 * r)) (C := 2.001) (E := 1.5e-15) n11 hrr hr2 (by linarith) (by linarith) (by linarith) (by linarith)
  have n13 : Nb _ _ 0 1.001 := hyy.mono (by linarith) (by linarith)
  have n14 : Nb _ _ 2.12e-15 3.002 := hD.nadd n13 n12 (by linarith) (by linarith)
  have p1 : Nb _ _ 5.68e-15 3.002 := hD.ndiv (m := 1) (C := 3.002) (E := 5.31e-15) n14 hf hf1 (by linarith) (by linarith) (by linarith) (by linarith)
  have n15 : Nb _ _ 3.81e-16 1.001 := hrr.mono (by linarith) (by linarith)
  have n16 : Nb _ _ 5.02e-16 1.001 := hD.nmul heta n15 (by linarith) (by linarith)
  have n17 : Nb _ _ 7.43e-16 2.002 := hD.nadd hz n16 (by linarith) (by linarith)
  have p2 : Nb _ _ 3.12e-15 2.002 := hD.ndiv (m := 1) (C := 2.002) (E := 2.87e-15) n17 hf hf1 (by linarith) (by linarith) (by linarith) (by linarith)
  exact ⟨p0.err.trans (by norm_num), p1.err.trans (by norm_num), p2.err.trans (by norm_num)⟩

theorem dv2tp_core_d (hD : Dbl D) {a' a b' b c' c z s' s : ℝ} (hpx : Nb a' a 0 1.001) (hpy : Nb b' b 0 1.001) (hpz : Nb c' c 0 1.001) (hz1 : |z| ≤ 1.001)
    {x' x y r' r : ℝ} (hx : Nb x' x (1.3e-16 * r) r) (hy : |y| ≤ r)
    (hr : Nb r' r (3.8e-16 * r) r) (hr0 : 1e-80 ≤ r) (hr1 : r ≤ 1.001)
    (hs2 : Nb s' s (2.51e-16 * r) (1.001 * r)) (hm : 0.5 ≤ a * x + b * y + c * z) :
    tppClassify D (D (D (D (a' * x') + D (b' * y)) + D (c' * z))) = (.ok, D (D (D (a' * x') + D (b' * y)) + D (c' * z))) ∧
    |D (D (D (b' * x') - D (a' * y)) / D (D (D (D (a' * x') + D (b' * y)) + D (c' * z)) * r')) - (b * x - a * y) / ((a * x + b * y + c * z) * r)| ≤ 3.54e-14 ∧
    |D (D (D (c' * s') - D (z * D (D (a' * x') + D (b' * y)))) / D (D (D (D (a' * x') + D (b' * y)) + D (c' * z)) * r')) -
      (c * s - z * (a * x + b * y)) / ((a * x + b * y + c * z) * r)| ≤ 3.54e-14 := by
  have hz : Nb z z 0 1.001 := Nb.self hz1
  have hrp : 0 < r := lt_of_lt_of_le (by norm_num) hr0
  have hT : 1e-200 ≤ 1e-100 * r := by norm_num at hr0 ⊢; linarith
  have hr2 : 1 * r ≤ |r| := by rw [abs_of_pos hrp, one_mul]
  have hxx : Nb x' x (1.3e-16 * r) (1 * r) := by rw [one_mul]; exact hx
  have hyy : Nb y y (0 * r) (1 * r) := by rw [zero_mul, one_mul]; exact Nb.self hy
  have hrr : Nb r' r (3.8e-16 * r) (1 * r) := by rw [one_mul]; exact hr
  have hdm : 0.5 * r ≤ |(a * x + b * y + c * z) * r| := by
    rw [abs_mul, abs_of_pos hrp]
    exact mul_le_mul_of_nonneg_right (hm.trans (le_abs_self _)) hrp.le
  have n1 : Nb _ _ (2.51e-16 * r) (1.001 * r) := hD.nmul hpx hxx (by linarith) (by linarith)
  have n2 : Nb _ _ (1.21e-16 * r) (1.001 * r) := hD.nmul hpy hyy (by linarith) (by linarith)
  have n3 : Nb _ _ (6.13e-16 * r) (2.002 * r) := hD.nadd n1 n2 (by linarith) (by linarith)
  have n4 : Nb _ _ 6.14e-16 2.005 := n3.mono (by linarith) (by linarith)
  have n5 : Nb _ _ 1.21e-16 1.003 := hD.nmul hpz hz (by linarith) (by linarith)
  have hd : Nb _ _ 1.1e-15 3.008 := hD.nadd n4 n5 (by linarith) (by linarith)
  have hdr : Nb _ _ (2.61e-15 * r) (3.008 * r) := hD.nmul hd hrr (by linarith) (by linarith)
  have n6 : Nb _ _ (2.51e-16 * r) (1.001 * r) := hD.nmul hpy hxx (by linarith) (by linarith)
  have n7 : Nb _ _ (1.21e-16 * r) (1.001 * r) := hD.nmul hpx hyy (by linarith) (by linarith)
  have n8 : Nb _ _ (6.13e-16 * r) (2.002 * r) := hD.nsub n6 n7 (by linarith) (by linarith)
  have ox : Nb _ _ 2.27e-14 4.004 := hD.ndiv (m := (0.5 * r)) (C := 4.004) (E := 2.22e-14) n8 hdr hdm (by linarith) (by linarith) (by linarith) (by linarith)
  have n9 : Nb _ _ (3.72e-16 * r) (1.003 * r) := hD.nmul hpz hs2 (by linarith) (by linarith)
  have n10 : Nb _ _ (8.55e-16 * r) (2.005 * r) := hD.nmul hz n3 (by linarith) (by linarith)
  have n11 : Nb _ _ (1.59e-15 * r) (3.008 * r) := hD.nsub n9 n10 (by linarith) (by linarith)
  have oy : Nb _ _ 3.54e-14 6.016 := hD.ndiv (m := (0.5 * r)) (C := 6.016) (E := 3.46e-14) n11 hdr hdm (by linarith) (by linarith) (by linarith) (by linarith)
  have hgt : D (D (D (a' * x') + D (b' * y)) + D (c' * z)) > D 1e-6 := by
    have t1 := (abs_le.1 (hD.nlit (x := 1e-6) (B := 1e-6) (g := 1e-6) (by norm_num) (by norm_num)).err).2
    have t2 := (abs_le.1 hd.err).1
    norm_num at t1 t2 hm ⊢; linarith
  refine ⟨?_, ox.err.trans (by norm_num), oy.err.trans (by norm_num)⟩
  unfold tppClassify
  rw [if_pos hgt]

theorem dv2tp_core_rt_d (hD : Dbl D) {a' a b' b c' c z s' s : ℝ} (hpx : Nb a' a 5.81e-15 1.01) (hpy : Nb b' b 5.81e-15 1.01) (hpz : Nb c' c 5.81e-15 1.01) (hz1 : |z| ≤ 1.001)
    {x' x y r' r : ℝ} (hx : Nb x' x (1.3e-16 * r) r) (hy : |y| ≤ r)
    (hr : Nb r' r (3.8e-16 * r) r) (hr0 : 1e-80 ≤ r) (hr1 : r ≤ 1.001)
    (hs2 : Nb s' s (2.51e-16 * r) (1.001 * r)) (hm : 0.5 ≤ a * x + b * y + c * z) :
    tppClassify D (D (D (D (a' * x') + D (b' * y)) + D (c' * z))) = (.ok, D (D (D (a' * x') + D (b' * y)) + D (c' * z))) ∧
    |D (D (D (b' * x') - D (a' * y)) / D (D (D (D (a' * x') + D (b' * y)) + D (c' * z)) * r')) - (b * x - a * y) / ((a * x + b * y + c * z) * r)| ≤ 2.88e-13 ∧
    |D (D (D (c' * s') - D (z * D (D (a' * x') + D (b' * y)))) / D (D (D (D (a' * x') + D (b' * y)) + D (c' * z)) * r')) -
      (c * s - z * (a * x + b * y)) / ((a * x + b * y + c * z) * r)| ≤ 2.88e-13 := by
  have hz : Nb z z 0 1.001 := Nb.self hz1
  have hrp : 0 < r := lt_of_lt_of_le (by norm_num) hr0
  have hT : 1e-200 ≤ 1e-100 * r := by norm_num at hr0 ⊢; linarith
  have hr2 : 1 * r ≤ |r| := by rw [abs_of_pos hrp, one_mul]
  have hxx : Nb x' x (1.3e-16 * r) (1 * r) := by rw [one_mul]; exact hx
  have hyy : Nb y y (0 * r) (1 * r) := by rw [zero_mul, one_mul]; exact Nb.self hy
  have hrr : Nb r' r (3.8e-16 * r) (1 * r) := by rw [one_mul]; exact hr
  have hdm : 0.5 * r ≤ |(a * x + b * y + c * z) * r| := by
    rw [abs_mul, abs_of_pos hrp]
    exact mul_le_mul_of_nonneg_right (hm.trans (le_abs_self _)) hrp.le
  have n1 : Nb _ _ (6.07e-15 * r) (1.01 * r) := hD.nmul hpx hxx (by linarith) (by linarith)
  have n2 : Nb _ _ (5.94e-15 * r) (1.01 * r) := hD.nmul hpy hyy (by linarith) (by linarith)
  have n3 : Nb _ _ (1.23e-14 * r) (2.02 * r) := hD.nadd n1 n2 (by linarith) (by linarith)
  have n4 : Nb _ _ 1.24e-14 2.023 := n3.mono (by linarith) (by linarith)
  have n5 : Nb _ _ 5.94e-15 1.012 := hD.nmul hpz hz (by linarith) (by linarith)
  have hd : Nb _ _ 1.88e-14 3.035 := hD.nadd n4 n5 (by linarith) (by linarith)
  have hdr : Nb _ _ (2.04e-14 * r) (3.035 * r) := hD.nmul hd hrr (by linarith) (by linarith)
  have n6 : Nb _ _ (6.07e-15 * r) (1.01 * r) := hD.nmul hpy hxx (by linarith) (by linarith)
  have n7 : Nb _ _ (5.94e-15 * r) (1.01 * r) := hD.nmul hpx hyy (by linarith) (by linarith)
  have n8 : Nb _ _ (1.23e-14 * r) (2.02 * r) := hD.nsub n6 n7 (by linarith) (by linarith)
  have ox : Nb _ _ 1.91e-13 4.04 := hD.ndiv (m := (0.5 * r)) (C := 4.04) (E := 1.9e-13) n8 hdr hdm (by linarith) (by linarith) (by linarith) (by linarith)
  have n9 : Nb _ _ (6.2e-15 * r) (1.012 * r) := hD.nmul hpz hs2 (by linarith) (by linarith)
  have n10 : Nb _ _ (1.26e-14 * r) (2.023 * r) := hD.nmul hz n3 (by linarith) (by linarith)
  have n11 : Nb _ _ (1.92e-14 * r) (3.035 * r) := hD.nsub n9 n10 (by linarith) (by linarith)
  have oy : Nb _ _ 2.88e-13 6.07 := hD.ndiv (m := (0.5 * r)) (C := 6.07) (E := 2.87e-13) n11 hdr hdm (by linarith) (by linarith) (by linarith) (by linarith)
  have hgt : D (D (D (a' * x') + D (b' * y)) + D (c' * z)) > D 1e-6 := by
    have t1 := (abs_le.1 (hD.nlit (x := 1e-6) (B := 1e-6) (g := 1e-6) (by norm_num) (by norm_num)).err).2
    have t2 := (abs_le.1 hd.err).1
    norm_num at t1 t2 hm ⊢; linarith
  refine ⟨?_, ox.err.trans (by norm_num), oy.err.trans (by norm_num)⟩
  unfold tppClassify
  rw [if_pos hgt]

/-- Distance from the axis, and its square. -/
theorem axis_near_s (hS : Single D) {x y : ℝ} (h : 1e-15 ≤ Real.sqrt (x * x + y * y)) :
    |D (D (x * x) + D (y * y)) - (x * x + y * y)| ≤ 1.21e-7 * (x * x + y * y) ∧
    |D (Real.sqrt (D (D (x * x) + D (y * y)))) - Real.sqrt (x * x + y * y)| ≤ 1.9e-7 * Real.sqrt (x * x + y * y) := by
  have hx := mul_self_nonneg x
  have hy := mul_self_nonneg y
  have e1 := hS (x * x)
  have e2 := hS (y * y)
  have e3 := hS (D (x * x) + D (y * y))
  rw [abs_of_nonneg hx] at e1
  rw [abs_of_nonneg hy] at e2
  have hs0 : 0 ≤ x * x + y * y := by linarith
  have es := Real.mul_self_sqrt hs0
  have k0 : (1e-200 : ℝ) ≤ 1 := by norm_num
  have k1 : |D (x * x) + D (y * y) - (x * x + y * y)| ≤ 6e-8 * (x * x + y * y) + 2 * 1e-40 := by
    rw [show D (x * x) + D (y * y) - (x * x + y * y) = (D (x * x) - x * x) + (D (y * y) - y * y) by ring]
    refine (abs_add_le _ _).trans ?_
    norm_num at e1 e2 ⊢; linarith
  generalize D (x * x) + D (y * y) = v at *
  generalize x * x + y * y = s at *
  have hq : 0 < Real.sqrt s := lt_of_lt_of_le (by norm_num) h
  have hs : 1e-30 ≤ s := by
    have := mul_le_mul h h (by norm_num) hq.le
    rw [es] at this
    norm_num at this ⊢; exact this
  have hsp : 0 < s := lt_of_lt_of_le (by norm_num) hs
  have k2 : |v| ≤ s + (6e-8 * s + 2 * 1e-40) := by
    have := abs_sub_abs_le_abs_sub v s
    rw [abs_of_nonneg hs0] at this
    linarith
  have k3 : |D v - s| ≤ 1.21e-7 * s := by
    have := abs_sub_le (D v) v s
    norm_num at k1 k2 e3 hs ⊢; linarith
  refine ⟨k3, ?_⟩
  have k4 := sqrt_rel hsp k3
  have e4 := hS (Real.sqrt (D v))
  rw [abs_of_nonneg (Real.sqrt_nonneg _)] at e4
  have k5 := (abs_le.1 k4).2
  have := abs_sub_le (D (Real.sqrt (D v))) (Real.sqrt (D v)) (Real.sqrt s)
  norm_num at e4 k4 k5 h ⊢; linarith

/-- The secant of the distance from the tangent point. -/
theorem secant_near_s (hS : Single D) {xi eta : ℝ} (h1 : |xi| ≤ 1) (h2 : |eta| ≤ 1) :
    Nb (D (Real.sqrt (D (D (1 + D (xi * xi)) + D (eta * eta))))) (Real.sqrt (1 + xi * xi + eta * eta)) 5.26e-7 1.7321 ∧
    1 ≤ Real.sqrt (1 + xi * xi + eta * eta) := by
  have hxi : Nb xi xi 0 1 := Nb.self h1
  have heta : Nb eta eta 0 1 := Nb.self h2
  have h3 : 1 ≤ 1 + xi * xi + eta * eta := by linarith [mul_self_nonneg xi, mul_self_nonneg eta]
  have h4 : 1 ≤ Real.sqrt (1 + xi * xi + eta * eta) := by rw [Real.one_le_sqrt]; exact h3
  have n1 : Nb 1 1 0 1 := Nb.self (by norm_num)
  have n2 : Nb _ _ 6.01e-8 1 := hS.nmul hxi hxi (by linarith) (by linarith)
  have n3 : Nb _ _ 1.81e-7 2 := hS.nadd n1 n2 (by linarith) (by linarith)
  have n4 : Nb _ _ 6.01e-8 1 := hS.nmul heta heta (by linarith) (by linarith)
  have h2 : Nb _ _ 4.22e-7 3 := hS.nadd n3 n4 (by linarith) (by linarith)
  have h5 := h2.bd
  rw [abs_of_nonneg (by linarith)] at h5
  have h6 : Real.sqrt (1 + xi * xi + eta * eta) ≤ 1.7321 := by
    rw [Real.sqrt_le_iff]; norm_num at h5 ⊢; linarith
  refine ⟨⟨?_, by rw [abs_of_nonneg (by linarith)]; exact h6⟩, h4⟩
  have h7 := h2.err
  generalize D (D (1 + D (xi * xi)) + D (eta * eta)) = v at *
  generalize 1 + xi * xi + eta * eta = s at *
  have h8 := sqrt_rel (a := v) (b := s) (k := 4.22e-7 / s) (by linarith) (by rw [div_mul_cancel₀ _ (by linarith)]; exact h7)
  have h9 : 4.22e-7 / s * Real.sqrt s ≤ 4.22e-7 := by
    rw [div_mul_eq_mul_div, div_le_iff₀ (by linarith)]
    refine mul_le_mul_of_nonneg_left ?_ (by norm_num)
    have := Real.mul_self_sqrt (show 0 ≤ s by linarith)
    nlinarith
  refine hS.round (e := 4.22e-7) (B := 1.7321) (h8.trans h9) (by rw [abs_of_nonneg (by linarith)]; exact h6) (by norm_num)

theorem dtp2v_core_s (hS : Single D) {xi eta z f' f : ℝ} (h1 : |xi| ≤ 1) (h2 : |eta| ≤ 1) (hz1 : |z| ≤ 1.001) (hf : Nb f' f 5.26e-7 1.7321) (hf0 : 1 ≤ f)
    {x' x y r' r : ℝ} (hx : Nb x' x (6.1e-8 * r) r) (hy : |y| ≤ r)
    (hr : Nb r' r (1.9e-7 * r) r) (hr0 : 1e-20 ≤ r) (hr1 : r ≤ 1.001) :
    |D (D (x' - D (D (D (xi * y) + D (D (eta * x') * z)) / r')) / f') - (x - (xi * y + eta * x * z) / r) / f| ≤ 2.88e-6 ∧
    |D (D (y + D (D (D (xi * x') - D (D (eta * y) * z)) / r')) / f') - (y + (xi * x - eta * y * z) / r) / f| ≤ 2.88e-6 ∧
    |D (D (z + D (eta * r')) / f') - (z + eta * r) / f| ≤ 2.88e-6 := by
  have hf1 : 1 ≤ |f| := by rw [abs_of_nonneg (by linarith)]; exact hf0
  have hxi : Nb xi xi 0 1 := Nb.self h1
  have heta : Nb eta eta 0 1 := Nb.self h2
  have hz : Nb z z 0 1.001 := Nb.self hz1
  have hrp : 0 < r := lt_of_lt_of_le (by norm_num) hr0
  have hT : 1e-40 ≤ 1e-20 * r := by norm_num at hr0 ⊢; linarith
  have hr2 : 1 * r ≤ |r| := by rw [abs_of_pos hrp, one_mul]
  have hxx : Nb x' x (6.1e-8 * r) (1 * r) := by rw [one_mul]; exact hx
  have hyy : Nb y y (0 * r) (1 * r) := by rw [zero_mul, one_mul]; exact Nb.self hy
  have hrr : Nb r' r (1.9e-7 * r) (1 * r) := by rw [one_mul]; exact hr
  have n1 : Nb _ _ (6.01e-8 * r) (1 * r) := hS.nmul hxi hyy (by linarith) (by linarith)
  have n2 : Nb _ _ (1.22e-7 * r) (1 * r) := hS.nmul heta hxx (by linarith) (by linarith)
  have n3 : Nb _ _ (1.83e-7 * r) (1.001 * r) := hS.nmul n2 hz (by linarith) (by linarith)
  have n4 : Nb _ _ (3.64e-7 * r) (2.001 * r) := hS.nadd n1 n3 (by linarith) (by linarith)
  have n5 : Nb _ _ 8.66e-7 2.001 := hS.ndiv (m := (1 * r)) (C := 2.001) (E := 7.45e-7) n4 hrr hr2 (by linarith) (by linarith) (by linarith) (by linarith)
  have n6 : Nb _ _ 6.11e-8 1.001 := hxx.mono (by linarith) (by linarith)
  have n7 : Nb _ _ 1.11e-6 3.002 := hS.nsub n6 n5 (by linarith) (by linarith)
  have p0 : Nb _ _ 2.88e-6 3.002 := hS.ndiv (m := 1) (C := 3.002) (E := 2.69e-6) n7 hf hf1 (by linarith) (by linarith) (by linarith) (by linarith)
  have n8 : Nb _ _ (1.22e-7 * r) (1 * r) := hS.nmul hxi hxx (by linarith) (by linarith)
  have n9 : Nb _ _ (6.01e-8 * r) (1 * r) := hS.nmul heta hyy (by linarith) (by linarith)
  have n10 : Nb _ _ (1.21e-7 * r) (1.001 * r) := hS.nmul n9 hz (by linarith) (by linarith)
  have n11 : Nb _ _ (3.64e-7 * r) (2.001 * r) := hS.nsub n8 n10 (by linarith) (by linarith)
  have n12 : Nb _ _ 8.66e-7 2.001 := hS.ndiv (m := (1 * r)) (C := 2.001) (E := 7.45e-7) n11 hrr hr2 (by linarith) (by linarith) (by linarith) (by linarith)
  have n13 : Nb _ _ 0 1.001 := hyy.mono (by linarith) (by linarith)
  have n14 : Nb _ _ 1.05e-6 3.002 := hS.nadd n13 n12 (by linarith) (by linarith)
  have p1 : Nb _ _ 2.82e-6 3.002 := hS.ndiv (m := 1) (C := 3.002) (E := 2.63e-6) n14 hf hf1 (by linarith) (by linarith) (by linarith) (by linarith)
  have n15 : Nb _ _ 1.91e-7 1.001 := hrr.mono (by linarith) (by linarith)
  have n16 : Nb _ _ 2.52e-7 1.001 := hS.nmul heta n15 (by linarith) (by linarith)
  have n17 : Nb _ _ 3.73e-7 2.002 := hS.nadd hz n16 (by linarith) (by linarith)
  have p2 : Nb _ _ 1.56e-6 2.002 := hS.ndiv (m := 1) (C := 2.002) (E := 1.43e-6) n17 hf hf1 (by linarith) (by linarith) (by linarith) (by linarith)
  exact ⟨p0.err.trans (by norm_num), p1.err.trans (by norm_num), p2.err.trans (by norm_num)⟩

theorem dv2tp_core_s (hS : Single D) {a' a b' b c' c z s' s : ℝ} (hpx : Nb a' a 0 1.001) (hpy : Nb b' b 0 1.001) (hpz : Nb c' c 0 1.001) (hz1 : |z| ≤ 1.001)
    {x' x y r' r : ℝ} (hx : Nb x' x (6.1e-8 * r) r) (hy : |y| ≤ r)
    (hr : Nb r' r (1.9e-7 * r) r) (hr0 : 1e-20 ≤ r) (hr1 : r ≤ 1.001)
    (hs2 : Nb s' s (1.22e-7 * r) (1.001 * r)) (hm : 0.5 ≤ a * x + b * y + c * z) :
    tppClassify D (D (D (D (a' * x') + D (b' * y)) + D (c' * z))) = (.ok, D (D (D (a' * x') + D (b' * y)) + D (c' * z))) ∧
    |D (D (D (b' * x') - D (a' * y)) / D (D (D (D (a' * x') + D (b' * y)) + D (c' * z)) * r')) - (b * x - a * y) / ((a * x + b * y + c * z) * r)| ≤ 1.77e-5 ∧
    |D (D (D (c' * s') - D (z * D (D (a' * x') + D (b' * y)))) / D (D (D (D (a' * x') + D (b' * y)) + D (c' * z)) * r')) -
      (c * s - z * (a * x + b * y)) / ((a * x + b * y + c * z) * r)| ≤ 1.77e-5 := by
  have hz : Nb z z 0 1.001 := Nb.self hz1
  have hrp : 0 < r := lt_of_lt_of_le (by norm_num) hr0
  have hT : 1e-40 ≤ 1e-20 * r := by norm_num at hr0 ⊢; linarith
  have hr2 : 1 * r ≤ |r| := by rw [abs_of_pos hrp, one_mul]
  have hxx : Nb x' x (6.1e-8 * r) (1 * r) := by rw [one_mul]; exact hx
  have hyy : Nb y y (0 * r) (1 * r) := by rw [zero_mul, one_mul]; exact Nb.self hy
  have hrr : Nb r' r (1.9e-7 * r) (1 * r) := by rw [one_mul]; exact hr
  have hdm : 0.5 * r ≤ |(a * x + b * y + c * z) * r| := by
    rw [abs_mul, abs_of_pos hrp]
    exact mul_le_mul_of_nonneg_right (hm.trans (le_abs_self _)) hrp.le
  have n1 : Nb _ _ (1.22e-7 * r) (1.001 * r) := hS.nmul hpx hxx (by linarith) (by linarith)
  have n2 : Nb _ _ (6.01e-8 * r) (1.001 * r) := hS.nmul hpy hyy (by linarith) (by linarith)
  have n3 : Nb _ _ (3.03e-7 * r) (2.002 * r) := hS.nadd n1 n2 (by linarith) (by linarith)
  have n4 : Nb _ _ 3.04e-7 2.005 := n3.mono (by linarith) (by linarith)
  have n5 : Nb _ _ 6.02e-8 1.003 := hS.nmul hpz hz (by linarith) (by linarith)
  have hd : Nb _ _ 5.45e-7 3.008 := hS.nadd n4 n5 (by linarith) (by linarith)
  have hdr : Nb _ _ (1.3e-6 * r) (3.008 * r) := hS.nmul hd hrr (by linarith) (by linarith)
  have n6 : Nb _ _ (1.22e-7 * r) (1.001 * r) := hS.nmul hpy hxx (by linarith) (by linarith)
  have n7 : Nb _ _ (6.01e-8 * r) (1.001 * r) := hS.nmul hpx hyy (by linarith) (by linarith)
  have n8 : Nb _ _ (3.03e-7 * r) (2.002 * r) := hS.nsub n6 n7 (by linarith) (by linarith)
  have ox : Nb _ _ 1.14e-5 4.004 := hS.ndiv (m := (0.5 * r)) (C := 4.004) (E := 1.11e-5) n8 hdr hdm (by linarith) (by linarith) (by linarith) (by linarith)
  have n9 : Nb _ _ (1.83e-7 * r) (1.003 * r) := hS.nmul hpz hs2 (by linarith) (by linarith)
  have n10 : Nb _ _ (4.24e-7 * r) (2.005 * r) := hS.nmul hz n3 (by linarith) (by linarith)
  have n11 : Nb _ _ (7.88e-7 * r) (3.008 * r) := hS.nsub n9 n10 (by linarith) (by linarith)
  have oy : Nb _ _ 1.77e-5 6.016 := hS.ndiv (m := (0.5 * r)) (C := 6.016) (E := 1.73e-5) n11 hdr hdm (by linarith) (by linarith) (by linarith) (by linarith)
  have hgt : D (D (D (a' * x') + D (b' * y)) + D (c' * z)) > D 1e-6 := by
    have t1 := (abs_le.1 (hS.nlit (x := 1e-6) (B := 1e-6) (g := 1e-6) (by norm_num) (by norm_num)).err).2
    have t2 := (abs_le.1 hd.err).1
    norm_num at t1 t2 hm ⊢; linarith
  refine ⟨?_, ox.err.trans (by norm_num), oy.err.trans (by norm_num)⟩
  unfold tppClassify
  rw [if_pos hgt]

theorem dv2tp_core_rt_s (hS : Single D) {a' a b' b c' c z s' s : ℝ} (hpx : Nb a' a 2.88e-6 1.01) (hpy : Nb b' b 2.88e-6 1.01) (hpz : Nb c' c 2.88e-6 1.01) (hz1 : |z| ≤ 1.001)
    {x' x y r' r : ℝ} (hx : Nb x' x (6.1e-8 * r) r) (hy : |y| ≤ r)
    (hr : Nb r' r (1.9e-7 * r) r) (hr0 : 1e-20 ≤ r) (hr1 : r ≤ 1.001)
    (hs2 : Nb s' s (1.22e-7 * r) (1.001 * r)) (hm : 0.5 ≤ a * x + b * y + c * z) :
    tppClassify D (D (D (D (a' * x') + D (b' * y)) + D (c' * z))) = (.ok, D (D (D (a' * x') + D (b' * y)) + D (c' * z))) ∧
    |D (D (D (b' * x') - D (a' * y)) / D (D (D (D (a' * x') + D (b' * y)) + D (c' * z)) * r')) - (b * x - a * y) / ((a * x + b * y + c * z) * r)| ≤ 1.42e-4 ∧
    |D (D (D (c' * s') - D (z * D (D (a' * x') + D (b' * y)))) / D (D (D (D (a' * x') + D (b' * y)) + D (c' * z)) * r')) -
      (c * s - z * (a * x + b * y)) / ((a * x + b * y + c * z) * r)| ≤ 1.42e-4 := by
  have hz : Nb z z 0 1.001 := Nb.self hz1
  have hrp : 0 < r := lt_of_lt_of_le (by norm_num) hr0
  have hT : 1e-40 ≤ 1e-20 * r := by norm_num at hr0 ⊢; linarith
  have hr2 : 1 * r ≤ |r| := by rw [abs_of_pos hrp, one_mul]
  have hxx : Nb x' x (6.1e-8 * r) (1 * r) := by rw [one_mul]; exact hx
  have hyy : Nb y y (0 * r) (1 * r) := by rw [zero_mul, one_mul]; exact Nb.self hy
  have hrr : Nb r' r (1.9e-7 * r) (1 * r) := by rw [one_mul]; exact hr
  have hdm : 0.5 * r ≤ |(a * x + b * y + c * z) * r| := by
    rw [abs_mul, abs_of_pos hrp]
    exact mul_le_mul_of_nonneg_right (hm.trans (le_abs_self _)) hrp.le
  have n1 : Nb _ _ (3.01e-6 * r) (1.01 * r) := hS.nmul hpx hxx (by linarith) (by linarith)
  have n2 : Nb _ _ (2.95e-6 * r) (1.01 * r) := hS.nmul hpy hyy (by linarith) (by linarith)
  have n3 : Nb _ _ (6.09e-6 * r) (2.02 * r) := hS.nadd n1 n2 (by linarith) (by linarith)
  have n4 : Nb _ _ 6.1e-6 2.023 := n3.mono (by linarith) (by linarith)
  have n5 : Nb _ _ 2.95e-6 1.012 := hS.nmul hpz hz (by linarith) (by linarith)
  have hd : Nb _ _ 9.24e-6 3.035 := hS.nadd n4 n5 (by linarith) (by linarith)
  have hdr : Nb _ _ (1e-5 * r) (3.035 * r) := hS.nmul hd hrr (by linarith) (by linarith)
  have n6 : Nb _ _ (3.01e-6 * r) (1.01 * r) := hS.nmul hpy hxx (by linarith) (by linarith)
  have n7 : Nb _ _ (2.95e-6 * r) (1.01 * r) := hS.nmul hpx hyy (by linarith) (by linarith)
  have n8 : Nb _ _ (6.09e-6 * r) (2.02 * r) := hS.nsub n6 n7 (by linarith) (by linarith)
  have ox : Nb _ _ 9.33e-5 4.04 := hS.ndiv (m := (0.5 * r)) (C := 4.04) (E := 9.3e-5) n8 hdr hdm (by linarith) (by linarith) (by linarith) (by linarith)
  have n9 : Nb _ _ (3.07e-6 * r) (1.012 * r) := hS.nmul hpz hs2 (by linarith) (by linarith)
  have n10 : Nb _ _ (6.22e-6 * r) (2.023 * r) := hS.nmul hz n3 (by linarith) (by linarith)
  have n11 : Nb _ _ (9.48e-6 * r) (3.035 * r) := hS.nsub n9 n10 (by linarith) (by linarith)
  have oy : Nb _ _ 1.42e-4 6.07 := hS.ndiv (m := (0.5 * r)) (C := 6.07) (E := 1.41e-4) n11 hdr hdm (by linarith) (by linarith) (by linarith) (by linarith)
  have hgt : D (D (D (a' * x') + D (b' * y)) + D (c' * z)) > D 1e-6 := by
    have t1 := (abs_le.1 (hS.nlit (x := 1e-6) (B := 1e-6) (g := 1e-6) (by norm_num) (by norm_num)).err).2
    have t2 := (abs_le.1 hd.err).1
    norm_num at t1 t2 hm ⊢; linarith
  refine ⟨?_, ox.err.trans (by norm_num), oy.err.trans (by norm_num)⟩
  unfold tppClassify
  rw [if_pos hgt]

end Sla.Fp
