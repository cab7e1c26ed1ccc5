import Verif.Model.FpRefraction
import Verif.Lemmas.FpNear
import Verif.Lemmas.FpAngle

/-
Running error bounds for `refv`, generated.
-/
namespace Sla.Fp

variable {D : ℝ → ℝ}

private theorem sqrt_diff {a b : ℝ} (hb : 0 ≤ b) : |Real.sqrt a - Real.sqrt b| * Real.sqrt b ≤ |a - b| ∧
    |Real.sqrt a - Real.sqrt b| ^ 2 ≤ |a - b| := by
  have sa := Real.sqrt_nonneg a
  have sb := Real.sqrt_nonneg b
  have eb := Real.mul_self_sqrt hb
  rcases le_total 0 a with ha | ha
  · have ea := Real.mul_self_sqrt ha
    have e : |a - b| = |Real.sqrt a - Real.sqrt b| * (Real.sqrt a + Real.sqrt b) := by
      have e2 : a - b = (Real.sqrt a - Real.sqrt b) * (Real.sqrt a + Real.sqrt b) := by
        linear_combination -ea + eb
      conv_lhs => rw [e2]
      rw [abs_mul, abs_of_nonneg (add_nonneg sa sb)]
    have h0 := abs_nonneg (Real.sqrt a - Real.sqrt b)
    have h1 : |Real.sqrt a - Real.sqrt b| ≤ Real.sqrt a + Real.sqrt b := by rw [abs_le]; constructor <;> linarith
    rw [e]
    constructor
    · nlinarith
    · nlinarith
  · rw [Real.sqrt_eq_zero_of_nonpos ha, zero_sub, abs_neg, abs_of_nonneg sb, abs_of_nonpos (by linarith : a - b ≤ 0)]
    constructor <;> nlinarith

/-- Modulus of a vector in the plane, with rounding. -/
theorem modulus2_near (hD : Dbl D) {x y : ℝ} (h : x * x + y * y ≤ 1.001) :
    Nb (D (Real.sqrt (D (D (x * x) + D (y * y))))) (Real.sqrt (x * x + y * y)) 3.8e-16 1.0005 := by
  have hx := mul_self_nonneg x
  have hy := mul_self_nonneg y
  have e1 := hD (x * x)
  have e2 := hD (y * y)
  have e3 := hD (D (x * x) + D (y * y))
  rw [abs_of_nonneg hx] at e1
  rw [abs_of_nonneg hy] at e2
  have k1 : |D (x * x) + D (y * y) - (x * x + y * y)| ≤ 1.2e-16 * (x * x + y * y) + 2e-200 := by
    rw [show D (x * x) + D (y * y) - (x * x + y * y) = (D (x * x) - x * x) + (D (y * y) - y * y) by ring]
    refine (abs_add_le _ _).trans ?_
    norm_num at e1 e2 ⊢; linarith
  have hs0 : 0 ≤ x * x + y * y := by linarith
  generalize x * x + y * y = s at *
  have k2 : |D (x * x) + D (y * y)| ≤ s * (1 + 1.2e-16) + 2e-200 := by
    have := abs_sub_abs_le_abs_sub (D (x * x) + D (y * y)) s
    rw [abs_of_nonneg hs0] at this
    norm_num at k1 ⊢; linarith
  have k3 : |D (D (x * x) + D (y * y)) - s| ≤ 2.5e-16 * s + 1e-199 := by
    have := abs_sub_le (D (D (x * x) + D (y * y))) (D (x * x) + D (y * y)) s
    norm_num at k1 k2 e3 ⊢; linarith
  obtain ⟨d1, d2⟩ := sqrt_diff (a := D (D (x * x) + D (y * y))) hs0
  have sb := Real.sqrt_nonneg s
  have es := Real.mul_self_sqrt hs0
  have hb : Real.sqrt s ≤ 1.0005 := by
    rw [show (1.0005 : ℝ) = Real.sqrt (1.0005 * 1.0005) by rw [Real.sqrt_mul_self (by norm_num)]]
    exact Real.sqrt_le_sqrt (le_trans h (show (1.001 : ℝ) ≤ 1.0005 * 1.0005 by norm_num))
  have hb' : |Real.sqrt s| ≤ 1.0005 := by rw [abs_of_nonneg sb]; exact hb
  refine ⟨hD.round (e := 2.52e-16) ?_ hb' (by norm_num), hb'⟩
  generalize Real.sqrt (D (D (x * x) + D (y * y))) = a at *
  generalize Real.sqrt s = q at *
  have h0 := abs_nonneg (a - q)
  rcases le_or_gt 1e-50 q with hq | hq
  · have hq0 : 0 < q := by linarith [show (0 : ℝ) < 1e-50 by norm_num]
    have : |a - q| * q ≤ 2.52e-16 * q := by
      refine (d1.trans k3).trans ?_
      rw [← es]
      have h5 : (1e-50 : ℝ) * 1e-50 ≤ q * q := mul_le_mul hq hq (by norm_num) hq0.le
      have h6 : q * q ≤ 1.0005 * q := mul_le_mul_of_nonneg_right hb hq0.le
      norm_num at h5 h6 hq ⊢
      linarith
    exact le_of_mul_le_mul_right this hq0
  · by_contra hc
    push Not at hc
    have h2 : (2.52e-16 : ℝ) ^ 2 ≤ |a - q| ^ 2 := pow_le_pow_left₀ (by norm_num) hc.le 2
    have h3 : s ≤ 1e-100 := by
      rw [← es]
      exact (mul_le_mul hq.le hq.le sb (by norm_num)).trans (by norm_num)
    norm_num at h2 h3 d2 k3
    linarith

private theorem refv_den {A B rsq zsq : ℝ} (hA : 0 ≤ A) (hA4 : A ≤ 4e-4) (hB : -A / 410 ≤ B) (hr0 : 0 ≤ rsq) (hr : rsq ≤ 1.001)
    (hz : 0.0025 ≤ zsq) : 0.5 ≤ |1 + (A + 3 * (B * rsq / zsq)) * (zsq + rsq) / zsq| := by
  refine le_trans ?_ (le_abs_self _)
  have hz0 : 0 < zsq := by linarith
  obtain ⟨q, hq⟩ : ∃ q, q = rsq / zsq := ⟨_, rfl⟩
  have hq0 : 0 ≤ q := by rw [hq]; positivity
  have hq1 : q ≤ 400.4 := by rw [hq, div_le_iff₀ hz0]; norm_num at hz hr ⊢; linarith
  have e : 1 + (A + 3 * (B * rsq / zsq)) * (zsq + rsq) / zsq = 1 + (A + 3 * (B * q)) * (1 + q) := by
    rw [hq]; field_simp
  rw [e]
  have p1 : 0 ≤ A * (1 + q) := by positivity
  have p2 : q * (1 + q) ≤ 400.4 * 401.4 := mul_le_mul hq1 (by linarith) (by positivity) (by norm_num)
  have p3 : 0 ≤ q * (1 + q) := by positivity
  have p4 := mul_le_mul_of_nonneg_right hB p3
  have p5 : A * (q * (1 + q)) ≤ 4e-4 * (400.4 * 401.4) := mul_le_mul hA4 p2 p3 (by norm_num)
  have e2 : 1 + (A + 3 * (B * q)) * (1 + q) = 1 + A * (1 + q) + 3 * (B * (q * (1 + q))) := by ring
  have e3 : -A / 410 * (q * (1 + q)) = -(A * (q * (1 + q))) / 410 := by ring
  rw [e2]
  rw [e3] at p4
  norm_num at p5 ⊢
  linarith

/-- Refraction of a vector. -/
theorem refv_near (hD : Dbl D) (v : Vec) {A B : ℝ} (hA0 : 0 ≤ A) (hA4 : A ≤ 4e-4) (hB1 : -A / 410 ≤ B) (hB0 : B ≤ 0)
    (h : v 0 * v 0 + v 1 * v 1 ≤ 1.001) (h2 : |v 2| ≤ 1.001) (i : Fin 3) : |refv D v A B i - Sla.refv v A B i| ≤ 1.02e-14 := by
  have hr := modulus2_near hD h
  have q0 := mul_self_nonneg (v 0)
  have q1 := mul_self_nonneg (v 1)
  have hx : Nb (v 0) (v 0) 0 1.0005 := Nb.self (by rw [abs_le]; constructor <;> nlinarith)
  have hy : Nb (v 1) (v 1) 0 1.0005 := Nb.self (by rw [abs_le]; constructor <;> nlinarith)
  have hz1 : Nb (v 2) (v 2) 0 1.001 := Nb.self h2
  have zb : 0.05 ≤ max (v 2) 0.05 := le_max_right _ _
  have hz : Nb (max (v 2) (D 0.05)) (max (v 2) 0.05) 7e-18 1.001 := by
    refine ⟨(abs_max_sub_max_le_max _ _ _ _).trans (max_le (by norm_num) ?_), ?_⟩
    · have := hD 0.05
      rw [abs_of_pos (show (0 : ℝ) < 0.05 by norm_num)] at this
      exact this.trans (by norm_num)
    · rw [abs_of_nonneg (by linarith)]
      exact max_le ((le_abs_self _).trans h2) (by norm_num)
  have hA : Nb A A 0 4e-4 := Nb.self (by rw [abs_of_nonneg hA0]; exact hA4)
  have hB : Nb B B 0 9.8e-7 := Nb.self (by rw [abs_of_nonpos hB0]; norm_num at hA4 ⊢; linarith)
  have hzz : 0.0025 ≤ max (v 2) 0.05 * max (v 2) 0.05 := by
    have := mul_le_mul zb zb (by norm_num) (by linarith)
    norm_num at this ⊢; linarith
  have hm1 : 0.0025 ≤ |max (v 2) 0.05 * max (v 2) 0.05| := hzz.trans (le_abs_self _)
  have hm2 := refv_den hA0 hA4 hB1 (by positivity : 0 ≤ v 0 * v 0 + v 1 * v 1) h hzz
  have hm3 : 0.05 ≤ |max (v 2) 0.05| := zb.trans (le_abs_self _)
  have hzs : Nb _ _ 1.35e-16 1.003 := hD.nmul hz hz (by norm_num) (by norm_num)
  have n1 : Nb _ _ 1.21e-16 1.002 := hD.nmul hx hx (by norm_num) (by norm_num)
  have n2 : Nb _ _ 1.21e-16 1.002 := hD.nmul hy hy (by norm_num) (by norm_num)
  have n3 : Nb _ _ 4.83e-16 2.004 := hD.nadd n1 n2 (by norm_num) (by norm_num)
  have hrq : Nb _ _ 4.83e-16 1.001 := ⟨n3.err, by rw [abs_of_nonneg (by positivity)]; exact h⟩
  have n4 : Nb _ _ 5.92e-22 9.81e-7 := hD.nmul hB hrq (by norm_num) (by norm_num)
  have hwb : Nb _ _ 2.16e-17 3.924e-4 := hD.ndiv (m := 0.0025) (E := 2.15e-17) n4 hzs hm1 (by norm_num) (by norm_num) (by norm_num) (by norm_num)
  have n5 : Nb _ _ 2.17e-17 7.924e-4 := hD.nadd hA hwb (by norm_num) (by norm_num)
  have n6 : Nb 3 3 0 3 := Nb.self (by norm_num)
  have n7 : Nb _ _ 6.5e-17 1.178e-3 := hD.nmul n6 hwb (by norm_num) (by norm_num)
  have n8 : Nb _ _ 6.52e-17 1.578e-3 := hD.nadd hA n7 (by norm_num) (by norm_num)
  have n9 : Nb _ _ 8.59e-16 2.004 := hD.nadd hzs hrq (by norm_num) (by norm_num)
  have n10 : Nb _ _ 1.33e-16 3.163e-3 := hD.nmul n8 n9 (by norm_num) (by norm_num)
  have n11 : Nb 1 1 0 1 := Nb.self (by norm_num)
  have n12 : Nb _ _ 1.23e-13 1.266 := hD.ndiv (m := 0.0025) (E := 1.22e-13) n10 hzs hm1 (by norm_num) (by norm_num) (by norm_num) (by norm_num)
  have n13 : Nb _ _ 1.24e-13 2.266 := hD.nadd n11 n12 (by norm_num) (by norm_num)
  have hwt : Nb _ _ 4.38e-16 1.585e-3 := hD.ndiv (m := 0.5) (E := 4.37e-16) n5 n13 hm2 (by norm_num) (by norm_num) (by norm_num) (by norm_num)
  have n14 : Nb _ _ 4.4e-16 1.586e-3 := hD.nmul hwt hr (by norm_num) (by norm_num)
  have hd : Nb _ _ 8.82e-15 3.172e-2 := hD.ndiv (m := 0.05) (E := 8.81e-15) n14 hz hm3 (by norm_num) (by norm_num) (by norm_num) (by norm_num)
  have n15 : Nb 1 1 0 1 := Nb.self (by norm_num)
  have n16 : Nb _ _ 5.6e-16 1.007e-3 := hD.nmul hd hd (by norm_num) (by norm_num)
  have n17 : Nb _ _ 2.81e-16 5.035e-4 := hD.ndivc (n := 2) n16 (by norm_num) (by norm_num) (by norm_num)
  have n18 : Nb _ _ 4.02e-16 1.001 := hD.nsub n15 n17 (by norm_num) (by norm_num)
  have n19 : Nb 1 1 0 1 := Nb.self (by norm_num)
  have n20 : Nb _ _ 5.59e-16 1.002 := hD.nsub n19 hwt (by norm_num) (by norm_num)
  have n21 : Nb _ _ 1.09e-15 1.004 := hD.nmul n18 n20 (by norm_num) (by norm_num)
  have o0 : Nb _ _ 1.22e-15 1.005 := hD.nmul hx n21 (by norm_num) (by norm_num)
  have o1 : Nb _ _ 1.22e-15 1.005 := hD.nmul hy n21 (by norm_num) (by norm_num)
  have n22 : Nb _ _ 8.85e-15 3.174e-2 := hD.nmul hd hr (by norm_num) (by norm_num)
  have n23 : Nb _ _ 8.99e-15 1.033 := hD.nadd hz n22 (by norm_num) (by norm_num)
  have n24 : Nb _ _ 9.54e-15 1.035 := hD.nmul n18 n23 (by norm_num) (by norm_num)
  have n25 : Nb _ _ 2.48e-16 2.002 := hD.nsub hz1 hz (by norm_num) (by norm_num)
  have o2 : Nb _ _ 1.02e-14 3.037 := hD.nadd n24 n25 (by norm_num) (by norm_num)
  unfold refv Sla.refv
  fin_cases i
  · exact o0.err.trans (by norm_num)
  · exact o1.err.trans (by norm_num)
  · exact o2.err.trans (by norm_num)

end Sla.Fp
