import Verif.Lemmas.FpTangentPointVecSingle
import Verif.Model.Tangent

/-
Property theorems C134: the tangent point of a star given by direction cosines, in single precision.
-/
namespace Sla.Props
open Sla.Fp

/-- The exact root cannot exceed its bound. -/
private theorem root_range {xi eta : ℝ} {p : Vec} (hx : |xi| ≤ 1) (he : |eta| ≤ 1) (hz : |p 2| ≤ 1) (hxy : p 0 * p 0 + p 1 * p 1 ≤ 1.0001) :
    |(p 0 * p 0 + p 1 * p 1) * (eta * eta + 1) - p 2 * p 2 * (xi * xi)| ≤ 2.0002 := by
  have yy : eta * eta ≤ 1 := by nlinarith [abs_mul_abs_self eta, abs_nonneg eta]
  have xx : xi * xi ≤ 1 := by nlinarith [abs_mul_abs_self xi, abs_nonneg xi]
  have zz : p 2 * p 2 ≤ 1 := by nlinarith [abs_mul_abs_self (p 2), abs_nonneg (p 2)]
  have q0 : 0 ≤ p 0 * p 0 + p 1 * p 1 := add_nonneg (mul_self_nonneg _) (mul_self_nonneg _)
  have e0 := mul_self_nonneg eta
  have h1 : (p 0 * p 0 + p 1 * p 1) * (eta * eta + 1) ≤ 1.0001 * 2 := mul_le_mul hxy (by linarith) (by linarith) (by norm_num)
  have h2 : p 2 * p 2 * (xi * xi) ≤ 1 * 1 := mul_le_mul zz xx (mul_self_nonneg _) zero_le_one
  have h3 : 0 ≤ (p 0 * p 0 + p 1 * p 1) * (eta * eta + 1) := mul_nonneg q0 (by linarith)
  have h4 : 0 ≤ p 2 * p 2 * (xi * xi) := mul_nonneg (mul_self_nonneg _) (mul_self_nonneg _)
  rw [abs_le]
  norm_num at *
  constructor <;> linarith

set_option maxHeartbeats 1000000 in
/-- C134: in single precision `tpv2c` finds both tangent points, each component to within 3.5e-5 divided by the root `r` that decides
    whether there is a solution and by the distance `ρ` of the star from the polar axis, for stars within 45 degrees of the tangent point
    in each coordinate; the number of useful solutions is the exact one unless the star is within 7e-7 of the boundary between them. -/
theorem C134_tpv2c (R : Rounding binary32) {xi eta : ℝ} (hx : |xi| ≤ 1) (he : |eta| ≤ 1) {p : Vec} (hz : |p 2| ≤ 1) {r ρ : ℝ} (ρ0 : 0 < ρ)
    (hρ : ρ ^ 2 = p 0 ^ 2 + p 1 ^ 2) (ρ1 : ρ ^ 2 ≤ 1.0001) (hr : r ^ 2 = ρ ^ 2 * (1 + eta ^ 2) - p 2 ^ 2 * xi ^ 2) (h0 : 0.12 ≤ r) :
    ∃ s1 s2 t1 t2, (Sla.dtpv2c xi eta p).2 = some (s1, s2) ∧ (Fp.tpv2c R xi eta p).2 = some (t1, t2) ∧
      (∀ i, |t1 i - s1 i| ≤ 3.5e-5 / (r * ρ)) ∧ (∀ i, |t2 i - s2 i| ≤ 3.5e-5 / (r * ρ)) ∧
      (7e-7 ≤ |(|p 2| * Real.sqrt (1 + xi ^ 2 + eta ^ 2)) - 1| → (Fp.tpv2c R xi eta p).1 = (Sla.dtpv2c xi eta p).1) := by
  have r0 : 0 < r := lt_of_lt_of_le (by norm_num) h0
  have hρ' : p 0 * p 0 + p 1 * p 1 = ρ * ρ := by linear_combination -hρ
  have hxy : p 0 * p 0 + p 1 * p 1 ≤ 1.0001 := by rw [hρ', ← sq]; exact ρ1
  have hrr : (p 0 * p 0 + p 1 * p 1) * (eta * eta + 1) - p 2 * p 2 * (xi * xi) = r * r := by rw [hρ']; linear_combination -hr
  have yy : eta * eta ≤ 1 := by nlinarith [abs_mul_abs_self eta, abs_nonneg eta]
  have xx : xi * xi ≤ 1 := by nlinarith [abs_mul_abs_self xi, abs_nonneg xi]
  have zz : p 2 * p 2 ≤ 1 := by nlinarith [abs_mul_abs_self (p 2), abs_nonneg (p 2)]
  have x0 := mul_self_nonneg xi
  have e0 := mul_self_nonneg eta
  have z0 := mul_self_nonneg (p 2)
  have hzx : 0 ≤ p 2 * p 2 * (xi * xi) := mul_nonneg z0 x0
  obtain ⟨f1, f2, f3, f4, f5⟩ := tpv2c_first R.single hx he hz hxy (root_range hx he hz hxy) rfl
  rw [hrr] at f1 f3
  have hHp : 0 < r * r + xi * xi := by positivity
  obtain ⟨H, hH⟩ : ∃ H, H = Real.sqrt (r * r + xi * xi) := ⟨_, rfl⟩
  have H0 : 0 < H := by rw [hH]; exact Real.sqrt_pos.2 hHp
  have hHH : H * H = r * r + xi * xi := by rw [hH, Real.mul_self_sqrt hHp.le]
  rw [← hHH] at f3
  have hρρ : 0 < ρ * ρ := mul_pos ρ0 ρ0
  have hρη : 0 ≤ ρ * ρ * (eta * eta) := mul_nonneg hρρ.le e0
  have hρη2 : ρ * ρ * (eta * eta) ≤ ρ * ρ * 1 := mul_le_mul_of_nonneg_left yy hρρ.le
  have hzx2 : p 2 * p 2 * (xi * xi) ≤ 1 * (xi * xi) := mul_le_mul_of_nonneg_right zz x0
  rw [hρ'] at hrr
  have ρ2 : ρ ≤ 1.0001 := by
    refine (le_abs_self ρ).trans (abs_le_of_sq_le_sq ?_ (by norm_num))
    norm_num at ρ1 ⊢; linarith
  have hρH : ρ ≤ H := by
    refine (le_abs_self ρ).trans (abs_le_of_sq_le_sq ?_ H0.le)
    rw [sq, sq, hHH]; linarith
  have hrρ : r ≤ 1.4143 * ρ := by
    refine (le_abs_self r).trans (abs_le_of_sq_le_sq ?_ (by positivity))
    rw [mul_pow, sq r, sq ρ]
    norm_num at *; linarith
  have hH2 : H ≤ 2 := by
    refine (le_abs_self H).trans (abs_le_of_sq_le_sq ?_ (by norm_num))
    rw [sq, hHH]
    rw [sq] at ρ1
    norm_num at *; linarith
  obtain ⟨m0, m⟩ := tpv2c_solutions R.single he hρ' ρ0 ρ2 hHH H0 rfl (by linarith : 1 ≤ eta * eta + 1) (by linarith) hρH h0 hrρ hH2 rfl f1 f2 f3 f4 f5
  have hS : Real.sqrt (ρ * ρ * (r * r + xi * xi)) = ρ * H := by
    rw [← hHH, show ρ * ρ * (H * H) = (ρ * H) * (ρ * H) by ring, Real.sqrt_mul_self (mul_pos ρ0 H0).le]
  have hpos : r * r > 0 := mul_pos r0 r0
  unfold Sla.dtpv2c Fp.tpv2c
  simp only [hρ', hrr, if_pos hpos, hS, Real.sqrt_mul_self r0.le, if_pos m0, tpv2cSolution]
  obtain ⟨a1, a2, a3⟩ := m 1 (Or.inl rfl)
  obtain ⟨b1, b2, b3⟩ := m (-1) (Or.inr rfl)
  simp only [one_mul] at a1 a2 a3
  simp only [neg_one_mul] at b1 b2 b3
  have rp : 0 < r * ρ := mul_pos r0 ρ0
  have w1 : 3.44e-5 / (r * ρ) ≤ 3.5e-5 / (r * ρ) := div_le_div_of_nonneg_right (by norm_num) rp.le
  have w2 : 4.75e-6 / (r * ρ) ≤ 3.5e-5 / (r * ρ) := div_le_div_of_nonneg_right (by norm_num) rp.le
  refine ⟨_, _, _, _, rfl, rfl, ?_, ?_, ?_⟩
  · intro i
    fin_cases i
    · exact a1.trans w1
    · exact a2.trans w1
    · exact a3.trans w2
  · intro i
    fin_cases i
    · exact b1.trans w1
    · exact b2.trans w1
    · exact b3.trans w2
  · intro hn
    rw [show (1 + xi ^ 2 + eta ^ 2 : ℝ) = xi * xi + (eta * eta + 1) by ring] at hn
    have e1 : |p 2 * Real.sqrt (xi * xi + (eta * eta + 1))| = |p 2| * Real.sqrt (xi * xi + (eta * eta + 1)) := by
      rw [abs_mul, abs_of_nonneg (Real.sqrt_nonneg _)]
    have n2 := (abs_abs_sub_abs_le_abs_sub _ _).trans f2
    rw [← e1] at hn
    generalize |p 2 * Real.sqrt (xi * xi + (eta * eta + 1))| = A at *
    generalize |R (p 2 * R (Real.sqrt (R (R (xi * xi) + R (R (eta * eta) + 1)))))| = B at *
    rw [abs_le] at n2
    by_cases hA : A < 1
    · rw [abs_of_neg (by linarith)] at hn
      rw [if_pos hA, if_pos (by norm_num at *; linarith)]
    · rw [abs_of_nonneg (by linarith)] at hn
      rw [if_neg hA, if_neg (by norm_num at *; linarith)]

/-- A star at `(0.6, 0, 0.8)`, 0.6 east of the tangent point in the plane, meets the hypotheses, with `ρ = 0.6` and `r = 0.36`. -/
example (R : Rounding binary32) : ∃ s1 s2 t1 t2, (Sla.dtpv2c 0.6 0 ![0.6, 0, 0.8]).2 = some (s1, s2) ∧
    (Fp.tpv2c R 0.6 0 ![0.6, 0, 0.8]).2 = some (t1, t2) ∧ (∀ i, |t1 i - s1 i| ≤ 1.7e-4) ∧ (∀ i, |t2 i - s2 i| ≤ 1.7e-4) := by
  obtain ⟨s1, s2, t1, t2, h1, h2, h3, h4, -⟩ := C134_tpv2c R (xi := 0.6) (eta := 0) (p := ![0.6, 0, 0.8]) (r := 0.36) (ρ := 0.6)
    (by norm_num) (by norm_num) (by simp only [Matrix.cons_val]; norm_num) (by norm_num) (by simp only [Matrix.cons_val]; norm_num)
    (by norm_num) (by simp only [Matrix.cons_val]; norm_num) (by norm_num)
  exact ⟨s1, s2, t1, t2, h1, h2, fun i => (h3 i).trans (by norm_num), fun i => (h4 i).trans (by norm_num)⟩

/-- C134: where the exact test finds no tangent point by more than 2e-6, `tpv2c` in single precision finds none either, and returns
    nothing; the exact routine does the same. -/
theorem C134_none (R : Rounding binary32) {xi eta : ℝ} (hx : |xi| ≤ 1) (he : |eta| ≤ 1) {p : Vec} (hz : |p 2| ≤ 1)
    (hxy : p 0 ^ 2 + p 1 ^ 2 ≤ 1.0001) (h0 : (p 0 ^ 2 + p 1 ^ 2) * (1 + eta ^ 2) - p 2 ^ 2 * xi ^ 2 ≤ -2e-6) :
    Fp.tpv2c R xi eta p = (0, none) ∧ Sla.dtpv2c xi eta p = (0, none) := by
  have hxy' : p 0 * p 0 + p 1 * p 1 ≤ 1.0001 := by rw [← sq, ← sq]; exact hxy
  have h0' : (p 0 * p 0 + p 1 * p 1) * (eta * eta + 1) - p 2 * p 2 * (xi * xi) ≤ -2e-6 := by
    refine le_trans (le_of_eq ?_) h0
    ring
  obtain ⟨f1, -⟩ := tpv2c_first R.single hx he hz hxy' (root_range hx he hz hxy') rfl
  constructor
  · unfold Fp.tpv2c
    dsimp only
    rw [if_neg]
    have := (abs_le.1 f1).2
    norm_num at *; linarith
  · unfold Sla.dtpv2c
    dsimp only
    rw [if_neg]
    norm_num at *; linarith

/-- The same star one unit east in the plane: no tangent point exists. -/
example (R : Rounding binary32) : Fp.tpv2c R 1 0 ![0.6, 0, 0.8] = (0, none) :=
  (C134_none R (by norm_num) (by norm_num) (by simp only [Matrix.cons_val]; norm_num) (by simp only [Matrix.cons_val]; norm_num)
    (by simp only [Matrix.cons_val]; norm_num)).1

end Sla.Props
