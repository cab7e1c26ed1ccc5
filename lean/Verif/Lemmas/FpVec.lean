import Verif.Model.FpCode
import Verif.Lemmas.Fp
import Verif.Lemmas.Spherical
import Verif.Lemmas.Coords

/-
Rounding errors of sums of products, in double precision.
-/
namespace Sla.Fp
open Sla.Spec Sla.Props Matrix

/-- Rounding error in double precision. -/
theorem err64 (R : Rounding binary64) (x : ℝ) : |x - R x| ≤ 1 / 2 ^ 53 * |x| + 2 ^ (-1075 : ℤ) := by
  have h := R.error_le x
  have e1 : (2 : ℝ) ^ (-(binary64.prec : ℤ)) = 1 / 2 ^ 53 := by norm_num [binary64]
  have e2 : (2 : ℝ) ^ (binary64.emin - 1) = 2 ^ (-1075 : ℤ) := rfl
  rwa [e1, e2] at h

private theorem abs_aux {x y A e : ℝ} (h : |x - y| ≤ 1 / 2 ^ 53 * A + e) (hx : |x| ≤ A) : |y| ≤ (1 + 1 / 2 ^ 53) * A + e := by
  have := abs_add_le x (y - x)
  rw [add_sub_cancel, abs_sub_comm y x] at this
  linarith

/-- A sum of three rounded terms. -/
theorem acc3_near (R : Rounding binary64) (x : Fin 3 → ℝ) :
    |acc3 R (fun i => R (x i)) - (x 0 + x 1 + x 2)| ≤ 3.1 / 2 ^ 53 * (|x 0| + |x 1| + |x 2|) + 2 ^ (-1072 : ℤ) := by
  obtain ⟨η, hη⟩ : ∃ η : ℝ, η = 2 ^ (-1075 : ℤ) := ⟨_, rfl⟩
  have hη0 : 0 < η := by rw [hη]; exact two_zpow_pos _
  have h72 : (2 : ℝ) ^ (-1072 : ℤ) = 8 * η := by
    rw [hη, show (-1072 : ℤ) = 3 + -1075 by norm_num, zpow_split]; norm_num
  have err : ∀ y : ℝ, |y - R y| ≤ 1 / 2 ^ 53 * |y| + η := fun y => by rw [hη]; exact err64 R y
  rw [h72]
  unfold acc3
  simp only [zero_add, R.eq_self (R.rep _)]
  have e0 := err (x 0); have e1 := err (x 1); have e2 := err (x 2)
  have p0 := abs_nonneg (x 0); have p1 := abs_nonneg (x 1); have p2 := abs_nonneg (x 2)
  have a0 := abs_aux e0 le_rfl; have a1 := abs_aux e1 le_rfl; have a2 := abs_aux e2 le_rfl
  generalize R (x 0) = t0 at *
  generalize R (x 1) = t1 at *
  generalize R (x 2) = t2 at *
  have s1 := err (t0 + t1)
  have q1 := abs_add_le t0 t1
  have b1 := abs_aux s1 le_rfl
  generalize R (t0 + t1) = w1 at *
  have s2 := err (w1 + t2)
  have q2 := abs_add_le w1 t2
  generalize R (w1 + t2) = w2 at *
  generalize |x 0| = X0 at *
  generalize |x 1| = X1 at *
  generalize |x 2| = X2 at *
  generalize |t0| = T0 at *
  generalize |t1| = T1 at *
  generalize |t2| = T2 at *
  generalize |w1| = W1 at *
  generalize |t0 + t1| = U1 at *
  generalize |w1 + t2| = U2 at *
  clear hη err h72
  have hU1 : U1 ≤ (1 + 1 / 2 ^ 53) * (X0 + X1) + 2 * η := by linarith
  have hU2 : U2 ≤ (1 + 3 / 2 ^ 53) * (X0 + X1 + X2) + 5 * η := by norm_num at *; linarith
  have hd : w2 - (x 0 + x 1 + x 2) = -(w1 + t2 - w2) - (t0 + t1 - w1) - (x 0 - t0) - (x 1 - t1) - (x 2 - t2) := by ring
  rw [hd]
  generalize w1 + t2 - w2 = d1 at *
  generalize t0 + t1 - w1 = d2 at *
  generalize x 0 - t0 = d3 at *
  generalize x 1 - t1 = d4 at *
  generalize x 2 - t2 = d5 at *
  have hb : |-d1 - d2 - d3 - d4 - d5| ≤ |d1| + |d2| + |d3| + |d4| + |d5| := by
    have k1 := abs_sub (-d1 - d2 - d3 - d4) d5
    have k2 := abs_sub (-d1 - d2 - d3) d4
    have k3 := abs_sub (-d1 - d2) d3
    have k4 := abs_sub (-d1) d2
    rw [abs_neg] at k4
    linarith
  refine hb.trans ?_
  clear hb hd a0 a1 a2 q1 q2 b1
  norm_num at *
  linarith

theorem abs_dot_le (a b : Vec) : |a 0 * b 0| + |a 1 * b 1| + |a 2 * b 2| ≤ len a * len b := by
  rw [len_eq, len_eq, abs_mul, abs_mul, abs_mul, ← Real.sqrt_mul (add_nonneg (add_nonneg (mul_self_nonneg _) (mul_self_nonneg _)) (mul_self_nonneg _))]
  apply Real.le_sqrt_of_sq_le
  rw [← abs_mul_abs_self (a 0), ← abs_mul_abs_self (a 1), ← abs_mul_abs_self (a 2), ← abs_mul_abs_self (b 0),
    ← abs_mul_abs_self (b 1), ← abs_mul_abs_self (b 2)]
  generalize |a 0| = a0
  generalize |a 1| = a1
  generalize |a 2| = a2
  generalize |b 0| = b0
  generalize |b 1| = b1
  generalize |b 2| = b2
  nlinarith [sq_nonneg (a0 * b1 - a1 * b0), sq_nonneg (a0 * b2 - a2 * b0), sq_nonneg (a1 * b2 - a2 * b1)]

/-- The scalar product. -/
theorem dot_near (R : Rounding binary64) (a b : Vec) :
    |acc3 R (fun i => R (a i * b i)) - a ⬝ᵥ b| ≤ 3.1 / 2 ^ 53 * (len a * len b) + 2 ^ (-1072 : ℤ) := by
  have h := acc3_near R (fun i => a i * b i)
  have e : a ⬝ᵥ b = a 0 * b 0 + a 1 * b 1 + a 2 * b 2 := by simp [dotProduct, Fin.sum_univ_three]
  rw [e]
  have h2 := mul_le_mul_of_nonneg_left (abs_dot_le a b) (show (0 : ℝ) ≤ 3.1 / 2 ^ 53 by norm_num)
  linarith

theorem dvdv_near (R : Rounding binary64) (a b : Vec) :
    |dvdv R a b - a ⬝ᵥ b| ≤ 3.1 / 2 ^ 53 * (len a * len b) + 2 ^ (-1072 : ℤ) := by
  have h := dot_near R a b
  unfold acc3 at h
  rwa [zero_add, R.eq_self (R.rep _)] at h

/-- A vector with small components. -/
theorem len_le_of {v : Vec} {ε : ℝ} (h : ∀ i, |v i| ≤ ε) : len v ≤ 1.74 * ε := by
  have h0 : 0 ≤ ε := (abs_nonneg _).trans (h 0)
  rw [len_eq]
  refine Real.sqrt_le_iff.2 ⟨by positivity, ?_⟩
  have k : ∀ i, v i * v i ≤ ε * ε := by
    intro i
    rw [← abs_mul_abs_self]; exact mul_self_le_mul_self (abs_nonneg _) (h i)
  have := k 0; have := k 1; have := k 2
  nlinarith [mul_self_nonneg ε]

theorem abs_le_len (v : Vec) (i : Fin 3) : |v i| ≤ len v := by
  rw [len_eq]
  apply Real.le_sqrt_of_sq_le
  rw [sq_abs, sq]
  have := mul_self_nonneg (v 0); have := mul_self_nonneg (v 1); have := mul_self_nonneg (v 2)
  fin_cases i <;> simp only [Fin.zero_eta, Fin.mk_one, Fin.reduceFinMk] <;> linarith

/-- Rows of a matrix near a rotation. -/
private theorem row_len {Q M : Mat} (hQ : IsRotation Q) {ε : ℝ} (hε : ε ≤ 1 / 2 ^ 10) (h : ∀ i j, |M i j - Q i j| ≤ ε)
    (i : Fin 3) : len (M i) ≤ 1 + 1.74 / 2 ^ 10 := by
  have h1 : len (Q i) = 1 := by
    have := congrFun (congrFun hQ.1 i) i
    rw [Matrix.one_apply_eq] at this
    rw [len, Real.sqrt_eq_one]
    rw [← this]; simp [Matrix.mul_apply, dotProduct]
  have h2 : len (M i - Q i) ≤ 1.74 * ε := len_le_of fun j => h i j
  have h3 := len_add_le (Q i) (M i - Q i)
  rw [add_sub_cancel, h1] at h3
  norm_num at *; linarith

theorem IsRotation.transpose {Q : Mat} (h : IsRotation Q) : IsRotation Qᵀ :=
  ⟨by rw [Matrix.transpose_transpose]; exact h.transpose_mul_self, by rw [Matrix.det_transpose]; exact h.2⟩

/-- A matrix within `ε` of a rotation applied to a vector. -/
theorem mulVec_near (R : Rounding binary64) {Q M : Mat} (hQ : IsRotation Q) {ε : ℝ} (h0 : 0 ≤ ε) (hε : ε ≤ 1 / 2 ^ 10)
    (h : ∀ i j, |M i j - Q i j| ≤ ε) (v : Vec) :
    len (dmxv R M v - Q *ᵥ v) ≤ (3 * ε + 6 / 2 ^ 53) * len v + 2 ^ (-1071 : ℤ) := by
  have e : dmxv R M v - Q *ᵥ v = (dmxv R M v - M *ᵥ v) + (M - Q) *ᵥ v := by
    rw [Matrix.sub_mulVec]; abel
  have h1 : len ((M - Q) *ᵥ v) ≤ 3 * ε * len v := small_matrix h0 (fun i j => h i j) v
  have hl := len_nonneg v
  have h2 : len (dmxv R M v - M *ᵥ v) ≤ 1.74 * (3.11 / 2 ^ 53 * len v + 2 ^ (-1072 : ℤ)) := by
    apply len_le_of
    intro i
    have h3 := dot_near R (M i) v
    have h4 := row_len hQ hε h i
    have h5 : len (M i) * len v ≤ (1 + 1.74 / 2 ^ 10) * len v := mul_le_mul_of_nonneg_right h4 hl
    refine le_trans (le_of_eq rfl) (h3.trans ?_)
    norm_num at h5 ⊢
    linarith
  have h3 := len_add_le (dmxv R M v - M *ᵥ v) ((M - Q) *ᵥ v)
  rw [← e] at h3
  have h71 : (2 : ℝ) ^ (-1071 : ℤ) = 2 * 2 ^ (-1072 : ℤ) := by
    rw [show (-1071 : ℤ) = 1 + -1072 by norm_num, zpow_split]; norm_num
  have := two_zpow_pos (-1072)
  rw [h71]
  generalize (2 : ℝ) ^ (-1072 : ℤ) = τ at *
  norm_num at *
  linarith

end Sla.Fp
