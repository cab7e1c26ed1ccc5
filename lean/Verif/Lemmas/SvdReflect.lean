import Verif.Lemmas.SvdHouse
import Mathlib.Algebra.BigOperators.Fin
import Mathlib.Data.Matrix.Basic
import Mathlib.Data.Matrix.Mul
import Mathlib.Tactic.Positivity

/-
The Householder reduction of `svd`: reflections and the bidiagonal form.
-/
namespace Sla
open Finset Matrix

/-! ### The Householder vector -/

variable {lo hi : ℕ} {x : ℕ → ℝ}

theorem houseS_pos (h : absSum lo hi x ≠ 0) : 0 < houseS lo hi x := by
  have h0 : 0 ≤ houseS lo hi x := sum_nonneg fun k _ => mul_self_nonneg _
  refine lt_of_le_of_ne h0 fun e => h ?_
  have e' := (sum_eq_zero_iff_of_nonneg fun k _ => mul_self_nonneg (x k / absSum lo hi x)).1 e.symm
  unfold absSum
  refine sum_eq_zero fun k hk => ?_
  have := mul_self_eq_zero.1 (e' k hk)
  rcases div_eq_zero_iff.1 this with h1 | h1
  · rw [h1, abs_zero]
  · exact absurd h1 h

theorem csign_sq (a b : ℝ) : csign a b * csign a b = a * a := by
  unfold csign
  split_ifs <;> simp [abs_mul_abs_self]

theorem houseG_sq (h : absSum lo hi x ≠ 0) : houseG lo hi x * houseG lo hi x = houseS lo hi x := by
  unfold houseG
  rw [neg_mul_neg, csign_sq, Real.mul_self_sqrt (houseS_pos h).le]

theorem houseG_ne (h : absSum lo hi x ≠ 0) : houseG lo hi x ≠ 0 := fun e => by
  have := houseG_sq h
  rw [e, mul_zero] at this
  exact (houseS_pos h).ne this

theorem houseG_mul_nonpos : x lo / absSum lo hi x * houseG lo hi x ≤ 0 := by
  unfold houseG csign
  split_ifs with h
  · nlinarith [abs_nonneg (Real.sqrt (houseS lo hi x))]
  · push Not at h
    nlinarith [abs_nonneg (Real.sqrt (houseS lo hi x))]

theorem houseH_neg (h : absSum lo hi x ≠ 0) : houseH lo hi x < 0 := by
  unfold houseH
  linarith [houseS_pos h, houseG_mul_nonpos (lo := lo) (hi := hi) (x := x)]

theorem houseU_lo : houseU lo hi x lo = x lo / absSum lo hi x - houseG lo hi x := by
  unfold houseU; rw [if_pos rfl]

theorem houseU_mul_G (h : absSum lo hi x ≠ 0) : houseU lo hi x lo * houseG lo hi x = houseH lo hi x := by
  rw [houseU_lo, houseH, ← houseG_sq h]; ring

theorem houseU_lo_ne (h : absSum lo hi x ≠ 0) : houseU lo hi x lo ≠ 0 := fun e => by
  have := houseU_mul_G h
  rw [e, zero_mul] at this
  exact (houseH_neg h).ne this.symm

/-- Splitting off the first term. -/
theorem sum_split (hlo : lo < hi) (F : ℕ → ℝ) : ∑ k ∈ Ico lo hi, F k = F lo + ∑ k ∈ Ico (lo + 1) hi, F k :=
  sum_eq_sum_Ico_succ_bot hlo F

theorem houseU_gt {k : ℕ} (hk : k ∈ Ico (lo + 1) hi) : houseU lo hi x k = x k / absSum lo hi x := by
  rw [mem_Ico] at hk
  unfold houseU; rw [if_neg (by omega)]

theorem houseU_sq (hlo : lo < hi) (h : absSum lo hi x ≠ 0) :
    ∑ k ∈ Ico lo hi, houseU lo hi x k * houseU lo hi x k = -2 * houseH lo hi x := by
  have e := sum_split hlo (fun k => (x k / absSum lo hi x) * (x k / absSum lo hi x))
  have e' : houseS lo hi x = x lo / absSum lo hi x * (x lo / absSum lo hi x) +
    ∑ k ∈ Ico (lo + 1) hi, (x k / absSum lo hi x) * (x k / absSum lo hi x) := e
  rw [sum_split hlo, sum_congr rfl fun k hk => by rw [houseU_gt hk], houseU_lo, houseH]
  linear_combination -e' + houseG_sq h

theorem houseU_dot (hlo : lo < hi) (h : absSum lo hi x ≠ 0) :
    ∑ k ∈ Ico lo hi, houseU lo hi x k * x k = -houseH lo hi x * absSum lo hi x := by
  have e := sum_split hlo (fun k => (x k / absSum lo hi x) * (x k / absSum lo hi x))
  have e' : houseS lo hi x = x lo / absSum lo hi x * (x lo / absSum lo hi x) +
    ∑ k ∈ Ico (lo + 1) hi, (x k / absSum lo hi x) * (x k / absSum lo hi x) := e
  have e2 : ∀ k, x k = x k / absSum lo hi x * absSum lo hi x := fun k => by field_simp
  have e3 : ∑ k ∈ Ico lo hi, houseU lo hi x k * x k =
      (∑ k ∈ Ico lo hi, houseU lo hi x k * (x k / absSum lo hi x)) * absSum lo hi x := by
    rw [sum_mul]
    apply sum_congr rfl
    intro k _
    rw [mul_assoc, ← e2]
  rw [e3]
  congr 1
  rw [sum_split hlo, sum_congr rfl fun k hk => by rw [houseU_gt hk], houseU_lo, houseH]
  linear_combination -e'

/-! ### Reflections -/

/-- The matrix `1 + t u uᵀ`. -/
noncomputable def refl {m : ℕ} (t : ℝ) (u : Fin m → ℝ) : Matrix (Fin m) (Fin m) ℝ := 1 + t • vecMulVec u u

theorem refl_transpose {m : ℕ} (t : ℝ) (u : Fin m → ℝ) : (refl t u)ᵀ = refl t u := by
  ext i j
  simp only [refl, transpose_apply, Matrix.add_apply, Matrix.smul_apply, vecMulVec_apply, smul_eq_mul]
  rw [Matrix.one_apply, Matrix.one_apply]
  simp only [eq_comm (a := j)]
  ring

theorem refl_mul_apply {m n : ℕ} (t : ℝ) (u : Fin m → ℝ) (M : Matrix (Fin m) (Fin n) ℝ) (r : Fin m) (c : Fin n) :
    (refl t u * M) r c = M r c + t * (∑ k, u k * M k c) * u r := by
  rw [refl, Matrix.add_mul, Matrix.one_mul, Matrix.add_apply, Matrix.smul_mul, Matrix.smul_apply, Matrix.mul_apply]
  simp only [vecMulVec_apply, smul_eq_mul]
  congr 1
  rw [mul_assoc, sum_mul]
  congr 1
  apply sum_congr rfl
  intro k _; ring

theorem mul_refl_apply {m n : ℕ} (t : ℝ) (u : Fin n → ℝ) (M : Matrix (Fin m) (Fin n) ℝ) (r : Fin m) (c : Fin n) :
    (M * refl t u) r c = M r c + t * (∑ k, M r k * u k) * u c := by
  rw [refl, Matrix.mul_add, Matrix.mul_one, Matrix.add_apply, Matrix.mul_smul, Matrix.smul_apply, Matrix.mul_apply]
  simp only [vecMulVec_apply, smul_eq_mul]
  congr 1
  rw [mul_assoc, sum_mul]
  congr 1
  apply sum_congr rfl
  intro k _; ring

theorem refl_sq {m : ℕ} {t : ℝ} {u : Fin m → ℝ} (h : t * (t * (∑ k, u k * u k) + 2) = 0) : refl t u * refl t u = 1 := by
  ext i j
  rw [refl_mul_apply]
  simp only [refl, Matrix.add_apply, Matrix.smul_apply, vecMulVec_apply, smul_eq_mul]
  have e : ∑ k, u k * ((1 : Matrix (Fin m) (Fin m) ℝ) k j + t * (u k * u j)) = u j + t * (∑ k, u k * u k) * u j := by
    rw [mul_assoc, sum_mul, mul_sum]
    simp only [mul_add, sum_add_distrib]
    congr 1
    · simp [Matrix.one_apply]
    · apply sum_congr rfl; intro k _; ring
  rw [e]
  linear_combination (u i * u j) * h

/-- Sums over the upper part of an index range. -/
theorem sum_fin_ge (m i : ℕ) (f : ℕ → ℝ) : (∑ k : Fin m, if i ≤ (k : ℕ) then f k else 0) = ∑ k ∈ Ico i m, f k := by
  rw [Fin.sum_univ_eq_sum_range (fun k => if i ≤ k then f k else 0) m, ← sum_filter]
  apply sum_congr _ fun _ _ => rfl
  ext k
  simp only [mem_filter, mem_range, mem_Ico]
  omega

end Sla
