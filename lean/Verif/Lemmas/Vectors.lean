import Verif.Model.Vectors
import Verif.Spec.Rotation
import Mathlib.LinearAlgebra.Matrix.NonsingularInverse
import Mathlib.Tactic.LinearCombination
import Mathlib.Tactic.FinCases
import Mathlib.Tactic.NormNum

namespace Sla
open Matrix Spec

theorem acc3_eq (f : Fin 3 → ℝ) : acc3 f = ∑ k, f k := by
  rw [Fin.sum_univ_three]; unfold acc3; ring

theorem dmxm_eq (A B : Mat) : dmxm A B = A * B := by
  ext i j; simp only [dmxm, acc3_eq, Matrix.mul_apply]

theorem dmxv_eq (A : Mat) (v : Vec) : dmxv A v = A *ᵥ v := by
  ext i; simp only [dmxv, acc3_eq, Matrix.mulVec, dotProduct]

theorem dimxv_eq (A : Mat) (v : Vec) : dimxv A v = Aᵀ *ᵥ v := by
  ext i; simp only [dimxv, acc3_eq, Matrix.mulVec, dotProduct, Matrix.transpose_apply]

theorem dvdv_eq (u v : Vec) : dvdv u v = u ⬝ᵥ v := by
  simp only [dvdv, dotProduct, Fin.sum_univ_three]

theorem dvxv_eq (u v : Vec) : dvxv u v = u ⨯₃ v := by
  rw [cross_apply]; rfl

theorem identity3_eq : identity3 = 1 := by
  ext i j; simp [identity3, Matrix.one_apply]

theorem Spec.IsRotation.mul {A B : Mat} (hA : IsRotation A) (hB : IsRotation B) : IsRotation (A * B) := by
  refine ⟨?_, by rw [Matrix.det_mul, hA.2, hB.2, one_mul]⟩
  rw [Matrix.transpose_mul, Matrix.mul_assoc, ← Matrix.mul_assoc B, hB.1, Matrix.one_mul, hA.1]

theorem Spec.IsRotation.one : IsRotation (1 : Mat) := by simp [IsRotation]

theorem Spec.IsRotation.transpose_mul_self {A : Mat} (hA : IsRotation A) : Aᵀ * A = 1 :=
  mul_eq_one_comm.1 hA.1

theorem Spec.IsRotation.transpose {A : Mat} (hA : IsRotation A) : IsRotation Aᵀ := by
  refine ⟨?_, by rw [Matrix.det_transpose, hA.2]⟩
  rw [Matrix.transpose_transpose]; exact hA.transpose_mul_self

/-- The matrix of `turnFrame`. -/
noncomputable def frameMat (n : Vec) (a : ℝ) : Mat :=
  let s := Real.sin a
  let c := Real.cos a
  !![n 0 * n 0 * (1 - c) + c, n 0 * n 1 * (1 - c) + n 2 * s, n 0 * n 2 * (1 - c) - n 1 * s;
     n 0 * n 1 * (1 - c) - n 2 * s, n 1 * n 1 * (1 - c) + c, n 1 * n 2 * (1 - c) + n 0 * s;
     n 0 * n 2 * (1 - c) + n 1 * s, n 1 * n 2 * (1 - c) - n 0 * s, n 2 * n 2 * (1 - c) + c]

theorem frameMat_mulVec (n : Vec) (a : ℝ) (w : Vec) : frameMat n a *ᵥ w = turnFrame n a w := by
  funext i
  fin_cases i <;>
  simp [frameMat, turnFrame, Matrix.mulVec, dotProduct, Fin.sum_univ_three, cross_apply] <;> ring

theorem frameMat_rotation (n : Vec) (hn : n ⬝ᵥ n = 1) (a : ℝ) : IsRotation (frameMat n a) := by
  have h : n 0 * n 0 + n 1 * n 1 + n 2 * n 2 = 1 := by
    simpa [dotProduct, Fin.sum_univ_three] using hn
  have hs := Real.sin_sq_add_cos_sq a
  set s := Real.sin a with hsdef
  set c := Real.cos a with hcdef
  set x := n 0
  set y := n 1
  set z := n 2
  have hx : x * x = 1 - y * y - z * z := by linarith
  have hs2 : s ^ 2 = 1 - c ^ 2 := by linarith
  constructor
  · ext i j
    fin_cases i <;> fin_cases j <;>
    simp [frameMat, Matrix.mul_apply, Fin.sum_univ_three, ← hsdef, ← hcdef] <;> grind
  · rw [Matrix.det_fin_three]
    simp [frameMat, ← hsdef, ← hcdef]
    grind

end Sla

namespace Sla
open Matrix Spec

theorem rot_rows {R : Mat} (h : IsRotation R) (i j : Fin 3) :
    R i 0 * R j 0 + R i 1 * R j 1 + R i 2 * R j 2 = if i = j then 1 else 0 := by
  have := congrFun (congrFun h.1 i) j
  simpa [Matrix.mul_apply, Fin.sum_univ_three, Matrix.one_apply] using this

theorem rot_cols {R : Mat} (h : IsRotation R) (i j : Fin 3) :
    R 0 i * R 0 j + R 1 i * R 1 j + R 2 i * R 2 j = if i = j then 1 else 0 := by
  have := congrFun (congrFun h.transpose_mul_self i) j
  simpa [Matrix.mul_apply, Fin.sum_univ_three, Matrix.one_apply] using this

theorem rot_adj {R : Mat} (h : IsRotation R) : R.adjugate = Rᵀ := by
  have h1 : R * R.adjugate = 1 := by rw [Matrix.mul_adjugate, h.2, one_smul]
  calc R.adjugate = (Rᵀ * R) * R.adjugate := by rw [h.transpose_mul_self, Matrix.one_mul]
    _ = Rᵀ := by rw [Matrix.mul_assoc, h1, Matrix.mul_one]

/-- Each entry of a rotation matrix is its own cofactor. -/
theorem rot_cof {R : Mat} (h : IsRotation R) :
    R 0 0 = R 1 1 * R 2 2 - R 1 2 * R 2 1 ∧ R 0 1 = R 1 2 * R 2 0 - R 1 0 * R 2 2 ∧
    R 0 2 = R 1 0 * R 2 1 - R 1 1 * R 2 0 ∧ R 1 0 = R 0 2 * R 2 1 - R 0 1 * R 2 2 ∧
    R 1 1 = R 0 0 * R 2 2 - R 0 2 * R 2 0 ∧ R 1 2 = R 0 1 * R 2 0 - R 0 0 * R 2 1 ∧
    R 2 0 = R 0 1 * R 1 2 - R 0 2 * R 1 1 ∧ R 2 1 = R 0 2 * R 1 0 - R 0 0 * R 1 2 ∧
    R 2 2 = R 0 0 * R 1 1 - R 0 1 * R 1 0 := by
  have e := rot_adj h
  rw [Matrix.adjugate_fin_three] at e
  have f : ∀ i j, Rᵀ i j = R j i := fun _ _ => rfl
  have g := fun i j => congrFun (congrFun e i) j
  simp only [f] at g
  have g00 := g 0 0; have g01 := g 0 1; have g02 := g 0 2
  have g10 := g 1 0; have g11 := g 1 1; have g12 := g 1 2
  have g20 := g 2 0; have g21 := g 2 1; have g22 := g 2 2
  simp at g00 g01 g02 g10 g11 g12 g20 g21 g22
  refine ⟨?_, ?_, ?_, ?_, ?_, ?_, ?_, ?_, ?_⟩ <;> linarith

end Sla
